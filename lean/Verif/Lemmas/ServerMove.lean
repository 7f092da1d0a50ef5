import Verif.Lemmas.Server
/-! Moving and renaming objects of a storage: their files go with them. -/
namespace Mtp
open Spec
namespace Server

/-- Objects were moved from path `P` to path `Q`, and their files too. -/
structure Shifted (s s' : Server) (h p : Nat) (P Q : Path) : Prop where
  sid : s'.sid = s.sid
  rel : Relocated s.tree s'.tree h p P Q
  wf : TreeWF s'.tree
  fmt : ∀ it, s.tree.get h = some it → ∃ it', s'.tree.get h = some it' ∧ it'.fmt = it.fmt
  item : ∃ it, s.tree.get h = some it ∧ it.path = P
  notRoot : h ≠ 0
  folder : ∃ pit, s.tree.get p = some pit ∧ pit.fmt = ASSOC
  infos : s'.infos = s.infos
  files : s'.files = s.files.map fun e => (moved P Q e.1, e.2)
  dataFile : s'.dataFile = s.dataFile.map fun e => (if e.1 = "" then e.1 else moved P Q e.1, e.2)
  asked : s'.tree.asked = s.tree.asked

theorem moved_under {P Q q : Path} (h : Under P q) : moved P Q (String.ofList q) = String.ofList (reprefix P Q q) := by
  unfold moved reprefix
  rw [String.toList_ofList, if_pos]
  rcases h with rfl | ⟨s, rfl⟩
  · exact Or.inl rfl
  · right
    rw [List.isPrefixOf_iff_prefix]
    exact ⟨s, by simp [join]⟩

theorem moved_out {P Q q : Path} (h : ¬ Under P q) : moved P Q (String.ofList q) = String.ofList q := by
  unfold moved
  rw [String.toList_ofList, if_neg]
  rintro (e | e)
  · exact h (Or.inl e)
  · rw [List.isPrefixOf_iff_prefix] at e
    obtain ⟨u, e⟩ := e
    exact h (Or.inr ⟨u, by rw [← e]; simp [join]⟩)

/-- Where each object went. -/
theorem Shifted.new {s s' : Server} {h p : Nat} {P Q : Path} (m : Shifted s s' h p P Q) {x : Nat} {ix : Item}
    (e : s.tree.get x = some ix) : ∃ iy, s'.tree.get x = some iy ∧ iy.fmt = ix.fmt ∧
      String.ofList iy.path = moved P Q (String.ofList ix.path) ∧ (x ≠ h → iy.parent = ix.parent ∧ iy.name = ix.name) := by
  by_cases hu : Under P ix.path
  · rw [moved_under hu]
    by_cases hx : x = h
    · subst hx
      obtain ⟨nm, f, e1, _⟩ := m.rel.self ix e
      obtain ⟨it', e2, e3⟩ := m.fmt ix e
      obtain ⟨it, e4, e5⟩ := m.item
      rw [e] at e4; cases e4
      rw [e1] at e2; cases e2
      refine ⟨_, e1, e3, ?_, fun h => absurd rfl h⟩
      simp [reprefix, e5]
    · exact ⟨_, m.rel.below x ix e hu hx, rfl, rfl, fun _ => ⟨rfl, rfl⟩⟩
  · rw [moved_out hu]
    obtain ⟨ks, e1, _⟩ := m.rel.out x ix e hu
    exact ⟨_, e1, rfl, rfl, fun _ => ⟨rfl, rfl⟩⟩

theorem Shifted.old {s s' : Server} {h p : Nat} {P Q : Path} (m : Shifted s s' h p P Q) {x : Nat} {iy : Item}
    (e : s'.tree.get x = some iy) : ∃ ix, s.tree.get x = some ix :=
  has_iff.mp (m.rel.only x (has_iff.mpr ⟨iy, e⟩))

/-- The new paths are different for different files. -/
theorem Shifted.inj {s s' : Server} {h p : Nat} {P Q : Path} (m : Shifted s s' h p P Q) (w : ServerOk s)
    {j k : String} (hj : (AMap.get s.files j).isSome = true) (hk : (AMap.get s.files k).isSome = true)
    (e : moved P Q j = moved P Q k) : j = k := by
  obtain ⟨x, ix, a1, _, a3⟩ := (w.files j).mp hj
  obtain ⟨y, iy, b1, _, b3⟩ := (w.files k).mp hk
  obtain ⟨ix', c1, _, c3, _⟩ := m.new a1
  obtain ⟨iy', d1, _, d3, _⟩ := m.new b1
  rw [a3] at c3
  rw [b3] at d3
  have hp : ix'.path = iy'.path := ofList_inj (by rw [c3, d3, e])
  have h1 := m.wf.pathOf x ix' c1
  have h2 := m.wf.pathOf y iy' d1
  rw [hp, h2] at h1
  cases h1
  rw [a1] at b1; cases b1
  rw [← a3, b3]

theorem Shifted.file {s s' : Server} {h p : Nat} {P Q : Path} (m : Shifted s s' h p P Q) (w : ServerOk s) {k : String}
    (hk : (AMap.get s.files k).isSome = true) : AMap.get s'.files (moved P Q k) = AMap.get s.files k := by
  rw [m.files]
  exact AMap.get_mapKey (moved P Q) s.files k (fun j hj e => m.inj w hj hk e)

theorem Shifted.ok {s s' : Server} {h p : Nat} {P Q : Path} (m : Shifted s s' h p P Q) (w : ServerOk s) : ServerOk s' := by
  refine ⟨m.wf, ?_, ?_, ?_, ?_, ?_, ?_⟩
  · intro x iy e
    obtain ⟨ix, e1⟩ := m.old e
    rw [m.asked]; exact w.issued x ix e1
  · intro r e
    obtain ⟨ix, e1⟩ := m.old e
    obtain ⟨iy, e2, e3, _⟩ := m.new e1
    rw [e] at e2; cases e2
    rw [e3]; exact w.root ix e1
  · intro x it q qit e1 e2 e3
    obtain ⟨ix, a1⟩ := m.old e1
    obtain ⟨iq, b1⟩ := m.old e3
    obtain ⟨ix', a2, _, _, a5⟩ := m.new a1
    obtain ⟨iq', b2, b3, _⟩ := m.new b1
    rw [e1] at a2; cases a2
    rw [e3] at b2; cases b2
    rw [b3]
    by_cases hx : x = h
    · subst hx
      obtain ⟨nm, f, c1, _⟩ := m.rel.self ix a1
      rw [e1] at c1; cases c1
      simp only [Option.some.injEq] at e2
      subst e2
      obtain ⟨pit, c2, c3⟩ := m.folder
      rw [b1] at c2; cases c2
      exact c3
    · rw [(a5 hx).1] at e2
      exact w.folders x ix q iq a1 e2 b1
  · intro q
    constructor
    · intro hq
      by_cases hex : ∃ j, (AMap.get s.files j).isSome = true ∧ moved P Q j = q
      · obtain ⟨j, hj, e⟩ := hex
        obtain ⟨x, ix, a1, a2, a3⟩ := (w.files j).mp hj
        obtain ⟨iy, b1, b2, b3, _⟩ := m.new a1
        exact ⟨x, iy, b1, by rw [b2]; exact a2, by rw [b3, a3, e]⟩
      · rw [m.files, AMap.get_mapKey_none (moved P Q) s.files q (fun j hj e => hex ⟨j, hj, e⟩)] at hq
        cases hq
    · rintro ⟨x, iy, e1, e2, e3⟩
      obtain ⟨ix, a1⟩ := m.old e1
      obtain ⟨iy', b1, b2, b3, _⟩ := m.new a1
      rw [e1] at b1; cases b1
      have hk := file_of w a1 (by rw [← b2]; exact e2)
      rw [← e3, b3, m.file w hk]
      exact hk
  · intro x
    rw [m.infos, w.known x]
    cases hx : s.tree.has x with
    | true =>
      obtain ⟨ix, e⟩ := has_iff.mp hx
      obtain ⟨iy, e1, _⟩ := m.new e
      exact (has_iff.mpr ⟨iy, e1⟩).symm
    | false =>
      cases hy : s'.tree.has x with
      | false => rfl
      | true =>
        have := m.rel.only x hy
        rw [hx] at this; cases this
  · intro q n e
    rw [m.dataFile, Option.map_eq_some_iff] at e
    obtain ⟨⟨a, b⟩, e1, e2⟩ := e
    simp only [Prod.mk.injEq] at e2
    obtain ⟨e2, _⟩ := e2
    split at e2
    · next h => left; rw [← e2]; exact h
    · next h =>
      rcases w.openFile a b e1 with h1 | h1
      · exact absurd h1 h
      · right; rw [← e2, m.file w h1]; exact h1

theorem Shifted.contents {s s' : Server} {h p : Nat} {P Q : Path} (m : Shifted s s' h p P Q) (w : ServerOk s) (x : Nat) :
    contents s' x = contents s x ∧ s'.sizeOf x = s.sizeOf x := by
  refine ⟨?_, by unfold sizeOf; rw [m.infos]⟩
  unfold Spec.contents
  cases e : s.tree.get x with
  | none =>
    have : s'.tree.get x = none := by
      cases e1 : s'.tree.get x with
      | none => rfl
      | some iy => obtain ⟨ix, e2⟩ := m.old e1; rw [e] at e2; cases e2
    rw [this]
  | some ix =>
    obtain ⟨iy, e1, e2, e3, _⟩ := m.new e
    rw [e1]
    simp only [e2]
    split
    · rfl
    · next hf => rw [e3, m.file w (file_of w e hf)]

theorem relocated_congr {t u t' u' : Tree} {h p : Nat} {P Q : Path} (R : Relocated u u' h p P Q)
    (hg : ∀ x, u.get x = t.get x) (hp : u.paths = t.paths) (hr : u.rootPath = t.rootPath)
    (hg' : ∀ x, t'.get x = u'.get x) (hp' : t'.paths = u'.paths) (hr' : t'.rootPath = u'.rootPath)
    (hi' : t'.items = u'.items) : Relocated t t' h p P Q := by
  have hh : ∀ x, t.has x = u.has x := fun x => by unfold Tree.has; rw [hg]
  have hh' : ∀ x, t'.has x = u'.has x := fun x => by unfold Tree.has; rw [hg']
  refine ⟨?_, ?_, ?_, ?_, ?_, ?_, ?_, ?_, ?_⟩
  · simpa only [hg, hg'] using R.out
  · simpa only [hg, hg'] using R.below
  · simpa only [hg, hg'] using R.self
  · simpa only [hh, hh'] using R.only
  · simpa only [hg, hp'] using R.newPath
  · simpa only [hg, hp'] using R.oldPath
  · simpa only [hg, hp', hp] using R.samePath
  · rw [hr', R.rootPath, hr]
  · rw [hi']; exact R.nodup

theorem prefix_of_under {P q : Path} (h : Under P q) (n : Path) : (P ++ ['/']).isPrefixOf (join q n) = true := by
  rw [List.isPrefixOf_iff_prefix]
  rcases h with rfl | ⟨u, rfl⟩
  · exact ⟨n, by simp [join]⟩
  · exact ⟨u ++ '/' :: n, by simp [join]⟩

theorem move_cases' {s : Server} (w : ServerOk s) (h sid p : Nat) :
    (Quiet s (s.move h sid p).1 ∧ (s.move h sid p).2 ≠ .ok) ∨
    ((s.move h sid p).2 = .ok ∧ sid = s.sid ∧ ∃ it pit, s.tree.get h = some it ∧ s.tree.get p = some pit ∧
      Shifted s (s.move h sid p).1 h p it.path (join pit.path it.name) ∧
      (∃ it', (s.move h sid p).1.tree.get h = some it' ∧ it'.path = join pit.path it.name ∧ it'.name = it.name ∧
        it'.parent = some p)) := by
  unfold move
  cases e : s.tree.get h with
  | none => exact Or.inl ⟨Quiet.refl s, by simp⟩
  | some it =>
    simp only
    by_cases hsid : sid ≠ s.sid
    · rw [if_pos hsid]; exact Or.inl ⟨Quiet.refl s, by simp⟩
    · rw [if_neg hsid]
      cases ep : s.tree.get p with
      | none => exact Or.inl ⟨Quiet.refl s, by simp⟩
      | some pit =>
        generalize hb : (decide (pit.fmt = ASSOC) && (AMap.get s.tree.paths (join pit.path it.name)).isNone &&
          !(it.path ++ ['/']).isPrefixOf (join pit.path it.name)) = b
        simp only [hb]
        rcases move_cases (t := grant s.tree b) h p true with ⟨h1, h2, h3, h4, _, h6⟩ | ⟨it1, pit1, e1, e2, hf, _, hr, heq⟩
        · left
          split
          · next t et => rw [et] at h6; exact absurd rfl h6
          · next t r hne et =>
            rw [et] at h1 h2 h3 h4 h6
            exact ⟨⟨rfl, h1, h2, h3, Nat.le_of_eq h4.symm, rfl, rfl, rfl, rfl⟩, h6⟩
        · right
          have e1' : s.tree.get h = some it1 := e1
          have e2' : s.tree.get p = some pit1 := e2
          rw [e] at e1'; cases e1'
          rw [ep] at e2'; cases e2'
          have hbt : b = true := by
            have := hf rfl
            simp only [grant, Bool.and_eq_true] at this
            exact this.2
          rw [hbt] at hb
          simp only [Bool.and_eq_true, decide_eq_true_eq, Option.isNone_iff_eq_none, Bool.not_eq_true'] at hb
          obtain ⟨⟨hfolder, hfree⟩, hno⟩ := hb
          have hnb : ¬ Under it.path pit.path := by
            intro hu
            rw [prefix_of_under hu] at hno; cases hno
          have h0 : h ≠ 0 := by
            rintro rfl
            obtain ⟨r, r1, r2, _⟩ := w.wf.root
            rw [e] at r1; cases r1
            exact hnb (by rw [r2]; exact w.wf.under_root ep)
          split
          · next t et =>
            have htt : t = (if true = true then { grant s.tree b with tick := (grant s.tree b).tick + 1 } else grant s.tree b : Tree).relocate
                h it p (join pit.path it.name) := by rw [← heq, et]
            rw [if_pos rfl] at htt
            generalize hu : ({ grant s.tree b with tick := (grant s.tree b).tick + 1 } : Tree) = u at htt
            have wu : TreeWF u := by rw [← hu]; exact WF_congr w.wf rfl rfl rfl
            have gu : ∀ x, u.get x = s.tree.get x := by rw [← hu]; exact fun _ => rfl
            have pu : u.paths = s.tree.paths := by rw [← hu]; rfl
            have au : u.asked = s.tree.asked := by rw [← hu]; rfl
            have ru : u.rootPath = s.tree.rootPath := by rw [← hu]; rfl
            obtain ⟨R, R2, _, R4, _⟩ := relocate_relocated wu (h := h) (p := p) (it := it) (pit := pit) (by rw [gu]; exact e) h0
              (by rw [gu]; exact ep) hnb (by rw [pu]; exact hfree)
            rw [← htt] at R R2 R4
            have wt := WF_relocated wu (by rw [gu]; exact e) h0 (by rw [gu]; exact ep) hnb (by rw [pu]; exact hfree)
              (by rw [ru]; exact (w.wf.under_root ep).trans (Under.join _ _)) R
            refine ⟨rfl, by simpa using hsid, it, pit, rfl, rfl, ⟨rfl, ?_, WF_congr wt rfl rfl rfl, ?_, ⟨it, e, rfl⟩, h0, ⟨pit, ep, hfolder⟩,
              rfl, rfl, rfl, R2.trans au⟩, ⟨_, R4, rfl, rfl, rfl⟩⟩
            · exact relocated_congr R gu pu ru (fun _ => rfl) rfl rfl rfl
            · intro it' e'
              rw [e] at e'; cases e'
              exact ⟨_, R4, rfl⟩
          · next t r hne et => rw [et] at hr; exact absurd hr hne

theorem adjust_tick : ∀ (n : Nat) (t : Tree) (a : Path) (h : Nat), (t.adjust n a h).tick = t.tick := by
  intro n
  induction n with
  | zero => intro t a h; rfl
  | succ n ih =>
    intro t a h
    have key : ∀ (l : List Nat) (u : Tree) (d : Path), (l.foldl (fun t c => t.adjust n d c) u).tick = u.tick := by
      intro l
      induction l with
      | nil => intro u d; rfl
      | cons c l il => intro u d; rw [List.foldl_cons, il, ih]
    unfold Tree.adjust
    split
    · rfl
    · rw [key]

theorem repath_tick (t : Tree) (h : Nat) (it : Item) (p n : Path) : (t.repath h it p n).tick = t.tick := by
  have key : ∀ (m : Nat) (l : List Nat) (u : Tree) (d : Path), (l.foldl (fun t c => t.adjust m d c) u).tick = u.tick := by
    intro m l
    induction l with
    | nil => intro u d; rfl
    | cons c l il => intro u d; rw [List.foldl_cons, il, adjust_tick]
  unfold Tree.repath
  rw [key]

/-- A rename that the system grants changes the objects, unless it was not tried. -/
theorem rename_still {t : Tree} (w : TreeWF t) {h : Nat} {n : Path} (hi : (t.rename h n).1.items = t.items)
    (hf : t.fs t.tick = true) : (t.rename h n).1.tick = t.tick := by
  unfold Tree.rename at hi ⊢
  split
  · rfl
  · next it e =>
    rw [e] at hi
    simp only at hi
    split
    · rfl
    · next pit ep =>
      rw [ep] at hi
      simp only at hi
      split
      · rfl
      · next hv =>
        exfalso
        rw [if_neg hv] at hi
        simp only [Tree.ask, hf, Bool.not_true, Bool.false_eq_true, if_false] at hi
        obtain ⟨p, hp, ep'⟩ := Option.bind_eq_some_iff.mp ep
        have h0 : h ≠ 0 := by
          rintro rfl
          obtain ⟨r, r1, _, r3⟩ := w.root
          rw [e] at r1; cases r1; rw [r3] at hp; cases hp
        obtain ⟨p', pit', q1, q2, q3, q4, q5, q6⟩ := w.parent h it e h0
        rw [hp] at q1; cases q1
        rw [ep'] at q3; cases q3
        rw [if_pos (by rw [q5]; simp [join])] at hi
        rw [show dirOf it.path = pit.path by rw [q5]; exact dirOf_join q6] at hi
        simp only [Bool.not_eq_true', Bool.not_eq_false] at hv
        unfold Tree.nameValid at hv
        simp only [Bool.and_eq_true, Bool.not_eq_true', Option.isNone_iff_eq_none] at hv
        obtain ⟨⟨hv1, hv2⟩, hv3⟩ := hv
        have hs : '/' ∉ n := by
          intro hm
          have : n.any Tree.illegal = true := List.any_eq_true.mpr ⟨'/', hm, by decide⟩
          rw [hv1] at this; cases this
        obtain ⟨_, _, _, R4, _⟩ := repath_relocated (WF_tick w (t.tick + 1)) (h := h) (p := p) (it := it) (pit := pit) (n := n) e h0 hp
          ep' hs hv3
        unfold Tree.get at R4 e
        rw [show AMap.get _ h = AMap.get t.items h from congrArg (fun m => AMap.get m h) hi, e] at R4
        have := congrArg (fun i : Option Item => i.map (·.path)) R4
        simp only [Option.map_some, Option.some.injEq] at this
        have h2 := w.pathOf h it e
        rw [this, hv3] at h2; cases h2

theorem rename_cases' {s : Server} (w : ServerOk s) (h : Nat) (n : QStr) :
    Quiet s (s.rename h n).1 ∨
    ((s.rename h n).2 = .ok ∧ ∃ it p pit, s.tree.get h = some it ∧ it.parent = some p ∧ s.tree.get p = some pit ∧
      Shifted s (s.rename h n).1 h p it.path (join pit.path (toPath n)) ∧
      ∃ it', (s.rename h n).1.tree.get h = some it' ∧ it'.path = join pit.path (toPath n) ∧ it'.name = toPath n ∧
        it'.parent = it.parent ∧ plain n = true) := by
  unfold rename
  cases e : s.tree.get h with
  | none => exact Or.inl (Quiet.refl s)
  | some it =>
    simp only
    generalize hb : plain n = b
    rcases rename_cases (grant_wf w.wf b) h (toPath n) with ⟨h1, h2, h3, h4, _⟩ |
      ⟨it1, p, pit, e1, h0, hpar, e2, hv, hsl, hfree, hfs, hr, heq⟩
    · left
      have hnot : ((grant s.tree b).fs (grant s.tree b).tick &&
          decide (((grant s.tree b).rename h (toPath n)).1.tick ≠ (grant s.tree b).tick)) = false := by
        cases hf : (grant s.tree b).fs (grant s.tree b).tick with
        | false => rfl
        | true =>
          simp only [Bool.true_and, decide_eq_false_iff_not, ne_eq, Classical.not_not]
          exact rename_still (grant_wf w.wf b) h1 hf
      rw [if_neg (by rw [hnot]; simp)]
      exact ⟨rfl, h1, h2, h3, Nat.le_of_eq h4.symm, rfl, rfl, rfl, rfl⟩
    · right
      have e1' : s.tree.get h = some it1 := e1
      have e2' : s.tree.get p = some pit := e2
      rw [e] at e1'; cases e1'
      obtain ⟨p', pit', q1, q2, q3, q4, q5, q6⟩ := w.wf.parent h it e h0
      rw [hpar] at q1; cases q1
      rw [e2'] at q3; cases q3
      have hnb : ¬ Under it.path pit.path := by
        intro hu
        have := hu.length
        rw [q5, join_length] at this; omega
      have hdir : join (dirOf it.path) (toPath n) = join pit.path (toPath n) := by rw [q5, dirOf_join q6]
      generalize hu : ({ grant s.tree b with tick := (grant s.tree b).tick + 1 } : Tree) = u at heq
      have wu : TreeWF u := by rw [← hu]; exact WF_congr w.wf rfl rfl rfl
      have gu : ∀ x, u.get x = s.tree.get x := by rw [← hu]; exact fun _ => rfl
      have pu : u.paths = s.tree.paths := by rw [← hu]; rfl
      have au : u.asked = s.tree.asked := by rw [← hu]; rfl
      have ru : u.rootPath = s.tree.rootPath := by rw [← hu]; rfl
      have htick : ((grant s.tree b).rename h (toPath n)).1.tick = (grant s.tree b).tick + 1 := by
        rw [heq]
        show (u.repath h it (join pit.path (toPath n)) (toPath n)).tick = _
        rw [repath_tick, ← hu]
      rw [if_pos (by rw [htick, hfs]; simp), hdir]
      obtain ⟨R, R2, _, R4, _⟩ := repath_relocated wu (h := h) (p := p) (it := it) (pit := pit) (by rw [gu]; exact e) h0 hpar
        (by rw [gu]; exact e2') hsl (by rw [pu]; exact hfree)
      have wt := WF_relocated wu (by rw [gu]; exact e) h0 (by rw [gu]; exact e2') hnb (by rw [pu]; exact hfree)
        (by rw [ru]; exact (w.wf.under_root e2').trans (Under.join _ _)) R
      rw [heq]
      refine ⟨by rw [← heq]; exact hr, it, p, pit, rfl, hpar, e2', ⟨rfl, ?_, WF_congr wt rfl rfl rfl, ?_, ⟨it, e, rfl⟩, h0,
        ⟨pit, e2', w.folders h it p pit e hpar e2'⟩, rfl, rfl, rfl, R2.trans au⟩, ⟨_, R4, rfl, rfl, rfl, ?_⟩⟩
      · exact relocated_congr R gu pu ru (fun _ => rfl) rfl rfl rfl
      · intro it' e'
        rw [e] at e'; cases e'
        exact ⟨_, R4, rfl⟩
      · simp only [grant, Bool.and_eq_true] at hfs
        rw [← hfs.2]

end Server
end Mtp
