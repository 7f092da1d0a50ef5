import Verif.Lemmas.Startup
import Verif.Lemmas.ServerSpare
import Verif.Spec.ServerLocal
import Verif.Props.Changes
import Verif.Props.Copy
/-! Changes made by other programs. -/
namespace Mtp

theorem AMap.get_append {K V : Type} [DecidableEq K] (m m' : AMap K V) (k : K) :
    AMap.get (m ++ m' : List (K × V)) k = (AMap.get m k).or (AMap.get m' k) := by
  induction m with
  | nil => simp [AMap.get]
  | cons e m ih =>
    obtain ⟨x, v⟩ := e
    simp only [List.cons_append, AMap.get]
    split
    · rfl
    · exact ih

open Spec

/-- Nothing is known below a path at which nothing is. -/
theorem free_below {t : Tree} (w : TreeWF t) {d : Nat} {dit : Item} (hd : t.get d = some dit) {n : Path}
    (hf : AMap.get t.paths (join dit.path n) = none) (q : Path) (hu : Under (join dit.path n) q) : AMap.get t.paths q = none := by
  generalize hl : q.length = l
  induction l using Nat.strongRecOn generalizing q with
  | _ l ih =>
    by_cases hq : q = join dit.path n
    · rw [hq]; exact hf
    · cases e : AMap.get t.paths q with
      | none => rfl
      | some x =>
        obtain ⟨ix, e1, rfl⟩ := w.ofPath _ _ e
        by_cases h0 : x = 0
        · subst h0
          obtain ⟨r, r1, r2, _⟩ := w.root
          rw [r1] at e1; cases e1
          have a := hu.length
          have b := (w.under_root hd).length
          rw [join_length] at a
          rw [r2] at a
          omega
        · obtain ⟨p, pit, _, _, p3, _, p5, p6⟩ := w.parent x ix e1 h0
          rw [p5] at hu hq hl
          have hu' := hu.of_join p6 hq
          have := ih pit.path.length (by rw [← hl, join_length]; omega) pit.path hu' rfl
          rw [w.pathOf p pit p3] at this
          cases this

namespace Server

/-- What there is when something has appeared: the old objects, and others. -/
structure Appeared (s : Server) (k : DiskFacts) (d : Nat) (dit : Item) (n : Path) (disk : Disk) (s' : Server) : Prop where
  wf : TreeWF s'.tree
  issued : Issued s'.tree
  grown : Grown 0 s.tree s'.tree
  shown : ∀ q f, HasAt s'.tree q f ↔ HasAt s.tree q f ∨ Shown s.tree.excl s.tree.policy s.tree.rootPath (join dit.path n) disk q f
  infos : ∀ x, AMap.get s'.infos x = (if s.tree.has x = true then none else (s'.tree.get x).map (startInfo s.sid k)).or (AMap.get s.infos x)
  files : ∀ p, (AMap.get s'.files p).isSome = true ↔ (AMap.get s.files p).isSome = true ∨
    ∃ h it, s'.tree.get h = some it ∧ s.tree.has h = false ∧ it.fmt ≠ ASSOC ∧ String.ofList it.path = p
  old : ∀ p, (¬ ∃ h it, s'.tree.get h = some it ∧ s.tree.has h = false ∧ String.ofList it.path = p) → AMap.get s'.files p = AMap.get s.files p
  bytes : ∀ h it, s'.tree.get h = some it → s.tree.has h = false → it.fmt ≠ ASSOC →
    AMap.get s'.files (String.ofList it.path) = some (k.bytes it.path)
  dataFile : s'.dataFile = s.dataFile
  sid : s'.sid = s.sid
  ios : s'.ios = s.ios

theorem appears_known (s : Server) (k : DiskFacts) (d : Nat) (n : Path) (disk : Disk) (w : TreeWF s.tree) {dit : Item}
    (hd : s.tree.get d = some dit) (hk : (AMap.get s.tree.paths (join dit.path n)).isSome = true) :
    s.appears k d n disk = s ∧ s.tree.fsCreate d n disk = s.tree := by
  have ht : s.tree.fsCreate d n disk = s.tree := by
    unfold Tree.fsCreate
    rw [hd]
    simp only
    rw [if_pos hk]
  refine ⟨?_, ht⟩
  unfold appears
  rw [ht]
  have hnil : (s.tree.items.filter fun e => ! s.tree.has e.1) = [] := by
    rw [List.filter_eq_nil_iff]
    rintro ⟨x, ix⟩ hm
    have := has_iff.mpr ⟨ix, get_of_mem w hm⟩
    simp [this]
  simp only [hnil]
  rfl

theorem appears_new (s : Server) (k : DiskFacts) (d : Nat) (n : Path) (disk : Disk) (w : TreeWF s.tree) (hi : Issued s.tree) {dit : Item}
    (hd : s.tree.get d = some dit) (hn : '/' ∉ n) (dk : DiskOk disk) (du : DiskNames disk)
    (hf : AMap.get s.tree.paths (join dit.path n) = none) (hb : (s.appears k d n disk).tree.asked < 0xFFFFFFFF) :
    Appeared s k d dit n disk (s.appears k d n disk) := by
  have ht : s.tree.fsCreate d n disk = (s.tree.add (join dit.path n) disk none true false 0).1 := by
    unfold Tree.fsCreate
    rw [hd]
    simp only
    rw [if_neg (by rw [hf]; simp)]
  have hT : (s.appears k d n disk).tree = (s.tree.add (join dit.path n) disk none true false 0).1 := ht
  rw [hT] at hb
  obtain ⟨w', hi', g⟩ := add_spec w hi hd hn disk dk none (fun i e => by cases e) true false 0 (fun h => absurd rfl h) (Nat.zero_le _) hb
  have sh := add_shown w hi hd hn disk dk du true (free_below w hd hf) hb
  have uniq : ∀ x ix y iy, s.tree.get x = some ix → (s.appears k d n disk).tree.get y = some iy → ix.path = iy.path → x = y := by
    intro x ix y iy ex ey hp
    obtain ⟨l, e'⟩ := g.item x ix ex
    rw [hT] at ey
    have a := w'.pathOf _ _ e'
    have b := w'.pathOf _ _ ey
    rw [← hp] at b
    exact Option.some.inj (a.symm.trans b)
  have fget : ∀ p c, AMap.get ((((s.appears k d n disk).tree.items.filter fun e => ! s.tree.has e.1).filterMap fun e =>
      if e.2.fmt = ASSOC then none else some (String.ofList e.2.path, k.bytes e.2.path)) : List (String × List UInt8)) p = some c →
      c = k.bytes p.toList ∧ ∃ h it, (s.appears k d n disk).tree.get h = some it ∧ s.tree.has h = false ∧ it.fmt ≠ ASSOC ∧ String.ofList it.path = p := by
    intro p c hc
    obtain ⟨⟨h, it⟩, hm, he⟩ := List.mem_filterMap.mp (AMap.mem_of_get hc)
    obtain ⟨hm1, hm2⟩ := List.mem_filter.mp hm
    dsimp only at he
    split at he
    · cases he
    · next hfm =>
      cases he
      refine ⟨by simp, h, it, get_of_mem (hT ▸ w') hm1, by simpa using hm2, hfm, rfl⟩
  have fex : ∀ h it, (s.appears k d n disk).tree.get h = some it → s.tree.has h = false → it.fmt ≠ ASSOC →
      (AMap.get ((((s.appears k d n disk).tree.items.filter fun e => ! s.tree.has e.1).filterMap fun e =>
      if e.2.fmt = ASSOC then none else some (String.ofList e.2.path, k.bytes e.2.path)) : List (String × List UInt8)) (String.ofList it.path)).isSome = true := by
    intro h it e hx hfm
    rw [AMap.get_isSome_iff]
    exact ⟨k.bytes it.path, List.mem_filterMap.mpr ⟨(h, it), List.mem_filter.mpr ⟨AMap.mem_of_get e, by simp [hx]⟩, by simp [hfm]⟩⟩
  have hfiles : (s.appears k d n disk).files = (((s.appears k d n disk).tree.items.filter fun e => ! s.tree.has e.1).filterMap fun e =>
      if e.2.fmt = ASSOC then none else some (String.ofList e.2.path, k.bytes e.2.path)) ++ s.files := rfl
  have hinfos : (s.appears k d n disk).infos = (((s.appears k d n disk).tree.items.filter fun e => ! s.tree.has e.1).map fun e =>
      (e.1, startInfo s.sid k e.2)) ++ s.infos := rfl
  refine ⟨hT ▸ w', hT ▸ hi', hT ▸ g, fun q f => by rw [hT]; exact sh q f, fun x => ?_, fun p => ?_, fun p hp => ?_, fun h it e hx hfm => ?_, rfl, rfl, rfl⟩
  · rw [hinfos, AMap.get_append, AMap.get_mapVal (fun _ (it : Item) => startInfo s.sid k it),
      AMap.get_filterKey (fun x => ! s.tree.has x)]
    congr 1
    unfold Tree.get
    cases s.tree.has x <;> rfl
  · rw [hfiles, AMap.get_append]
    constructor
    · intro h
      cases e : AMap.get s.files p with
      | some c => exact Or.inl rfl
      | none =>
        rw [e, Option.or_none] at h
        obtain ⟨c, hc⟩ := Option.isSome_iff_exists.mp h
        exact Or.inr (fget p c hc).2
    · rintro (h | ⟨h, it, e, hx, hfm, rfl⟩)
      · simp [h]
      · simp [fex h it e hx hfm]
  · rw [hfiles, AMap.get_append]
    cases e : AMap.get ((((s.appears k d n disk).tree.items.filter fun e => ! s.tree.has e.1).filterMap fun e =>
      if e.2.fmt = ASSOC then none else some (String.ofList e.2.path, k.bytes e.2.path)) : List (String × List UInt8)) p with
    | none => rfl
    | some c =>
      obtain ⟨_, h, it, a, b, _, c'⟩ := fget p c e
      exact absurd ⟨h, it, a, b, c'⟩ hp
  · rw [hfiles, AMap.get_append]
    obtain ⟨c, hc⟩ := Option.isSome_iff_exists.mp (fex h it e hx hfm)
    rw [hc, (fget _ _ hc).1]
    simp

theorem Appeared.uniq {s s' : Server} {k : DiskFacts} {d : Nat} {dit : Item} {n : Path} {disk : Disk} (a : Appeared s k d dit n disk s')
    {x y : Nat} {ix iy : Item} (ex : s.tree.get x = some ix) (ey : s'.tree.get y = some iy) (hp : ix.path = iy.path) : x = y := by
  obtain ⟨l, e'⟩ := a.grown.item x ix ex
  have e1 := a.wf.pathOf _ _ e'
  have e2 := a.wf.pathOf _ _ ey
  rw [← hp] at e2
  exact Option.some.inj (e1.symm.trans e2)

/-- A new object is one of those to be shown. -/
theorem Appeared.new {s s' : Server} {k : DiskFacts} {d : Nat} {dit : Item} {n : Path} {disk : Disk} (a : Appeared s k d dit n disk s')
    {x : Nat} {ix : Item} (ex : s'.tree.get x = some ix) (hx : s.tree.has x = false) :
    Shown s.tree.excl s.tree.policy s.tree.rootPath (join dit.path n) disk ix.path ix.fmt := by
  rcases (a.shown ix.path ix.fmt).mp ⟨x, ix, ex, rfl, rfl⟩ with ⟨y, iy, ey, hp, _⟩ | h
  · have := a.uniq ey ex hp
    subst this
    rw [has_iff.mpr ⟨iy, ey⟩] at hx; cases hx
  · exact h

theorem Appeared.ok {s s' : Server} {k : DiskFacts} {d : Nat} {dit : Item} {n : Path} {disk : Disk} (a : Appeared s k d dit n disk s')
    (w : ServerOk s) (hd : s.tree.get d = some dit) (hdf : dit.fmt = ASSOC) (hn : '/' ∉ n) (dk : DiskOk disk) : ServerOk s' := by
  have oldnew : ∀ x ix, s'.tree.get x = some ix → s.tree.has x = false ∨
      ∃ iy, s.tree.get x = some iy ∧ ix.path = iy.path ∧ ix.fmt = iy.fmt ∧ ix.parent = iy.parent := by
    intro x ix e
    cases hx : s.tree.has x with
    | false => exact Or.inl rfl
    | true =>
      obtain ⟨iy, ey⟩ := has_iff.mp hx
      obtain ⟨l, e'⟩ := a.grown.item x iy ey
      rw [e] at e'; cases e'
      exact Or.inr ⟨iy, ey, rfl, rfl, rfl⟩
  refine ⟨a.wf, a.issued, ?_, ?_, ?_, ?_, ?_⟩
  · intro r e
    obtain ⟨r0, e0, _⟩ := w.wf.root
    obtain ⟨l, e'⟩ := a.grown.item 0 r0 e0
    rw [e] at e'; cases e'
    exact w.root r0 e0
  · intro h it p pit e1 e2 e3
    rcases oldnew h it e1 with hx | ⟨iy, ey, _, _, hpar⟩
    · have h0 : h ≠ 0 := by
        rintro rfl
        obtain ⟨r0, e0, _⟩ := w.wf.root
        rw [has_iff.mpr ⟨r0, e0⟩] at hx; cases hx
      obtain ⟨p', pit', f1, _, f3, _, f5, f6⟩ := a.wf.parent h it e1 h0
      rw [e2] at f1; cases f1
      rw [e3] at f3; cases f3
      rcases shown_parent (a.new e1 hx) dk with e | ⟨q', n', e, hn', hs'⟩
      · rw [f5] at e
        have hp := (join_inj e f6 hn).1
        have := a.uniq hd e3 hp.symm
        subst this
        obtain ⟨l, e'⟩ := a.grown.item d dit hd
        rw [e3] at e'; cases e'
        exact hdf
      · rw [f5] at e
        have hp := (join_inj e f6 hn').1
        obtain ⟨y, iy, g1, g2, g3⟩ := (a.shown q' ASSOC).mpr (Or.inr hs')
        have e4 := a.wf.pathOf y iy g1
        have e5 := a.wf.pathOf p pit e3
        rw [g2, ← hp, e5] at e4
        cases e4
        rw [e3] at g1; cases g1
        exact g3
    · rw [hpar] at e2
      have h0 : h ≠ 0 := by
        rintro rfl
        obtain ⟨r0, e0, _, e0'⟩ := w.wf.root
        rw [ey] at e0; cases e0
        rw [e0'] at e2; cases e2
      obtain ⟨p', pit', f1, _, f3, _⟩ := w.wf.parent h iy ey h0
      rw [e2] at f1; cases f1
      obtain ⟨l, e'⟩ := a.grown.item p pit' f3
      rw [e3] at e'; cases e'
      exact w.folders h iy p pit' ey e2 f3
  · intro p
    rw [a.files p, w.files p]
    constructor
    · rintro (⟨h, it, e, hf, hp⟩ | ⟨h, it, e, _, hf, hp⟩)
      · obtain ⟨l, e'⟩ := a.grown.item h it e
        exact ⟨h, _, e', hf, hp⟩
      · exact ⟨h, it, e, hf, hp⟩
    · rintro ⟨h, it, e, hf, hp⟩
      rcases oldnew h it e with hx | ⟨iy, ey, h1, h2, _⟩
      · exact Or.inr ⟨h, it, e, hx, hf, hp⟩
      · exact Or.inl ⟨h, iy, ey, by rw [← h2]; exact hf, by rw [← h1]; exact hp⟩
  · intro h
    rw [a.infos h]
    have hk := w.known h
    cases hx : s.tree.has h with
    | true =>
      rw [hx] at hk
      rw [a.grown.has hx]
      simpa using hk
    | false =>
      rw [hx] at hk
      have : AMap.get s.infos h = none := by simpa using hk
      rw [this]
      unfold Tree.has
      cases s'.tree.get h <;> simp
  · intro p m e
    rw [a.dataFile] at e
    rcases w.openFile p m e with h | h
    · exact Or.inl h
    · exact Or.inr ((a.files p).mpr (Or.inl h))

/-- The old objects are as they were. -/
theorem Appeared.safe {s s' : Server} {k : DiskFacts} {d : Nat} {dit : Item} {n : Path} {disk : Disk} (a : Appeared s k d dit n disk s')
    {x : Nat} (hx : s.tree.has x = true) : Safe x s s' ∧ Spec.contents s' x = Spec.contents s x ∧ s'.infoOf x = s.infoOf x := by
  obtain ⟨ix, e⟩ := has_iff.mp hx
  obtain ⟨l, e'⟩ := a.grown.item x ix e
  have hinf : AMap.get s'.infos x = AMap.get s.infos x := by rw [a.infos x, hx]; simp
  have hcont : Spec.contents s' x = Spec.contents s x := by
    unfold Spec.contents
    rw [e, e']
    simp only
    rw [a.old]
    rintro ⟨h, it, eh, hh, hp⟩
    have := a.uniq e eh (ofList_inj hp.symm)
    subst this
    rw [hx] at hh; cases hh
  refine ⟨⟨fun iy ey => ?_, fun hw iy p m ey hf hdf => ?_, fun _ => hcont, hinf⟩, hcont, ?_⟩
  · rw [e] at ey; cases ey; exact ⟨_, e', rfl⟩
  · rw [e'] at ey; cases ey
    rw [a.dataFile] at hdf
    exact hw ix p m e hf hdf
  · unfold infoOf
    rw [e, e', hinf]
    cases AMap.get s.infos x <;> rfl

/-- What is told about a new object, and what it holds. -/
theorem Appeared.about {s s' : Server} {k : DiskFacts} {d : Nat} {dit : Item} {n : Path} {disk : Disk} (a : Appeared s k d dit n disk s')
    (w : ServerOk s) {x : Nat} {ix : Item} (ex : s'.tree.get x = some ix) (hx : s.tree.has x = false) :
    s'.infoOf x = (.ok, startInfo s.sid k ix) ∧ (ix.fmt ≠ ASSOC → Spec.contents s' x = some (k.bytes ix.path)) := by
  have hk := w.known x
  rw [hx] at hk
  have hnone : AMap.get s.infos x = none := by simpa using hk
  constructor
  · unfold infoOf
    rw [ex, a.infos x, hx, hnone, ex]
    rfl
  · intro hf
    unfold Spec.contents
    rw [ex]
    simp only
    rw [if_neg hf]
    exact a.bytes x ix ex hx hf

/-- An object that is still there is as it was. -/
theorem dropGone_safe {s : Server} (w : ServerOk s) {t : Tree} (wt : TreeWF t) (sh : Shrunk s.tree t) {x : Nat} (h0 : x ≠ 0)
    (hx : t.has x = true) : Safe x s (s.dropGone t) := by
  obtain ⟨iy, ey⟩ := has_iff.mp hx
  obtain ⟨ix, e, e'⟩ : ∃ ix, s.tree.get x = some ix ∧ t.get x = some { ix with kids := ix.kids.filter (fun c => t.has c) } := by
    rcases sh.item x with h | h
    · rw [h] at ey; cases ey
    · exact h
  refine ⟨fun ix' e1 => ?_, fun ha ix' p n e1 hf hd => ?_, fun _ => ((dropGone_ok w wt sh).2 x hx).1, ?_⟩
  · rw [e] at e1; cases e1
    exact ⟨_, e', rfl⟩
  · have e1' : t.get x = some ix' := e1
    rw [e'] at e1'; cases e1'
    have hd' : (s.dataFile.map fun e => if (AMap.get t.paths e.1.toList).isSome then e else ("", e.2)) = some (p, n) := hd
    cases hs : s.dataFile with
    | none => rw [hs] at hd'; cases hd'
    | some pn =>
      rw [hs] at hd'
      simp only [Option.map_some, Option.some.injEq] at hd'
      split at hd'
      · subst hd'
        exact ha ix p n e hf hs
      · cases hd'
        exact (path_nonempty w.wf e h0).symm
  · show AMap.get (s.infos.filter fun e => t.has e.1) x = _
    rw [AMap.get_filterKey (fun k => t.has k), if_pos hx]

/-- What is known about object `h` was computed again: nothing else is different. -/
structure Renewed (s s' : Server) (k : DiskFacts) (h fmt : Nat) (it : Item) : Prop where
  item : s.tree.get h = some it
  noRoot : h ≠ 0
  kind : fmt = ASSOC ↔ it.fmt = ASSOC
  get : ∀ x, s'.tree.get x = if x = h then some { it with fmt := fmt } else s.tree.get x
  wf : TreeWF s'.tree
  asked : s'.tree.asked = s.tree.asked
  infos : ∀ x, AMap.get s'.infos x = if x = h then some (startInfo s.sid k { it with fmt := fmt }) else AMap.get s.infos x
  files : s'.files = s.files
  dataFile : s'.dataFile = s.dataFile
  sid : s'.sid = s.sid
  ios : s'.ios = s.ios

section
variable {s s' : Server} {k : DiskFacts} {h fmt : Nat} {it : Item}

theorem Renewed.item' (R : Renewed s s' k h fmt it) {x : Nat} {ix : Item} (e : s'.tree.get x = some ix) :
    ∃ iy, s.tree.get x = some iy ∧ ix.path = iy.path ∧ ix.parent = iy.parent ∧ (ix.fmt = ASSOC ↔ iy.fmt = ASSOC) ∧
      ix.name = iy.name ∧ ix.par = iy.par ∧ ix.kids = iy.kids ∧ (x ≠ h → ix = iy) := by
  rw [R.get] at e
  split at e
  · next hx =>
    subst hx
    cases e
    exact ⟨it, R.item, rfl, rfl, R.kind, rfl, rfl, rfl, fun h => absurd rfl h⟩
  · exact ⟨ix, e, rfl, rfl, Iff.rfl, rfl, rfl, rfl, fun _ => rfl⟩

theorem Renewed.item_of (R : Renewed s s' k h fmt it) {x : Nat} {iy : Item} (e : s.tree.get x = some iy) :
    ∃ ix, s'.tree.get x = some ix ∧ ix.path = iy.path ∧ (ix.fmt = ASSOC ↔ iy.fmt = ASSOC) := by
  by_cases hx : x = h
  · subst hx
    rw [R.item] at e; cases e
    exact ⟨{ it with fmt := fmt }, by rw [R.get, if_pos rfl], rfl, R.kind⟩
  · exact ⟨iy, by rw [R.get, if_neg hx]; exact e, rfl, Iff.rfl⟩

theorem Renewed.has (R : Renewed s s' k h fmt it) (x : Nat) : s'.tree.has x = s.tree.has x := by
  cases hx : s.tree.has x with
  | true =>
    obtain ⟨iy, e⟩ := has_iff.mp hx
    obtain ⟨ix, e', _⟩ := R.item_of e
    exact has_iff.mpr ⟨ix, e'⟩
  | false =>
    cases hy : s'.tree.has x with
    | false => rfl
    | true =>
      obtain ⟨iy, e⟩ := has_iff.mp hy
      obtain ⟨ix, e', _⟩ := R.item' e
      rw [has_iff.mpr ⟨ix, e'⟩] at hx; cases hx

theorem Renewed.ok (R : Renewed s s' k h fmt it) (w : ServerOk s) : ServerOk s' := by
  refine ⟨R.wf, ?_, ?_, ?_, ?_, ?_, ?_⟩
  · intro x ix e
    obtain ⟨iy, e', _⟩ := R.item' e
    rw [R.asked]; exact w.issued x iy e'
  · intro r e
    obtain ⟨iy, e', _, _, hf, _⟩ := R.item' e
    exact hf.mpr (w.root iy e')
  · intro x ix p pit e1 e2 e3
    obtain ⟨iy, e', _, hp, _⟩ := R.item' e1
    obtain ⟨iz, e'', _, _, hf, _⟩ := R.item' e3
    exact hf.mpr (w.folders x iy p iz e' (hp ▸ e2) e'')
  · intro p
    rw [R.files, w.files p]
    constructor
    · rintro ⟨x, ix, e, hf, hp⟩
      obtain ⟨iy, e', h1, h2⟩ := R.item_of e
      exact ⟨x, iy, e', fun hh => hf (h2.mp hh), by rw [h1]; exact hp⟩
    · rintro ⟨x, ix, e, hf, hp⟩
      obtain ⟨iy, e', h1, _, h2, _⟩ := R.item' e
      exact ⟨x, iy, e', fun hh => hf (h2.mpr hh), by rw [← h1]; exact hp⟩
  · intro x
    rw [R.infos, R.has]
    split
    · next hx =>
      subst hx
      rw [has_iff.mpr ⟨it, R.item⟩]; rfl
    · exact w.known x
  · intro p n e
    rw [R.dataFile] at e
    rw [R.files]
    exact w.openFile p n e

theorem Renewed.contents (R : Renewed s s' k h fmt it) (x : Nat) : Spec.contents s' x = Spec.contents s x := by
  unfold Spec.contents
  cases e : s.tree.get x with
  | none =>
    have := R.has x
    rw [has_false.mpr e] at this
    rw [has_false.mp this]
  | some iy =>
    obtain ⟨ix, e', h1, h2⟩ := R.item_of e
    rw [e', R.files]
    simp only [h1, h2]

theorem Renewed.other (R : Renewed s s' k h fmt it) {x : Nat} (hx : x ≠ h) : s'.infoOf x = s.infoOf x := by
  unfold infoOf
  rw [R.get, R.infos, if_neg hx, if_neg hx]

theorem Renewed.told (R : Renewed s s' k h fmt it) : s'.infoOf h = (.ok, startInfo s.sid k { it with fmt := fmt }) := by
  unfold infoOf
  rw [R.get, R.infos, if_pos rfl, if_pos rfl]
  rfl

theorem Renewed.safe (R : Renewed s s' k h fmt it) {x : Nat} (hx : x ≠ h) : Safe x s s' := by
  refine ⟨fun ix e => ⟨ix, by rw [R.get, if_neg hx]; exact e, rfl⟩, fun ha ix p n e hf hd => ?_, fun _ => R.contents x, ?_⟩
  · rw [R.get, if_neg hx] at e
    rw [R.dataFile] at hd
    exact ha ix p n e hf hd
  · rw [R.infos, if_neg hx]

end

theorem refresh_renewed {s : Server} (w : TreeWF s.tree) (k : DiskFacts) {h : Nat} (h0 : h ≠ 0) (fmt : Nat) {it : Item}
    (e : s.tree.get h = some it) (hk : fmt = ASSOC ↔ it.fmt = ASSOC) (hi : Issued s.tree) : Renewed s (s.refresh k h fmt) k h fmt it := by
  obtain ⟨p, pit, h1, h2, h3, h4, h5, h6⟩ := w.parent h it e h0
  have heq : ({ it with name := baseOf it.path, fmt := fmt, par := it.parent.getD 0 } : Item) = { it with fmt := fmt } := by
    rw [h1]
    simp [h2, h5, baseOf_join h6]
  unfold refresh
  rw [e]
  simp only [heq]
  refine ⟨e, h0, hk, fun x => ?_, ?_, ?_, fun x => AMap.get_insert _ _ _ _, rfl, rfl, rfl, rfl⟩
  · show (s.tree.upd h _).get x = _
    rw [refresh_eq w h0 fmt x]
    split
    · next hx => subst hx; rw [e]; rfl
    · rfl
  · exact (refresh_ok (StepOk.refl w hi 0) h0 fmt).wf
  · exact Tree.upd_asked _ _ _

/-- The bytes of one file are different. -/
theorem rewrite_ok {s : Server} (w : ServerOk s) (p : String) (hp : (AMap.get s.files p).isSome = true) (c : List UInt8) :
    ServerOk { s with files := AMap.insert s.files p c } := by
  have hs : ∀ q, (AMap.get (AMap.insert s.files p c) q).isSome = (AMap.get s.files q).isSome := by
    intro q
    rw [AMap.get_insert]
    split
    · next h => rw [h, hp]; rfl
    · rfl
  refine ⟨w.wf, w.issued, w.root, w.folders, fun q => ?_, w.known, fun q n e => ?_⟩
  · show (AMap.get (AMap.insert s.files p c) q).isSome = true ↔ _
    rw [hs]; exact w.files q
  · show q = "" ∨ (AMap.get (AMap.insert s.files p c) q).isSome = true
    rw [hs]; exact w.openFile q n e

theorem entry_paths {s : Server} (w : TreeWF s.tree) {d : Nat} {dit : Item} (hd : s.tree.get d = some dit) {n : Path} {h : Nat} :
    AMap.get s.tree.paths (join dit.path n) = some h ↔ Entry s d n h := by
  constructor
  · intro e
    obtain ⟨it, e1, e2⟩ := w.ofPath _ _ e
    exact ⟨dit, it, hd, e1, e2⟩
  · rintro ⟨dit', it, e1, e2, e3⟩
    rw [hd] at e1; cases e1
    rw [← e3]; exact w.pathOf h it e2

theorem entry_unique {s : Server} (w : TreeWF s.tree) {d : Nat} {n : Path} {h h' : Nat} (a : Entry s d n h) (b : Entry s d n h') : h = h' := by
  obtain ⟨dit, it, e1, e2, e3⟩ := a
  have := (entry_paths w e1).mpr ⟨dit, it, e1, e2, e3⟩
  rw [(entry_paths w e1).mpr b] at this
  exact (Option.some.inj this).symm

theorem entry_root {s : Server} (w : TreeWF s.tree) {d : Nat} {n : Path} (a : Entry s d n 0) : False := by
  obtain ⟨dit, it, e1, e2, e3⟩ := a
  obtain ⟨r, r1, r2, _⟩ := w.root
  rw [e2] at r1; cases r1
  have := (w.under_root e1).length
  rw [← r2, e3, join_length] at this
  omega

theorem written_unknown {s : Server} (w : TreeWF s.tree) (k : DiskFacts) (d : Nat) (n : Path) (fmt : Nat)
    (hno : ∀ h, ¬ Entry s d n h) : s.overwritten k d n fmt = s := by
  unfold overwritten
  cases hd : s.tree.get d with
  | none => rfl
  | some dit =>
    simp only
    cases hh : AMap.get s.tree.paths (join dit.path n) with
    | none => rfl
    | some h => exact absurd ((entry_paths w hd).mp hh) (hno h)

/-- A file was written: the new bytes are in place, and what is known is renewed (unless the host is writing to it, too). -/
theorem written_cases {s : Server} (w : ServerOk s) (k : DiskFacts) (d : Nat) (n : Path) (fmt : Nat) {h : Nat} {it : Item}
    (he : Entry s d n h) (hit : s.tree.get h = some it) (hf : it.fmt ≠ ASSOC) (hfmt : fmt ≠ ASSOC) :
    ServerOk { s with files := AMap.insert s.files (String.ofList it.path) (k.bytes it.path) } ∧
    ((h = s.writing ∧ s.overwritten k d n fmt = { s with files := AMap.insert s.files (String.ofList it.path) (k.bytes it.path) }) ∨
      (h ≠ s.writing ∧ Renewed { s with files := AMap.insert s.files (String.ofList it.path) (k.bytes it.path) } (s.overwritten k d n fmt) k h fmt it)) := by
  obtain ⟨dit, it', e1, e2, e3⟩ := id he
  rw [hit] at e2; cases e2
  have h0 : h ≠ 0 := by rintro rfl; exact entry_root w.wf he
  have hfile := file_of w hit hf
  have w1 := rewrite_ok w (String.ofList it.path) hfile (k.bytes it.path)
  refine ⟨w1, ?_⟩
  have hpt := (entry_paths w.wf e1).mpr he
  have heq : s.overwritten k d n fmt = if h ≠ 0 ∧ h ≠ s.writing then
      ({ s with files := AMap.insert s.files (String.ofList it.path) (k.bytes it.path) } : Server).refresh k h fmt
      else { s with files := AMap.insert s.files (String.ofList it.path) (k.bytes it.path) } := by
    unfold overwritten
    rw [e1]
    simp only
    rw [hpt]
    simp only
    rw [← e3, if_pos hfile]
  rw [heq]
  by_cases hw : h = s.writing
  · rw [if_neg (by rintro ⟨_, h⟩; exact h hw)]
    exact Or.inl ⟨hw, rfl⟩
  · rw [if_pos ⟨h0, hw⟩]
    refine Or.inr ⟨hw, refresh_renewed w1.wf k h0 fmt hit (by simp [hf, hfmt]) w1.issued⟩

theorem moves_unknown {s : Server} (w : TreeWF s.tree) (k : DiskFacts) (d1 : Nat) (n1 : Path) (d2 : Nat) (n2 : Path) (fmt : Nat)
    (hno : ∀ h, ¬ Entry s d1 n1 h) : s.moves k d1 n1 d2 n2 fmt = s := by
  unfold moves
  split
  · rfl
  · cases h1 : s.tree.get d1 with
    | none => cases s.tree.get d2 <;> rfl
    | some i1 =>
      cases h2 : s.tree.get d2 with
      | none => rfl
      | some i2 =>
        simp only
        cases hh : AMap.get s.tree.paths (join i1.path n1) with
        | none => rfl
        | some h => exact absurd ((entry_paths w h1).mp hh) (hno h)

/-- Something was moved to a place that was free. -/
theorem moves_free {s : Server} (w : ServerOk s) (k : DiskFacts) (d1 : Nat) (n1 : Path) (d2 : Nat) (n2 : Path) (fmt : Nat) {h : Nat}
    {it dit : Item} (hn1 : '/' ∉ n1) (hn2 : '/' ∉ n2) (he : Entry s d1 n1 h) (hit : s.tree.get h = some it)
    (hd2 : s.tree.get d2 = some dit) (hdf : dit.fmt = ASSOC) (hk : fmt = ASSOC ↔ it.fmt = ASSOC) (hfree : ∀ y, ¬ Entry s d2 n2 y)
    (hsame : d1 = d2 ∨ n1 = n2) (hnb : ¬ Below s.tree h d2) :
    ∃ s1 it1, Shifted s s1 h d2 it.path (join dit.path n2) ∧ s1.ios = s.ios ∧ it1.path = join dit.path n2 ∧ it1.name = n2 ∧ it1.par = d2 ∧
      it1.parent = some d2 ∧ it1.fmt = it.fmt ∧
      Renewed s1 (s.moves k d1 n1 d2 n2 fmt) k h fmt it1 := by
  have hne : ¬ (d1 = d2 ∧ n1 = n2) := by rintro ⟨rfl, rfl⟩; exact hfree h he
  have h0 : h ≠ 0 := by rintro rfl; exact entry_root w.wf he
  obtain ⟨i1, it', e1, e2, e3⟩ := id he
  rw [hit] at e2; cases e2
  have hpt := (entry_paths w.wf e1).mpr he
  have hft : AMap.get s.tree.paths (join dit.path n2) = none := by
    cases e : AMap.get s.tree.paths (join dit.path n2) with
    | none => rfl
    | some y => exact absurd ((entry_paths w.wf hd2).mp e) (hfree y)
  have hnu : ¬ Under it.path dit.path := fun hu => hnb ((w.wf.below_iff hit hd2).mpr hu)
  obtain ⟨q, qit, q1, q2, q3, q4, q5, q6⟩ := w.wf.parent h it hit h0
  have hqe := join_inj (e3.symm.trans q5) hn1 q6
  have hqd : q = d1 := w.wf.inj q3 e1 hqe.1.symm
  have hQ : Under s.tree.rootPath (join dit.path n2) := (w.wf.under_root hd2).trans (Under.join _ _)
  -- the tree in between
  obtain ⟨u, it1, hu, R, ha, hg, hp1, hp2, hp3, hp4, hp5⟩ : ∃ u it1, (if d1 = d2 then s.tree.repath h it (join dit.path n2) n2 else (s.tree.move h d2 false).1) = u ∧
      Relocated s.tree u h d2 it.path (join dit.path n2) ∧ u.asked = s.tree.asked ∧ u.get h = some it1 ∧
      it1.path = join dit.path n2 ∧ it1.name = n2 ∧ it1.par = d2 ∧ it1.parent = some d2 ∧ it1.fmt = it.fmt := by
    by_cases hd : d1 = d2
    · rw [if_pos hd]
      subst hd
      subst hqd
      rw [e1] at hd2; cases hd2
      obtain ⟨R1, R2, _, R4, _⟩ := repath_relocated w.wf hit h0 q1 e1 hn2 hft
      exact ⟨_, _, rfl, R1, R2, R4, rfl, rfl, q2, q1, rfl⟩
    · rw [if_neg hd]
      have hn : n1 = n2 := hsame.resolve_left hd
      subst hn
      have hnm : it.name = n1 := hqe.2.symm
      have hft' : AMap.get s.tree.paths (join dit.path it.name) = none := by rw [hnm]; exact hft
      have heq : (s.tree.move h d2 false).1 = s.tree.relocate h it d2 (join dit.path it.name) := by
        unfold Tree.move
        rw [hit]
        simp only
        rw [hd2]
        simp [hft']
      obtain ⟨R1, R2, _, R4, _⟩ := relocate_relocated w.wf hit h0 hd2 hnu hft'
      rw [heq]
      rw [hnm] at R1 R2 R4 ⊢
      exact ⟨_, _, rfl, R1, R2, R4, rfl, rfl, rfl, rfl, rfl⟩
  have wu : TreeWF u := WF_relocated w.wf hit h0 hd2 hnu hft hQ R
  have iu : Issued u := by
    intro x ix e
    obtain ⟨iy, e'⟩ := has_iff.mp (R.only x (has_iff.mpr ⟨ix, e⟩))
    rw [ha]; exact w.issued x iy e'
  have ht : s.tree.fsMove d1 n1 d2 n2 fmt = (u.upd h (fun i => { i with name := baseOf i.path, fmt := fmt, par := i.parent.getD 0 })).emit true
      (.infoChanged h) := by
    unfold Tree.fsMove
    rw [if_neg hne, e1, hd2]
    simp only
    rw [hpt]
    simp only [Option.getD_some]
    rw [if_neg h0, hit]
    simp only
    rw [if_neg (by rw [hft]; simp), hu]
  have hm : s.moves k d1 n1 d2 n2 fmt = { ({ s with tree := s.tree.fsMove d1 n1 d2 n2 fmt }.moveFiles it.path (join dit.path n2)) with
      infos := match (s.tree.fsMove d1 n1 d2 n2 fmt).get h with
        | some it => AMap.insert s.infos h (startInfo s.sid k it)
        | none => s.infos } := by
    unfold moves
    rw [if_neg hne, e1, hd2]
    simp only
    rw [hpt]
    simp only
    rw [if_neg (by rw [hft]; simp), ← e3]
    cases (s.tree.fsMove d1 n1 d2 n2 fmt).get h <;> rfl
  have tg : ∀ x, (s.tree.fsMove d1 n1 d2 n2 fmt).get x = if x = h then some { it1 with fmt := fmt } else u.get x := by
    intro x
    rw [ht]
    show AMap.get (Tree.emit _ _ _).items x = _
    rw [(Tree.emit_eq _ _ _).1]
    have := refresh_eq wu h0 fmt x
    unfold Tree.get at this ⊢
    rw [this]
    split
    · next hx => subst hx; unfold Tree.get at hg; rw [hg]; rfl
    · rfl
  refine ⟨({ s with tree := u } : Server).moveFiles it.path (join dit.path n2), it1, ?_, rfl, hp1, hp2, hp3, hp4, hp5, ?_⟩
  · refine ⟨rfl, R, wu, ?_, ⟨it, hit, rfl⟩, h0, ⟨dit, hd2, hdf⟩, rfl, rfl, rfl, ha⟩
    intro it' e'
    rw [hit] at e'; cases e'
    exact ⟨it1, hg, hp5⟩
  · rw [hm]
    refine ⟨hg, h0, by rw [hp5]; exact hk, tg, ?_, ?_, fun x => ?_, rfl, rfl, rfl, rfl⟩
    · have := (refresh_ok (StepOk.refl wu iu 0) h0 fmt).wf
      show TreeWF (s.tree.fsMove d1 n1 d2 n2 fmt)
      rw [ht]
      exact WF_emit this _ _
    · show (s.tree.fsMove d1 n1 d2 n2 fmt).asked = u.asked
      rw [ht, (Tree.emit_eq _ _ _).2.2.2.1]
      exact Tree.upd_asked _ _ _
    · show AMap.get (match (s.tree.fsMove d1 n1 d2 n2 fmt).get h with
        | some it => AMap.insert s.infos h (startInfo s.sid k it)
        | none => s.infos) x = _
      rw [tg h, if_pos rfl]
      simp only
      rw [AMap.get_insert]
      rfl

/-- A file was moved onto another file: the moved object is gone, the other one has its bytes. -/
theorem moves_onto {s : Server} (w : ServerOk s) (k : DiskFacts) (d1 : Nat) (n1 : Path) (d2 : Nat) (n2 : Path) (fmt : Nat) {h y : Nat}
    {it iy : Item} (he : Entry s d1 n1 h) (hit : s.tree.get h = some it) (hf : it.fmt ≠ ASSOC)
    (hy : Entry s d2 n2 y) (hiy : s.tree.get y = some iy) (hfy : iy.fmt ≠ ASSOC) (hne : h ≠ y) :
    let s1 : Server := { s with
      files := AMap.insert s.files (String.ofList iy.path) ((contents s h).getD [])
      dataFile := s.dataFile.map fun (e : String × Nat) => if e.1 = String.ofList iy.path then ("", e.2) else if e.1 = String.ofList it.path then (String.ofList iy.path, e.2) else e }
    ServerOk s1 ∧ ∃ t, TreeWF t ∧ Shrunk s.tree t ∧ t = s.tree.fsMove d1 n1 d2 n2 fmt ∧ s.moves k d1 n1 d2 n2 fmt = s1.dropGone t ∧
      t.evs = s.tree.evs ++ [.removed h] ∧ ∀ x, t.has x = true ↔ s.tree.has x = true ∧ x ≠ h := by
  intro s1
  have hne' : ¬ (d1 = d2 ∧ n1 = n2) := by rintro ⟨rfl, rfl⟩; exact hne (entry_unique w.wf he hy)
  have h0 : h ≠ 0 := by rintro rfl; exact entry_root w.wf he
  obtain ⟨i1, it', e1, e2, e3⟩ := id he
  rw [hit] at e2; cases e2
  obtain ⟨i2, iy', f1, f2, f3⟩ := id hy
  rw [hiy] at f2; cases f2
  have hpt := (entry_paths w.wf e1).mpr he
  have hpy := (entry_paths w.wf f1).mpr hy
  have hfile := file_of w hit hf
  have hfiley := file_of w hiy hfy
  obtain ⟨c, hc⟩ := Option.isSome_iff_exists.mp hfile
  have hcont : contents s h = some c := by unfold Spec.contents; rw [hit]; simp only; rw [if_neg hf]; exact hc
  have hkids : it.kids = [] := by
    cases hks : it.kids with
    | nil => rfl
    | cons x l =>
      obtain ⟨ci, c1, c2⟩ := w.wf.kids h it x hit (by rw [hks]; exact List.mem_cons_self)
      exact absurd (w.folders x ci h it c1 c2 hit) hf
  have w1 : ServerOk s1 := by
    have w2 := rewrite_ok w (String.ofList iy.path) hfiley ((contents s h).getD [])
    refine ⟨w2.wf, w2.issued, w2.root, w2.folders, w2.files, w2.known, ?_⟩
    intro p n e
    have e' : (s.dataFile.map fun (e : String × Nat) => if e.1 = String.ofList iy.path then ("", e.2) else if e.1 = String.ofList it.path then (String.ofList iy.path, e.2) else e) = some (p, n) := e
    cases hs : s.dataFile with
    | none => rw [hs] at e'; cases e'
    | some a =>
      obtain ⟨a, m⟩ := a
      rw [hs] at e'
      simp only [Option.map_some, Option.some.injEq] at e'
      split at e'
      · cases e'; exact Or.inl rfl
      · split at e'
        · cases e'
          right
          show (AMap.get (AMap.insert s.files _ _) _).isSome = true
          rw [AMap.get_insert, if_pos rfl]; rfl
        · cases e'
          exact w2.openFile p n hs
  have ht : s.tree.fsMove d1 n1 d2 n2 fmt = (s.tree.del s.tree.delFuel h false true).1 := by
    unfold Tree.fsMove
    rw [if_neg hne', e1, f1]
    simp only
    rw [hpt]
    simp only [Option.getD_some]
    rw [if_neg h0, hit]
    simp only
    rw [if_pos (by rw [hpy]; rfl)]
  refine ⟨w1, s.tree.fsMove d1 n1 d2 n2 fmt, by rw [ht]; exact del_wf w.wf _ _ _ _, by rw [ht]; exact del_shrunk w.wf _ _ _ _, rfl, ?_, ?_⟩
  · unfold moves
    rw [if_neg hne', e1, f1]
    simp only
    rw [hpt]
    simp only
    rw [if_pos (by rw [hpy]; rfl), ← e3, ← f3, hc]
    show Server.dropGone _ _ = Server.dropGone s1 _
    show _ = Server.dropGone { s with
      files := AMap.insert s.files (String.ofList iy.path) ((contents s h).getD [])
      dataFile := _ } _
    rw [hcont]
    rfl
  · rw [ht]
    obtain ⟨m, hm⟩ : ∃ m, s.tree.delFuel = m + 1 := ⟨s.tree.delFuel - 1, by unfold Tree.delFuel; omega⟩
    rw [hm]
    exact Props.del_leaf w.wf hit h0 hkids m

theorem vanishes_tree (s : Server) (w : TreeWF s.tree) (d : Nat) (n : Path) :
    TreeWF (s.tree.fsDelete d n) ∧ Shrunk s.tree (s.tree.fsDelete d n) := by
  unfold Tree.fsDelete
  split
  · exact ⟨w, Shrunk.refl w⟩
  · split
    · exact ⟨w, Shrunk.refl w⟩
    · exact ⟨del_wf w _ _ _ _, del_shrunk w _ _ _ _⟩

theorem here_asked (s : Server) (k : DiskFacts) (c : DiskEdit) : s.tree.asked ≤ (s.here k c).tree.asked := by
  cases c with
  | appears d n disk => exact step_asked s.tree (.fsCreate d n disk)
  | vanishes d n => exact step_asked s.tree (.fsDelete d n)
  | written d n fmt =>
    show _ ≤ (s.overwritten k d n fmt).tree.asked
    unfold overwritten refresh
    split
    · exact Nat.le_refl _
    · split
      · exact Nat.le_refl _
      · simp only
        split
        · split
          · exact Nat.le_refl _
          · exact Nat.le_of_eq (Tree.upd_asked _ _ _).symm
        · exact Nat.le_refl _
  | moves d1 n1 d2 n2 fmt =>
    have := step_asked s.tree (.fsMove d1 n1 d2 n2 fmt)
    show _ ≤ (s.moves k d1 n1 d2 n2 fmt).tree.asked
    unfold moves
    split
    · exact Nat.le_refl _
    · split
      · simp only
        split
        · exact Nat.le_refl _
        · split
          · exact this
          · exact this
      · exact Nat.le_refl _

theorem here_kept (s : Server) (k : DiskFacts) (c : DiskEdit) : (s.here k c).ios = s.ios ∧ (s.here k c).sid = s.sid := by
  cases c with
  | appears d n disk => exact ⟨rfl, rfl⟩
  | vanishes d n => exact ⟨rfl, rfl⟩
  | written d n fmt =>
    show (s.overwritten k d n fmt).ios = s.ios ∧ (s.overwritten k d n fmt).sid = s.sid
    unfold overwritten refresh
    split
    · exact ⟨rfl, rfl⟩
    · split
      · exact ⟨rfl, rfl⟩
      · simp only
        split
        · split <;> exact ⟨rfl, rfl⟩
        · exact ⟨rfl, rfl⟩
  | moves d1 n1 d2 n2 fmt =>
    show (s.moves k d1 n1 d2 n2 fmt).ios = s.ios ∧ (s.moves k d1 n1 d2 n2 fmt).sid = s.sid
    unfold moves
    split
    · exact ⟨rfl, rfl⟩
    · split
      · simp only
        split
        · exact ⟨rfl, rfl⟩
        · split <;> exact ⟨rfl, rfl⟩
      · exact ⟨rfl, rfl⟩

theorem moves_self {s : Server} (k : DiskFacts) (d : Nat) (n : Path) (fmt : Nat) : s.moves k d n d n fmt = s := by
  unfold moves
  rw [if_pos ⟨rfl, rfl⟩]

/-- A possible change leaves objects and disk in agreement, and the objects it does not concern as they were. -/
theorem here_safe {s : Server} (w : ServerOk s) (k : DiskFacts) (c : DiskEdit) (hp : Possible s k c)
    (hb : (s.here k c).tree.asked < 0xFFFFFFFF) :
    ServerOk (s.here k c) ∧ ∀ x, x ≠ 0 → s.tree.has x = true → Unconcerned s x c → Safe x s (s.here k c) := by
  cases c with
  | appears d n disk =>
    obtain ⟨⟨dit, hd, hdf⟩, hn, dk, du⟩ := hp
    show ServerOk (s.appears k d n disk) ∧ _
    change (s.appears k d n disk).tree.asked < _ at hb
    cases hf : AMap.get s.tree.paths (join dit.path n) with
    | some y =>
      have := (appears_known s k d n disk w.wf hd (by rw [hf]; rfl)).1
      refine ⟨by rw [this]; exact w, fun x _ _ _ => ?_⟩
      show Safe x s (s.appears k d n disk)
      rw [this]; exact Safe.refl x s
    | none =>
      have a := appears_new s k d n disk w.wf w.issued hd hn dk du hf hb
      exact ⟨a.ok w hd hdf hn dk, fun x _ hx _ => (a.safe hx).1⟩
  | vanishes d n =>
    obtain ⟨h1, h2⟩ := vanishes_tree s w.wf d n
    refine ⟨(dropGone_ok w h1 h2).1, fun x h0 hx hc => dropGone_safe w h1 h2 h0 ?_⟩
    unfold Tree.fsDelete
    cases hd : s.tree.get d with
    | none => exact hx
    | some dit =>
      simp only
      cases hh : AMap.get s.tree.paths (join dit.path n) with
      | none => exact hx
      | some h => exact del_keeps w.wf _ _ _ _ hx (hc h ((entry_paths w.wf hd).mp hh))
  | written d n fmt =>
    obtain ⟨hfmt, hp⟩ := hp
    show ServerOk (s.overwritten k d n fmt) ∧ ∀ x, _ → _ → _ → Safe x s (s.overwritten k d n fmt)
    by_cases hex : ∃ h, Entry s d n h
    · obtain ⟨h, he⟩ := hex
      obtain ⟨dit, it, e1, e2, e3⟩ := id he
      obtain ⟨w1, hc⟩ := written_cases w k d n fmt he e2 (hp h it he e2) hfmt
      have s1 : ∀ x, x ≠ h → Safe x s { s with files := AMap.insert s.files (String.ofList it.path) (k.bytes it.path) } := by
        intro x hx
        refine ⟨fun ix e => ⟨ix, e, rfl⟩, id, fun _ => ?_, rfl⟩
        unfold Spec.contents
        simp only
        cases e : s.tree.get x with
        | none => rfl
        | some ix =>
          simp only
          rw [AMap.get_insert, if_neg (fun h' => hx (w.wf.inj e e2 (ofList_inj h')))]
      rcases hc with ⟨_, hc⟩ | ⟨_, R⟩
      · rw [hc]
        exact ⟨w1, fun x _ _ hu => s1 x (fun h => hu (h ▸ he))⟩
      · exact ⟨R.ok w1, fun x _ _ hu => (s1 x (fun h => hu (h ▸ he))).trans (R.safe (fun h => hu (h ▸ he)))⟩
    · rw [written_unknown w.wf k d n fmt (fun h he => hex ⟨h, he⟩)]
      exact ⟨w, fun x _ _ _ => Safe.refl x s⟩
  | moves d1 n1 d2 n2 fmt =>
    obtain ⟨hn1, hn2, ⟨dit, hd2, hdf⟩, hp⟩ := hp
    show ServerOk (s.moves k d1 n1 d2 n2 fmt) ∧ ∀ x, _ → _ → _ → Safe x s (s.moves k d1 n1 d2 n2 fmt)
    by_cases hex : ∃ h, Entry s d1 n1 h
    · obtain ⟨h, he⟩ := hex
      obtain ⟨_, it, e1, e2, e3⟩ := id he
      obtain ⟨hk, _, hc⟩ := hp h it dit he e2 hd2
      rcases hc with ⟨y, iy, hy, f2, hfy, hf⟩ | ⟨hfree, hsame, hnb⟩
      · by_cases hhy : h = y
        · by_cases hs : d1 = d2 ∧ n1 = n2
          · obtain ⟨rfl, rfl⟩ := hs
            rw [moves_self]
            exact ⟨w, fun x _ _ _ => Safe.refl x s⟩
          · exfalso
            subst hhy
            obtain ⟨i1, a, a1, a2, a3⟩ := he
            obtain ⟨i2, b, b1, b2, b3⟩ := hy
            rw [a2] at b2; cases b2
            have := join_inj (a3.symm.trans b3) hn1 hn2
            exact hs ⟨w.wf.inj a1 b1 this.1, this.2⟩
        · obtain ⟨w1, t, h1, h2, _, h3, _, h4⟩ := moves_onto w k d1 n1 d2 n2 fmt he e2 hf hy f2 hfy hhy
          rw [h3]
          refine ⟨(dropGone_ok w1 h1 h2).1, fun x h0 hx hu => Safe.trans ?_ (dropGone_safe w1 h1 h2 h0 ((h4 x).mpr ⟨hx, fun e => hu.1 (e ▸ he)⟩))⟩
          have hxy : x ≠ y := fun e => hu.2 (e ▸ hy)
          refine ⟨fun ix e => ⟨ix, e, rfl⟩, fun ha ix p m e hf' hdd => ?_, fun _ => ?_, rfl⟩
          · have e : s.tree.get x = some ix := e
            have hdd : (s.dataFile.map fun (e : String × Nat) => if e.1 = String.ofList iy.path then ("", e.2) else if e.1 = String.ofList it.path then (String.ofList iy.path, e.2) else e) = some (p, m) := hdd
            cases hs : s.dataFile with
            | none => rw [hs] at hdd; cases hdd
            | some a =>
              obtain ⟨a, m'⟩ := a
              rw [hs] at hdd
              simp only [Option.map_some, Option.some.injEq] at hdd
              split at hdd
              · cases hdd; exact (path_nonempty w.wf e h0).symm
              · split at hdd
                · cases hdd
                  exact fun h' => hxy (w.wf.inj e f2 (ofList_inj h'.symm))
                · cases hdd
                  exact ha ix p m e hf' hs
          · unfold Spec.contents
            simp only
            cases e : s.tree.get x with
            | none => rfl
            | some ix =>
              simp only
              rw [AMap.get_insert, if_neg (fun h' => hxy (w.wf.inj e f2 (ofList_inj h')))]
      · obtain ⟨s1, it1, m, _, _, _, _, _, _, R⟩ := moves_free w k d1 n1 d2 n2 fmt hn1 hn2 he e2 hd2 hdf hk hfree hsame hnb
        exact ⟨R.ok (m.ok w), fun x h0 _ hu => (m.safe w h0).trans (R.safe (fun h => hu.1 (h ▸ he)))⟩
    · rw [moves_unknown w.wf k d1 n1 d2 n2 fmt (fun h he => hex ⟨h, he⟩)]
      exact ⟨w, fun x _ _ _ => Safe.refl x s⟩

theorem here_later (s : Server) (k : DiskFacts) (c : DiskEdit) (hp : Possible s k c) : Later s (s.here k c) :=
  ⟨here_asked s k c, fun w hb => (here_safe w k c hp hb).1⟩

theorem here_survives (s : Server) (k : DiskFacts) (c : DiskEdit) (hp : Possible s k c) {x : Nat} (h0 : x ≠ 0) (hu : Unconcerned s x c) :
    Survives x s (s.here k c) :=
  ⟨here_later s k c hp, (here_kept s k c).1, (here_kept s k c).2, fun w hb hx => (here_safe w k c hp hb).2 x h0 hx hu⟩

/-- The event of a change as the host gets it. -/
def evOut : TEvent → Out
  | .added h => .event 0x4002 0xFFFFFFFF [h]
  | .removed h => .event 0x4003 0xFFFFFFFF [h]
  | .infoChanged h => .event 0x4007 0xFFFFFFFF [h]

/-- The host gets to know of it. -/
def heardBy (e : Server → Nat → Bool) (d : Server) : TEvent → Bool
  | .added _ => true
  | .removed h | .infoChanged h => decide (h = 0 ∨ h = 0xFFFFFFFF) || e d h

theorem notify_run (e : Server → Nat → Bool) (l : List TEvent) : ∀ (r : Rsp Server), r.st ≠ .suspend →
    r.run { dev with eventsOn := e } (l.map eventIn) = .ok { r with out := r.out ++ (l.filter (heardBy e r.dev)).map evOut } := by
  induction l with
  | nil => intro r _; simp [Rsp.run]
  | cons a l ih =>
    intro r hr
    have step : r.step { dev with eventsOn := e } (eventIn a) =
        .ok { r with out := r.out ++ ([a].filter (heardBy e r.dev)).map evOut } := by
      have snd : ∀ c h, (r.send (.event c 0xFFFFFFFF [h])).1 = { r with out := r.out ++ [.event c 0xFFFFFFFF [h]] } := by
        intro c h
        unfold Rsp.send
        rw [if_neg (by simp [Out.isEvent]), if_neg hr, if_neg (by simp [Out.isResponse])]
        rfl
      cases a with
      | added h =>
        simp only [eventIn, Rsp.step, Rsp.notify]
        rw [if_neg (by simp), snd]
        rfl
      | removed h =>
        simp only [eventIn, Rsp.step, Rsp.notify, Rsp.listening]
        by_cases h0 : h = 0 ∨ h = 0xFFFFFFFF
        · simp [Rsp.EV_ADDED, Rsp.EV_REMOVED, Rsp.EV_INFO, Rsp.EV_PROP, heardBy, h0, snd, evOut]
        · cases he : e r.dev h <;>
            simp [Rsp.EV_ADDED, Rsp.EV_REMOVED, Rsp.EV_INFO, Rsp.EV_PROP, heardBy, h0, snd, evOut, he]
      | infoChanged h =>
        simp only [eventIn, Rsp.step, Rsp.notify, Rsp.listening]
        by_cases h0 : h = 0 ∨ h = 0xFFFFFFFF
        · simp [Rsp.EV_ADDED, Rsp.EV_REMOVED, Rsp.EV_INFO, Rsp.EV_PROP, heardBy, h0, snd, evOut]
        · cases he : e r.dev h <;>
            simp [Rsp.EV_ADDED, Rsp.EV_REMOVED, Rsp.EV_INFO, Rsp.EV_PROP, heardBy, h0, snd, evOut, he]
    rw [List.map_cons, Rsp.run, step, Res.bind_ok, ih _ (by exact hr)]
    congr 1
    rw [List.append_assoc, ← List.map_append, ← List.filter_append]
    rfl

/-- What the responder does when such a change happens. -/
theorem occurs_run (e : Server → Nat → Bool) (r : Rsp Server) (hr : r.st ≠ .suspend) (k : DiskFacts) (c : DiskEdit) :
    r.run { dev with eventsOn := e } (r.dev.occurs k c) =
      .ok { r with dev := r.dev.here k c, out := r.out ++ ((r.dev.hereEvents k c).filter (heardBy e (r.dev.here k c))).map evOut } := by
  unfold occurs
  rw [Rsp.run]
  simp only [Rsp.step, Res.bind_ok]
  exact notify_run e _ _ hr

end Server
end Mtp
