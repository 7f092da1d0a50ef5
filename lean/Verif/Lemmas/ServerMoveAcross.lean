import Verif.Model.ServerMoveAcross
import Verif.Lemmas.ServerCopiedX
import Verif.Lemmas.CopyRun
/-! What MoveObject does to the storage the object comes to. -/
namespace Mtp
open Spec
namespace Server

private theorem add_known_as {t : Tree} {path : Path} {i : Tree.Info} {f h keep : Nat}
    (hk : AMap.get t.paths path = some h) (hh : t.has h = true) :
    t.add path (.node none f []) (some i) false true keep = (t, none, .accessDenied) ∨
    t.add path (.node none f []) (some i) false true keep = (t, some h, .ok) := by
  rw [Tree.add.eq_def]
  simp only [Tree.addOne, hk, Option.isSome_some, if_true]
  by_cases hr : t.refused path none = true
  · left; simp [hr]
  · right; simp [hr, Tree.findByPath, hk, hh]

private theorem fs_refused_as {t : Tree} {path : Path} {i : Tree.Info} {f y keep : Nat} {t1 : Tree}
    (hk : AMap.get t.paths path = none)
    (h : (grant t false).add path (.node none f []) (some i) false true keep = (t1, some y, .ok)) : False := by
  have hk : AMap.get (grant t false).paths path = none := hk
  rw [Tree.add.eq_def] at h
  simp only [Tree.addOne, hk, Option.isSome_none, Bool.false_eq_true, if_false] at h
  by_cases hr : (grant t false).refused path none = true
  · simp [hr] at h
  · have hf : ∀ u : Tree, u.fs = (grant t false).fs → (u.tryCreate true).1 = false := by
      intro u hu
      show u.fs u.tick = false
      rw [hu]
      simp [grant]
    have hp : ((grant t false).pickHandle path keep).2.fs = (grant t false).fs := by
      unfold Tree.pickHandle Tree.newHandle
      split
      · rfl
      · split <;> rfl
    have := hf _ hp
    simp only [hr, Bool.false_eq_true, if_false, this, if_true] at h
    simp only [Prod.mk.injEq] at h
    split at h
    · simp at h
    · simp at h

/-- An object that brings its handle uses up none. -/
theorem add_keep_asked (t : Tree) (path : Path) (f : Nat) (i : Option Tree.Info) {keep : Nat} (hk0 : keep ≠ 0) :
    (t.add path (.node none f []) i false true keep).1.asked = t.asked := by
  have h1 : (t.addOne path none f i true keep).1.asked = t.asked := by
    cases hr : t.refused path none with
    | true => unfold Tree.addOne; rw [hr]; simp
    | false =>
      cases hk : AMap.get t.paths path with
      | some k => unfold Tree.addOne; rw [hr, hk]; simp
      | none =>
        rw [(addOne_asked t path none f i true keep).2 hr hk]
        unfold Tree.pickHandle
        split
        · rfl
        · rfl
  rw [Tree.add.eq_def]
  dsimp only
  split
  · next e =>
    rw [e] at h1
    show (Tree.emit _ _ _).asked = _
    rw [(Tree.emit_eq _ _ _).2.2.2.1]
    split
    · rw [Tree.addAll]; exact h1
    · exact h1
  · next e => rw [e] at h1; exact h1

/-- What else stays. -/
structure Env (s s' : Server) : Prop where
  sid : s'.sid = s.sid
  fmts : s'.fmts = s.fmts
  ios : s'.ios = s.ios
  room : s'.room = s.room
  times : s'.times = s.times
  asked : s'.tree.asked = s.tree.asked
  fs : s'.tree.fs = s.tree.fs

theorem Env.refl (s : Server) : Env s s := ⟨rfl, rfl, rfl, rfl, rfl, rfl, rfl⟩

theorem Env.trans {a b c : Server} (h1 : Env a b) (h2 : Env b c) : Env a c :=
  ⟨h2.sid.trans h1.sid, h2.fmts.trans h1.fmts, h2.ios.trans h1.ios, h2.room.trans h1.room, h2.times.trans h1.times,
    h2.asked.trans h1.asked, h2.fs.trans h1.fs⟩

/-- What creating an object with a given handle does. -/
theorem adopt_cases {s : Server} (w : ServerOk s) (o : ObjInfo) {p h : Nat} {pit : Item} (hp : s.tree.get p = some pit)
    (hn : '/' ∉ toPath o.fileName) (h0 : h ≠ 0) (hh : s.tree.get h = none) (hl : h ≤ s.tree.asked) (hb : s.tree.asked < 0xFFFFFFFF)
    {s' : Server} {r : Resp} (e : s.adopt o p h = (s', r)) :
    Env s s' ∧
    ((Quiet s s' ∧ (r = .ok → ∃ y, AMap.get s.tree.paths (join pit.path (toPath o.fileName)) = some y)) ∨
     (r = .ok ∧ Born s s' p o h ∧ Made s.tree p pit (toPath o.fileName) o.format h s'.tree)) ∧
    (pit.fmt = ASSOC → AMap.get s.tree.paths (join pit.path (toPath o.fileName)) = none →
      join pit.path (toPath o.fileName) ∉ s.tree.excl → s.tree.fs s.tree.tick = true → r = .ok) := by
  unfold adopt at e
  simp only [hp] at e
  generalize hbp : decide (pit.fmt = ASSOC) = b at e
  cases hk : AMap.get s.tree.paths (join pit.path (toPath o.fileName)) with
  | some k =>
    obtain ⟨ki, k1, _⟩ := w.wf.ofPath _ _ hk
    have hhk : s.tree.has k = true := has_iff.mpr ⟨ki, k1⟩
    rcases add_known_as (t := grant s.tree b) (path := join pit.path (toPath o.fileName))
      (i := ⟨toPath o.fileName, o.format, p⟩) (f := o.format) (keep := h) hk hhk with ha | ha
    · rw [ha] at e
      simp only at e
      cases e
      exact ⟨⟨rfl, rfl, rfl, rfl, rfl, rfl, rfl⟩, Or.inl ⟨⟨rfl, rfl, rfl, rfl, Nat.le_refl _, rfl, rfl, rfl, rfl⟩, fun h => by cases h⟩,
        fun _ h => by cases h⟩
    · rw [ha] at e
      simp only [hhk, if_true] at e
      cases e
      exact ⟨⟨rfl, rfl, rfl, rfl, rfl, rfl, rfl⟩, Or.inl ⟨⟨rfl, rfl, rfl, rfl, Nat.le_refl _, rfl, rfl, rfl, rfl⟩, fun _ => ⟨k, rfl⟩⟩,
        fun _ h => by cases h⟩
  | none =>
    have hask : ((grant s.tree b).add (join pit.path (toPath o.fileName)) (.node none o.format [])
      (some ⟨toPath o.fileName, o.format, p⟩) false true h).1.asked = s.tree.asked := add_keep_asked _ _ _ _ h0
    generalize ha : (grant s.tree b).add (join pit.path (toPath o.fileName)) (.node none o.format [])
      (some ⟨toPath o.fileName, o.format, p⟩) false true h = a at e hask
    obtain ⟨t1, oy, r1⟩ := a
    simp only at hask
    obtain ⟨m1, m2, m3, m4⟩ := add_made (it := ⟨[], toPath o.fileName, o.format, 0, none, [], 0⟩)
      (grant_wf w.wf b) (show Issued (grant s.tree b) from w.issued) hp hn (fun _ => ⟨hh, hl⟩) hk ha (hask ▸ hb)
    have hgr : pit.fmt = ASSOC → join pit.path (toPath o.fileName) ∉ s.tree.excl → s.tree.fs s.tree.tick = true → r1 = .ok := by
      intro g1 g2 g3
      refine m4 g2 ?_
      show (s.tree.fs s.tree.tick && b) = true
      rw [g3, ← hbp, g1]; simp
    by_cases hr : r1 = .ok
    · subst hr
      obtain ⟨y, e1, m, hyk, _⟩ := m1 rfl
      have := hyk h0
      subst this
      subst e1
      obtain ⟨v, hget⟩ := m.get
      simp only [has_false.mpr hh, Bool.false_eq_true, if_false] at e
      have hf : b = true := by
        cases hbb : b with
        | true => rfl
        | false => rw [hbb] at ha; exact (fs_refused_as hk ha).elim
      have hpf : pit.fmt = ASSOC := by rw [hf] at hbp; simpa using hbp
      cases e
      have hfs : t1.fs = s.tree.fs := by rw [m.fs, hf, grant_true]
      have htree : ({ t1 with fs := s.tree.fs } : Tree) = t1 := by rw [← hfs]
      refine ⟨⟨rfl, rfl, rfl, rfl, rfl, hask, rfl⟩, Or.inr ⟨rfl, ⟨rfl, m.fresh, ⟨pit, hp, hpf, hk, ⟨v, hget⟩, rfl⟩, rfl, rfl, rfl, ?_,
        m.issued, rfl, ?_⟩, ?_⟩, fun _ _ _ _ => rfl⟩
      · exact WF_congr m.wf rfl rfl rfl
      · unfold ALL; omega
      · show Made s.tree p pit _ _ y ({ t1 with fs := s.tree.fs } : Tree)
        rw [htree]
        rw [hf, grant_true] at m
        exact m
    · obtain ⟨e1, e2, e3, e4⟩ := m2 hr
      subst e1
      have : (s', r) = ({ s with tree := { t1 with fs := s.tree.fs } }.tickCall, r1) := by rw [← e]
      cases this
      exact ⟨⟨rfl, rfl, rfl, rfl, rfl, hask, rfl⟩, Or.inl ⟨⟨rfl, e2, e3, e4, m3, rfl, rfl, rfl, rfl⟩, fun h => absurd h hr⟩,
        fun a _ b c => hgr a b c⟩

/-- Copying contents to object `y` touches nothing else. -/
theorem fromLoop_filled {a : Server} {x y : Nat} {iy : Item} : ∀ (n : Nat) (s : Server) (off rem : Nat), ServerOk s →
    s.tree.get y = some iy → (off ≠ 0 → Mine s y) → Filled s (fromLoop a false x y n s off rem).1 y ∧
      (fromLoop a false x y n s off rem).1.fmts = s.fmts := by
  intro n
  induction n with
  | zero => intro s off rem w _ _; exact ⟨Filled.refl w y, rfl⟩
  | succ n ih =>
    intro s off rem w hy hm
    rw [fromLoop]
    by_cases hr : rem = 0
    · rw [if_pos hr]; exact ⟨Filled.refl w y, rfl⟩
    rw [if_neg hr]
    simp only
    generalize (if rem ≥ COPY_CHUNK then COPY_CHUNK else rem) = len
    generalize a.view.readData (a.ios s.calls 0) x len off = d
    rw [if_neg (by simp)]
    have w1 := tick_ok w
    have hy1 : s.tickCall.tree.get y = some iy := hy
    by_cases hd : d.1 = .ok
    · rw [if_neg (by simp [hd])]
      have e1 : Edited s.tickCall (s.tickCall.write y (some d.2) (decide (off = 0)) false).1 y := by
        by_cases ho : off = 0
        · rw [show decide (off = 0) = true by simp [ho]]
          exact write_first_edited w1 hy1 d.2 false
        · rw [show decide (off = 0) = false by simp [ho]]
          exact write_edited w1 hy1 (some d.2) false false (hm ho)
      have hroom := write_room s.tickCall y (some d.2) (decide (off = 0)) false
      generalize s.tickCall.write y (some d.2) (decide (off = 0)) false = S at *
      obtain ⟨S1, R1⟩ := S
      simp only at e1 hroom ⊢
      have F1 : Filled s S1 y := (tick_filled w y).trans (e1.filled hroom)
      have hyS : S1.tree.get y = some iy := by rw [F1.tree]; exact hy
      have f1 : S1.fmts = s.fmts := e1.fmts
      split
      · have e2 := write_edited F1.ok hyS none false true e1.mine
        have hroom2 := write_room S1 y none false true
        exact ⟨F1.trans (e2.filled hroom2), e2.fmts.trans f1⟩
      · split
        · exact ⟨F1, f1⟩
        · obtain ⟨g1, g2⟩ := ih S1 (u32 (off + len)) (rem - len) F1.ok hyS (fun _ => e1.mine)
          exact ⟨F1.trans g1, g2.trans f1⟩
    · rw [if_pos hd]
      exact ⟨tick_filled w y, rfl⟩

theorem fromData_filled {a s : Server} (w : ServerOk s) {x y : Nat} {iy : Item} (hy : s.tree.get y = some iy) :
    Filled s (fromData a s false x y).1 y ∧ (fromData a s false x y).1.fmts = s.fmts := by
  unfold fromData
  split
  · exact ⟨Filled.refl w y, rfl⟩
  · exact fromLoop_filled _ _ _ _ w hy (fun h => absurd rfl h)

/-- What is below an object. -/
theorem below_cases {t : Tree} (w : TreeWF t) {h x : Nat} {it : Item} (e : t.get h = some it) (hx : Below t h x) :
    x = h ∨ ∃ k ∈ it.kids, Below t k x := by
  induction hx with
  | self => exact Or.inl rfl
  | @child x q xi g1 g2 _ ih =>
    right
    rcases ih with rfl | ⟨k, hk, hb⟩
    · have hx0 : x ≠ 0 := by
        rintro rfl
        obtain ⟨r, r1, _, r3⟩ := w.root
        rw [r1] at g1; cases g1; rw [r3] at g2; cases g2
      obtain ⟨p, pi, a1, _, a3, a4, _⟩ := w.parent x xi g1 hx0
      rw [g2] at a1; cases a1
      rw [e] at a3; cases a3
      exact ⟨x, List.count_pos_iff.mp (by rw [a4]; exact Nat.one_pos), .self⟩
    · exact ⟨k, hk, .child g1 g2 hb⟩

theorem below_leaf {t : Tree} (w : TreeWF t) {h x : Nat} {it : Item} (e : t.get h = some it) (hk : it.kids = []) (hx : Below t h x) :
    x = h := by
  rcases below_cases w e hx with h | ⟨k, h, _⟩
  · exact h
  · rw [hk] at h; cases h

/-- Objects came to the storage, and what was there is as before. -/
structure Grown (s s' : Server) : Prop where
  ok : ServerOk s'
  env : Env s s'
  old : ∀ z, s.tree.has z = true → s'.tree.has z = true ∧ contents s' z = contents s z ∧ s'.infoOf z = s.infoOf z

theorem Grown.refl {s : Server} (w : ServerOk s) : Grown s s := ⟨w, Env.refl s, fun _ h => ⟨h, rfl, rfl⟩⟩

theorem Grown.trans {a b c : Server} (h1 : Grown a b) (h2 : Grown b c) : Grown a c := by
  refine ⟨h2.ok, h1.env.trans h2.env, fun z hz => ?_⟩
  obtain ⟨a1, a2, a3⟩ := h1.old z hz
  obtain ⟨b1, b2, b3⟩ := h2.old z a1
  exact ⟨b1, b2.trans a2, b3.trans a3⟩

theorem Quiet.grown {s s' : Server} (q : Quiet s s') (w : ServerOk s) (e : Env s s') : Grown s s' := by
  refine ⟨?_, e, fun z hz => ⟨?_, ?_⟩⟩
  · refine ⟨WF_congr w.wf q.items q.paths q.rootPath, fun h it g => ?_, fun r g => w.root r (q.get _ ▸ g), fun h it p pit g1 g2 g3 =>
      w.folders h it p pit (q.get _ ▸ g1) g2 (q.get _ ▸ g3), fun p => ?_, fun h => ?_, fun p n g => ?_⟩
    · rw [q.get] at g; rw [e.asked]; exact w.issued h it g
    · rw [q.files, w.files p]; simp only [q.get]
    · rw [q.infos, w.known h]; unfold Tree.has; rw [q.get]
    · rw [q.files]; rw [q.dataFile] at g; exact w.openFile p n g
  · unfold Tree.has; rw [q.get]; exact hz
  · unfold Spec.contents Server.infoOf
    rw [q.get, q.files, q.infos]
    exact ⟨rfl, rfl⟩

theorem Born.has {s s' : Server} {p : Nat} {o : ObjInfo} {y : Nat} (n : Born s s' p o y) {x : Nat} (hx : s.tree.has x = true) :
    s'.tree.has x = true := by
  obtain ⟨pit, hp, _, _, ⟨v, hget⟩, _⟩ := n.parent
  obtain ⟨ix, e⟩ := has_iff.mp hx
  have hxy : x ≠ y := by rintro rfl; rw [n.fresh] at e; cases e
  rw [has_iff, hget, if_neg hxy]
  split
  · exact ⟨_, rfl⟩
  · exact ⟨ix, e⟩

theorem Born.grown {s s' : Server} {p : Nat} {o : ObjInfo} {y : Nat} (n : Born s s' p o y) (w : ServerOk s) (e : Env s s') : Grown s s' := by
  refine ⟨n.ok w, e, fun z hz => ⟨n.has hz, n.old w z ?_⟩⟩
  rintro rfl
  rw [has_iff] at hz
  obtain ⟨i, h⟩ := hz
  rw [n.fresh] at h; cases h

/-- After the object that was not there before. -/
theorem Filled.grown {s s1 s2 : Server} {y : Nat} (g : Grown s s1) (f : Filled s1 s2 y) (hf : s2.fmts = s1.fmts)
    (hy : s.tree.has y = false) : Grown s s2 := by
  refine ⟨f.ok, g.env.trans ⟨f.sid, hf, f.ios, f.room, f.times, by rw [f.tree], by rw [f.tree]⟩, fun z hz => ?_⟩
  have hzy : z ≠ y := by rintro rfl; rw [hy] at hz; cases hz
  obtain ⟨a1, a2, a3⟩ := g.old z hz
  obtain ⟨b1, b2⟩ := f.other z hzy
  exact ⟨by rw [f.tree]; exact a1, b1.trans a2, b2.trans a3⟩

/-- Whatever happens, the storage stays in order and keeps what it had; and if the system refuses neither reading nor writing, files come
over completely or the answer is not OK. -/
def Adopts (a : Server) (B : Nat → Prop) (f : Server → Nat → Server × Resp × Nat) : Prop :=
  ∀ (s : Server) (k : Nat), B k → ServerOk s → s.tree.asked < 0xFFFFFFFF → (∀ x, B x → x ≠ 0 ∧ x ≤ s.tree.asked) →
    Grown s (f s k).1 ∧ (Willing a → Willing s → (f s k).2.1 = .ok →
      ∀ x c, Below a.tree k x → Holds a x c → c.length < 2 ^ 32 → contents (f s k).1 x = some c)

theorem willing_env {s s' : Server} (e : Env s s') (h : Willing s) : Willing s' := by unfold Willing; rw [e.ios]; exact h

theorem adopts_kids {a : Server} {B : Nat → Prop} {f : Server → Nat → Server × Resp × Nat} (hf : Adopts a B f) :
    ∀ (ks : List Nat) (s : Server), (∀ k ∈ ks, B k) → ServerOk s → s.tree.asked < 0xFFFFFFFF →
      (∀ x, B x → x ≠ 0 ∧ x ≤ s.tree.asked) → Grown s (copyKids f ks s).1 ∧ (Willing a → Willing s → (copyKids f ks s).2 = .ok →
        ∀ k ∈ ks, ∀ x c, Below a.tree k x → Holds a x c → c.length < 2 ^ 32 → contents (copyKids f ks s).1 x = some c) := by
  intro ks
  induction ks with
  | nil => intro s _ w _ _; exact ⟨Grown.refl w, fun _ _ _ k hk => absurd hk (List.not_mem_nil)⟩
  | cons k ks ih =>
    intro s hB w hb hN
    obtain ⟨g1, g2⟩ := hf s k (hB k List.mem_cons_self) w hb hN
    unfold copyKids
    by_cases hr : (f s k).2.1 = .ok
    · rw [if_pos hr]
      obtain ⟨h1, h2⟩ := ih (f s k).1 (fun k' hk' => hB k' (List.mem_cons_of_mem _ hk')) g1.ok (by rw [g1.env.asked]; exact hb)
        (by rw [g1.env.asked]; exact hN)
      refine ⟨g1.trans h1, fun wa ws hok k' hk' x c hx hc hl => ?_⟩
      rcases List.mem_cons.mp hk' with rfl | hk'
      · have e := g2 wa ws hr x c hx hc hl
        have hh : (f s k').1.tree.has x = true := by
          unfold contents at e
          cases e1 : (f s k').1.tree.get x with
          | none => rw [e1] at e; cases e
          | some i => exact has_iff.mpr ⟨i, e1⟩
        rw [(h1.old x hh).2.1]; exact e
      · exact h2 wa (willing_env g1.env ws) hok k' hk' x c hx hc hl
    · rw [if_neg hr]
      exact ⟨g1, fun _ _ h => absurd h hr⟩

theorem adoptTo_adopts {a : Server} (wa : ServerOk a) {B : Nat → Prop}
    (closed : ∀ x ix k, B x → a.tree.get x = some ix → k ∈ ix.kids → B k) (n : Nat) : ∀ (par : Nat),
    Adopts a B (fun s k => adoptTo a n s k par) := by
  induction n with
  | zero => intro par s k _ w _ _; exact ⟨Grown.refl w, fun _ _ h => by cases h⟩
  | succ n ih =>
    intro par s h hB w hb hN
    obtain ⟨h0, hl⟩ := hN h hB
    dsimp only
    rw [adoptTo]
    by_cases hhas : s.tree.has h = true
    · rw [if_pos hhas]; exact ⟨Grown.refl w, fun _ _ h => by cases h⟩
    rw [if_neg hhas]
    have hnone : s.tree.get h = none := has_false.mp (by simpa using hhas)
    simp only
    generalize (if par = ALL then 0 else par) = p
    cases hp : s.tree.get p with
    | none => exact ⟨Grown.refl w, fun _ _ h => by cases h⟩
    | some pit =>
      cases hs : a.tree.get h with
      | none => exact ⟨Grown.refl w, fun _ _ h => by cases h⟩
      | some it =>
        simp only
        by_cases hi : (a.infoOf h).1 = .ok
        rotate_left
        · rw [if_pos hi]; exact ⟨Grown.refl w, fun _ _ h => by cases h⟩
        rw [if_neg (by simp [hi])]
        cases hcop : copyable it.name with
        | false => exact ⟨Grown.refl w, fun _ _ h => by cases h⟩
        | true =>
          rw [if_neg (by simp)]
          have hhA : h ≠ ALL := by unfold ALL; omega
          have hsl : '/' ∉ it.name := by
            obtain ⟨_, _, _, _, _, _, _, hname⟩ := wa.wf.parent h it hs h0
            exact hname
          have hkids : it.fmt = ASSOC → (a.tree.handles 0 h).2 = it.kids := fun hf => Cp.handles_kids wa.wf hs h0 hhA hf
          generalize hO : ({ (a.infoOf h).2 with parent := p } : ObjInfo) = O
          have hOn : toPath O.fileName = it.name := by
            rw [← hO]; show toPath (a.infoOf h).2.fileName = _; rw [info_name hi hs]; exact (copyable_name hcop).2
          have hfmt : O.format = it.fmt := by
            rw [← hO]
            show (a.infoOf h).2.format = _
            unfold infoOf at hi ⊢
            rw [hs] at hi ⊢
            cases hk : AMap.get a.infos h with
            | none => rw [hk] at hi; cases hi
            | some o => rfl
          cases hA : s.adopt O p h with
          | mk s1 r =>
            obtain ⟨ev, hc, _⟩ := adopt_cases w O hp (by rw [hOn]; exact hsl) h0 hnone hl hb hA
            simp only
            have G1 : Grown s s1 := by
              rcases hc with ⟨q, _⟩ | ⟨_, n, _⟩
              · exact q.grown w ev
              · exact n.grown w ev
            by_cases hr : r = .ok
            rotate_left
            · rw [if_neg hr]; exact ⟨G1, fun _ _ h => absurd h hr⟩
            rw [if_pos hr]
            have K := adopts_kids (ih h) it.kids s1 (fun k hk => closed h it k hB hs hk) G1.ok (by rw [ev.asked]; exact hb)
              (by rw [ev.asked]; exact hN)
            rcases hc with ⟨q, _⟩ | ⟨_, nb, mk⟩
            · -- the path is known
              have hn1 : s1.tree.get h = none := by rw [q.get]; exact hnone
              by_cases hf : it.fmt = ASSOC
              · simp only [if_pos hf, hkids hf]
                refine ⟨G1.trans K.1, fun _ _ hok x c hx hh _ => ?_⟩
                exfalso
                cases hks : it.kids with
                | cons k ks =>
                  rw [hks] at hok
                  unfold copyKids at hok
                  have : (adoptTo a n s1 k h).2.1 ≠ .ok := by
                    cases n with
                    | zero => rw [adoptTo]; simp
                    | succ n =>
                      rw [adoptTo]
                      split
                      · simp
                      · simp only [hn1]; simp
                  rw [if_neg this] at hok
                  exact this hok
                | nil =>
                  have hxh : x = h := by
                    exact below_leaf wa.wf hs hks hx
                  subst hxh
                  have := hh.contents
                  unfold contents at this
                  rw [hs] at this
                  simp only at this
                  rw [if_pos hf] at this
                  cases this
              · simp only [if_neg hf]
                have : fromData a s1 false h h = (s1, .invalidObjectHandle) := by
                  unfold fromData
                  rw [has_false.mpr hn1]
                  simp
                rw [this]
                exact ⟨G1, fun _ _ h => by cases h⟩
            · -- it was created
              obtain ⟨v, hg1⟩ := mk.get
              have hy : s1.tree.get h = some ⟨join pit.path it.name, it.name, it.fmt, p, some p, [], v⟩ := by
                rw [hg1, if_pos rfl, hOn, hfmt]
              by_cases hf : it.fmt = ASSOC
              · simp only [if_pos hf, hkids hf]
                refine ⟨G1.trans K.1, fun wla wls hok x c hx hh hlen => ?_⟩
                rcases below_cases wa.wf hs hx with rfl | ⟨k, hk, hkx⟩
                · have := hh.contents
                  unfold contents at this
                  rw [hs] at this
                  simp only at this
                  rw [if_pos hf] at this
                  cases this
                · exact K.2 wla (willing_env ev wls) hok k hk x c hkx hh hlen
              · simp only [if_neg hf]
                obtain ⟨F, Ff⟩ := fromData_filled (a := a) (x := h) G1.ok hy
                refine ⟨F.grown G1 Ff (has_false.mpr hnone), fun wla wls hok x c hx hh hlen => ?_⟩
                have hxh : x = h := below_leaf wa.wf hs (by
                  cases hks : it.kids with
                  | nil => rfl
                  | cons k ks => exact absurd (folders_only wa h it hs (by rw [hks]; simp)) hf) hx
                subst hxh
                obtain ⟨o, o1, o2⟩ := hh.told
                have hempty : c = [] → contents s1 x = some [] := by
                  rintro rfl
                  obtain ⟨pit', p1, _, _, _, p5⟩ := nb.parent
                  rw [hp] at p1; cases p1
                  unfold contents
                  rw [hy]
                  simp only
                  rw [if_neg hf, p5, if_neg (by rw [hfmt]; exact hf), hOn, AMap.get_insert, if_pos rfl]
                  unfold newFile
                  have : O.size = 0 := by rw [← hO]; show (a.infoOf x).2.size = 0; rw [o1]; exact o2
                  rw [this]
                  split <;> rfl
                obtain ⟨s2, e2, _, f3, _⟩ := fromData_done wla G1.ok (willing_env ev wls) hlen hh.contents
                  (by rw [size_info o1]; exact o2) hy hf hempty (o := s.kept O) (by rw [nb.infos, AMap.get_insert, if_pos rfl])
                rw [e2]
                exact f3

/-- The statement about a function moving one object to folder `p`. -/
def MoveOk (a s0 : Server) (B : Nat → Prop) (n : Nat) (f : Server → Nat → Server × Resp × Nat) (p : Nat) : Prop :=
  ∀ (s : Server) (h : Nat) (pit it : Item), B h → ServerOk s → Alike0 s0 s → s.tree.asked = s0.tree.asked →
    (∀ x, Below a.tree h x → s.tree.get x = none) →
    s.tree.get p = some pit → pit.fmt = ASSOC → a.tree.get h = some it → '/' ∉ it.name →
    AMap.get s.tree.paths (join pit.path it.name) = none →
    (∀ e ∈ s.tree.excl, ¬ Under (join pit.path it.name) e) →
    (∀ x ix, a.tree.get x = some ix → ix.path.length < n + it.path.length) →
    ∃ s' m, (f s h).1 = s' ∧ (f s h).2.1 = .ok ∧ Grafts a.tree s.tree p [h] s'.tree ((h, h) :: m) ∧ CarryX a s0 s s' ((h, h) :: m) ∧
      s'.tree.asked = s.tree.asked ∧ ∀ x y, (x, y) ∈ m → y = x

theorem moveKids_done {a s0 : Server} (w0 : ServerOk a) {B : Nat → Prop} {n p : Nat} {f : Server → Nat → Server × Resp × Nat}
    (hf : MoveOk a s0 B n f p) : ∀ (ks : List Nat) (s : Server) (pit : Item) (P : Path), (∀ k ∈ ks, B k) →
      ServerOk s → Alike0 s0 s → s.tree.asked = s0.tree.asked → (∀ k ∈ ks, ∀ x, Below a.tree k x → s.tree.get x = none) →
      s.tree.get p = some pit → pit.fmt = ASSOC → InDir a.tree P ks →
      (∀ k ∈ ks, ∀ ki, a.tree.get k = some ki → AMap.get s.tree.paths (join pit.path ki.name) = none) →
      (∀ k ∈ ks, ∀ ki, a.tree.get k = some ki → ∀ e ∈ s.tree.excl, ¬ Under (join pit.path ki.name) e) →
      (∀ x ix, a.tree.get x = some ix → ix.path.length < n + P.length + 1) →
      ∃ s' m, copyKids f ks s = (s', .ok) ∧ Grafts a.tree s.tree p ks s'.tree m ∧ CarryX a s0 s s' m ∧
        s'.tree.asked = s.tree.asked ∧ ∀ x y, (x, y) ∈ m → y = x := by
  intro ks
  induction ks with
  | nil =>
    intro s pit P _ w env _ _ _ _ _ _ _ _
    exact ⟨s, [], rfl, .nil _ _, ⟨w, env, fun x y xi hm => (nomatch hm), fun x y xi hm => (nomatch hm), fun _ _ => ⟨rfl, rfl⟩⟩, rfl,
      fun x y hm => (nomatch hm)⟩
  | cons k ks ih =>
    intro s pit P hB w env hask hnot hp hpf hd hfree hex hl
    obtain ⟨ki, k1, k2, k3⟩ := hd.2 k List.mem_cons_self
    obtain ⟨s1, m1, e, er, g1, d1, a1, id1⟩ := hf s k pit ki (hB k List.mem_cons_self) w env hask (hnot k List.mem_cons_self) hp hpf k1 k3
      (hfree k List.mem_cons_self ki k1) (hex k List.mem_cons_self ki k1) (fun x ix ex => by
        have := hl x ix ex
        rw [k2, join_length]; omega)
    have hd1 : InDir a.tree P [k] := ⟨by simp, fun k' hk' => by
      rw [List.mem_singleton] at hk'; subst hk'; exact ⟨ki, k1, k2, k3⟩⟩
    have hd2 : InDir a.tree P ks := ⟨(List.nodup_cons.mp hd.1).2, fun k' hk' => hd.2 k' (List.mem_cons_of_mem _ hk')⟩
    have G := grafts_spec w0.wf (folders_only w0) g1 pit P w.wf w.issued hp hd1
    obtain ⟨l, hp1⟩ := G.par
    have hid1 : ∀ x y, (x, y) ∈ (k, k) :: m1 → y = x := by
      intro x y hm
      rcases List.mem_cons.mp hm with hm | hm
      · cases hm; rfl
      · exact id1 x y hm
    obtain ⟨s', m2, e', g2, d2, a', id2⟩ := ih s1 _ P (fun k' hk' => hB k' (List.mem_cons_of_mem _ hk')) d1.ok d1.env (a1.trans hask)
      (fun k' hk' x hx => by
        cases hg : s1.tree.get x with
        | none => rfl
        | some i =>
          exfalso
          have hn := hnot k' (List.mem_cons_of_mem _ hk') x hx
          obtain ⟨x', hx'⟩ := (G.new x).mp ⟨has_iff.mpr ⟨i, hg⟩, hn⟩
          have hxx := hid1 _ _ hx'
          subst hxx
          obtain ⟨kk, hkk, hb, xi, _, gx, _⟩ := G.pair _ _ hx'
          rw [List.mem_singleton] at hkk
          subst hkk
          have := InDir.disjoint w0.wf hd List.mem_cons_self (List.mem_cons_of_mem _ hk') gx hb hx
          subst this
          exact (List.nodup_cons.mp hd.1).1 hk')
      hp1 hpf hd2
      (fun k' hk' ki' e' => by
        obtain ⟨ki'', f1, f2, f3⟩ := hd2.2 k' hk'
        rw [e'] at f1; cases f1
        refine G.free w0.wf w.wf hp k1 k2 k3 f3 ?_ (hfree k' (List.mem_cons_of_mem _ hk') ki' e')
        intro hn
        have : k' = k := w0.wf.inj e' k1 (by rw [f2, k2, hn])
        subst this
        exact (List.nodup_cons.mp hd.1).1 hk')
      (fun k' hk' ki' e' => by rw [G.excl]; exact hex k' (List.mem_cons_of_mem _ hk') ki' e')
      hl
    have G2 := grafts_spec w0.wf (folders_only w0) g2 _ P G.wf G.issued hp1 hd2
    -- what was moved first is not touched by the rest
    have hkeep : ∀ a b, (a, b) ∈ (k, k) :: m1 → ∀ a', (a', b) ∉ m2 := by
      intro a b hm a' hm'
      have h1 := ((G.new b).mpr ⟨a, hm⟩).1
      have h2 := ((G2.new b).mpr ⟨a', hm'⟩).2
      rw [has_false.mpr h2] at h1
      cases h1
    refine ⟨s', ((k, k) :: m1) ++ m2, ?_, ?_, ⟨d2.ok, d2.env, fun x y xi hm ex hfm => ?_, fun x y xi hm ex => ?_, fun x hx => ?_⟩,
      a'.trans a1, fun x y hm => ?_⟩
    · unfold copyKids
      rw [if_pos er, e]
      exact e'
    · exact g1.append g2
    · rcases List.mem_append.mp hm with hm | hm
      · rw [(d2.other y (hkeep x y hm)).1]
        exact d1.files x y xi hm ex hfm
      · exact d2.files x y xi hm ex hfm
    · rcases List.mem_append.mp hm with hm | hm
      · rw [(d2.other y (hkeep x y hm)).2]
        exact d1.told x y xi hm ex
      · exact d2.told x y xi hm ex
    · obtain ⟨o1, o2⟩ := d1.other x (fun a h => hx a (List.mem_append_left _ h))
      obtain ⟨o3, o4⟩ := d2.other x (fun a h => hx a (List.mem_append_right _ h))
      exact ⟨o3.trans o1, o4.trans o2⟩
    · rcases List.mem_append.mp hm with hm | hm
      · exact hid1 x y hm
      · exact id2 x y hm

/-- Nothing stands in the way of moving the objects of `B` of storage `a` to a storage like `s0`. -/
structure MovingX (a s0 : Server) (B : Nat → Prop) : Prop where
  willing : Willing a ∧ Willing s0
  closed : ∀ x ix k, B x → a.tree.get x = some ix → k ∈ ix.kids → B k
  names : ∀ x xi, B x → a.tree.get x = some xi → copyable xi.name = true
  known : ∀ x, B x → (a.infoOf x).1 = .ok
  files : ∀ x xi, B x → a.tree.get x = some xi → xi.fmt ≠ ASSOC →
    ∃ c, contents a x = some c ∧ (a.infoOf x).2.size = c.length ∧ c.length < 2 ^ 32
  fs : ∀ k, s0.tree.fs k = true
  given : ∀ x, B x → x ≠ 0 ∧ x ≤ s0.tree.asked
  left : s0.tree.asked < 0xFFFFFFFF

theorem adoptTo_done {a s0 : Server} (w0 : ServerOk a) {B : Nat → Prop} (hc : MovingX a s0 B) (n : Nat) :
    ∀ (p par : Nat), p = (if par = ALL then 0 else par) → MoveOk a s0 B n (fun s h => adoptTo a n s h par) p := by
  induction n with
  | zero =>
    intro p par _ s h pit it _ _ _ _ _ _ _ hs _ _ _ hl
    have := hl h it hs
    omega
  | succ n ih =>
    intro p par hpp s h pit it hB w env hask hnot hp hpf hs hn hfree hex hl
    obtain ⟨h0, hle⟩ := hc.given h hB
    have hleft := hc.left
    have hhA : h ≠ ALL := by unfold ALL; omega
    have hnone := hnot h .self
    have hiok : (a.infoOf h).1 = .ok := hc.known h hB
    have hcop := hc.names h it hB hs
    have hname := info_name hiok hs
    have hsize : a.sizeOf h = (a.infoOf h).2.size := size_info (o := (a.infoOf h).2) (by rw [← hiok])
    have hfmt : (a.infoOf h).2.format = it.fmt := by
      unfold infoOf at hiok ⊢
      rw [hs] at hiok ⊢
      cases hk : AMap.get a.infos h with
      | none => rw [hk] at hiok; cases hiok
      | some o => rfl
    generalize hO : ({ (a.infoOf h).2 with parent := p } : ObjInfo) = O
    have hOn : toPath O.fileName = it.name := by
      rw [← hO]; show toPath (a.infoOf h).2.fileName = _; rw [hname]; exact (copyable_name hcop).2
    have hOf : O.format = it.fmt := by rw [← hO]; exact hfmt
    cases hA : s.adopt O p h with
    | mk s1 r =>
    obtain ⟨ev, hcs, hok⟩ := adopt_cases w O hp (by rw [hOn]; exact hn) h0 hnone (by rw [hask]; exact hle) (by rw [hask]; exact hleft) hA
    have hrok : r = .ok := hok hpf (by rw [hOn]; exact hfree) (by rw [hOn]; intro hm; exact hex _ hm (Under.refl _))
      (by rw [env.fs]; exact hc.fs _)
    subst hrok
    rcases hcs with ⟨_, q⟩ | ⟨_, nw, mk⟩
    · obtain ⟨y, hy⟩ := q rfl
      rw [hOn, hfree] at hy; cases hy
    rw [hOn, hOf] at mk
    have w1 := nw.ok w
    have env1 : Alike0 s0 s1 := ⟨ev.sid.trans env.sid, ev.ios.trans env.ios, ev.room.trans env.room, ev.times.trans env.times,
      mk.fs.trans env.fs, mk.excl.trans env.excl⟩
    obtain ⟨v, hg1⟩ := mk.get
    have hy : s1.tree.get h = some ⟨join pit.path it.name, it.name, it.fmt, p, some p, [], v⟩ := by rw [hg1, if_pos rfl]
    have hiy : AMap.get s1.infos h = some (s.kept O) := by rw [nw.infos, AMap.get_insert, if_pos rfl]
    -- what is told about the object
    have told : ∀ (s2 : Server) (iy : Item) (o' : ObjInfo), s2.tree.get h = some iy → iy.name = it.name → iy.fmt = it.fmt → iy.par = p →
        AMap.get s2.infos h = some o' → Redated s.times (s.kept O) o' → ∃ d q,
          (it.fmt ≠ ASSOC → Stamped s0.times (a.infoOf h).2.modDate d) ∧
          s2.infoOf h = (.ok, { (a.infoOf h).2 with storageId := s0.sid, parent := q, captureDate := d, modDate := d }) := by
      intro s2 iy o' g1 g2 g3 g4 g5 g6
      have hst : it.fmt ≠ ASSOC → Stamped s0.times (a.infoOf h).2.modDate (s.newDate O) := by
        intro hf
        unfold newDate
        rw [if_neg (by rw [hOf]; exact hf), ← hO]
        simp only
        rw [← env.times]
        exact .created _
      have hbase : ∃ d, (it.fmt ≠ ASSOC → Stamped s0.times (a.infoOf h).2.modDate d) ∧
          o' = { (a.infoOf h).2 with storageId := s0.sid, parent := p, captureDate := d, modDate := d } := by
        have hk : s.kept O = { (a.infoOf h).2 with storageId := s0.sid, parent := p, captureDate := s.newDate O, modDate := s.newDate O } := by
          unfold kept
          rw [← env.sid, ← hO]
        rcases g6 with g6 | ⟨d, d1, d2⟩
        · exact ⟨s.newDate O, hst, by rw [g6, hk]⟩
        · refine ⟨d, fun hf => stamped_trans (hst hf) ?_, ?_⟩
          · rw [← env.times]
            rw [hk] at d1
            exact d1
          · rw [d2, hk]
      obtain ⟨d, b1, b2⟩ := hbase
      refine ⟨d, p, b1, ?_⟩
      unfold infoOf
      rw [g1, g5]
      simp only
      rw [g2, g3, g4, b2, ← hname, ← hfmt]
      rfl
    dsimp only
    rw [adoptTo, if_neg (by rw [has_false.mpr hnone]; simp)]
    simp only [← hpp, hp, hs]
    rw [if_neg (by simp [hiok]), hcop]
    simp only [Bool.true_eq_false, if_false]
    rw [hO, hA]
    simp only [if_true]
    by_cases hf : it.fmt = ASSOC
    · rw [if_pos hf, Cp.handles_kids w0.wf hs h0 hhA hf]
      obtain ⟨s2, m, e2, g2, d2, a2, i2⟩ := moveKids_done w0 (ih h h (if_neg hhA).symm) it.kids s1 _ it.path (fun k hk => hc.closed h it k hB hs hk)
        w1 env1 (ev.asked.trans hask)
        (fun k hk x hx => by
          have hxh : x ≠ h := by
            rintro rfl
            obtain ⟨ki, f1, f2, _⟩ := (InDir.kids w0.wf hs).2 k hk
            have := ((w0.wf.below_iff f1 hs).mp hx).length
            rw [f2, join_length] at this
            omega
          obtain ⟨ki, kg, kp, _⟩ := w0.wf.kid hs hk
          have hxn := hnot x (below_of_kid w0.wf hs hk hx)
          have hxp : x ≠ p := by rintro rfl; rw [hxn] at hp; cases hp
          rw [hg1, if_neg hxh, if_neg hxp]
          exact hxn)
        hy hf (InDir.kids w0.wf hs)
        (fun k hk ki e1 => by
          obtain ⟨ki', f1, f2, f3⟩ := (InDir.kids w0.wf hs).2 k hk
          rw [e1] at f1; cases f1
          exact Cp.made_free mk f3)
        (fun k hk ki e1 e he hu => by
          rw [mk.excl] at he
          exact hex e he (Under.trans (Under.join _ _) hu))
        (fun x ix ex => by have := hl x ix ex; omega)
      rw [e2]
      have G2 := grafts_spec w0.wf (folders_only w0) g2 _ it.path mk.wf mk.issued hy (InDir.kids w0.wf hs)
      have hym : ∀ a, (a, h) ∉ m := by
        intro a hm
        have := ((G2.new h).mpr ⟨a, hm⟩).2
        rw [hy] at this; cases this
      refine ⟨s2, m, rfl, rfl, ?_, ⟨d2.ok, d2.env, fun x z xi hm ex hfm => ?_, fun x z xi hm ex => ?_, fun x hx => ?_⟩, a2.trans ev.asked, i2⟩
      · have := Grafts.cons hs hp mk (by rw [if_pos hf]; exact g2) (Grafts.nil s2.tree p)
        simpa using this
      · rcases List.mem_cons.mp hm with hm | hm
        · cases hm; rw [hs] at ex; cases ex; exact absurd hf hfm
        · exact d2.files x z xi hm ex hfm
      · rcases List.mem_cons.mp hm with hm | hm
        · cases hm; rw [hs] at ex; cases ex
          rw [(d2.other _ hym).2]
          exact told s1 _ _ hy rfl rfl rfl hiy (Or.inl rfl)
        · exact d2.told x z xi hm ex
      · have hxy : x ≠ h := by rintro rfl; exact hx x List.mem_cons_self
        obtain ⟨o1, o2⟩ := d2.other x (fun a hm => hx a (List.mem_cons_of_mem _ hm))
        obtain ⟨o3, o4⟩ := nw.old w x hxy
        exact ⟨o1.trans o3, o2.trans o4⟩
    · rw [if_neg hf]
      obtain ⟨c, c1, c2, c3⟩ := hc.files h it hB hs hf
      have hs1 : a.sizeOf h = c.length := hsize.trans c2
      have hempty : c = [] → contents s1 h = some [] := by
        rintro rfl
        obtain ⟨pit', p1, _, _, _, p5⟩ := nw.parent
        rw [hp] at p1; cases p1
        unfold contents
        rw [hy]
        simp only
        rw [if_neg hf, p5, if_neg (by rw [hOf]; exact hf), hOn, AMap.get_insert, if_pos rfl]
        unfold newFile
        have : O.size = 0 := by rw [← hO]; show (a.infoOf h).2.size = 0; rw [c2]; rfl
        rw [this]
        split <;> rfl
      have hw1 : Willing s1 := by unfold Willing; rw [env1.ios]; exact hc.willing.2
      obtain ⟨s2, e2, F, f3, o', f4, f5⟩ := fromData_done hc.willing.1 w1 hw1 c3 c1 hs1 hy hf hempty hiy
      rw [e2]
      refine ⟨s2, [], rfl, rfl, ?_, ⟨F.ok, ⟨F.sid.trans env1.sid, F.ios.trans env1.ios, F.room.trans env1.room, F.times.trans env1.times,
        by rw [F.tree]; exact env1.fs, by rw [F.tree]; exact env1.excl⟩, fun x z xi hm ex hfm => ?_, fun x z xi hm ex => ?_, fun x hx => ?_⟩,
        by rw [F.tree]; exact ev.asked, fun x y hm => (nomatch hm)⟩
      · have := Grafts.cons (m1 := []) (m2 := []) hs hp mk (by rw [if_neg hf]; exact Grafts.nil s1.tree _) (Grafts.nil s1.tree p)
        rw [F.tree]
        simpa using this
      · rw [List.mem_singleton] at hm; cases hm
        rw [f3, c1]
      · rw [List.mem_singleton] at hm; cases hm; rw [hs] at ex; cases ex
        rw [nw.times] at f4
        have hy2 := hy
        rw [← F.tree] at hy2
        exact told s2 _ o' hy2 rfl rfl rfl f5 f4
      · have hxy : x ≠ h := by rintro rfl; exact hx x List.mem_cons_self
        obtain ⟨o1, o2⟩ := F.other x hxy
        obtain ⟨o3, o4⟩ := nw.old w x hxy
        exact ⟨o1.trans o3, o2.trans o4⟩

end Server
end Mtp
