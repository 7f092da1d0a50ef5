import Verif.Lemmas.TreeAdd
import Verif.Lemmas.TreeMove
/-! Every operation keeps the tree well formed. -/
namespace Mtp
open Spec

/-- What one operation leaves: a well-formed tree with issued handles; new handles are newly issued
ones or `k`. -/
structure StepOk (k : Nat) (t t' : Tree) : Prop where
  wf : TreeWF t'
  issued : Issued t'
  asked : t.asked ≤ t'.asked
  rootPath : t'.rootPath = t.rootPath
  new : ∀ x, t'.has x = true → t.has x = true ∨ t.asked < x ∨ x = k

theorem StepOk.refl {t : Tree} (w : TreeWF t) (hi : Issued t) (k : Nat) : StepOk k t t :=
  ⟨w, hi, Nat.le_refl _, rfl, fun _ h => Or.inl h⟩

theorem StepOk.of_shrunk {t t' : Tree} (hi : Issued t) (w : TreeWF t') (s : Shrunk t t') (k : Nat) :
    StepOk k t t' := by
  refine ⟨w, ?_, Nat.le_of_eq s.asked.symm, s.rootPath, fun x h => Or.inl (s.has h)⟩
  intro h it e
  obtain ⟨i, e'⟩ := has_iff.mp (s.has (has_iff.mpr ⟨it, e⟩))
  rw [s.asked]; exact hi h i e'

theorem StepOk.of_grown {t t' : Tree} (hi' : Issued t') (w : TreeWF t') {k : Nat} (g : Grown k t t') :
    StepOk k t t' := by
  refine ⟨w, hi', g.asked, g.rootPath, fun x h => ?_⟩
  rcases g.new x h with h | h | h
  · exact Or.inl h
  · exact Or.inr (Or.inl h.1)
  · exact Or.inr (Or.inr h.1)

/-- Any object lies below the root. -/
theorem _root_.Spec.TreeWF.below_root {t : Tree} (w : TreeWF t) {x : Nat} {ix : Item}
    (e : t.get x = some ix) : Below t 0 x := by
  obtain ⟨r, r1, r2, _⟩ := w.root
  exact (w.below_iff r1 e).mpr (by rw [r2]; exact w.under_root e)

theorem delAll_spec (fmt : Nat) : ∀ (l : List (Nat × Item)) (t : Tree) (resp : Resp) (a b c : Bool),
    TreeWF t → TreeWF (Tree.delAll fmt l t resp a b c).1 ∧ Shrunk t (Tree.delAll fmt l t resp a b c).1 := by
  intro l
  induction l with
  | nil => intro t resp a b c w; exact ⟨w, Shrunk.refl w⟩
  | cons e l ih =>
    intro t resp a b c w
    obtain ⟨h, it⟩ := e
    unfold Tree.delAll
    dsimp only
    split
    · exact ih _ _ _ _ _ w
    · have w1 := del_wf w t.delFuel h true false
      have s1 := del_shrunk w t.delFuel h true false
      obtain ⟨w2, s2⟩ := ih _ (t.del t.delFuel h true false).2 (a || (t.del t.delFuel h true false).2 = .ok)
        (b || ((t.del t.delFuel h true false).2 ≠ .ok && (t.del t.delFuel h true false).2 ≠ .invalidObjectHandle))
        (c || (decide (fmt ≠ 0 ∧ fmt ≠ UNDEF) && !t.has h)) w1
      exact ⟨w2, s1.trans s2⟩

theorem deleteItem_spec {t : Tree} (w : TreeWF t) (h fmt : Nat) :
    TreeWF (t.deleteItem h fmt).1 ∧ Shrunk t (t.deleteItem h fmt).1 := by
  unfold Tree.deleteItem
  split
  · exact delAll_spec fmt t.items t .generalError false false false w
  · exact ⟨del_wf w _ _ _ _, del_shrunk w _ _ _ _⟩

theorem Relocated.stepOk {t t' : Tree} (w : TreeWF t) (hi : Issued t) {h p : Nat} {it pit : Item} {Q : Path}
    (hh : t.get h = some it) (h0 : h ≠ 0) (hp : t.get p = some pit) (hnb : ¬ Under it.path pit.path)
    (hfree : AMap.get t.paths Q = none) (hQ : Under t.rootPath Q)
    (R : Relocated t t' h p it.path Q) (ha : t'.asked = t.asked) (k : Nat) : StepOk k t t' := by
  refine ⟨WF_relocated w hh h0 hp hnb hfree hQ R, ?_, Nat.le_of_eq ha.symm, R.rootPath,
    fun x hx => Or.inl (R.only x hx)⟩
  intro x ix e
  obtain ⟨i, e'⟩ := has_iff.mp (R.only x (has_iff.mpr ⟨ix, e⟩))
  rw [ha]; exact hi x i e'

theorem StepOk.tick {t t' : Tree} {k : Nat} (n : Nat) (s : StepOk k { t with tick := n } t') : StepOk k t t' :=
  ⟨s.wf, s.issued, s.asked, s.rootPath, s.new⟩

theorem StepOk.congr {k : Nat} {t t' t'' : Tree} (s : StepOk k t t') (h1 : t''.items = t'.items)
    (h2 : t''.paths = t'.paths) (h3 : t''.rootPath = t'.rootPath) (h4 : t''.asked = t'.asked) :
    StepOk k t t'' := by
  have hg : ∀ x, t''.get x = t'.get x := fun x => by unfold Tree.get; rw [h1]
  refine ⟨WF_congr s.wf h1 h2 h3, ?_, by rw [h4]; exact s.asked, h3.trans s.rootPath, ?_⟩
  · intro x ix e; rw [hg] at e; rw [h4]; exact s.issued x ix e
  · intro x hx; apply s.new; unfold Tree.has at hx ⊢; rwa [hg] at hx

/-- A rename that changes the tree. -/
theorem rename_cases {t : Tree} (w : TreeWF t) (h : Nat) (name : Path) :
    ((t.rename h name).1.items = t.items ∧ (t.rename h name).1.paths = t.paths ∧
      (t.rename h name).1.rootPath = t.rootPath ∧ (t.rename h name).1.asked = t.asked ∧
      (t.rename h name).1.puoids = t.puoids) ∨
    ∃ it p pit, t.get h = some it ∧ h ≠ 0 ∧ it.parent = some p ∧ t.get p = some pit ∧
      t.nameValid name pit = true ∧ '/' ∉ name ∧ AMap.get t.paths (join pit.path name) = none ∧
      t.fs t.tick = true ∧ (t.rename h name).2 = .ok ∧
      (t.rename h name).1 = { ({ t with tick := t.tick + 1 } : Tree).repath h it (join pit.path name) name with
        puoids := AMap.insert (AMap.erase (({ t with tick := t.tick + 1 } : Tree).repath h it (join pit.path name) name).puoids it.path)
          (join pit.path name) it.puoid } := by
  unfold Tree.rename
  split
  · exact Or.inl ⟨rfl, rfl, rfl, rfl, rfl⟩
  · next it e =>
    split
    · exact Or.inl ⟨rfl, rfl, rfl, rfl, rfl⟩
    · next pit ep =>
      cases hpar : it.parent with
      | none => rw [hpar] at ep; cases ep
      | some p =>
        rw [hpar] at ep
        have hp : t.get p = some pit := ep
        have h0 : h ≠ 0 := by
          rintro rfl
          obtain ⟨r, r1, _, r2⟩ := w.root
          rw [e] at r1; cases r1; rw [hpar] at r2; cases r2
        split
        · exact Or.inl ⟨rfl, rfl, rfl, rfl, rfl⟩
        · next hv =>
          have hv : t.nameValid name pit = true := by simpa using hv
          dsimp only [Tree.ask]
          split
          · exact Or.inl ⟨rfl, rfl, rfl, rfl, rfl⟩
          · next hg =>
            right
            have hg : t.fs t.tick = true := by simpa using hg
            have hsl : '/' ∉ name := by
              intro hm
              unfold Tree.nameValid at hv
              simp only [Bool.and_eq_true, Bool.not_eq_true', List.any_eq_false] at hv
              exact hv.1.1 '/' hm (by decide)
            have hfree : AMap.get t.paths (join pit.path name) = none := by
              unfold Tree.nameValid at hv
              simp only [Bool.and_eq_true, Option.isNone_iff_eq_none] at hv
              exact hv.2
            obtain ⟨q, qit, q1, q2, q3, q4, q5, q6⟩ := w.parent h it e h0
            rw [hpar] at q1; cases q1; rw [hp] at q3; cases q3
            have hpath : (if '/' ∈ it.path then join (dirOf it.path) name else name) = join pit.path name := by
              rw [q5, dirOf_join q6, if_pos (by simp [join])]
            rw [hpath]
            exact ⟨it, p, pit, e, h0, hpar, hp, hv, hsl, hfree, hg, rfl, rfl⟩

/-- A move that changes the tree. -/
theorem move_cases {t : Tree} (h p : Nat) (phys : Bool) :
    ((t.move h p phys).1.items = t.items ∧ (t.move h p phys).1.paths = t.paths ∧
      (t.move h p phys).1.rootPath = t.rootPath ∧ (t.move h p phys).1.asked = t.asked ∧
      (t.move h p phys).1.puoids = t.puoids ∧ (t.move h p phys).2 ≠ .ok) ∨
    ∃ it pit, t.get h = some it ∧ t.get p = some pit ∧ (phys = true → t.fs t.tick = true) ∧
      ¬ (it.fmt = ASSOC ∧ (AMap.get t.paths (join pit.path it.name)).isSome) ∧
      (t.move h p phys).2 = .ok ∧
      (t.move h p phys).1 = (if phys then { t with tick := t.tick + 1 } else t : Tree).relocate h it p
        (join pit.path it.name) := by
  unfold Tree.move
  split
  · exact Or.inl ⟨rfl, rfl, rfl, rfl, rfl, by simp⟩
  · next it e =>
    split
    · exact Or.inl ⟨rfl, rfl, rfl, rfl, rfl, by simp⟩
    · next pit ep =>
      dsimp only
      split
      · exact Or.inl ⟨rfl, rfl, rfl, rfl, rfl, by simp⟩
      · next hc =>
        cases phys with
        | false => exact Or.inr ⟨it, pit, e, ep, by simp, hc, rfl, rfl⟩
        | true =>
          simp only [if_true, Tree.ask]
          split
          · exact Or.inl ⟨rfl, rfl, rfl, rfl, rfl, by simp⟩
          · next hg => exact Or.inr ⟨it, pit, e, ep, by simpa using hg, hc, rfl, rfl⟩

/-- Refreshing the information of an object (fsstorageplugin.cpp:2984-2990) changes its format only. -/
theorem refresh_eq {t : Tree} (w : TreeWF t) {h : Nat} (h0 : h ≠ 0) (fmt x : Nat) :
    (t.upd h (fun i => { i with name := baseOf i.path, fmt := fmt, par := i.parent.getD 0 })).get x =
      if x = h then (t.get x).map (fun i => { i with fmt := fmt }) else t.get x := by
  rw [Tree.get_upd]
  split
  · next hx =>
    subst hx
    cases e : t.get x with
    | none => rfl
    | some it =>
      obtain ⟨p, pit, h1, h2, h3, h4, h5, h6⟩ := w.parent x it e h0
      simp [h1, h2, h5, baseOf_join h6]
  · rfl

theorem refresh_ok {k : Nat} {t0 t : Tree} (s : StepOk k t0 t) {h : Nat} (h0 : h ≠ 0) (fmt : Nat) :
    StepOk k t0 (t.upd h (fun i => { i with name := baseOf i.path, fmt := fmt, par := i.parent.getD 0 })) := by
  have w := s.wf
  have hg := refresh_eq w h0 fmt
  have hn := Tree.upd_nodup w.nodup h
    (fun i => { i with name := baseOf i.path, fmt := fmt, par := i.parent.getD 0 })
  have heq : ∀ f, (t.upd h f).paths = t.paths ∧ (t.upd h f).rootPath = t.rootPath ∧
      (t.upd h f).asked = t.asked := by
    intro f; unfold Tree.upd; split <;> simp
  obtain ⟨hp, hr, ha⟩ := heq (fun i => { i with name := baseOf i.path, fmt := fmt, par := i.parent.getD 0 })
  generalize t.upd h (fun i => { i with name := baseOf i.path, fmt := fmt, par := i.parent.getD 0 }) = t'
    at hg hn hp hr ha
  -- every object keeps everything but the format
  have fw : ∀ x ix, t.get x = some ix → ∃ f, t'.get x = some { ix with fmt := f } := by
    intro x ix e
    rw [hg, e]
    by_cases hx : x = h
    · exact ⟨fmt, by simp [hx]⟩
    · exact ⟨ix.fmt, by simp [hx]⟩
  have bw : ∀ x ix, t'.get x = some ix → ∃ iy, t.get x = some iy ∧ ix = { iy with fmt := ix.fmt } := by
    intro x ix e
    cases hx : t.get x with
    | none => rw [hg, hx] at e; simp at e
    | some iy =>
      obtain ⟨f, e'⟩ := fw x iy hx
      rw [e] at e'; cases e'
      exact ⟨iy, rfl, rfl⟩
  refine ⟨⟨?_, ?_, ?_, ?_, ?_, hn⟩, ?_, by rw [ha]; exact s.asked, hr.trans s.rootPath, ?_⟩
  · obtain ⟨r, r1, r2, r3⟩ := w.root
    obtain ⟨f, e⟩ := fw 0 r r1
    exact ⟨_, e, by rw [hr]; exact r2, r3⟩
  · intro x ix e
    obtain ⟨iy, e1, e2⟩ := bw x ix e
    rw [hp, e2]; exact w.pathOf x iy e1
  · intro q x e
    rw [hp] at e
    obtain ⟨iy, e1, e2⟩ := w.ofPath q x e
    obtain ⟨f, e3⟩ := fw x iy e1
    exact ⟨_, e3, e2⟩
  · intro x ix e hx
    obtain ⟨iy, e1, e2⟩ := bw x ix e
    obtain ⟨p, pit, h1, h2, h3, h4, h5, h6⟩ := w.parent x iy e1 hx
    obtain ⟨f, e3⟩ := fw p pit h3
    rw [e2]
    exact ⟨p, _, h1, h2, e3, h4, h5, h6⟩
  · intro x ix c e hc
    obtain ⟨iy, e1, e2⟩ := bw x ix e
    rw [e2] at hc
    obtain ⟨ci, c1, c2⟩ := w.kids x iy c e1 hc
    obtain ⟨f, e3⟩ := fw c ci c1
    exact ⟨_, e3, c2⟩
  · intro x ix e
    obtain ⟨iy, e1, _⟩ := bw x ix e
    rw [ha]; exact s.issued x iy e1
  · intro x hx
    obtain ⟨ix, e⟩ := has_iff.mp hx
    obtain ⟨iy, e1, _⟩ := bw x ix e
    exact s.new x (has_iff.mpr ⟨iy, e1⟩)

/-- A notified move that changes the tree. -/
theorem fsMove_cases {t : Tree} (d1 : Nat) (n1 : Path) (d2 : Nat) (n2 : Path) (fmt : Nat) :
    t.fsMove d1 n1 d2 n2 fmt = t ∨
    ∃ i1 i2 h it, ¬ (d1 = d2 ∧ n1 = n2) ∧ t.get d1 = some i1 ∧ t.get d2 = some i2 ∧
      AMap.get t.paths (join i1.path n1) = some h ∧ h ≠ 0 ∧ t.get h = some it ∧
      ((((AMap.get t.paths (join i2.path n2)).isSome ∧
          t.fsMove d1 n1 d2 n2 fmt = (t.del t.delFuel h false true).1)) ∨
       (AMap.get t.paths (join i2.path n2) = none ∧
        t.fsMove d1 n1 d2 n2 fmt =
          ((if d1 = d2 then t.repath h it (join i2.path n2) n2 else (t.move h d2 false).1).upd h
            (fun i => { i with name := baseOf i.path, fmt := fmt, par := i.parent.getD 0 })).emit true
            (.infoChanged h))) := by
  unfold Tree.fsMove
  split
  · exact Or.inl rfl
  · next hne =>
    split
    · next i1 i2 e1 e2 =>
      dsimp only
      split
      · exact Or.inl rfl
      · next hh =>
        split
        · exact Or.inl rfl
        · next it e =>
          right
          have hp : AMap.get t.paths (join i1.path n1) = some ((AMap.get t.paths (join i1.path n1)).getD 0) := by
            cases hq : AMap.get t.paths (join i1.path n1) with
            | none => rw [hq] at hh; exact absurd rfl hh
            | some v => rfl
          refine ⟨i1, i2, _, it, hne, e1, e2, hp, hh, e, ?_⟩
          split
          · next hs => exact Or.inl ⟨hs, rfl⟩
          · next hs => exact Or.inr ⟨by simpa using hs, rfl⟩
    · exact Or.inl rfl

/-- The operation's adopted handle. -/
def adopted : Tree.Op → Nat
  | .adopt _ _ h => h
  | _ => 0

theorem treeStep_ok {t : Tree} (w : TreeWF t) (hi : Issued t) (op : Tree.Op) (ok : OpOk t op)
    (hb : (t.step op).asked < 0xFFFFFFFF) : StepOk (adopted op) t (t.step op) := by
  cases op with
  | add i d =>
    change (t.addItem i d).1.asked < _ at hb
    show StepOk 0 t (t.addItem i d).1
    unfold Tree.addItem at hb ⊢
    dsimp only at hb ⊢
    generalize hj : (if i.par = ALL then { i with par := 0 } else i : Tree.Info) = j at hb ⊢
    have hjn : j.name = i.name := by rw [← hj]; split <;> rfl
    split
    · exact StepOk.refl w hi _
    · next p ep =>
      simp only [ep] at hb
      have := add_spec w hi ep (by rw [hjn]; exact ok.1) d ok.2 (some j) (fun i' e => by cases e; exact ⟨rfl, rfl⟩)
        false true 0 (by simp) (Nat.zero_le _) hb
      exact StepOk.of_grown this.2.1 this.1 this.2.2
  | adopt i d h =>
    change (t.adopt i d h).1.asked < _ at hb
    show StepOk h t (t.adopt i d h).1
    unfold Tree.adopt at hb ⊢
    split
    · exact StepOk.refl w hi _
    · next hnh =>
      rw [if_neg hnh] at hb
      dsimp only at hb ⊢
      generalize hj : (if i.par = ALL then { i with par := 0 } else i : Tree.Info) = j at hb ⊢
      have hjn : j.name = i.name := by rw [← hj]; split <;> rfl
      split
      · exact StepOk.refl w hi _
      · next p ep =>
        simp only [ep] at hb
        have := add_spec w hi ep (by rw [hjn]; exact ok.1) d ok.2.1 (some j)
          (fun i' e => by cases e; exact ⟨rfl, rfl⟩)
          false true h (fun _ => has_false.mp (by simpa using hnh)) ok.2.2.2 hb
        exact StepOk.of_grown this.2.1 this.1 this.2.2
  | delete h fmt =>
    exact StepOk.of_shrunk hi (deleteItem_spec w h fmt).1 (deleteItem_spec w h fmt).2 _
  | move h p =>
    show StepOk 0 t (t.move h p true).1
    rcases move_cases (t := t) h p true with ⟨h1, h2, h3, h4, _⟩ | ⟨it, pit, e, ep, hf, hc, _, eq⟩
    · exact (StepOk.refl w hi 0).congr h1 h2 h3 h4
    · obtain ⟨hfree, hnb⟩ := ok it pit e ep (hf rfl)
      have h0 : h ≠ 0 := by rintro rfl; exact hnb (w.below_root ep)
      have hnu : ¬ Under it.path pit.path := fun hu => hnb ((w.below_iff e ep).mpr hu)
      rw [eq]
      have R := relocate_relocated (WF_tick w (t.tick + 1)) e h0 ep hnu hfree
      exact (Relocated.stepOk (WF_tick w (t.tick + 1)) hi e h0 ep hnu hfree
        ((w.under_root ep).trans (Under.join _ _)) R.1 R.2.1 0).tick
  | rename h n =>
    show StepOk 0 t (t.rename h n).1
    rcases rename_cases w h n with ⟨h1, h2, h3, h4, _⟩ | ⟨it, p, pit, e, h0, hpar, hp, hv, hsl, hfree, hg, _, eq⟩
    · exact (StepOk.refl w hi 0).congr h1 h2 h3 h4
    · have hnu : ¬ Under it.path pit.path := by
        intro hu
        obtain ⟨q, qit, q1, q2, q3, q4, q5, q6⟩ := w.parent h it e h0
        rw [hpar] at q1; cases q1; rw [hp] at q3; cases q3
        have := hu.length; rw [q5, join_length] at this; omega
      have R := repath_relocated (WF_tick w (t.tick + 1)) e h0 hpar hp hsl hfree
      have S := (Relocated.stepOk (WF_tick w (t.tick + 1)) hi e h0 hp hnu hfree
        ((w.under_root hp).trans (Under.join _ _)) R.1 R.2.1 0).tick
      rw [eq]
      exact S.congr rfl rfl rfl rfl
  | fsCreate d n k =>
    change (t.fsCreate d n k).asked < _ at hb
    show StepOk 0 t (t.fsCreate d n k)
    unfold Tree.fsCreate at hb ⊢
    split
    · exact StepOk.refl w hi _
    · next dit ed =>
      simp only [ed] at hb
      split
      · exact StepOk.refl w hi _
      · next hc =>
        rw [if_neg hc] at hb
        have := add_spec w hi ed ok.1 k ok.2 none (fun i' e => by cases e)
          true false 0 (by simp) (Nat.zero_le _) hb
        exact StepOk.of_grown this.2.1 this.1 this.2.2
  | fsDelete d n =>
    show StepOk 0 t (t.fsDelete d n)
    unfold Tree.fsDelete
    split
    · exact StepOk.refl w hi _
    · split
      · exact StepOk.refl w hi _
      · exact StepOk.of_shrunk hi (del_wf w _ _ _ _) (del_shrunk w _ _ _ _) _
  | fsMove d1 n1 d2 n2 fmt =>
    show StepOk 0 t (t.fsMove d1 n1 d2 n2 fmt)
    rcases fsMove_cases (t := t) d1 n1 d2 n2 fmt with h | ⟨i1, i2, h, it, hne, e1, e2, ep, h0, e, hc⟩
    · rw [h]; exact StepOk.refl w hi _
    · rcases hc with ⟨_, hc⟩ | ⟨hfree, hc⟩
      · rw [hc]; exact StepOk.of_shrunk hi (del_wf w _ _ _ _) (del_shrunk w _ _ _ _) _
      · rw [hc]
        obtain ⟨ok1, ok2, ok3⟩ := ok
        obtain ⟨hnb, hcr⟩ := ok3 i1 i2 h e1 e2 ep
        have hnu : ¬ Under it.path i2.path := fun hu => hnb ((w.below_iff e e2).mpr hu)
        obtain ⟨iy, y1, y2⟩ := w.ofPath _ _ ep
        rw [e] at y1; cases y1
        obtain ⟨q, qit, q1, q2, q3, q4, q5, q6⟩ := w.parent h it e h0
        have hqe := join_inj (y2.symm.trans q5) ok1 q6
        have hqd : q = d1 := w.inj q3 e1 hqe.1.symm
        refine StepOk.congr (refresh_ok (k := 0) ?_ h0 fmt) (Tree.emit_eq _ _ _).1 (Tree.emit_eq _ _ _).2.1
          (Tree.emit_eq _ _ _).2.2.1 (Tree.emit_eq _ _ _).2.2.2.1
        split
        · next hd =>
          subst hd
          rw [e1] at e2; cases e2
          subst hqd
          have R := repath_relocated w e h0 q1 e1 ok2 hfree
          exact Relocated.stepOk w hi e h0 e1 hnu hfree ((w.under_root e1).trans (Under.join _ _)) R.1 R.2.1 0
        · next hd =>
          have hfr := hcr hd
          rw [hqe.2] at hfr
          rcases move_cases (t := t) h d2 false with ⟨h1, h2, h3, h4, _⟩ | ⟨it', pit, e', ep', hf, hc, _, eq⟩
          · exact (StepOk.refl w hi 0).congr h1 h2 h3 h4
          · rw [e] at e'; cases e'
            rw [e2] at ep'; cases ep'
            rw [eq]
            have R := relocate_relocated w e h0 e2 hnu hfr
            exact Relocated.stepOk w hi e h0 e2 hnu hfr ((w.under_root e2).trans (Under.join _ _)) R.1 R.2.1 0
  | other n =>
    refine ⟨WF_congr w rfl rfl rfl, ?_, ?_, rfl, fun x h => Or.inl h⟩
    · intro x ix e; exact Nat.le_trans (hi x ix e) (Nat.le_add_right _ _)
    · exact Nat.le_add_right _ _

/-! ### Handle requests are only ever counted up -/

theorem upd_asked (t : Tree) (h : Nat) (f : Item → Item) : (t.upd h f).asked = t.asked := by
  unfold Tree.upd; split <;> rfl

theorem unlink_asked (t : Tree) (c : Nat) (p : Option Nat) : (t.unlink c p).asked = t.asked :=
  (t.unlink_eq c p).2.2.1

theorem del_asked (n : Nat) : ∀ (t : Tree) (h : Nat) (phys ev : Bool),
    (t.del n h phys ev).1.asked = t.asked ∧ (t.delKids n h phys ev).1.asked = t.asked := by
  induction n with
  | zero => intro t h phys ev; exact ⟨by rw [Tree.del], by rw [Tree.delKids]⟩
  | succ n ih =>
    intro t h phys ev
    constructor
    · rw [del_unfold]
      split
      · rfl
      · split
        · rfl
        · split
          · split
            · rfl
            · rw [(Tree.remove_eq _ h ev).2.1]; split <;> rfl
          · split
            · show (Tree.del n _ h true false).1.asked = _
              rw [(ih _ _ _ _).1, (ih _ _ _ _).2]
            · exact (ih _ _ _ _).2
    · rw [delKids_unfold]
      split
      · rfl
      · split
        · rfl
        · split
          · rw [(ih _ _ _ _).2, (ih _ _ _ _).1]
          · exact (ih _ _ _ _).1

theorem delAll_asked (fmt : Nat) : ∀ (l : List (Nat × Item)) (t : Tree) (resp : Resp) (a b c : Bool),
    (Tree.delAll fmt l t resp a b c).1.asked = t.asked := by
  intro l
  induction l with
  | nil => intro t resp a b c; rfl
  | cons e l ih =>
    intro t resp a b c
    obtain ⟨h, it⟩ := e
    unfold Tree.delAll
    dsimp only
    split
    · exact ih _ _ _ _ _
    · exact (ih _ _ _ _ _).trans (del_asked _ _ _ _ _).1

theorem adjust_asked (n : Nat) : ∀ (t : Tree) (anc : Path) (h : Nat), (t.adjust n anc h).asked = t.asked := by
  induction n with
  | zero => intro t anc h; rfl
  | succ n ih =>
    intro t anc h
    unfold Tree.adjust
    split
    · rfl
    · next it e =>
      have key : ∀ (l : List Nat) (t' : Tree) (d : Path),
          (l.foldl (fun t c => t.adjust n d c) t').asked = t'.asked := by
        intro l
        induction l with
        | nil => intro t' d; rfl
        | cons c l ihl => intro t' d; rw [List.foldl_cons, ihl, ih]
      exact key _ _ _

theorem adjustAll_asked (n : Nat) (d : Path) : ∀ (l : List Nat) (t : Tree),
    (l.foldl (fun t c => t.adjust n d c) t).asked = t.asked := by
  intro l
  induction l with
  | nil => intro t; rfl
  | cons c l ihl => intro t; rw [List.foldl_cons, ihl, adjust_asked]

theorem move_asked (t : Tree) (h p : Nat) (phys : Bool) : (t.move h p phys).1.asked = t.asked := by
  rcases move_cases (t := t) h p phys with ⟨_, _, _, h4, _⟩ | ⟨it, pit, e, ep, hf, hc, _, eq⟩
  · exact h4
  · rw [eq]
    unfold Tree.relocate
    dsimp only
    rw [upd_asked, upd_asked]
    unfold Tree.link
    rw [upd_asked, adjustAll_asked, unlink_asked]
    split <;> rfl

theorem repath_asked (t : Tree) (h : Nat) (it : Item) (p n : Path) : (t.repath h it p n).asked = t.asked := by
  unfold Tree.repath
  exact adjustAll_asked _ _ _ _

theorem step_asked (t : Tree) (op : Tree.Op) : t.asked ≤ (t.step op).asked := by
  cases op with
  | add i d =>
    show _ ≤ (t.addItem i d).1.asked
    unfold Tree.addItem
    dsimp only
    split
    · exact Nat.le_refl _
    · exact add_asked _ _ _ _ _ _ _
  | adopt i d h =>
    show _ ≤ (t.adopt i d h).1.asked
    unfold Tree.adopt
    split
    · exact Nat.le_refl _
    · dsimp only
      split
      · exact Nat.le_refl _
      · exact add_asked _ _ _ _ _ _ _
  | delete h fmt =>
    show _ ≤ (t.deleteItem h fmt).1.asked
    unfold Tree.deleteItem
    split
    · exact Nat.le_of_eq (delAll_asked fmt t.items t .generalError false false false).symm
    · exact Nat.le_of_eq (del_asked _ _ _ _ _).1.symm
  | move h p => exact Nat.le_of_eq (move_asked t h p true).symm
  | rename h n =>
    show _ ≤ (t.rename h n).1.asked
    unfold Tree.rename
    split
    · exact Nat.le_refl _
    · split
      · exact Nat.le_refl _
      · split
        · exact Nat.le_refl _
        · dsimp only [Tree.ask]
          split
          · exact Nat.le_refl _
          · show t.asked ≤ (Tree.repath _ _ _ _ _).asked
            rw [repath_asked]; exact Nat.le_refl _
  | fsCreate d n k =>
    show _ ≤ (t.fsCreate d n k).asked
    unfold Tree.fsCreate
    split
    · exact Nat.le_refl _
    · split
      · exact Nat.le_refl _
      · exact add_asked _ _ _ _ _ _ _
  | fsDelete d n =>
    show _ ≤ (t.fsDelete d n).asked
    unfold Tree.fsDelete
    split
    · exact Nat.le_refl _
    · split
      · exact Nat.le_refl _
      · exact Nat.le_of_eq (del_asked _ _ _ _ _).1.symm
  | fsMove d1 n1 d2 n2 fmt =>
    show _ ≤ (t.fsMove d1 n1 d2 n2 fmt).asked
    rcases fsMove_cases (t := t) d1 n1 d2 n2 fmt with h | ⟨i1, i2, h, it, hne, e1, e2, ep, h0, e, hc⟩
    · rw [h]; exact Nat.le_refl _
    · rcases hc with ⟨_, hc⟩ | ⟨hfree, hc⟩
      · rw [hc]; exact Nat.le_of_eq (del_asked _ _ _ _ _).1.symm
      · rw [hc, (Tree.emit_eq _ _ _).2.2.2.1, upd_asked]
        split
        · exact Nat.le_of_eq (repath_asked _ _ _ _ _).symm
        · exact Nat.le_of_eq (move_asked _ _ _ _).symm
  | other n => exact Nat.le_add_right _ _

theorem run_asked (ops : List Tree.Op) : ∀ t : Tree, t.asked ≤ (t.run ops).asked := by
  induction ops with
  | nil => intro t; exact Nat.le_refl _
  | cons op ops ih => intro t; exact Nat.le_trans (step_asked t op) (ih _)

/-- A whole history. -/
theorem treeRun_ok (ops : List Tree.Op) : ∀ {t : Tree}, TreeWF t → Issued t → HistOk t ops →
    (t.run ops).asked < 0xFFFFFFFF → TreeWF (t.run ops) ∧ Issued (t.run ops) := by
  induction ops with
  | nil => intro t w hi _ _; exact ⟨w, hi⟩
  | cons op ops ih =>
    intro t w hi ok hb
    have s := treeStep_ok w hi op ok.1 (Nat.lt_of_le_of_lt (run_asked ops _) hb)
    exact ih s.wf s.issued ok.2 hb

/-- A handle that has been issued but is not in use never comes back (unless it is brought in by a
move from another storage). -/
theorem run_dead (ops : List Tree.Op) : ∀ {t : Tree}, TreeWF t → Issued t → HistOk t ops →
    (t.run ops).asked < 0xFFFFFFFF → ∀ {x : Nat}, x ≤ t.asked → t.has x = false → x ≠ 0 →
    (∀ i d, Tree.Op.adopt i d x ∉ ops) → (t.run ops).has x = false := by
  induction ops with
  | nil => intro t _ _ _ _ x _ h _ _; exact h
  | cons op ops ih =>
    intro t w hi ok hb x hx hd h0 hna
    have s := treeStep_ok w hi op ok.1 (Nat.lt_of_le_of_lt (run_asked ops _) hb)
    refine ih s.wf s.issued ok.2 hb (Nat.le_trans hx s.asked) ?_ h0
      (fun i d hm => hna i d (List.mem_cons_of_mem _ hm))
    cases hh : (t.step op).has x with
    | false => rfl
    | true =>
      rcases s.new x hh with h | h | h
      · rw [hd] at h; cases h
      · omega
      · cases op <;> simp only [adopted] at h <;> try exact absurd h h0
        subst h
        exact absurd List.mem_cons_self (hna _ _)

/-- Enumeration of a storage begins with the root. -/
theorem enumerate_root (rp : Path) (excl : List Path) (pol : SymPolicy) (pu : AMap Path Nat)
    (fs : Nat → Bool) (asked ids : Nat) (link : Option (Option Path)) (fmt : Nat)
    (es : List (Path × Disk))
    (hr : (Tree.empty rp excl pol pu fs asked ids).refused rp link = false) :
    ∃ (t1 : Tree) (v : Nat), TreeWF t1 ∧ Issued t1 ∧ t1.get 0 = some { Tree.newItem rp none fmt none with puoid := v } ∧
      (∀ x ix, t1.get x = some ix → x = 0) ∧ t1.excl = excl ∧ t1.policy = pol ∧ t1.rootPath = rp ∧ t1.asked = asked ∧
      (Tree.empty rp excl pol pu fs asked ids).enumerate (.node link fmt es) =
        (if fmt = ASSOC then t1.addAll rp false false es else t1) := by
  generalize ht : Tree.empty rp excl pol pu fs asked ids = t at *
  have hit : t.items = [] := by rw [← ht]; rfl
  have hpa : t.paths = [] := by rw [← ht]; rfl
  have hrp : t.rootPath = rp := by rw [← ht]; rfl
  have hex : t.excl = excl := by rw [← ht]; rfl
  have hpo : t.policy = pol := by rw [← ht]; rfl
  have hg0 : ∀ x, t.get x = none := by intro x; unfold Tree.get; rw [hit]; rfl
  have hpar : t.parentFor rp = none := by
    unfold Tree.parentFor Tree.findByPath
    rw [hpa]
    simp only [AMap.get]
    simp [Tree.has, hg0]
  have hone : t.addOne rp link fmt none false 0 =
      (t.addToMaps 0 (Tree.newItem rp none fmt none), some 0, .ok) := by
    unfold Tree.addOne
    rw [hr]
    simp only [Bool.false_eq_true, if_false]
    rw [hpa]
    simp only [AMap.get, Option.isSome_none, Bool.false_eq_true, if_false, hpar, Tree.pickHandle, hrp,
      if_true, Tree.tryCreate, Tree.linkOpt]
    simp
  have hc : (t.addToMaps 0 (Tree.newItem rp none fmt none)).excl = t.excl ∧
      (t.addToMaps 0 (Tree.newItem rp none fmt none)).policy = t.policy := by
    unfold Tree.addToMaps
    dsimp only
    split <;> exact ⟨rfl, rfl⟩
  unfold Tree.enumerate
  rw [hrp, Tree.add.eq_def]
  simp only [hone]
  have hgv := addToMaps_get t 0 (Tree.newItem rp none fmt none)
  obtain ⟨a1, a2, a3, _, _, a6⟩ := addToMaps_eq t 0 (Tree.newItem rp none fmt none)
  generalize t.addToMaps 0 (Tree.newItem rp none fmt none) = t1 at *
  have hn := a6 (by rw [hit]; simp)
  have hg1 : ∀ x ix, t1.get x = some ix → x = 0 ∧ ∃ v, ix = { Tree.newItem rp none fmt none with puoid := v } := by
    intro x ix e
    obtain ⟨v, hv⟩ := hgv x
    rw [hv] at e
    split at e
    · next hx => exact ⟨hx, v, by cases e; rfl⟩
    · rw [hg0] at e; cases e
  have hroot : ∃ v, t1.get 0 = some { Tree.newItem rp none fmt none with puoid := v } := by
    obtain ⟨v, hv⟩ := hgv 0
    exact ⟨v, by rw [hv, if_pos rfl]⟩
  have w1 : TreeWF t1 := by
    refine ⟨?_, ?_, ?_, ?_, ?_, hn⟩
    · obtain ⟨v, hv⟩ := hroot
      exact ⟨_, hv, by rw [a2, hrp]; rfl, rfl⟩
    · intro h it e
      obtain ⟨rfl, v, rfl⟩ := hg1 h it e
      rw [a1, AMap.get_insert]; simp
    · intro p h e
      rw [a1, AMap.get_insert, hpa] at e
      split at e
      · next hp =>
        cases e
        obtain ⟨v, hv⟩ := hroot
        exact ⟨_, hv, hp.symm⟩
      · cases e
    · intro h it e h0
      exact absurd (hg1 h it e).1 h0
    · intro h it c e hc
      obtain ⟨rfl, v, rfl⟩ := hg1 h it e
      exact absurd hc (by simp [Tree.newItem])
  have i1 : Issued t1 := by
    intro h it e
    rw [(hg1 h it e).1]; exact Nat.zero_le _
  obtain ⟨v, hv⟩ := hroot
  exact ⟨t1, v, w1, i1, hv, fun x ix e => (hg1 x ix e).1, hc.1.trans hex, hc.2.trans hpo, a2.trans hrp, a3.trans (by rw [← ht]; rfl), rfl⟩

/-- Enumeration of a storage gives a well-formed tree. -/
theorem enumerate_ok (rp : Path) (excl : List Path) (pol : SymPolicy) (pu : AMap Path Nat)
    (fs : Nat → Bool) (asked ids : Nat) (link : Option (Option Path)) (fmt : Nat)
    (es : List (Path × Disk)) (hd : DisksOk es)
    (hr : (Tree.empty rp excl pol pu fs asked ids).refused rp link = false)
    (hb : ((Tree.empty rp excl pol pu fs asked ids).enumerate (.node link fmt es)).asked < 0xFFFFFFFF) :
    TreeWF ((Tree.empty rp excl pol pu fs asked ids).enumerate (.node link fmt es)) ∧
    Issued ((Tree.empty rp excl pol pu fs asked ids).enumerate (.node link fmt es)) := by
  obtain ⟨t1, v, w1, i1, hv, _, _, _, _, _, e⟩ := enumerate_root rp excl pol pu fs asked ids link fmt es hr
  rw [e] at hb ⊢
  split at hb
  · next hf =>
    rw [if_pos hf]
    have := addAll_spec w1 i1 hv false false es hd hb
    exact ⟨this.1, this.2.1⟩
  · next hf => rw [if_neg hf]; exact ⟨w1, i1⟩

end Mtp
