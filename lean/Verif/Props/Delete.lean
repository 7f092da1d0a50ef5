import Verif.Props.Tree
/-! Property theorems C19, C23: deletion. -/
namespace Props
open Mtp Spec

/-- Whatever survives a deletion below `h` survives because `h` does and is not empty. -/
theorem survivor {t t' : Tree} (w' : TreeWF t') (s : Shrunk t t') {h x : Nat} (hb : Below t h x)
    (hx : t'.has x = true) (hxh : x ≠ h) : ∃ it c, t'.get h = some it ∧ c ∈ it.kids := by
  induction hb with
  | self => exact absurd rfl hxh
  | @child x p it e1 e2 hb ih =>
    obtain ⟨ix, ex⟩ := has_iff.mp hx
    have hpar : ix.parent = some p := by
      rcases s.item x with g | ⟨iy, g1, g2⟩
      · rw [g] at ex; cases ex
      · rw [g1] at e1; cases e1
        rw [g2] at ex; cases ex; exact e2
    have hx0 : x ≠ 0 := by
      rintro rfl
      obtain ⟨r, r1, _, r3⟩ := w'.root
      rw [ex] at r1; cases r1
      rw [hpar] at r3; cases r3
    obtain ⟨q, qit, q1, _, q3, q4, _⟩ := w'.parent x ix ex hx0
    rw [hpar] at q1; cases q1
    have hk : x ∈ qit.kids := by
      have : 0 < qit.kids.count x := by omega
      exact List.count_pos_iff.mp this
    by_cases hph : p = h
    · subst hph; exact ⟨qit, x, q3, hk⟩
    · exact ih (has_iff.mpr ⟨qit, q3⟩) hph

/-- C19. Deleting one object, whatever the file system answers: every object that is not `h` or a descendant is left
as it was, except that deleted objects are no longer listed as children; nothing appears. -/
theorem C19_others_unchanged {t : Tree} (w : TreeWF t) (h fmt : Nat) (hh : h ≠ ALL) :
    (∀ x ix, t.get x = some ix → ¬ Below t h x → (t.deleteItem h fmt).1.get x =
      some { ix with kids := ix.kids.filter (fun c => (t.deleteItem h fmt).1.has c) }) ∧
    (∀ x, (t.deleteItem h fmt).1.has x = true → t.has x = true) := by
  have hd : t.deleteItem h fmt = t.del t.delFuel h true false := by
    unfold Tree.deleteItem; rw [if_neg hh]
  rw [hd]
  have s := del_shrunk w t.delFuel h true false
  refine ⟨?_, fun x hx => s.has hx⟩
  intro x ix e hb
  have hk := del_keeps w t.delFuel h true false (has_iff.mpr ⟨ix, e⟩) hb
  rcases s.item x with g | ⟨iy, g1, g2⟩
  · rw [← has_false, hk] at g; cases g
  · rw [e] at g1; cases g1; exact g2

/-- C19. If the file system refuses nothing, deleting an object other than the root answers OK and makes exactly the
handles of the object and its descendants invalid. -/
theorem C19_exactly_subtree {t : Tree} (w : TreeWF t) (h fmt : Nat) (hh : h ≠ ALL) (h0 : h ≠ 0)
    (hx : t.has h = true)
    (hf : ∀ i, t.tick ≤ i → i < (t.deleteItem h fmt).1.tick → t.fs i = true) :
    (t.deleteItem h fmt).2 = .ok ∧
    ∀ x, (t.deleteItem h fmt).1.has x = true ↔ (t.has x = true ∧ ¬ Below t h x) := by
  have hd : t.deleteItem h fmt = t.del t.delFuel h true false := by
    unfold Tree.deleteItem; rw [if_neg hh]
  rw [hd] at hf ⊢
  obtain ⟨h1, h2⟩ := del_all w hx h0 true false hf
  have s := del_shrunk w t.delFuel h true false
  refine ⟨h1, fun x => ⟨fun hl => ⟨s.has hl, fun hb => ?_⟩, fun hl => del_keeps w _ _ _ _ hl.1 hl.2⟩⟩
  by_cases hxh : x = h
  · subst hxh; rw [← has_false, hl] at h2; cases h2
  · obtain ⟨it, c, g, _⟩ := survivor (del_wf w _ _ _ _) s hb hl hxh
    rw [h2] at g; cases g

/-- C19. Whatever the file system answers: after OK no descendant is left, and the object itself is gone or has become
an empty folder (its removal was refused, see `C19_rmdir_refused_violated`); after any other answer the object is
still there. -/
theorem C19_answer_partial {t : Tree} (w : TreeWF t) (h fmt : Nat) (hh : h ≠ ALL) :
    ((t.deleteItem h fmt).2 = .ok → t.has h = true ∧ h ≠ 0 ∧
      (∀ x, Below t h x → x ≠ h → (t.deleteItem h fmt).1.has x = false) ∧
      ∀ it, t.get h = some it → (t.deleteItem h fmt).1.get h = none ∨
        (it.kids ≠ [] ∧ (t.deleteItem h fmt).1.get h = some { it with kids := [] })) ∧
    ((t.deleteItem h fmt).2 ≠ .ok → t.has h = true → (t.deleteItem h fmt).1.has h = true) := by
  have hd : t.deleteItem h fmt = t.del t.delFuel h true false := by
    unfold Tree.deleteItem; rw [if_neg hh]
  rw [hd]
  have s := del_shrunk w t.delFuel h true false
  refine ⟨fun hr => ?_, fun hr hx => del_not_ok w _ _ _ _ hr hx⟩
  obtain ⟨it, e, h0, hc⟩ := del_ok w t.delFuel h true false hr
  refine ⟨has_iff.mpr ⟨it, e⟩, h0, ?_, fun it' e' => by rw [e] at e'; cases e'; exact hc⟩
  intro x hb hxh
  cases hx : (t.del t.delFuel h true false).1.has x with
  | false => rfl
  | true =>
    obtain ⟨i, c, g1, g2⟩ := survivor (del_wf w _ _ _ _) s hb hx hxh
    rcases hc with hc | ⟨_, hc⟩
    · rw [hc] at g1; cases g1
    · rw [hc] at g1; cases g1; simp at g2

/-- C19, objects without children (files and empty folders): OK exactly when the object is gone. -/
theorem C19_leaf {t : Tree} (w : TreeWF t) (h fmt : Nat) (hh : h ≠ ALL) {it : Item} (e : t.get h = some it)
    (hk : it.kids = []) : (t.deleteItem h fmt).2 = .ok ↔ (t.deleteItem h fmt).1.has h = false := by
  obtain ⟨h1, h2⟩ := C19_answer_partial w h fmt hh
  constructor
  · intro hr
    obtain ⟨_, _, _, h3⟩ := h1 hr
    rcases h3 it e with h4 | ⟨h4, _⟩
    · exact has_false.mpr h4
    · exact absurd hk h4
  · intro hg
    by_cases hr : (t.deleteItem h fmt).2 = .ok
    · exact hr
    · rw [h2 hr (has_iff.mpr ⟨it, e⟩)] at hg; cases hg

theorem delAll_gone (fmt : Nat) : ∀ (l : List (Nat × Item)) (t : Tree) (resp : Resp) (a b c : Bool),
    TreeWF t → (∀ i, t.fs i = true) → ∀ e ∈ l, e.1 ≠ 0 → (fmt = 0 ∨ fmt = UNDEF ∨ e.2.fmt = fmt) →
    (Tree.delAll fmt l t resp a b c).1.has e.1 = false := by
  intro l
  induction l with
  | nil => intro t resp a b c _ _ e he; cases he
  | cons x l ih =>
    intro t resp a b c w hf e he h0 hm
    obtain ⟨h, it⟩ := x
    unfold Tree.delAll
    dsimp only
    rcases List.mem_cons.mp he with rfl | he
    · rw [if_neg (by rintro ⟨⟨h1, h2⟩, h3⟩; rcases hm with g | g | g <;> contradiction)]
      have hgone : (t.del t.delFuel h true false).1.has h = false := by
        cases hx : t.has h with
        | true =>
          exact has_false.mpr (del_all w hx h0 true false (fun i _ _ => hf i)).2
        | false =>
          cases hy : (t.del t.delFuel h true false).1.has h with
          | false => rfl
          | true => rw [(del_shrunk w _ _ _ _).has hy] at hx; cases hx
      cases hz : (Tree.delAll fmt l (t.del t.delFuel h true false).1 (t.del t.delFuel h true false).2
          (a || decide ((t.del t.delFuel h true false).2 = .ok))
          (b || (decide ((t.del t.delFuel h true false).2 ≠ .ok) &&
            decide ((t.del t.delFuel h true false).2 ≠ .invalidObjectHandle)))
          (c || (decide (fmt ≠ 0 ∧ fmt ≠ UNDEF) && !t.has h))).1.has h with
      | false => rfl
      | true =>
        have := (delAll_spec fmt l _ _ _ _ _ (del_wf w t.delFuel h true false)).2.has hz
        rw [hgone] at this; cases this
    · split
      · exact ih _ _ _ _ _ w hf e he h0 hm
      · refine ih _ _ _ _ _ (del_wf w _ _ _ _) (fun i => ?_) e he h0 hm
        rw [(del_shrunk w _ _ _ _).fs]; exact hf i

/-- C19. Deleting everything (of format `fmt`, if given): an object not matching and without a matching ancestor stays;
and if the file system refuses nothing, every matching object but the root is gone. -/
theorem C19_all {t : Tree} (w : TreeWF t) (fmt : Nat) :
    (∀ x, t.has x = true → (∀ a it, Below t a x → t.get a = some it → fmt ≠ 0 ∧ fmt ≠ UNDEF ∧ it.fmt ≠ fmt) →
      (t.deleteItem ALL fmt).1.has x = true) ∧
    ((∀ i, t.fs i = true) → ∀ x it, t.get x = some it → x ≠ 0 → (fmt = 0 ∨ fmt = UNDEF ∨ it.fmt = fmt) →
      (t.deleteItem ALL fmt).1.has x = false) := by
  have hd : (t.deleteItem ALL fmt).1 = (Tree.delAll fmt t.items t .generalError false false false).1 := by
    unfold Tree.deleteItem; rw [if_pos rfl]
  rw [hd]
  constructor
  · intro x hx hk
    refine delAll_keeps fmt t.items t .generalError false false false w hx ?_
    intro e he hm hb
    have := hk e.1 e.2 hb (AMap.get_of_mem w.nodup he)
    rcases hm with g | g | g
    · exact this.1 g
    · exact this.2.1 g
    · exact this.2.2 g
  · intro hf x it e h0 hm
    exact delAll_gone fmt t.items t .generalError false false false w hf (x, it)
      (AMap.mem_of_get e) h0 hm

/-- Witness: `demoTree` meets the hypotheses of the theorems above; deleting folder 1 removes 1 and 2. -/
theorem C19_witness : (demoTree.deleteItem 1 0).2 = .ok ∧ (demoTree.deleteItem 1 0).1.items.map (·.1) = [0, 3] ∧
    (∀ i, demoTree.fs i = true) := by
  refine ⟨by decide +kernel, by decide +kernel, ?_⟩
  have : demoTree.fs = fun _ => true := by
    unfold demoTree; rfl
  intro i; rw [this]

/-- C19 is violated when the file system refuses to remove the emptied folder: the answer is OK but the folder is still
there (its contents were deleted by the first call, the second one fails). -/
theorem C19_rmdir_refused_violated :
    let t := { demoTree with fs := fun i => decide (i = 0) }
    (t.deleteItem 1 0).2 = .ok ∧ (t.deleteItem 1 0).1.has 1 = true ∧ (t.deleteItem 1 0).1.has 2 = false := by
  decide +kernel

/-- C19 is violated for folders removed on the device while the storage still knows contents (a folder moved out of the
storage): the storage tries to remove the already vanished folder, which fails, and keeps showing it. -/
theorem C19_vanished_folder_violated :
    let t := { demoTree with fs := fun _ => false }
    (t.fsDelete 0 ['d']).has 1 = true ∧ (t.fsDelete 0 ['d']).has 2 = false := by
  decide +kernel

/-- C19 is violated by "delete all": everything but the root is deleted, yet the answer is PartialDeletion, because the
root counts as a failure. -/
theorem C19_all_answer_violated :
    (demoTree.deleteItem ALL 0).2 = .partialDeletion ∧ (demoTree.deleteItem ALL 0).1.items.map (·.1) = [0] := by
  decide +kernel

/-- C19 is violated by "delete all of a format": all matching objects are deleted, yet the answer is PartialDeletion
because the first object (not matching) is counted as failed. -/
theorem C19_format_answer_violated :
    let t := { demoTree with items := demoTree.items.reverse }
    (t.deleteItem ALL 0x3004).2 = .partialDeletion ∧
    (t.deleteItem ALL 0x3004).1.items.all (fun e => decide (e.2.fmt ≠ 0x3004)) = true := by
  decide +kernel

/-- C19 is violated by "delete all of a format" in memory safety: the loop reads the format of an object destroyed with
its folder. The order is the hash order, here the folder first. -/
theorem C19_format_use_after_free_violated :
    let t := { demoTree with items := demoTree.items.reverse }
    (Tree.delAll ASSOC t.items t .generalError false false false).2.2.2.2 = true := by
  decide +kernel

/-! ### C23 -/

/-- The root is kept (with path and parent). -/
def RootKept (t t' : Tree) : Prop := ∀ r, t.get 0 = some r → ∃ ks, t'.get 0 = some { r with kids := ks }

theorem RootKept.refl (t : Tree) : RootKept t t := fun r e => ⟨r.kids, e⟩

theorem RootKept.trans {t t' t'' : Tree} (a : RootKept t t') (b : RootKept t' t'') : RootKept t t'' := by
  intro r e
  obtain ⟨ks, e1⟩ := a r e
  obtain ⟨ks', e2⟩ := b _ e1
  exact ⟨ks', e2⟩

theorem RootKept.remove {t : Tree} {h : Nat} (h0 : h ≠ 0) (ev : Bool) : RootKept t (t.remove h ev) := by
  intro r e
  cases hh : t.get h with
  | none =>
    refine ⟨r.kids, ?_⟩
    unfold Tree.remove
    rw [hh]
    show AMap.get (Tree.emit _ _ _).items 0 = _
    rw [(Tree.emit_eq _ _ _).1]; exact e
  | some it =>
    rw [Tree.remove_get hh ev 0, if_neg (Ne.symm h0), e]
    split
    · exact ⟨_, rfl⟩
    · exact ⟨_, rfl⟩

theorem del_rootKept (n : Nat) : ∀ (t : Tree) (h : Nat) (phys ev : Bool),
    RootKept t (t.del n h phys ev).1 ∧ RootKept t (t.delKids n h phys ev).1 := by
  induction n with
  | zero =>
    intro t h phys ev
    exact ⟨by rw [Tree.del]; exact RootKept.refl t, by rw [Tree.delKids]; exact RootKept.refl t⟩
  | succ n ih =>
    intro t h phys ev
    constructor
    · rw [del_unfold]
      split
      · exact RootKept.refl t
      · split
        · exact RootKept.refl t
        · next h0 =>
          split
          · split
            · exact fun r e => ⟨r.kids, e⟩
            · refine RootKept.trans ?_ (RootKept.remove h0 ev)
              split
              · exact fun r e => ⟨r.kids, e⟩
              · exact RootKept.refl t
          · split
            · exact (ih t h phys ev).2.trans (ih _ h true false).1
            · exact (ih t h phys ev).2
    · rw [delKids_unfold]
      split
      · exact RootKept.refl t
      · split
        · exact RootKept.refl t
        · split
          · exact (ih t _ phys ev).1.trans (ih _ h phys ev).2
          · exact (ih t _ phys ev).1

theorem delAll_rootKept (fmt : Nat) : ∀ (l : List (Nat × Item)) (t : Tree) (resp : Resp) (a b c : Bool),
    RootKept t (Tree.delAll fmt l t resp a b c).1 := by
  intro l
  induction l with
  | nil => intro t resp a b c; exact RootKept.refl t
  | cons e l ih =>
    intro t resp a b c
    obtain ⟨h, it⟩ := e
    unfold Tree.delAll
    dsimp only
    split
    · exact ih _ _ _ _ _
    · exact (del_rootKept _ t h true false).1.trans (ih _ _ _ _ _)

/-- C23. No delete request (for any handle including the root, for everything, with any format) and no notification of
a deletion on the device removes the root, in any tree whatsoever, well formed or not. -/
theorem C23_root_stays (t : Tree) (h fmt : Nat) {r : Item} (e : t.get 0 = some r) :
    (∃ ks, (t.deleteItem h fmt).1.get 0 = some { r with kids := ks }) ∧
    (∀ d n, ∃ ks, (t.fsDelete d n).get 0 = some { r with kids := ks }) := by
  constructor
  · unfold Tree.deleteItem
    split
    · exact delAll_rootKept fmt t.items t .generalError false false false r e
    · exact (del_rootKept _ t h true false).1 r e
  · intro d n
    unfold Tree.fsDelete
    split
    · exact ⟨_, e⟩
    · split
      · exact ⟨_, e⟩
      · exact (del_rootKept _ t _ false true).1 r e

/-- C23. Deleting the root itself is answered with ObjectWriteProtected and changes nothing. -/
theorem C23_root_refused (t : Tree) (fmt : Nat) (h : t.has 0 = true) :
    t.deleteItem 0 fmt = (t, .objectWriteProtected) := by
  obtain ⟨r, e⟩ := has_iff.mp h
  unfold Tree.deleteItem
  rw [if_neg (by decide)]
  show t.del (_ + 1) 0 true false = _
  rw [del_unfold, e]
  simp

/-- C23. Over whole histories: the root is present, at the storage path, after any history from a well-formed tree. -/
theorem C23_history (ops : List Tree.Op) {t : Tree} (w : TreeWF t) (hi : Issued t) (ok : HistOk t ops)
    (hb : (t.run ops).asked < 0xFFFFFFFF) : ∃ r, (t.run ops).get 0 = some r ∧ r.path = (t.run ops).rootPath := by
  obtain ⟨r, r1, r2, _⟩ := (treeRun_ok ops w hi ok hb).1.root
  exact ⟨r, r1, r2⟩

theorem C23_witness : demoTree.has 0 = true ∧ (demoTree.deleteItem ALL 0).1.has 0 = true := by decide +kernel

end Props
