import Verif.Lemmas.TreeEvents
/-! Handles in use after an operation, for arbitrary trees and operations. -/
namespace Mtp
open Spec

/-- Objects of `t'` that `t` does not have have a handle issued later, or `k`, or are the root. -/
def NewOnly (k : Nat) (t t' : Tree) : Prop := ∀ x, t'.has x = true → t.has x = true ∨ t.asked < x ∨ x = k ∨ x = 0

theorem NewOnly.refl (k : Nat) (t : Tree) : NewOnly k t t := fun _ h => Or.inl h

theorem NewOnly.trans {k : Nat} {t t1 t2 : Tree} (ha : t.asked ≤ t1.asked) (a : NewOnly k t t1) (b : NewOnly 0 t1 t2) :
    NewOnly k t t2 := by
  intro x hx
  rcases b x hx with h | h | h | h
  · exact a x h
  · exact Or.inr (Or.inl (by omega))
  · exact Or.inr (Or.inr (Or.inr h))
  · exact Or.inr (Or.inr (Or.inr h))

theorem addOne_newOnly (t : Tree) (path : Path) (link : Option (Option Path)) (dfmt : Nat) (info : Option Tree.Info)
    (create : Bool) (handle : Nat) (hb : (t.addOne path link dfmt info create handle).1.asked < 0xFFFFFFFF) :
    NewOnly handle t (t.addOne path link dfmt info create handle).1 := by
  intro x hx
  rw [(addOne_new t path link dfmt info create handle).2 x, Bool.or_eq_true, decide_eq_true_eq] at hx
  rcases hx with hx | hx
  · have hq := (addOne_asked t path link dfmt info create handle).2
    unfold Tree.addOne at hx hb hq
    split at hx
    · cases hx
    · next hr =>
      rw [if_neg hr] at hb hq
      split at hx
      · cases hx
      · next hp =>
        rw [if_neg hp] at hb hq
        have hq := hq (by simpa using hr) (by simpa using hp)
        rw [hq] at hb
        clear hq
        dsimp only at hx
        split at hx
        · cases hx
        · simp only [Option.some.injEq] at hx
          unfold Tree.pickHandle at hx hb
          split at hx
          · exact Or.inr (Or.inr (Or.inr hx.symm))
          · next h1 =>
            rw [if_neg h1] at hb
            split at hx
            · exact Or.inr (Or.inr (Or.inl hx.symm))
            · next h2 =>
              rw [if_neg h2] at hb
              have : t.asked + 1 < 0xFFFFFFFF := hb
              rw [newHandle_eq this] at hx
              exact Or.inr (Or.inl (by simp only at hx; omega))
  · exact Or.inl hx

mutual
theorem add_newOnly (t : Tree) (path : Path) (d : Disk) (info : Option Tree.Info) (ev create : Bool) (handle : Nat)
    (hb : (t.add path d info ev create handle).1.asked < 0xFFFFFFFF) :
    NewOnly handle t (t.add path d info ev create handle).1 := by
  match d with
  | .node link dfmt entries =>
    rw [Tree.add.eq_def] at hb ⊢
    dsimp only at hb ⊢
    have h1 := addOne_newOnly t path link dfmt info create handle
    have h2 := (addOne_asked t path link dfmt info create handle).1
    split
    · next t1 h r e =>
      rw [e] at h1 h2 hb
      dsimp only at hb h1 h2
      rw [(Tree.emit_eq _ _ _).2.2.2.1] at hb
      have key : NewOnly handle t (if (Tree.newItem path none dfmt info).fmt = ASSOC then
          t1.addAll path ev create entries else t1) := by
        split
        · next hf =>
          rw [if_pos hf] at hb
          exact NewOnly.trans h2 (h1 (Nat.lt_of_le_of_lt (addAll_asked _ _ _ _ entries) hb))
            (addAll_newOnly t1 path ev create entries hb)
        · next hf =>
          rw [if_neg hf] at hb
          exact h1 hb
      intro x hx
      dsimp only at hx
      rw [emit_has] at hx
      exact key x hx
    · next t1 r e =>
      rw [e] at h1 hb
      exact h1 hb
  termination_by structural d

theorem addAll_newOnly (t : Tree) (path : Path) (ev create : Bool) (entries : List (Path × Disk))
    (hb : (t.addAll path ev create entries).asked < 0xFFFFFFFF) : NewOnly 0 t (t.addAll path ev create entries) := by
  match entries with
  | [] => rw [Tree.addAll]; exact NewOnly.refl _ _
  | (n, d) :: r =>
    rw [Tree.addAll] at hb ⊢
    exact NewOnly.trans (add_asked t _ d none ev create 0)
      (add_newOnly t _ d none ev create 0 (Nat.lt_of_le_of_lt (addAll_asked _ _ _ _ r) hb))
      (addAll_newOnly _ path ev create r hb)
  termination_by structural entries
end

/-- Deleting makes nothing appear. -/
theorem del_less (n : Nat) : (∀ (t : Tree) h phys ev x, (t.del n h phys ev).1.has x = true → t.has x = true) ∧
    (∀ (t : Tree) h phys ev x, (t.delKids n h phys ev).1.has x = true → t.has x = true) := by
  have rem : ∀ (t t0 : Tree) (it : Item) h ev x, t0.items = t.items → t.get h = some it →
      (t0.remove h ev).has x = true → t.has x = true := by
    intro t t0 it h ev x hi e hx
    have e0 : t0.get h = some it := by unfold Tree.get; rw [hi]; exact e
    have hg : t0.get x = t.get x := by unfold Tree.get; rw [hi]
    unfold Tree.has at hx ⊢
    rw [Tree.remove_get e0] at hx
    cases ex : t.get x with
    | some ix => rfl
    | none =>
      rw [hg, ex] at hx
      split at hx
      · cases hx
      · cases hp : it.parent <;> (rw [hp] at hx; simp at hx)
  induction n with
  | zero =>
    refine ⟨fun t h phys ev x hx => ?_, fun t h phys ev x hx => ?_⟩
    · unfold Tree.del at hx; exact hx
    · unfold Tree.delKids at hx; exact hx
  | succ n ih =>
    refine ⟨fun t h phys ev x hx => ?_, fun t h phys ev x hx => ?_⟩
    · rw [del_unfold] at hx
      cases e : t.get h with
      | none => rw [e] at hx; exact hx
      | some it =>
        rw [e] at hx
        dsimp only at hx
        split at hx
        · exact hx
        · split at hx
          · split at hx
            · exact hx
            · exact rem t _ it h ev x (by split <;> rfl) e hx
          · split at hx
            · exact ih.2 _ _ _ _ _ (ih.1 _ _ _ _ _ hx)
            · exact ih.2 _ _ _ _ _ hx
    · rw [delKids_unfold] at hx
      cases e : t.get h with
      | none => rw [e] at hx; exact hx
      | some it =>
        rw [e] at hx
        dsimp only at hx
        split at hx
        · exact hx
        · split at hx
          · exact ih.1 _ _ _ _ _ (ih.2 _ _ _ _ _ hx)
          · exact ih.1 _ _ _ _ _ hx

theorem delAll_less (fmt : Nat) : ∀ (l : List (Nat × Item)) (t : Tree) (resp : Resp) (a b c : Bool) x,
    (Tree.delAll fmt l t resp a b c).1.has x = true → t.has x = true := by
  intro l
  induction l with
  | nil => intro t resp a b c x h; exact h
  | cons e l ih =>
    intro t resp a b c x h
    obtain ⟨k, it⟩ := e
    rw [Tree.delAll] at h
    dsimp only at h
    split at h
    · exact ih _ _ _ _ _ _ h
    · exact (del_less _).1 _ _ _ _ _ (ih _ _ _ _ _ _ h)

/-- One operation, whatever it is. -/
theorem step_newOnly (t : Tree) (op : Tree.Op) (hb : (t.step op).asked < 0xFFFFFFFF) :
    NewOnly (adopted op) t (t.step op) := by
  cases op with
  | add i d =>
    change (t.addItem i d).1.asked < _ at hb
    show NewOnly 0 t (t.addItem i d).1
    unfold Tree.addItem at hb ⊢
    dsimp only at hb ⊢
    split
    · exact NewOnly.refl _ _
    · next p ep => simp only [ep] at hb; exact add_newOnly _ _ _ _ _ _ _ hb
  | adopt i d h =>
    change (t.adopt i d h).1.asked < _ at hb
    show NewOnly h t (t.adopt i d h).1
    unfold Tree.adopt at hb ⊢
    split
    · exact NewOnly.refl _ _
    · next hn =>
      rw [if_neg hn] at hb
      dsimp only at hb ⊢
      split
      · exact NewOnly.refl _ _
      · next p ep => simp only [ep] at hb; exact add_newOnly _ _ _ _ _ _ _ hb
  | delete h fmt =>
    intro x hx
    refine Or.inl ?_
    change (t.deleteItem h fmt).1.has x = true at hx
    unfold Tree.deleteItem at hx
    split at hx
    · exact delAll_less fmt _ _ _ _ _ _ _ hx
    · exact (del_less _).1 _ _ _ _ _ hx
  | move h p => intro x hx; exact Or.inl (by rw [← (quiet_move t h p true).1]; exact hx)
  | rename h n => intro x hx; exact Or.inl (by rw [← (quiet_rename t h n).1]; exact hx)
  | fsCreate d n k =>
    change (t.fsCreate d n k).asked < _ at hb
    show NewOnly 0 t (t.fsCreate d n k)
    unfold Tree.fsCreate at hb ⊢
    split
    · exact NewOnly.refl _ _
    · next dit ed =>
      simp only [ed] at hb
      split
      · exact NewOnly.refl _ _
      · next hc => rw [if_neg hc] at hb; exact add_newOnly _ _ _ _ _ _ _ hb
  | fsDelete d n =>
    intro x hx
    refine Or.inl ?_
    change (t.fsDelete d n).has x = true at hx
    unfold Tree.fsDelete at hx
    split at hx
    · exact hx
    · split at hx
      · exact hx
      · exact (del_less _).1 _ _ _ _ _ hx
  | fsMove d1 n1 d2 n2 fmt =>
    intro x hx
    refine Or.inl ?_
    change (t.fsMove d1 n1 d2 n2 fmt).has x = true at hx
    rcases fsMove_cases (t := t) d1 n1 d2 n2 fmt with h | ⟨i1, i2, h, it, hne, e1, e2, ep, h0, e, hc⟩
    · rw [h] at hx; exact hx
    · rcases hc with ⟨_, hc⟩ | ⟨hfree, hc⟩
      · rw [hc] at hx; exact (del_less _).1 _ _ _ _ _ hx
      · rw [hc, emit_has, upd_has] at hx
        split at hx
        · rw [← (quiet_repath e _ _).1]; exact hx
        · rw [← (quiet_move t h d2 false).1]; exact hx
  | other n => exact fun _ h => Or.inl h

/-- A handle out of use stays out of use. -/
theorem run_stays_dead (ops : List Tree.Op) : ∀ {t : Tree}, (t.run ops).asked < 0xFFFFFFFF → ∀ {x : Nat},
    x ≤ t.asked → t.has x = false → x ≠ 0 → (∀ i d, Tree.Op.adopt i d x ∉ ops) → (t.run ops).has x = false := by
  induction ops with
  | nil => intro t _ x _ h _ _; exact h
  | cons op ops ih =>
    intro t hb x hx hd h0 hna
    have s := step_newOnly t op (Nat.lt_of_le_of_lt (run_asked ops _) hb)
    refine ih hb (Nat.le_trans hx (step_asked t op)) ?_ h0 (fun i d hm => hna i d (List.mem_cons_of_mem _ hm))
    cases hh : (t.step op).has x with
    | false => rfl
    | true =>
      rcases s x hh with h | h | h | h
      · rw [hd] at h; cases h
      · omega
      · cases op <;> simp only [adopted] at h <;> try exact absurd h h0
        subst h
        exact absurd List.mem_cons_self (hna _ _)
      · exact absurd h h0

end Mtp
