import Verif.Model.Ring
/-! Invariant of the receive buffer. -/
namespace Mtp.Ring

/-- The bytes of `b` at `[a, a+n)`. -/
def reg (b : List UInt8) (a n : Nat) : List UInt8 := (b.drop a).take n

theorem reg_len {b : List UInt8} {a n : Nat} (h : a + n ≤ b.length) : (reg b a n).length = n := by
  simp [reg]; omega

theorem reg_zero (b : List UInt8) (a : Nat) : reg b a 0 = [] := by simp [reg]

theorem reg_add (b : List UInt8) (a n m : Nat) : reg b a (n + m) = reg b a n ++ reg b (a + n) m := by
  unfold reg
  rw [List.take_add, List.drop_drop]

/-- Storing `d` at `off` does not change a region disjoint from it. -/
theorem reg_write {b d : List UInt8} {off a n : Nat} (hb : off + d.length ≤ b.length)
    (h : a + n ≤ off ∨ off + d.length ≤ a) :
    reg (b.take off ++ d ++ b.drop (off + d.length)) a n = reg b a n := by
  unfold reg
  apply List.ext_getElem?
  intro i
  simp only [List.getElem?_take, List.getElem?_drop, List.append_assoc]
  split
  · next hi =>
    rcases h with h | h
    · rw [List.getElem?_append_left (by simp; omega), List.getElem?_take, if_pos (by omega)]
    · rw [List.getElem?_append_right (by simp; omega), List.length_take,
        Nat.min_eq_left (by omega), List.getElem?_append_right (by omega), List.getElem?_drop]
      congr 1; omega
  · rfl

theorem reg_self {b d : List UInt8} {off : Nat} (hb : off + d.length ≤ b.length) :
    reg (b.take off ++ d ++ b.drop (off + d.length)) off d.length = d := by
  unfold reg
  have hl : (b.take off).length = off := by simp; omega
  rw [List.append_assoc, List.drop_append, hl, List.drop_eq_nil_of_le (by omega)]
  simp

theorem write_len {b d : List UInt8} {off : Nat} (hb : off + d.length ≤ b.length) :
    (b.take off ++ d ++ b.drop (off + d.length)).length = b.length := by
  simp; omega

/-- Where the reader may store. -/
inductive Slot (r : Ring) (off : Nat) : Prop where
  | tail (h : off = r.start + r.size1) (fit : off + MAX_IN ≤ RBUF) (e : r.size2 = 0)
  | head (h : off = r.size2) (fit : off + MAX_IN ≤ r.start) (full : RBUF < r.start + r.size1 + MAX_IN)
  | stale (h0 : r.start = 0) (h1 : r.size1 = 0) (h2 : r.size2 = 0) (ne : off ≠ 0)
      (fit : off + MAX_IN ≤ RBUF)

structure Inv (r : Ring) : Prop where
  len : r.buf.length = RBUF
  top : r.start + r.size1 ≤ RBUF
  two : r.size2 ≤ r.start
  full : 0 < r.size2 → RBUF < r.start + r.size1 + MAX_IN
  slot : ∀ off d, r.reading = some (off, d) → Slot r off ∧ d.length ≤ MAX_IN ∧
    reg r.buf off d.length = d
  view : ∀ p n, r.view = some (p, n) → p = r.start ∧ n ≤ r.size1 ∧ 0 < n
  hist : r.consumed ++ reg r.buf r.start r.size1 ++ reg r.buf 0 r.size2 = r.accepted

theorem Slot.fits {r : Ring} {off : Nat} (h : Slot r off) (hi : Inv r) : off + MAX_IN ≤ RBUF := by
  cases h with
  | tail h f e => exact f
  | head h f _ => have := hi.top; omega
  | stale a b c d f => exact f

theorem init_inv {b : List UInt8} (h : b.length = RBUF) : Inv (init b) :=
  ⟨h, by simp [init], by simp [init], by simp [init], by simp [init], by simp [init], by simp [init, reg_zero]⟩

theorem switch_inv {r : Ring} (h : Inv r) (hv : r.size1 = 0 → r.view = none) : Inv r.switch := by
  unfold switch
  split
  · next g =>
    obtain ⟨g1, g2⟩ := g
    have htwo := h.two; have htop := h.top
    refine ⟨h.len, by simp only; omega, by simp, by simp, fun off d e => ?_, fun p n e => ?_, ?_⟩
    · obtain ⟨s, l, m⟩ := h.slot off d e
      refine ⟨?_, l, m⟩
      cases s with
      | tail a b c => omega
      | head a b _ => exact Slot.tail (by simp only; omega) (by omega) rfl
      | stale a b c => omega
    · rw [show r.view = none from hv g1] at e; simp at e
    · have := h.hist
      rw [g1, reg_zero] at this
      simpa [reg_zero] using this
  · exact h

theorem MAX_pos : 0 < MAX_IN := by decide

theorem step_inv {r : Ring} (h : Inv r) (s : RStep) : ∃ r', r.step s = .ok r' ∧ Inv r' := by
  have htop := h.top; have htwo := h.two; have hlen := h.len; have hfull := h.full
  have hM := MAX_pos
  cases s with
  | pick =>
    unfold step
    cases hr : r.reading with
    | some x => exact ⟨r, rfl, h⟩
    | none =>
      refine ⟨_, rfl, h.len, h.top, h.two, h.full, fun off d e => ?_, h.view, h.hist⟩
      simp only [Option.map_eq_some_iff, Prod.mk.injEq] at e
      obtain ⟨x, e1, rfl, rfl⟩ := e
      refine ⟨?_, by simp, by simp [reg_zero]⟩
      unfold offset at e1
      split at e1
      · next g =>
        simp only [Option.some.injEq] at e1
        subst e1
        exact Slot.tail rfl g (by simp only; omega)
      · split at e1
        · next g1 g =>
          simp only [Option.some.injEq] at e1; subst e1
          exact Slot.head rfl g (by simp only; omega)
        · simp at e1
  | kernel d =>
    unfold step
    cases hr : r.reading with
    | none => exact ⟨r, rfl, h⟩
    | some x =>
      obtain ⟨off, d0⟩ := x
      simp only
      split
      · exact ⟨r, rfl, h⟩
      · next hd =>
        obtain ⟨sl, _, _⟩ := h.slot off d0 hr
        have hf := sl.fits h
        have hb : off + d.length ≤ r.buf.length := by omega
        rw [if_pos hb]
        refine ⟨_, rfl, by simp only; rw [write_len hb]; exact hlen, h.top, h.two, h.full,
          fun o d' e => ?_, h.view, ?_⟩
        · simp only [Option.some.injEq, Prod.mk.injEq] at e
          obtain ⟨rfl, rfl⟩ := e
          refine ⟨?_, by omega, reg_self hb⟩
          cases sl with
          | tail a b c => exact Slot.tail a b c
          | head a b c => exact Slot.head a b c
          | stale a b c d e => exact Slot.stale a b c d e
        · simp only
          rw [reg_write hb ?_, reg_write hb ?_]
          · exact h.hist
          · cases sl with
            | tail a b c => omega
            | head a b c => omega
            | stale a b c d e => omega
          · cases sl with
            | tail a b c => omega
            | head a b c => omega
            | stale a b c d e => omega
  | mark =>
    unfold step
    cases hr : r.reading with
    | none => exact ⟨r, rfl, h⟩
    | some x =>
      obtain ⟨off, d⟩ := x
      simp only
      obtain ⟨sl, hl, hreg⟩ := h.slot off d hr
      split
      · next g =>
        have hs2 : r.size2 = 0 := by
          cases sl with
          | tail a b c => exact c
          | head a b c => omega
          | stale a b c => exact c
        have hfit := sl.fits h
        refine ⟨_, rfl, h.len, by simp only; omega, h.two, by simp only; omega, by simp,
          fun p n e => ?_, ?_⟩
        · obtain ⟨a, b, c⟩ := h.view p n e; exact ⟨a, by simp only; omega, c⟩
        · have := h.hist
          simp only [hs2, reg_zero, List.append_nil] at this ⊢
          rw [reg_add, ← List.append_assoc, this, ← g, hreg]
      · next g =>
        split
        · next g2 =>
          have hfit : r.size2 + MAX_IN ≤ r.start ∧ RBUF < r.start + r.size1 + MAX_IN := by
            cases sl with
            | tail a b c => omega
            | head a b c => exact ⟨by omega, c⟩
            | stale a b c d e => omega
          refine ⟨_, rfl, h.len, h.top, by simp only; omega, by simp only; omega, by simp,
            h.view, ?_⟩
          have := h.hist
          simp only
          rw [reg_add, ← List.append_assoc, this, Nat.zero_add, ← g2, hreg]
        · exact ⟨_, rfl, h.len, h.top, h.two, h.full, by simp, h.view, h.hist⟩
  | fail =>
    exact ⟨_, rfl, h.len, h.top, h.two, h.full, by simp, h.view, h.hist⟩
  | get =>
    unfold step
    cases hv : r.view with
    | some x => exact ⟨r, rfl, h⟩
    | none =>
      have h' := switch_inv h (fun _ => hv)
      refine ⟨_, rfl, h'.len, h'.top, h'.two, h'.full, ?_, ?_, h'.hist⟩
      · intro off d e
        obtain ⟨sl, a, b⟩ := h'.slot off d e
        refine ⟨?_, a, b⟩
        cases sl with
        | tail a b c => exact Slot.tail a b c
        | head a b c => exact Slot.head a b c
        | stale a b c d e => exact Slot.stale a b c d e
      · intro p n e
        simp only at e
        split at e
        · next g =>
          simp only [Option.some.injEq, Prod.mk.injEq] at e
          obtain ⟨rfl, rfl⟩ := e
          exact ⟨rfl, Nat.le_refl _, g⟩
        · simp at e
  | release n =>
    unfold step
    cases hv : r.view with
    | none => exact ⟨r, rfl, h⟩
    | some x =>
      obtain ⟨p, len⟩ := x
      obtain ⟨hp, hn, hpos⟩ := h.view p len hv
      simp only
      split
      · exact ⟨r, rfl, h⟩
      · next hnl =>
        have hb : p + n ≤ r.buf.length := by omega
        rw [if_pos hb]
        refine ⟨_, rfl, switch_inv ?_ ?_⟩
        · refine ⟨h.len, by simp only; omega, by simp only; omega, ?_, ?_, ?_, ?_⟩
          · simp only; intro g; have := h.full g; omega
          · intro off d e
            obtain ⟨sl, a, b⟩ := h.slot off d e
            refine ⟨?_, a, b⟩
            cases sl with
            | tail a b c => exact Slot.tail (by simp only; omega) b c
            | head a b c => exact Slot.head a (by simp only; omega) (by simp only; omega)
            | stale a b c d e => omega
          · intro q m e
            simp only at e
            split at e
            · simp at e
            · simp only [Option.some.injEq, Prod.mk.injEq] at e
              obtain ⟨rfl, rfl⟩ := e
              refine ⟨by simp only; omega, by simp only; omega, by omega⟩
          · have := h.hist
            have hsplit : r.size1 = n + (r.size1 - n) := by omega
            rw [hsplit, reg_add] at this
            simp only
            rw [← this, hp]
            simp [reg]
        · intro g
          simp only at g ⊢
          rw [if_pos (by omega)]
  | reset =>
    refine ⟨_, rfl, h.len, by simp, by simp, by simp, ?_, by simp, by simp [reg_zero]⟩
    intro off d e
    obtain ⟨sl, a, b⟩ := h.slot off d e
    have hf := sl.fits h
    refine ⟨?_, a, b⟩
    by_cases h0 : off = 0
    · subst h0; exact Slot.tail rfl hf rfl
    · exact Slot.stale rfl rfl rfl h0 hf

theorem run_inv {r : Ring} (h : Inv r) (ss : List RStep) : ∃ r', r.run ss = .ok r' ∧ Inv r' := by
  induction ss generalizing r with
  | nil => exact ⟨r, rfl, h⟩
  | cons s ss ih =>
    obtain ⟨r', e, h'⟩ := step_inv h s
    obtain ⟨r'', e', h''⟩ := ih h'
    exact ⟨r'', by simp [run, e, e'], h''⟩

end Mtp.Ring
