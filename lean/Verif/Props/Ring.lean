import Verif.Lemmas.Ring
/-! Property theorem C48: the USB receive buffer. -/
namespace Props
open Mtp

/-- C48: for every interleaving of the reader thread, the kernel and the main thread, nothing is
written or read outside the buffer, and what was consumed followed by what is still stored (the
primary area, then the secondary one) is exactly what was read from USB since the last reset. -/
theorem C48_lossless_fifo (buf : List UInt8) (hb : buf.length = RBUF) (ss : List RStep) :
    ∃ r, (Ring.init buf).run ss = .ok r ∧
      r.consumed ++ (r.buf.drop r.start).take r.size1 ++ r.buf.take r.size2 = r.accepted := by
  obtain ⟨r, e, hi⟩ := Ring.run_inv (Ring.init_inv hb) ss
  refine ⟨r, e, ?_⟩
  have := hi.hist
  simpa [Ring.reg] using this

/-- C48: the bytes consumed are a prefix of the bytes read. -/
theorem C48_prefix (buf : List UInt8) (hb : buf.length = RBUF) (ss : List RStep) (r : Ring)
    (h : (Ring.init buf).run ss = .ok r) : r.consumed <+: r.accepted := by
  obtain ⟨r', e, hh⟩ := C48_lossless_fifo buf hb ss
  rw [h] at e
  cases e
  exact ⟨_, by rw [← hh, List.append_assoc]⟩

/-- C48: while a `read()` into the buffer is pending, the whole area it may fill lies inside the
buffer and overlaps neither the primary nor the secondary area of unconsumed data. -/
theorem C48_reader_disjoint (buf : List UInt8) (hb : buf.length = RBUF) (ss : List RStep) (r : Ring)
    (h : (Ring.init buf).run ss = .ok r) (off : Nat) (d : List UInt8)
    (hr : r.reading = some (off, d)) :
    off + MAX_IN ≤ r.buf.length ∧
    (∀ i, r.start ≤ i → i < r.start + r.size1 → i < off ∨ off + MAX_IN ≤ i) ∧
    (∀ i, i < r.size2 → i < off ∨ off + MAX_IN ≤ i) := by
  obtain ⟨r', e, hi⟩ := Ring.run_inv (Ring.init_inv hb) ss
  rw [h] at e
  cases e
  have hs := (hi.slot off d hr).1
  have hf := hs.fits hi
  have h1 := hi.top; have h2 := hi.two; have h3 := hi.len
  refine ⟨by omega, ?_, ?_⟩
  · intro i a b
    cases hs <;> omega
  · intro i a
    cases hs <;> omega

/-- C48: the piece the main thread works on is exactly the unconsumed primary data (or its part not
yet processed), so its contents cannot change under it. -/
theorem C48_piece_is_stored (buf : List UInt8) (hb : buf.length = RBUF) (ss : List RStep) (r : Ring)
    (h : (Ring.init buf).run ss = .ok r) (p n : Nat) (hv : r.view = some (p, n)) :
    p = r.start ∧ n ≤ r.size1 := by
  obtain ⟨r', e, hi⟩ := Ring.run_inv (Ring.init_inv hb) ss
  rw [h] at e
  cases e
  have := hi.view p n hv
  omega

/-- A schedule in which the endpoint is not reset. -/
def NoReset (ss : List RStep) : Prop := RStep.reset ∉ ss

private def Known (r : Ring) : Prop :=
  ∀ off d, r.reading = some (off, d) → off = r.start + r.size1 ∨ off = r.size2

private theorem known_switch {r : Ring} (hi : Ring.Inv r) (hk : Known r) : Known r.switch := by
  unfold Ring.switch
  split
  · next g =>
    intro off d e
    simp only at e ⊢
    have hs := (hi.slot off d e).1
    rcases hk off d e with a | a
    · cases hs <;> omega
    · omega
  · exact hk

private theorem known_step {r r' : Ring} (hi : Ring.Inv r) (hk : Known r) (s : RStep)
    (hs : s ≠ .reset) (h : r.step s = .ok r') : Known r' := by
  have htop := hi.top; have htwo := hi.two; have hlen := hi.len
  cases s with
  | reset => exact absurd rfl hs
  | pick =>
    unfold Ring.step at h
    cases hr : r.reading with
    | some x => simp only [hr] at h; cases h; exact hk
    | none =>
      simp only [hr] at h
      cases h
      intro off d e
      simp only [Option.map_eq_some_iff, Prod.mk.injEq] at e
      obtain ⟨a, ha, rfl, _⟩ := e
      unfold Ring.offset at ha
      simp only
      split at ha
      · cases ha; exact .inl rfl
      · split at ha
        · cases ha; exact .inr rfl
        · cases ha
  | kernel x =>
    unfold Ring.step at h
    cases hr : r.reading with
    | none => simp only [hr] at h; cases h; exact hk
    | some y =>
      obtain ⟨off, d⟩ := y
      simp only [hr] at h
      split at h
      · cases h; exact hk
      · split at h
        · cases h
          intro o d' e
          simp only [Option.some.injEq, Prod.mk.injEq] at e
          obtain ⟨rfl, rfl⟩ := e
          exact hk _ _ hr
        · cases h
  | mark =>
    unfold Ring.step at h
    cases hr : r.reading with
    | none => simp only [hr] at h; cases h; exact hk
    | some y =>
      simp only [hr] at h
      split at h
      · cases h; intro o d' e; simp at e
      · split at h
        · cases h; intro o d' e; simp at e
        · cases h; intro o d' e; simp at e
  | fail =>
    unfold Ring.step at h
    cases h; intro o d' e; simp at e
  | get =>
    unfold Ring.step at h
    cases hv : r.view with
    | some x => simp only [hv] at h; cases h; exact hk
    | none =>
      simp only [hv] at h
      cases h
      exact known_switch hi hk
  | release n =>
    unfold Ring.step at h
    cases hv : r.view with
    | none => simp only [hv] at h; cases h; exact hk
    | some x =>
      obtain ⟨p, len⟩ := x
      have hvw := hi.view p len hv
      simp only [hv] at h
      split at h
      · cases h; exact hk
      · split at h
        · next hn _ =>
          cases h
          intro off d e
          by_cases g : r.size1 - n = 0 ∧ r.size2 > 0
          · simp only [Ring.switch, if_pos g] at e ⊢
            have hs := (hi.slot off d e).1
            rcases hk off d e with a | a
            · cases hs <;> omega
            · omega
          · simp only [Ring.switch, if_neg g] at e ⊢
            rcases hk off d e with a | a
            · omega
            · exact .inr a
        · cases h

private theorem known_run {r r' : Ring} (hi : Ring.Inv r) (hk : Known r) (ss : List RStep)
    (hs : NoReset ss) (h : r.run ss = .ok r') : Known r' := by
  induction ss generalizing r with
  | nil => cases h; exact hk
  | cons s ss ih =>
    obtain ⟨r1, e1, hi1⟩ := Ring.step_inv hi s
    simp only [Ring.run, e1] at h
    simp only [NoReset, List.mem_cons, not_or] at hs
    exact ih hi1 (known_step hi hk s (fun e => hs.1 e.symm) e1) hs.2 h

/-- C48: without a reset no read is ever dropped: whatever a completed `read()` stored is appended to
the bytes accepted. -/
theorem C48_read_accepted (buf : List UInt8) (hb : buf.length = RBUF) (ss : List RStep)
    (hn : NoReset ss) (r : Ring) (h : (Ring.init buf).run ss = .ok r) (off : Nat) (d : List UInt8)
    (hr : r.reading = some (off, d)) :
    ∃ r', (Ring.init buf).run (ss ++ [.mark]) = .ok r' ∧ r'.accepted = r.accepted ++ d := by
  have hk : Known r := known_run (Ring.init_inv hb) (by intro o d e; simp [Ring.init] at e) ss hn h
  have hrun : ∀ (q : Ring) (ss : List RStep), q.run ss = .ok r → q.run (ss ++ [.mark]) = r.step .mark := by
    intro q ss
    induction ss generalizing q with
    | nil =>
      intro e
      cases e
      simp only [List.nil_append, Ring.run]
      split <;> simp_all
    | cons s ss ih =>
      intro e
      simp only [List.cons_append, Ring.run] at e ⊢
      cases hq : q.step s with
      | ok q' => simp only [hq] at e ⊢; exact ih q' e
      | ub w => simp only [hq] at e; cases e
  rw [hrun _ _ h]
  simp only [Ring.step, hr]
  rcases hk off d hr with a | a
  · rw [if_pos a]; exact ⟨_, rfl, rfl⟩
  · split
    · exact ⟨_, rfl, rfl⟩
    · exact ⟨_, rfl, rfl⟩

/-- C48: the two threads cannot block each other: in every reachable state either there is data for
the main thread or the reader finds room for a full read. -/
theorem C48_no_deadlock (buf : List UInt8) (hb : buf.length = RBUF) (ss : List RStep) (r : Ring)
    (h : (Ring.init buf).run ss = .ok r) :
    0 < r.size1 + r.size2 ∨ r.offset.isSome := by
  obtain ⟨r', e, hi⟩ := Ring.run_inv (Ring.init_inv hb) ss
  rw [h] at e
  cases e
  by_cases g : 0 < r.size1 + r.size2
  · exact .inl g
  · refine .inr ?_
    have : RBUF = 16 * MAX_IN := by decide
    unfold Ring.offset
    split
    · rfl
    · split
      · rfl
      · omega

/-- Two reads, one consumed in part. -/
example (buf : List UInt8) (hb : buf.length = RBUF) : ∃ r, (Ring.init buf).run
    [.pick, .kernel [1, 2, 3], .mark, .get, .pick, .kernel [4], .release 2, .mark] = .ok r ∧
    r.consumed = [1, 2] ∧ r.accepted = [1, 2, 3, 4] := by
  have h : 262144 ≤ buf.length := by rw [hb]; exact Nat.le_refl _
  have h3 : 3 ≤ buf.length := by omega
  have h4 : 4 ≤ buf.length := by omega
  have h5 : 2 ≤ buf.length - 3 + 3 := by omega
  have h6 : 4 ≤ buf.length - 3 + 3 := by omega
  have h7 : 2 ≤ 3 + (buf.length - 3) := by omega
  have h8 : 4 ≤ 3 + (buf.length - 3) := by omega
  simp [Ring.run, Ring.step, Ring.init, Ring.offset, MAX_IN, RBUF, Ring.switch, *]

end Props
