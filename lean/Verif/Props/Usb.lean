import Verif.Lemmas.Usb
import Mathlib.Data.List.Induction
/-! Property theorems C49–C52: USB framing, bulk writer, event queue and event gating. -/
namespace Props
open Mtp Spec

/-- C49: a stream of well-formed containers, cut into reads in any way that leaves every 4-byte length
field in one piece, is delivered as packets whose marks regroup to exactly those containers; the
splitter is between containers at the end, and every piece is processed in finitely many rounds. -/
theorem C49_framing_partial (objSize : Nat) (cs pieces : List (List UInt8))
    (hw : ∀ c ∈ cs, WellFormed objSize c) (hs : pieces.flatten = cs.flatten)
    (hcut : CutsClear cs pieces) :
    ∃ pkts, splitPieces objSize 0 pieces = .done pkts 0 ∧ regroup none pkts = some cs := by
  refine splitPieces_spec objSize pieces 0 none cs ?_ ?_
  · rw [hs]; exact Pend.closed cs hw
  · intro ps₁ ps₂ e pre c post ec
    have := hcut ps₁ ps₂ pre c post e ec
    have hl := congrArg List.length hs
    rw [e, ec, List.flatten_append, List.flatten_append, List.length_append, List.length_append] at hl
    omega

/-- Two containers cut in the middle of the second, and the whole stream in one read. -/
example : WellFormed 0 [5, 0, 0, 0, 7] ∧ WellFormed 0 [6, 0, 0, 0, 8, 9] ∧
    splitPieces 0 0 [[5, 0, 0, 0, 7, 6, 0, 0, 0, 8], [9]] =
      .done [⟨[5, 0, 0, 0, 7], true, true⟩, ⟨[6, 0, 0, 0, 8], true, false⟩, ⟨[9], false, true⟩] 0 := by
  decide

/-- C49 is violated when a read ends inside a length field: the splitter reads the length beyond the
received bytes. -/
theorem C49_cut_in_length_violated : WellFormed 0 [5, 0, 0, 0, 7] ∧
    splitPieces 0 0 [[5, 0], [0, 0, 7]] = .short := by decide

/-- C49 is violated by a zero length field: the loop makes no progress, for ever. -/
theorem C49_zero_length_violated (objSize n : Nat) (tl : List UInt8) :
    splitData objSize n 0 (0 :: 0 :: 0 :: 0 :: tl) = .running := by
  induction n with
  | zero => rfl
  | succ n ih =>
    have ha : announced objSize (0 :: 0 :: 0 :: 0 :: tl) = 0 := by simp [announced, leVal]
    simp only [splitData, ha, if_true, Nat.not_lt_zero, if_false, List.drop_zero,
      Nat.sub_self, ih]
    simp

/-! ### C50 -/

private theorem bulkLoop_result (m : Nat) (zp : Bool) (data : List UInt8) (ws : List WriteRes)
    (o : BulkOut) (h : bulkLoop m zp data ws = some o) :
    o.writes.flatten <+: data ∧ (o.result = true ↔ o.writes.flatten = data) := by
  induction ws generalizing m zp data o with
  | nil =>
    unfold bulkLoop at h
    split at h
    · next g => cases h; simp [g.1]
    · cases h
  | cons w ws ih =>
    unfold bulkLoop at h
    split at h
    · next g => cases h; simp [g.1]
    · have hbrk : (data.isEmpty = true ↔ ([] : List (List UInt8)).flatten = data) := by
        cases data <;> simp
      cases w with
      | exit => simp only at h; cases h; exact ⟨List.nil_prefix, hbrk⟩
      | fatal => simp only at h; cases h; exact ⟨List.nil_prefix, hbrk⟩
      | eintr => exact ih _ _ _ _ h
      | eagain => exact ih _ _ _ _ h
      | eio =>
        simp only at h
        split at h
        · exact ih _ _ _ _ h
        · cases h; exact ⟨List.nil_prefix, hbrk⟩
      | ok k =>
        simp only [Option.map_eq_some_iff] at h
        obtain ⟨o', h', rfl⟩ := h
        obtain ⟨a, b⟩ := ih _ _ _ _ h'
        generalize min k (if data.length < m then data.length else m) = j at *
        refine ⟨?_, ?_⟩
        · simp only [List.flatten_cons]
          obtain ⟨t, ht⟩ := a
          exact ⟨t, by rw [List.append_assoc, ht, List.take_append_drop]⟩
        · simp only [List.flatten_cons]
          rw [b]
          constructor
          · intro e; rw [e, List.take_append_drop]
          · intro e
            have := congrArg (List.drop (data.take j).length) e
            rw [List.drop_left] at this
            rw [this]
            simp only [List.length_take]
            rcases Nat.le_total j data.length with hl | hl
            · rw [Nat.min_eq_left hl]
            · rw [Nat.min_eq_right hl, List.drop_length, List.drop_eq_nil_of_le hl]

/-- C50: whatever the kernel answers, the bytes handed over are a prefix of the data in order, and
success is reported exactly if they are all of it. -/
theorem C50_success_iff_all (m : Nat) (data : List UInt8) (terminate : Bool) (ws : List WriteRes)
    (o : BulkOut) (h : bulkWrite m data terminate ws = some o) :
    o.writes.flatten <+: data ∧ (o.result = true ↔ o.writes.flatten = data) :=
  bulkLoop_result _ _ _ _ _ h

/-- Kernel results that neither break off the transfer nor stall the pipe at the smallest size. -/
def Benign (w : WriteRes) : Prop := w = .eintr ∨ w = .eagain ∨ ∃ k, w = .ok k ∧ 0 < k

private theorem bulkLoop_zlp (m : Nat) (hm : 0 < m) (zp : Bool) (data : List UInt8)
    (ws : List WriteRes) (hb : ∀ w ∈ ws, Benign w) (o : BulkOut) (h : bulkLoop m zp data ws = some o) :
    ∃ ne : List (List UInt8), (∀ x ∈ ne, x ≠ []) ∧ ne.flatten = data ∧
      o.writes = ne ++ (if zp then [[]] else []) := by
  induction ws generalizing zp data o with
  | nil =>
    unfold bulkLoop at h
    split at h
    · next g => cases h; exact ⟨[], by simp, by simp [g.1], by simp [g.2]⟩
    · cases h
  | cons w ws ih =>
    have hb' : ∀ w ∈ ws, Benign w := fun x hx => hb x (by simp [hx])
    unfold bulkLoop at h
    split at h
    · next g => cases h; exact ⟨[], by simp, by simp [g.1], by simp [g.2]⟩
    · next g =>
      rcases hb w (by simp) with e | e | ⟨k, e, hk⟩
      · subst e; exact ih _ _ hb' _ h
      · subst e; exact ih _ _ hb' _ h
      · subst e
        simp only [Option.map_eq_some_iff] at h
        obtain ⟨o', h', rfl⟩ := h
        obtain ⟨ne, n1, n2, n3⟩ := ih _ _ hb' _ h'
        by_cases hd : data = []
        · subst hd
          have hz : zp = true := by simpa using g
          simp only [List.drop_nil] at n2
          have : ne = [] := by
            cases ne with
            | nil => rfl
            | cons x xs =>
              have := n1 x (by simp)
              simp at n2
              exact absurd n2.1 this
          subst this
          exact ⟨[], by simp, rfl, by simp [n3, hz]⟩
        · have hpos : 0 < data.length := List.length_pos_iff.mpr hd
          have hj : 0 < min k (if data.length < m then data.length else m) := by
            split <;> omega
          generalize min k (if data.length < m then data.length else m) = j at *
          refine ⟨data.take j :: ne, ?_, ?_, ?_⟩
          · intro x hx
            rcases List.mem_cons.mp hx with e | e
            · subst e
              intro he
              have := congrArg List.length he
              rw [List.length_take, List.length_nil] at this
              omega
            · exact n1 x e
          · simp [n2]
          · simp [n3, hd]

/-- C50: unless the transfer breaks off, the data goes out in non-empty writes, followed by one empty
write exactly if this ends a transfer (`terminate`) and the length is a multiple of 512. -/
theorem C50_zero_packet (m : Nat) (hm : 0 < m) (data : List UInt8) (terminate : Bool)
    (ws : List WriteRes) (hb : ∀ w ∈ ws, Benign w) (o : BulkOut)
    (h : bulkWrite m data terminate ws = some o) :
    ∃ ne : List (List UInt8), (∀ x ∈ ne, x ≠ []) ∧ ne.flatten = data ∧
      o.writes = ne ++ (if terminate = true ∧ data.length % 512 = 0 then [[]] else []) := by
  obtain ⟨ne, a, b, c⟩ := bulkLoop_zlp m hm _ data ws hb o h
  refine ⟨ne, a, b, ?_⟩
  rw [c]
  by_cases ht : terminate = true <;> by_cases hl : data.length % 512 = 0 <;> simp [ht, hl]

/-- C50: the write size stays a multiple of the packet size whatever the kernel answers, so no write
but the last can end in a short packet (that would end the transfer early). -/
theorem C50_write_size (k : Nat) (zp : Bool) (data : List UInt8) (ws : List WriteRes) (o : BulkOut)
    (h : bulkLoop (512 * 2 ^ k) zp data ws = some o) : ∃ j, j ≤ k ∧ o.writeMax = 512 * 2 ^ j := by
  induction ws generalizing k zp data o with
  | nil =>
    unfold bulkLoop at h
    split at h
    · cases h; exact ⟨k, Nat.le_refl _, rfl⟩
    · cases h
  | cons w ws ih =>
    unfold bulkLoop at h
    split at h
    · cases h; exact ⟨k, Nat.le_refl _, rfl⟩
    · cases w with
      | exit => simp only at h; cases h; exact ⟨k, Nat.le_refl _, rfl⟩
      | fatal => simp only at h; cases h; exact ⟨k, Nat.le_refl _, rfl⟩
      | eintr => exact ih _ _ _ _ h
      | eagain => exact ih _ _ _ _ h
      | eio =>
        simp only at h
        split at h
        · next g =>
          cases k with
          | zero => simp at g
          | succ k =>
            rw [Nat.pow_succ, ← Nat.mul_assoc, Nat.mul_div_cancel _ (by decide)] at h
            obtain ⟨j, h1, h2⟩ := ih _ _ _ _ h
            exact ⟨j, by omega, h2⟩
        · cases h; exact ⟨k, Nat.le_refl _, rfl⟩
      | ok n =>
        simp only [Option.map_eq_some_iff] at h
        obtain ⟨o', h', rfl⟩ := h
        exact ih k _ _ o' h'

/-- A transfer of 3 bytes in two writes, and one of 512 bytes ended by a zero-length packet. -/
example : bulkWrite 16384 [1, 2, 3] true [.ok 2, .eagain, .ok 9] =
      some { writes := [[1, 2], [3]], result := true, writeMax := 16384 } ∧
    bulkWrite 16384 (List.replicate 512 7) true [.ok 512, .ok 0] =
      some { writes := [List.replicate 512 7, []], result := true, writeMax := 16384 } := by
  decide +kernel

/-- C50 is violated when the zero-length packet fails: the transfer is not terminated, yet success is
reported. -/
theorem C50_zlp_failure_violated (m : Nat) (hm : 512 ≤ m) :
    bulkWrite m (List.replicate 512 7) true [.ok 512, .fatal] =
      some { writes := [List.replicate 512 7], result := true, writeMax := m } := by
  have h1 : min 512 (if 512 < m then 512 else m) = 512 := by split <;> omega
  have h2 : List.replicate 512 (7 : UInt8) ≠ [] := by decide
  have h3 : (List.replicate 512 (7 : UInt8)).take 512 = List.replicate 512 7 :=
    List.take_of_length_le (by rw [List.length_replicate]; exact Nat.le_refl _)
  have h4 : (List.replicate 512 (7 : UInt8)).drop 512 = [] :=
    List.drop_eq_nil_of_le (by rw [List.length_replicate]; exact Nat.le_refl _)
  unfold bulkWrite bulkLoop
  rw [if_neg (by intro h; exact h2 h.1)]
  simp only [List.length_replicate, h1, h3, h4, if_neg h2]
  rfl

/-! ### C51 -/

/-- The event writer after a history of operations. -/
def evRun {E : Type} (ops : List (EvOp E)) : EvQueue E :=
  ops.foldl EvQueue.step { queue := [], cur := none, added := [], sent := [] }

private theorem evRun_snoc {E : Type} (ops : List (EvOp E)) (op : EvOp E) :
    evRun (ops ++ [op]) = (evRun ops).step op := by simp [evRun]

private structure EvInv {E : Type} (s : EvQueue E) : Prop where
  len : s.queue.length ≤ 512
  suf : s.queue <:+ s.added
  sub : (s.sent ++ s.cur.toList ++ s.queue).Sublist s.added

private theorem ev_inv_step {E : Type} {s : EvQueue E} (h : EvInv s) (op : EvOp E) :
    EvInv (s.step op) := by
  obtain ⟨hl, ⟨t, ht⟩, hsub⟩ := h
  cases op with
  | add e =>
    refine ⟨?_, ?_, ?_⟩
    · simp only [EvQueue.step, evAdd, MAX_EVENTS, List.length_append, List.length_drop,
        List.length_cons, List.length_nil]
      omega
    · simp only [EvQueue.step, evAdd]
      refine ⟨t ++ s.queue.take (s.queue.length + 1 - MAX_EVENTS), ?_⟩
      rw [← ht]
      simp only [List.append_assoc]
      rw [← List.append_assoc (s.queue.take _), List.take_append_drop]
    · simp only [EvQueue.step, evAdd]
      rw [← List.append_assoc]
      refine List.Sublist.append ?_ (List.Sublist.refl _)
      exact List.Sublist.trans (List.Sublist.append (List.Sublist.refl _) (List.drop_sublist _ _)) hsub
  | flush =>
    refine ⟨by simp [EvQueue.step], by simp [EvQueue.step], ?_⟩
    simp only [EvQueue.step, List.append_nil]
    exact List.Sublist.trans (List.sublist_append_left _ _) hsub
  | wake ok =>
    unfold EvQueue.step
    cases hc : s.cur with
    | some e =>
      simp only [hc, Option.toList_some] at hsub
      cases ok with
      | true => exact ⟨hl, ⟨t, ht⟩, by simpa using hsub⟩
      | false => exact ⟨hl, ⟨t, ht⟩, by simpa [hc] using hsub⟩
    | none =>
      simp only [hc, Option.toList_none, List.append_nil] at hsub
      cases hq : s.queue with
      | nil => exact ⟨by simp [hq], by simp [hq], by simpa [hc, hq] using hsub⟩
      | cons e q =>
        rw [hq] at hl ht hsub
        simp only [List.length_cons] at hl
        cases ok with
        | true => exact ⟨by simp only [if_true]; omega, ⟨t ++ [e], by simpa using ht⟩,
                    by simpa [hc] using hsub⟩
        | false => exact ⟨by simp; omega, ⟨t ++ [e], by simpa using ht⟩, by simpa using hsub⟩

private theorem ev_inv {E : Type} (ops : List (EvOp E)) : EvInv (evRun ops) := by
  induction ops using List.reverseRecOn with
  | nil => exact ⟨by simp [evRun], by simp [evRun], by simp [evRun]⟩
  | append_singleton ops op ih => rw [evRun_snoc]; exact ev_inv_step ih op

/-- C51: after any history at most 512 events are queued, they are the most recently added ones in
order, and the events sent, in flight and queued appear in the order in which they were added, none
twice. -/
theorem C51_bounded_fifo {E : Type} (ops : List (EvOp E)) :
    (evRun ops).queue.length ≤ 512 ∧ (evRun ops).queue <:+ (evRun ops).added ∧
      ((evRun ops).sent ++ (evRun ops).cur.toList ++ (evRun ops).queue).Sublist (evRun ops).added :=
  have h := ev_inv ops
  ⟨h.len, h.suf, h.sub⟩

/-- C51: adding to the queue keeps the last 512 of the queued events and the new one: only a full queue
drops an event, and it is the oldest. -/
theorem C51_drops_oldest {E : Type} (ops : List (EvOp E)) (e : E) :
    (evRun (ops ++ [.add e])).queue =
      if (evRun ops).queue.length < 512 then (evRun ops).queue ++ [e]
      else (evRun ops).queue.tail ++ [e] := by
  have h := (ev_inv ops).len
  rw [evRun_snoc]
  simp only [EvQueue.step, evAdd, MAX_EVENTS]
  split
  · next g =>
    rw [show (evRun ops).queue.length + 1 - 512 = 0 by omega, List.drop_zero]
  · next g =>
    rw [show (evRun ops).queue.length + 1 - 512 = 1 by omega, List.drop_one]

/-- C51: nothing else is dropped: if the queue was never flushed and never full when an event was added,
every event is sent, in flight or still queued. -/
theorem C51_nothing_lost {E : Type} (ops : List (EvOp E)) (hf : EvOp.flush ∉ ops)
    (hroom : ∀ pre e post, ops = pre ++ EvOp.add e :: post → (evRun pre).queue.length < 512) :
    (evRun ops).sent ++ (evRun ops).cur.toList ++ (evRun ops).queue = (evRun ops).added := by
  induction ops using List.reverseRecOn with
  | nil => rfl
  | append_singleton ops op ih =>
    have ih := ih (fun h => hf (by simp [h])) (fun pre e post h => hroom pre e (post ++ [op]) (by simp [h]))
    rw [evRun_snoc]
    cases op with
    | flush => exact absurd (by simp) hf
    | add e =>
      have := hroom ops e [] (by simp)
      simp only [EvQueue.step, evAdd, MAX_EVENTS]
      rw [show (evRun ops).queue.length + 1 - 512 = 0 by omega, List.drop_zero, ← List.append_assoc, ih]
    | wake ok =>
      rw [← show _ = ((evRun ops).step (.wake ok)).added from by
        have : ((evRun ops).step (.wake ok)).added = (evRun ops).added := by
          unfold EvQueue.step
          cases (evRun ops).cur <;> cases (evRun ops).queue <;> cases ok <;> rfl
        exact this.symm]
      rw [← ih]
      unfold EvQueue.step
      cases hc : (evRun ops).cur <;> cases hq : (evRun ops).queue <;> cases ok <;> simp [hc, hq]

example : (evRun [.add 1, .add 2, .wake false, .add 3, .wake true, .wake true] : EvQueue Nat).sent = [1, 2] ∧
    (evRun [.add 1, .add 2, .wake false, .add 3, .wake true, .wake true] : EvQueue Nat).queue = [3] := by
  decide

/-! ### C52 -/

/-- The transport's control state after a history of operations. -/
def gateRun (ops : List GateOp) : Gate := ops.foldl (fun g op => (g.step op).1) Gate.init

/-- An event write starts with the last operation of the history. -/
def startsEvent (ops : List GateOp) (op : GateOp) : Prop := ((gateRun ops).step op).2 = true

private theorem gateRun_snoc (ops : List GateOp) (op : GateOp) :
    gateRun (ops ++ [op]) = ((gateRun ops).step op).1 := by simp [gateRun]

private theorem sendQueued_started {g : Gate} (h : (sendQueued g).2 = true) :
    g.writerBusy = false ∧ g.responderBusy = false ∧ g.inSession = true ∧ g.ev ≠ .busy ∧
      g.ev ≠ .disabled ∧ g.failed < 3 ∧ (sendQueued g).1 = { g with ev := .busy } := by
  unfold sendQueued at h ⊢
  by_cases h1 : g.writerBusy = true
  · simp [h1] at h
  by_cases h2 : g.responderBusy = true
  · simp [h1, h2] at h
  by_cases h3 : g.inSession = true
  · by_cases h4 : g.ev = .disabled
    · simp [h1, h2, h3, h4] at h
    by_cases h5 : g.ev = .busy
    · simp [h1, h2, h3, h5] at h
    by_cases h6 : g.ev = .idle ∧ ¬ g.hasData
    · rw [if_neg h1, if_neg h2, if_neg (by simp [h3]), if_neg h4, if_neg h5, if_pos h6] at h
      simp at h
    by_cases h7 : g.failed ≥ 3
    · rw [if_neg h1, if_neg h2, if_neg (by simp [h3]), if_neg h4, if_neg h5, if_neg h6, if_pos h7] at h
      simp at h
    · rw [if_neg h1, if_neg h2, if_neg (by simp [h3]), if_neg h4, if_neg h5, if_neg h6, if_neg h7]
      simp only [Bool.not_eq_true] at h1 h2
      exact ⟨h1, h2, h3, h5, h4, by omega, rfl⟩
  · simp [h1, h2, h3] at h

private theorem sendQueued_fst (g : Gate) : (sendQueued g).1 = g ∨
    (sendQueued g).1 = { g with ev := .disabled } ∧ g.ev ≠ .busy ∨
    (sendQueued g).1 = { g with ev := .busy } ∧ g.writerBusy = false := by
  unfold sendQueued
  by_cases h1 : g.writerBusy = true
  · simp [h1]
  rw [if_neg h1]
  split
  · simp
  · split
    · simp
    · split
      · simp
      · split
        · simp
        · next h5 =>
          split
          · simp
          · split
            · exact .inr (.inl ⟨rfl, h5⟩)
            · exact .inr (.inr ⟨rfl, by simpa using h1⟩)

private structure GInv (g : Gate) : Prop where
  excl : g.bulk = true → g.ev ≠ .busy
  bw : g.bulk = true → g.writerBusy = true

private theorem ginv_send {g : Gate} (h : GInv g) : GInv (sendQueued g).1 := by
  rcases sendQueued_fst g with e | ⟨e, h2⟩ | ⟨e, h2⟩
  · rw [e]; exact h
  · rw [e]; exact ⟨fun _ => by simp, h.bw⟩
  · rw [e]
    refine ⟨fun hb => ?_, h.bw⟩
    have := h.bw hb
    rw [h2] at this
    simp at this

private theorem ginv_step {g : Gate} (h : GInv g) (op : GateOp) : GInv (g.step op).1 := by
  cases op with
  | sendEvent =>
    simp only [Gate.step]
    split
    · exact h
    · split
      · exact h
      · exact ginv_send ⟨h.excl, h.bw⟩
  | sendData => exact ⟨h.excl, fun _ => rfl⟩
  | bulkStart =>
    simp only [Gate.step]
    split
    · next hh => exact ⟨fun _ => hh.2, fun _ => hh.1⟩
    · exact h
  | bulkDone =>
    simp only [Gate.step]
    split
    · exact ginv_send ⟨fun hb => by simp at hb, fun hb => by simp at hb⟩
    · exact h
  | pending => exact ⟨h.excl, h.bw⟩
  | finished =>
    simp only [Gate.step]
    split
    · exact ginv_send ⟨h.excl, h.bw⟩
    · exact h
  | session o =>
    simp only [Gate.step]
    split
    · exact h
    · refine ⟨fun hb => ?_, h.bw⟩
      have := h.excl hb
      simp only
      split <;> simp_all
  | timeout =>
    simp only [Gate.step]
    split
    · exact h
    · exact ⟨h.excl, h.bw⟩
  | completed r more =>
    simp only [Gate.step]
    split
    · exact h
    · split
      · exact ginv_send ⟨fun _ => by simp, h.bw⟩
      · split
        · exact ⟨fun _ => by simp, h.bw⟩
        · exact ginv_send ⟨fun _ => by simp, h.bw⟩

/-- C52: an event write starts only within a session, with the responder idle, no bulk write running or
waiting to run, no other event in flight after the completion that triggered it, and fewer than three
time-outs in a row; afterwards it is in flight. -/
theorem C52_start_conditions (ops : List GateOp) (op : GateOp) (h : startsEvent ops op) :
    let g := gateRun (ops ++ [op])
    g.inSession = true ∧ g.responderBusy = false ∧ g.writerBusy = false ∧ g.bulk = false ∧
      g.failed < 3 ∧ g.ev = .busy ∧
      ((gateRun ops).ev ≠ .busy ∨ ∃ r more, op = .completed r more) := by
  have hi : GInv (gateRun (ops ++ [op])) := by
    generalize ops ++ [op] = l
    induction l using List.reverseRecOn with
    | nil => exact ⟨by simp [gateRun, Gate.init], by simp [gateRun, Gate.init]⟩
    | append_singleton l o ih => rw [gateRun_snoc]; exact ginv_step ih o
  unfold startsEvent at h
  rw [gateRun_snoc] at hi ⊢
  generalize gateRun ops = g at *
  have key : ∀ g' : Gate, (sendQueued g').2 = true → GInv (sendQueued g').1 →
      (sendQueued g').1.inSession = true ∧ (sendQueued g').1.responderBusy = false ∧
      (sendQueued g').1.writerBusy = false ∧ (sendQueued g').1.bulk = false ∧
      (sendQueued g').1.failed < 3 ∧ (sendQueued g').1.ev = .busy ∧ g'.ev ≠ .busy := by
    intro g' hs hi
    obtain ⟨a, b, c, d, _, e, f⟩ := sendQueued_started hs
    rw [f] at hi ⊢
    refine ⟨c, b, a, ?_, e, rfl, d⟩
    cases hb : g'.bulk with
    | false => rfl
    | true => exact absurd rfl (hi.excl (by simp [hb]))
  cases op with
  | sendEvent =>
    simp only [Gate.step] at h hi ⊢
    split at h
    · cases h
    · next h1 =>
      rw [if_neg h1] at hi ⊢
      split at h
      · cases h
      · next h2 =>
        rw [if_neg h2] at hi ⊢
        obtain ⟨a, b, c, d, e, f, k⟩ := key _ h hi
        exact ⟨a, b, c, d, e, f, .inl k⟩
  | sendData => cases h
  | bulkStart => simp only [Gate.step] at h; split at h <;> cases h
  | bulkDone =>
    simp only [Gate.step] at h hi ⊢
    split at h
    · next h1 =>
      rw [if_pos h1] at hi ⊢
      obtain ⟨a, b, c, d, e, f, k⟩ := key _ h hi
      exact ⟨a, b, c, d, e, f, .inl k⟩
    · cases h
  | pending => cases h
  | finished =>
    simp only [Gate.step] at h hi ⊢
    split at h
    · next h1 =>
      rw [if_pos h1] at hi ⊢
      obtain ⟨a, b, c, d, e, f, k⟩ := key _ h hi
      exact ⟨a, b, c, d, e, f, .inl k⟩
    · cases h
  | session o => simp only [Gate.step] at h; split at h <;> cases h
  | timeout => simp only [Gate.step] at h; split at h <;> cases h
  | completed r more =>
    simp only [Gate.step] at h hi ⊢
    split at h
    · cases h
    · next h1 =>
      rw [if_neg h1] at hi ⊢
      split at h
      · next h2 =>
        rw [if_pos h2] at hi ⊢
        obtain ⟨a, b, c, d, e, f, k⟩ := key _ h hi
        exact ⟨a, b, c, d, e, f, .inr ⟨r, more, rfl⟩⟩
      · next h2 =>
        rw [if_neg h2] at hi ⊢
        split at h
        · cases h
        · next h3 =>
          rw [if_neg h3] at hi ⊢
          obtain ⟨a, b, c, d, e, f, k⟩ := key _ h hi
          exact ⟨a, b, c, d, e, f, .inr ⟨r, more, rfl⟩⟩

/-- C52: in every reachable state a bulk write and an event write are not both running. -/
theorem C52_exclusive (ops : List GateOp) :
    ¬ ((gateRun ops).bulk = true ∧ (gateRun ops).ev = .busy) := by
  have hi : GInv (gateRun ops) := by
    induction ops using List.reverseRecOn with
    | nil => exact ⟨by simp [gateRun, Gate.init], by simp [gateRun, Gate.init]⟩
    | append_singleton l o ih => rw [gateRun_snoc]; exact ginv_step ih o
  exact fun h => hi.excl h.1 h.2

private theorem failed_send (g : Gate) : (sendQueued g).1.failed = g.failed := by
  rcases sendQueued_fst g with e | ⟨e, _⟩ | ⟨e, _⟩ <;> rw [e]

private theorem failed_step {g : Gate} (h : 3 ≤ g.failed) (op : GateOp) (h1 : op ≠ .session true)
    (h2 : ∀ more, op ≠ .completed 0 more) : 3 ≤ (g.step op).1.failed := by
  cases op with
  | sendEvent =>
    simp only [Gate.step]
    split
    · exact h
    · exact h
  | sendData => exact h
  | bulkStart => simp only [Gate.step]; split <;> exact h
  | bulkDone =>
    simp only [Gate.step]
    split
    · rw [failed_send]; exact h
    · exact h
  | pending => exact h
  | finished =>
    simp only [Gate.step]
    split
    · rw [failed_send]; exact h
    · exact h
  | session o =>
    cases o with
    | true => exact absurd rfl h1
    | false => simp only [Gate.step]; split <;> exact h
  | timeout => simp only [Gate.step]; split <;> simp only <;> omega
  | completed r more =>
    simp only [Gate.step]
    split
    · exact h
    · split
      · next hr => subst hr; exact absurd rfl (h2 more)
      · split
        · exact h
        · rw [failed_send]; exact h

/-- C52: once three time-outs were counted in a row, no event is started until the session is opened
again or an event write still succeeds. -/
theorem C52_gives_up (ops later : List GateOp) (op : GateOp) (h : 3 ≤ (gateRun ops).failed)
    (h1 : GateOp.session true ∉ later ++ [op])
    (h2 : ∀ more, GateOp.completed 0 more ∉ later ++ [op]) : ¬ startsEvent (ops ++ later) op := by
  intro hs
  have h3 := (C52_start_conditions _ _ hs).2.2.2.2.1
  rw [List.append_assoc] at h3
  generalize later ++ [op] = l at *
  have : 3 ≤ (gateRun (ops ++ l)).failed := by
    induction l using List.reverseRecOn with
    | nil => simpa using h
    | append_singleton l o ih =>
      rw [← List.append_assoc, gateRun_snoc]
      refine failed_step ?_ o ?_ ?_
      · by_contra hc
        exact hc (ih (fun hm => h1 (by simp [hm])) (fun m hm => h2 m (by simp [hm])) (by omega))
      · intro e; exact h1 (by simp [e])
      · intro m e; exact h2 m (by simp [e])
  omega

/-- C52: a time-out during an event write (no bulk write waiting) counts; three make the limit. -/
theorem C52_timeouts_count (ops : List GateOp) (h : (gateRun ops).writerBusy = false) :
    (gateRun (ops ++ [.timeout])).failed = (gateRun ops).failed + 1 := by
  rw [gateRun_snoc]; simp [Gate.step, h]

/-- An event is sent; afterwards three time-outs with retries. -/
example : startsEvent [.session true, .finished] .sendEvent ∧
    3 ≤ (gateRun [.session true, .finished, .sendEvent, .timeout, .completed 2 true, .timeout,
      .completed 2 true, .timeout]).failed ∧
    ¬ startsEvent [.session true, .finished, .sendEvent, .timeout, .completed 2 true, .timeout,
      .completed 2 true, .timeout] (.completed 2 true) := by
  unfold startsEvent; decide

end Props
