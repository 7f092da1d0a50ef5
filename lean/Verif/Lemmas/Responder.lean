import Verif.Model.Responder
/-! Frame lemmas for the responder's primitives. -/
namespace Mtp
namespace Rsp
variable {D : Type}

@[simp] theorem emit_st (r : Rsp D) (o : Out) : (r.emit o).st = r.st := rfl
@[simp] theorem emit_out (r : Rsp D) (o : Out) : (r.emit o).out = r.out ++ [o] := rfl
@[simp] theorem deleteStored_st (r : Rsp D) : r.deleteStored.st = r.st := rfl
@[simp] theorem deleteStored_out (r : Rsp D) : r.deleteStored.out = r.out := rfl
@[simp] theorem deleteStored_req (r : Rsp D) : r.deleteStored.req = none := rfl
@[simp] theorem deleteStored_dataC (r : Rsp D) : r.deleteStored.dataC = none := rfl

@[simp] theorem setState_st (r : Rsp D) (s : RState) : (r.setState s).st = s := by
  unfold setState
  split
  · assumption
  · simp only
    split
    · rfl
    · split <;> rfl

@[simp] theorem emit_prev (r : Rsp D) (o : Out) : (r.emit o).prev = r.prev := rfl
@[simp] theorem deleteStored_prev (r : Rsp D) : r.deleteStored.prev = r.prev := rfl
@[simp] theorem setState_prev (r : Rsp D) (s : RState) : (r.setState s).prev = r.prev := by
  unfold setState
  split
  · rfl
  · simp only
    split
    · rfl
    · split <;> rfl
@[simp] theorem emit_session (r : Rsp D) (o : Out) : (r.emit o).session = r.session := rfl
@[simp] theorem deleteStored_session (r : Rsp D) : r.deleteStored.session = r.session := rfl
@[simp] theorem setState_session (r : Rsp D) (s : RState) : (r.setState s).session = r.session := by
  unfold setState
  split
  · rfl
  · simp only
    split
    · rfl
    · split <;> rfl
@[simp] theorem emit_req (r : Rsp D) (o : Out) : (r.emit o).req = r.req := rfl
@[simp] theorem setState_req (r : Rsp D) (s : RState) : (r.setState s).req = r.req := by
  unfold setState
  split
  · rfl
  · simp only
    split
    · rfl
    · split <;> rfl
@[simp] theorem emit_resp (r : Rsp D) (o : Out) : (r.emit o).resp = r.resp := rfl
@[simp] theorem deleteStored_resp (r : Rsp D) : r.deleteStored.resp = r.resp := rfl
@[simp] theorem setState_resp (r : Rsp D) (s : RState) : (r.setState s).resp = r.resp := by
  unfold setState
  split
  · rfl
  · simp only
    split
    · rfl
    · split <;> rfl
@[simp] theorem emit_dataC (r : Rsp D) (o : Out) : (r.emit o).dataC = r.dataC := rfl
@[simp] theorem setState_dataC (r : Rsp D) (s : RState) : (r.setState s).dataC = r.dataC := by
  unfold setState
  split
  · rfl
  · simp only
    split
    · rfl
    · split <;> rfl
@[simp] theorem emit_ready (r : Rsp D) (o : Out) : (r.emit o).ready = r.ready := rfl
@[simp] theorem deleteStored_ready (r : Rsp D) : r.deleteStored.ready = r.ready := rfl
@[simp] theorem setState_ready (r : Rsp D) (s : RState) : (r.setState s).ready = r.ready := by
  unfold setState
  split
  · rfl
  · simp only
    split
    · rfl
    · split <;> rfl
@[simp] theorem emit_waitBuf (r : Rsp D) (o : Out) : (r.emit o).waitBuf = r.waitBuf := rfl
@[simp] theorem deleteStored_waitBuf (r : Rsp D) : r.deleteStored.waitBuf = r.waitBuf := rfl
@[simp] theorem setState_waitBuf (r : Rsp D) (s : RState) : (r.setState s).waitBuf = r.waitBuf := by
  unfold setState
  split
  · rfl
  · simp only
    split
    · rfl
    · split <;> rfl
@[simp] theorem emit_waitDone (r : Rsp D) (o : Out) : (r.emit o).waitDone = r.waitDone := rfl
@[simp] theorem deleteStored_waitDone (r : Rsp D) : r.deleteStored.waitDone = r.waitDone := rfl
@[simp] theorem setState_waitDone (r : Rsp D) (s : RState) : (r.setState s).waitDone = r.waitDone := by
  unfold setState
  split
  · rfl
  · simp only
    split
    · rfl
    · split <;> rfl
@[simp] theorem emit_sendSeq (r : Rsp D) (o : Out) : (r.emit o).sendSeq = r.sendSeq := rfl
@[simp] theorem deleteStored_sendSeq (r : Rsp D) : r.deleteStored.sendSeq = r.sendSeq := rfl
@[simp] theorem setState_sendSeq (r : Rsp D) (s : RState) : (r.setState s).sendSeq = r.sendSeq := by
  unfold setState
  split
  · rfl
  · simp only
    split
    · rfl
    · split <;> rfl
@[simp] theorem emit_propList (r : Rsp D) (o : Out) : (r.emit o).propList = r.propList := rfl
@[simp] theorem deleteStored_propList (r : Rsp D) : r.deleteStored.propList = r.propList := rfl
@[simp] theorem setState_propList (r : Rsp D) (s : RState) : (r.setState s).propList = r.propList := by
  unfold setState
  split
  · rfl
  · simp only
    split
    · rfl
    · split <;> rfl
@[simp] theorem emit_edit (r : Rsp D) (o : Out) : (r.emit o).edit = r.edit := rfl
@[simp] theorem deleteStored_edit (r : Rsp D) : r.deleteStored.edit = r.edit := rfl
@[simp] theorem setState_edit (r : Rsp D) (s : RState) : (r.setState s).edit = r.edit := by
  unfold setState
  split
  · rfl
  · simp only
    split
    · rfl
    · split <;> rfl
@[simp] theorem emit_resend (r : Rsp D) (o : Out) : (r.emit o).resend = r.resend := rfl
@[simp] theorem deleteStored_resend (r : Rsp D) : r.deleteStored.resend = r.resend := rfl
@[simp] theorem setState_resend (r : Rsp D) (s : RState) : (r.setState s).resend = r.resend := by
  unfold setState
  split
  · rfl
  · simp only
    split
    · rfl
    · split <;> rfl
@[simp] theorem emit_dev (r : Rsp D) (o : Out) : (r.emit o).dev = r.dev := rfl
@[simp] theorem deleteStored_dev (r : Rsp D) : r.deleteStored.dev = r.dev := rfl
@[simp] theorem setState_dev (r : Rsp D) (s : RState) : (r.setState s).dev = r.dev := by
  unfold setState
  split
  · rfl
  · simp only
    split
    · rfl
    · split <;> rfl
@[simp] theorem send_prev (r : Rsp D) (o : Out) : (r.send o).1.prev = r.prev := by
  unfold send
  split
  · rfl
  · split
    · split <;> rfl
    · split <;> simp
@[simp] theorem reply_prev (r : Rsp D) (c : Resp) : (r.reply c).prev = r.prev := by
  unfold reply
  split
  · rfl
  · simp
@[simp] theorem send_session (r : Rsp D) (o : Out) : (r.send o).1.session = r.session := by
  unfold send
  split
  · rfl
  · split
    · split <;> rfl
    · split <;> simp
@[simp] theorem reply_session (r : Rsp D) (c : Resp) : (r.reply c).session = r.session := by
  unfold reply
  split
  · rfl
  · simp
@[simp] theorem send_resp (r : Rsp D) (o : Out) : (r.send o).1.resp = r.resp := by
  unfold send
  split
  · rfl
  · split
    · split <;> rfl
    · split <;> simp
@[simp] theorem reply_resp (r : Rsp D) (c : Resp) : (r.reply c).resp = r.resp := by
  unfold reply
  split
  · rfl
  · simp
@[simp] theorem send_ready (r : Rsp D) (o : Out) : (r.send o).1.ready = r.ready := by
  unfold send
  split
  · rfl
  · split
    · split <;> rfl
    · split <;> simp
@[simp] theorem reply_ready (r : Rsp D) (c : Resp) : (r.reply c).ready = r.ready := by
  unfold reply
  split
  · rfl
  · simp
@[simp] theorem send_waitBuf (r : Rsp D) (o : Out) : (r.send o).1.waitBuf = r.waitBuf := by
  unfold send
  split
  · rfl
  · split
    · split <;> rfl
    · split <;> simp
@[simp] theorem reply_waitBuf (r : Rsp D) (c : Resp) : (r.reply c).waitBuf = r.waitBuf := by
  unfold reply
  split
  · rfl
  · simp
@[simp] theorem send_waitDone (r : Rsp D) (o : Out) : (r.send o).1.waitDone = r.waitDone := by
  unfold send
  split
  · rfl
  · split
    · split <;> rfl
    · split <;> simp
@[simp] theorem reply_waitDone (r : Rsp D) (c : Resp) : (r.reply c).waitDone = r.waitDone := by
  unfold reply
  split
  · rfl
  · simp
@[simp] theorem send_sendSeq (r : Rsp D) (o : Out) : (r.send o).1.sendSeq = r.sendSeq := by
  unfold send
  split
  · rfl
  · split
    · split <;> rfl
    · split <;> simp
@[simp] theorem reply_sendSeq (r : Rsp D) (c : Resp) : (r.reply c).sendSeq = r.sendSeq := by
  unfold reply
  split
  · rfl
  · simp
@[simp] theorem send_propList (r : Rsp D) (o : Out) : (r.send o).1.propList = r.propList := by
  unfold send
  split
  · rfl
  · split
    · split <;> rfl
    · split <;> simp
@[simp] theorem reply_propList (r : Rsp D) (c : Resp) : (r.reply c).propList = r.propList := by
  unfold reply
  split
  · rfl
  · simp
@[simp] theorem send_edit (r : Rsp D) (o : Out) : (r.send o).1.edit = r.edit := by
  unfold send
  split
  · rfl
  · split
    · split <;> rfl
    · split <;> simp
@[simp] theorem reply_edit (r : Rsp D) (c : Resp) : (r.reply c).edit = r.edit := by
  unfold reply
  split
  · rfl
  · simp
@[simp] theorem send_dev (r : Rsp D) (o : Out) : (r.send o).1.dev = r.dev := by
  unfold send
  split
  · rfl
  · split
    · split <;> rfl
    · split <;> simp
@[simp] theorem reply_dev (r : Rsp D) (c : Resp) : (r.reply c).dev = r.dev := by
  unfold reply
  split
  · rfl
  · simp

/-- What `setState` adds to the output. -/
theorem setState_out (r : Rsp D) (s : RState) :
    (r.setState s).out = r.out ++
      (if r.st = .idle ∧ s ≠ .idle then [.pending]
       else if r.st ≠ .idle ∧ s = .idle then [.finished] else []) := by
  unfold setState
  by_cases h : r.st = s
  · subst h
    by_cases h' : r.st = .idle <;> simp [h']
  · by_cases h1 : r.st = .idle <;> by_cases h2 : s = .idle <;> simp [h, h1, h2, emit]
    simp_all

/-- The responder with a command just accepted, before its handler runs. -/
def accept (r : Rsp D) (b : List UInt8) : Rsp D :=
  { (({ r with req := some b }.setState
      (if hasDataPhase (cCode b) then .waitData else .waitResp)).emit .statusBusy) with resp := .ok }

/-- Setting the result before a command makes no difference. -/
theorem command_resp (dv : Dev D) (r : Rsp D) (n : List Ev) :
    r.command dv n = { r with resp := .ok }.command dv n := rfl

theorem receive_idle (dv : Dev D) (r : Rsp D) (b : List UInt8) (n : List Ev) (h : r.st = .idle) :
    r.receive dv b true true n = (r.accept b).command dv n := by
  unfold Rsp.receive
  rw [h]
  have : r.setState .idle = r := by unfold setState; rw [if_pos h]
  simp only [this, and_self, if_true]
  rfl

theorem receive_other (dv : Dev D) (r : Rsp D) (b : List UInt8) (n : List Ev)
    (h : r.st = .txCancel ∨ r.st = .suspend) :
    r.receive dv b true true n = (r.setState .idle).receive dv b true true n := by
  have h1 : (r.setState .idle).st = .idle := setState_st ..
  rw [receive_idle _ _ _ _ h1]
  unfold Rsp.receive
  rcases h with h | h <;> rw [h] <;> simp only [and_self, if_true] <;> rfl

@[simp] theorem accept_req (r : Rsp D) (b : List UInt8) : (r.accept b).req = some b := by simp [accept]
@[simp] theorem accept_resp (r : Rsp D) (b : List UInt8) : (r.accept b).resp = .ok := rfl
theorem accept_eta (r : Rsp D) (b : List UInt8) : { (r.accept b) with resp := .ok } = r.accept b := rfl
@[simp] theorem accept_dataC (r : Rsp D) (b : List UInt8) : (r.accept b).dataC = r.dataC := by simp [accept]
theorem accept_out (r : Rsp D) (b : List UInt8) :
    (r.accept b).out = r.out ++ (if r.st = .idle then [.pending] else []) ++ [.statusBusy] := by
  unfold accept
  show (_ : List Out) ++ _ = _
  rw [setState_out]
  cases hd : hasDataPhase (cCode b) <;> simp
@[simp] theorem accept_st (r : Rsp D) (b : List UInt8) :
    (r.accept b).st = if hasDataPhase (cCode b) then .waitData else .waitResp := by simp [accept]
@[simp] theorem accept_session (r : Rsp D) (b : List UInt8) : (r.accept b).session = r.session := by simp [accept]
@[simp] theorem accept_dev (r : Rsp D) (b : List UInt8) : (r.accept b).dev = r.dev := by simp [accept]
@[simp] theorem accept_ready (r : Rsp D) (b : List UInt8) : (r.accept b).ready = r.ready := by simp [accept]
@[simp] theorem accept_sendSeq (r : Rsp D) (b : List UInt8) : (r.accept b).sendSeq = r.sendSeq := by simp [accept]
@[simp] theorem accept_propList (r : Rsp D) (b : List UInt8) : (r.accept b).propList = r.propList := by simp [accept]
@[simp] theorem accept_edit (r : Rsp D) (b : List UInt8) : (r.accept b).edit = r.edit := by simp [accept]
@[simp] theorem accept_resend (r : Rsp D) (b : List UInt8) : (r.accept b).resend = r.resend := by simp [accept]
@[simp] theorem accept_prev (r : Rsp D) (b : List UInt8) : (r.accept b).prev = r.prev := by simp [accept]
@[simp] theorem accept_waitBuf (r : Rsp D) (b : List UInt8) : (r.accept b).waitBuf = r.waitBuf := by simp [accept]
@[simp] theorem accept_waitDone (r : Rsp D) (b : List UInt8) : (r.accept b).waitDone = r.waitDone := by simp [accept]

theorem accept_live (r : Rsp D) (b : List UInt8) : (r.accept b).st ≠ .txCancel ∧ (r.accept b).st ≠ .suspend := by
  rw [accept_st]; split <;> simp

/-- The handler of an accepted command, storages ready or not needed. -/
theorem command_accept (dv : Dev D) (r : Rsp D) (b : List UInt8) (n : List Ev)
    (h : r.ready = true ∨ needsStorage (cCode b) = false) :
    (r.accept b).command dv n =
      match opKind (cCode b) with
      | some k => (r.accept b).handle dv b n k
      | none => .ok ((r.accept b).reply .operationNotSupported) := by
  unfold Rsp.command
  split
  · next hq => rw [accept_req] at hq; simp at hq
  · next q hq =>
    have : q = b := by rw [accept_req] at hq; exact (Option.some.inj hq).symm
    subst this
    simp only
    rw [if_neg]
    · cases opKind (cCode q) <;> rfl
    rintro ⟨h1, h2⟩
    rcases h with h | h
    · rw [accept_ready, h] at h1; simp at h1
    · rw [h] at h2; simp at h2

theorem preCheck_ok {s t : Nat} (hs : s ≠ 0) (ht : t ≠ 0 ∧ t ≠ 0xFFFFFFFF) : preCheck s t = .ok := by
  unfold preCheck
  rw [if_neg hs, if_neg (not_or.mpr ht)]

/-- A response sent with no cancel or suspend in the way. -/
theorem send_response (r : Rsp D) (c : Resp) (t : Nat) (ps : List Nat)
    (h : r.st ≠ .txCancel ∧ r.st ≠ .suspend) :
    r.send (.response c t ps) =
      ((((r.setState .idle).emit (.response c t ps)).emit .statusOk).deleteStored, true) := by
  unfold send
  rw [if_neg (by simp [h.1]), if_neg h.2, if_pos (by rfl)]

theorem reply_eq (r : Rsp D) (c : Resp) (q : List UInt8) (hq : r.req = some q)
    (h : r.st ≠ .txCancel ∧ r.st ≠ .suspend) :
    r.reply c =
      (((r.setState .idle).emit (.response c (u16 (cTid q)) [])).emit .statusOk).deleteStored := by
  unfold reply
  rw [hq]
  simp only
  rw [send_response _ _ _ _ h]

theorem reply1_eq (r : Rsp D) (c : Resp) (p : Nat) (q : List UInt8) (hq : r.req = some q)
    (h : r.st ≠ .txCancel ∧ r.st ≠ .suspend) :
    r.reply1 c p =
      .ok (((r.setState .idle).emit (.response c (u16 (cTid q)) [p])).emit .statusOk).deleteStored := by
  unfold reply1
  split
  · next hn => rw [hq] at hn; simp at hn
  · next q' hq' =>
    have : q' = q := by rw [hq] at hq'; exact (Option.some.inj hq').symm
    subst this
    rw [send_response _ _ _ _ h]

theorem opKind_mem {code : Nat} {k : OpKind} (h : opKind code = some k) : (code, k) ∈ opTable := by
  unfold opKind at h
  cases hf : opTable.find? (·.1 = code) with
  | none => simp [hf] at h
  | some e =>
    rw [hf] at h
    have h1 := List.mem_of_find?_eq_some hf
    have h2 := List.find?_some hf
    simp only [Option.map_some, Option.some.injEq] at h
    have : e = (code, k) := Prod.ext (of_decide_eq_true h2) h
    rw [← this]; exact h1

/-- A kind of operation with a data phase. -/
def dataKind : OpKind → Bool
  | .sendInfo | .sendObject | .sendPropList | .sendPartial | .set _ => true
  | _ => false

/-- The operations with a data phase are those whose handlers expect one. -/
theorem kind_data {code : Nat} {k : OpKind} (h : opKind code = some k) :
    hasDataPhase code = dataKind k := by
  have : ∀ e ∈ opTable, hasDataPhase e.1 = dataKind e.2 := by decide
  exact this _ (opKind_mem h)

theorem kind_none {code : Nat} (h : opKind code = none) : hasDataPhase code = false := by
  have h1 : ∀ c ∈ [0x100C, 0x100D, 0x9806, 0x9808, 0x1016, 0x9804, 0x9811, 0x95C2], opKind c ≠ none := by decide
  unfold hasDataPhase
  rw [decide_eq_false_iff_not]
  intro hm
  exact h1 _ hm h

end Rsp
end Mtp
