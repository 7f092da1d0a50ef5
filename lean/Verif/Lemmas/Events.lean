import Verif.Spec.Responder
import Verif.Lemmas.Responder
/-! Only notifications put events on the bus. -/
namespace Mtp
namespace Rsp

variable {D : Type} {E : List Out}

/-- The events sent are `E`, and no event is kept for later. -/
def EvInv (E : List Out) (r : Rsp D) : Prop :=
  Spec.events r.out = E ∧ ∀ o, r.resend = some o → o.isEvent = false

theorem events_append (a b : List Out) : Spec.events (a ++ b) = Spec.events a ++ Spec.events b := by
  simp [Spec.events]

theorem EvInv.emit {r : Rsp D} (h : EvInv E r) (o : Out) (ho : o.isEvent = false) : EvInv E (r.emit o) := by
  refine ⟨?_, h.2⟩
  rw [emit_out, events_append, h.1]
  simp [Spec.events, ho]

theorem EvInv.more {r : Rsp D} (h : EvInv E r) (l : List Out) (hl : ∀ o ∈ l, o.isEvent = false) :
    EvInv E { r with out := r.out ++ l } := by
  refine ⟨?_, h.2⟩
  show Spec.events (r.out ++ l) = _
  rw [events_append, h.1]
  have : Spec.events l = [] := by
    unfold Spec.events
    rw [List.filter_eq_nil_iff]
    intro o ho
    simp [hl o ho]
  rw [this, List.append_nil]

theorem EvInv.setState {r : Rsp D} (h : EvInv E r) (s : RState) : EvInv E (r.setState s) := by
  refine ⟨?_, by rw [setState_resend]; exact h.2⟩
  rw [setState_out, events_append, h.1]
  by_cases h1 : r.st = .idle <;> by_cases h2 : s = .idle <;> simp [h1, h2, Spec.events, Out.isEvent]

theorem EvInv.send {r : Rsp D} (h : EvInv E r) (o : Out) (ho : o.isEvent = false) : EvInv E (r.send o).1 := by
  unfold Rsp.send
  split
  · exact h
  · split
    · split
      · exact h
      · exact ⟨h.1, fun o' e => by cases e; exact ho⟩
    · split
      · exact (((h.setState .idle).emit o ho).emit .statusOk rfl)
      · exact h.emit o ho

theorem EvInv.reply {r : Rsp D} (h : EvInv E r) (c : Resp) : EvInv E (r.reply c) := by
  unfold Rsp.reply
  split
  · exact h
  · exact h.send _ rfl

theorem EvInv.replyP {r r' : Rsp D} (h : EvInv E r) (c : Resp) (ps : List Nat)
    (hr : r.replyP c ps = .ok r') : EvInv E r' := by
  unfold Rsp.replyP at hr
  split at hr
  · cases hr; exact h.reply c
  · unfold reply1 at hr
    split at hr
    · simp at hr
    · cases hr; exact h.send _ rfl

theorem EvInv.sendReply {r r' : Rsp D} (h : EvInv E r) (q : List UInt8) (p : Reply)
    (hr : r.sendReply q p = .ok r') : EvInv E r' := by
  unfold Rsp.sendReply at hr
  split at hr
  · split at hr
    · cases hr; exact h
    · exact h.replyP _ _ hr
  · next d l rest hf =>
    have hs := h.send (.data (cCode q) (cTid q) d l) rfl
    split at hr
    · next r2 e => cases hr; rw [e] at hs; exact hs
    · next r2 e =>
      rw [e] at hs
      have hm : EvInv E { r2 with out := r2.out ++ rest.map fun f => .more f.1 f.2 } := by
        apply EvInv.more hs
        intro o ho
        obtain ⟨f, _, rfl⟩ := List.mem_map.mp ho
        exact rfl
      split at hr
      · cases hr; exact hm
      · exact hm.replyP _ _ hr

theorem EvInv.closeSession {r : Rsp D} (h : EvInv E r) : EvInv E r.closeSession := by
  unfold Rsp.closeSession
  exact EvInv.setState (r := { r with session := 0 }.deleteStored) h .idle

theorem EvInv.handleCancel {r : Rsp D} (h : EvInv E r) (dv : Dev D) : EvInv E (r.handleCancel dv) := by
  unfold Rsp.handleCancel
  split
  · exact h.emit _ rfl
  · have h1 := h.setState .txCancel
    generalize r.setState .txCancel = r1 at *
    simp only
    apply EvInv.emit _ _ rfl
    split
    · unfold cancelUpload
      have h2 : ∀ r2 : Rsp D, EvInv E r2 →
          EvInv E (if r2.propList.isSome then { r2 with propList := none } else { r2 with sendSeq := none }).deleteStored := by
        intro r2 h2
        split <;> exact h2
      apply h2
      split <;> exact h1
    · exact h1

theorem EvInv.handleSuspend {r : Rsp D} (h : EvInv E r) : EvInv E r.handleSuspend := by
  unfold Rsp.handleSuspend
  refine EvInv.setState ?_ .suspend; exact h

theorem EvInv.handleResume {r : Rsp D} (h : EvInv E r) : EvInv E r.handleResume := by
  unfold Rsp.handleResume
  have h1 := h.setState r.prev
  generalize r.setState r.prev = r1 at *
  simp only
  split
  · exact h1
  · next o ho =>
    have h2 : EvInv E { r1 with resend := none } := ⟨h1.1, by simp⟩
    split
    · exact h2
    · exact h2.emit o (h1.2 o ho)

theorem EvInv.handleEv {r : Rsp D} (h : EvInv E r) (dv : Dev D) (e : Ev) : EvInv E (r.handleEv dv e) := by
  cases e
  · exact h.handleCancel dv
  · exact h.handleSuspend
  · exact h.handleResume
  · exact h.closeSession.emit _ rfl
  · exact h.closeSession

theorem EvInv.nested {r : Rsp D} (h : EvInv E r) (dv : Dev D) (n : List Ev) :
    EvInv E (n.foldl (Rsp.handleEv dv) r) := by
  induction n generalizing r with
  | nil => exact h
  | cons e n ih => exact ih (h.handleEv dv e)

theorem EvInv.copyEnd {r r' : Rsp D} (h : EvInv E r) (c : Resp) (x : Nat)
    (hr : r.copyEnd c x = .ok r') : EvInv E r' := by
  unfold Rsp.copyEnd at hr
  split at hr
  · cases hr; exact h
  · exact EvInv.replyP h _ [_] hr

theorem EvInv.copyReq {r r' : Rsp D} (h : EvInv E r) (dv : Dev D) (q : List UInt8) (n : List Ev)
    (hr : r.copyReq dv q n = .ok r') : EvInv E r' := by
  unfold Rsp.copyReq at hr
  split at hr
  · have h1 := h.nested dv n
    generalize n.foldl (Rsp.handleEv dv) r = r1 at *
    refine EvInv.copyEnd ?_ _ _ hr; exact h1
  · exact h.copyEnd _ _ hr

theorem EvInv.handle {r r' : Rsp D} (h : EvInv E r) (dv : Dev D) (q : List UInt8) (n : List Ev)
    (k : OpKind) (hr : r.handle dv q n k = .ok r') : EvInv E r' := by
  cases k with
  | deviceInfo => refine EvInv.sendReply ?_ _ _ hr; exact h
  | openSession =>
    simp only [Rsp.handle, openSessionReq] at hr
    split at hr
    · cases hr; exact h.reply _
    · split at hr
      · exact h.replyP _ [_] hr
      · cases hr
        refine EvInv.emit (EvInv.reply ?_ _) _ rfl; exact h
  | closeSession =>
    simp only [Rsp.handle, closeSessionReq] at hr
    cases hr
    split
    · exact h.reply _
    · apply EvInv.reply
      refine EvInv.emit ?_ _ rfl; exact h
  | propsSupported =>
    simp only [Rsp.handle] at hr
    split at hr
    · refine EvInv.sendReply ?_ _ _ hr; exact h
    · cases hr; exact h.reply _
  | thumb =>
    simp only [Rsp.handle] at hr
    split at hr
    · split at hr
      · cases hr; exact h
      · refine EvInv.sendReply ?_ _ _ hr; exact h
    · cases hr; exact h
  | query ps =>
    simp only [Rsp.handle] at hr
    split at hr
    · refine EvInv.sendReply ?_ _ _ hr; exact h
    · exact h.replyP _ _ hr
  | copy => exact h.copyReq dv q n hr
  | skip => cases hr; exact h.reply _
  | refused => cases hr; exact h.reply _
  | sendInfo => cases hr; exact h
  | sendObject =>
    cases hr
    unfold sendObjectReq
    split
    · split <;> exact h
    · exact h
  | sendPropList =>
    cases hr
    unfold propListReq
    split
    · split
      · split <;> exact h
      · exact h
    · exact h
  | sendPartial =>
    cases hr
    unfold partialReq
    split
    · split
      · exact h
      · split <;> exact h
    · exact h
  | set c => cases hr; exact h
  | truncate =>
    cases hr
    unfold truncateReq
    split
    · split
      · exact h.reply _
      · split
        · exact h.reply _
        · refine EvInv.reply ?_ _; exact h
    · exact h.reply _
  | beginEdit =>
    cases hr
    unfold beginEditReq
    split
    · split
      · refine EvInv.reply ?_ _; exact h
      · exact h.reply _
    · exact h.reply _
  | endEdit =>
    cases hr
    unfold endEditReq
    split
    · split
      · exact h.reply _
      · split
        · exact h.reply _
        · refine EvInv.reply ?_ _; exact h
    · exact h.reply _

theorem EvInv.command {r r' : Rsp D} (h : EvInv E r) (dv : Dev D) (n : List Ev)
    (hr : r.command dv n = .ok r') : EvInv E r' := by
  unfold Rsp.command at hr
  split at hr
  · simp at hr
  · simp only at hr
    split at hr
    · cases hr
      refine EvInv.setState ?_ _; exact h
    · split at hr
      · refine EvInv.handle ?_ dv _ n _ hr; exact h
      · cases hr
        refine EvInv.reply ?_ _; exact h

theorem EvInv.uploadCheck {r : Rsp D} (h : EvInv E r) (dv : Dev D) (hd n : Nat) (l : Bool) :
    EvInv E (r.uploadCheck dv hd n l).1 := by
  unfold Rsp.uploadCheck
  split
  · simp only
    split
    · split <;> exact h
    · exact h
  · simp only
    split
    · split <;> exact h
    · exact h
  · exact h

theorem EvInv.uploadEnd {r : Rsp D} (h : EvInv E r) (dv : Dev D) (hd : Nat) (c : Resp) :
    EvInv E (r.uploadEnd dv hd c) := by
  unfold Rsp.uploadEnd
  simp only
  have h1 : ∀ r1 : Rsp D, EvInv E r1 → EvInv E { (r1.reply c) with propList := none } := by
    intro r1 h1
    exact h1.reply c
  apply h1
  split <;> exact h

theorem EvInv.uploadData {r r' : Rsp D} (h : EvInv E r) (dv : Dev D) (b : List UInt8) (f l : Bool)
    (hr : r.uploadData dv b f l = .ok r') : EvInv E r' := by
  unfold Rsp.uploadData at hr
  split at hr
  · cases hr; exact h.uploadEnd dv _ _
  · split at hr
    · simp at hr
    · simp only at hr
      split at hr
      · next d' hw =>
        have h1 := EvInv.uploadCheck (r := { r with dev := d' }) h dv r.uploadHandle
          (if f = true then b.drop 12 else b).length l
        split at hr
        · next r2 e => cases hr; rw [e] at h1; exact h1
        · next r2 c e1 e => cases hr; rw [e] at h1; exact h1.uploadEnd dv _ _
      · cases hr
        refine EvInv.uploadEnd ?_ dv _ _; exact h

theorem EvInv.dataEnd {r : Rsp D} (h : EvInv E r) (c : Resp) (l : Bool) : EvInv E (r.dataEnd c l) := by
  unfold Rsp.dataEnd
  simp only
  split
  · refine EvInv.reply ?_ c; exact h
  · exact h

theorem EvInv.dataPacket {r r' : Rsp D} (h : EvInv E r) (dv : Dev D) (q b : List UInt8) (f l : Bool)
    (hr : r.dataPacket dv q b f l = .ok r') : EvInv E r' := by
  unfold Rsp.dataPacket at hr
  split at hr
  · split at hr
    · refine EvInv.uploadData ?_ dv b f l hr; exact h
    · cases hr; refine EvInv.dataEnd ?_ _ _; exact h
  · split at hr
    · split at hr
      · have hp : EvInv E ({ r with dataC := none }.partialData dv b f l).1 := by
          unfold partialData
          split
          · exact h
          · split
            · exact h
            · exact h
        cases hr
        exact hp.dataEnd _ _
      · cases hr; refine EvInv.dataEnd ?_ _ _; exact h
    · have ha : EvInv E (r.accumulate b f) := by
        unfold accumulate
        split
        · exact h
        · split
          · exact h
          · split <;> exact h
      generalize r.accumulate b f = r1 at *
      simp only at hr
      split at hr
      · cases hr; exact ha
      · split at hr
        · split at hr
          · split at hr
            · cases hr; exact ha.dataEnd _ _
            · simp at hr
          · split at hr
            · cases hr
              unfold infoData
              simp only
              split
              · refine EvInv.send ?_ _ rfl; exact ha
              · split
                · refine EvInv.send ?_ _ rfl; exact ha
                · refine EvInv.send ?_ _ rfl; exact ha
            · cases hr
              unfold listData
              split
              · exact ha.reply _
              · refine EvInv.send ?_ _ rfl; exact ha
            · refine EvInv.replyP ?_ _ _ hr; exact ha
            · cases hr; exact ha.dataEnd _ _
        · cases hr; exact ha.dataEnd _ _

theorem EvInv.receive {r r' : Rsp D} (h : EvInv E r) (dv : Dev D) (b : List UInt8) (f l : Bool)
    (n : List Ev) (hr : r.receive dv b f l n = .ok r') : EvInv E r' := by
  have hidle : ∀ r1 : Rsp D, EvInv E r1 →
      (if f ∧ l then
        ((({ ({ (r1.setState .idle) with req := none } : Rsp D) with req := some b }.setState
          (if hasDataPhase (cCode b) then .waitData else .waitResp)).emit .statusBusy).command dv n)
       else Res.ok ({ (r1.setState .idle) with req := none }.emit .reset)) = .ok r' → EvInv E r' := by
    intro r1 h1 he
    have h2 := h1.setState .idle
    split at he
    · refine EvInv.command ?_ dv n he
      apply EvInv.emit _ _ rfl
      refine EvInv.setState ?_ _; exact h2
    · cases he
      refine EvInv.emit ?_ _ rfl; exact h2
  unfold Rsp.receive at hr
  split at hr
  · exact hidle r h hr
  · exact hidle r h hr
  · exact hidle r h hr
  · split at hr
    · cases hr; exact (h.setState _).emit _ rfl
    · simp only at hr
      refine EvInv.dataPacket ?_ dv _ _ _ _ hr
      split
      · exact h.emit _ rfl
      · exact h
  · split at hr
    · cases hr; exact (h.setState _).emit _ rfl
    · cases hr; exact h
  · cases hr; exact (h.setState _).emit _ rfl

theorem EvInv.step {r r' : Rsp D} (h : EvInv E r) (dv : Dev D) (i : In D) (hi : ∀ c ps, i ≠ .notify c ps)
    (hr : r.step dv i = .ok r') : EvInv E r' := by
  cases i with
  | packet b f l n => exact h.receive dv b f l n hr
  | ready n =>
    simp only [Rsp.step, storageReady] at hr
    split at hr
    · split at hr
      · simp at hr
      · next q hq =>
        split at hr
        · next r1 hc =>
          have h2 := EvInv.command (r := _) (EvInv.setState (r := { r with ready := true }) h _) dv n hc
          unfold Rsp.replay at hr
          split at hr
          · cases hr; exact h2
          · split at hr
            · next r2 hv =>
              have h3 := h2.receive dv _ _ _ _ hv
              cases hr
              exact h3
            · simp at hr
        · simp at hr
    · cases hr; exact h
  | ev e => cases hr; exact h.handleEv dv e
  | notify c ps => exact absurd rfl (hi c ps)
  | env d => cases hr; exact h

end Rsp
end Mtp
