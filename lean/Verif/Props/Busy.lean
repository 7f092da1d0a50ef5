import Verif.Spec.Responder
import Verif.Lemmas.Responder
import Verif.Spec.Toy
/-! Property theorems C42: busy/idle notifications. -/
namespace Props
open Mtp Mtp.Rsp

variable {D : Type}

/-- Not a busy/idle notification. -/
private def Plain (o : Out) : Prop := o ≠ .pending ∧ o ≠ .finished

private def BusyInv (r : Rsp D) : Prop :=
  Spec.busy r.out = some (decide (r.st ≠ .idle)) ∧ ∀ o, r.resend = some o → Plain o

private theorem busy_append (a b : List Out) : Spec.busy (a ++ b) = b.foldl Spec.busyStep (Spec.busy a) := by
  simp [Spec.busy]

private theorem busyStep_plain (s : Option Bool) (o : Out) (h : Plain o) : Spec.busyStep s o = s := by
  obtain ⟨h1, h2⟩ := h
  cases s with
  | none => cases o <;> rfl
  | some b => cases b <;> cases o <;> first | rfl | contradiction

private theorem plain_fold (l : List Out) (h : ∀ o ∈ l, Plain o) (s : Option Bool) :
    l.foldl Spec.busyStep s = s := by
  induction l with
  | nil => rfl
  | cons a l ih =>
    rw [List.foldl_cons, busyStep_plain s a (h a (by simp)), ih fun o ho => h o (by simp [ho])]

private theorem BusyInv.emit {r : Rsp D} (h : BusyInv r) (o : Out) (ho : Plain o) : BusyInv (r.emit o) := by
  refine ⟨?_, h.2⟩
  rw [emit_out, busy_append, List.foldl_cons, List.foldl_nil, busyStep_plain _ _ ho]
  exact h.1

private theorem BusyInv.more {r : Rsp D} (h : BusyInv r) (l : List Out) (hl : ∀ o ∈ l, Plain o) :
    BusyInv { r with out := r.out ++ l } := by
  refine ⟨?_, h.2⟩
  show Spec.busy (r.out ++ l) = _
  rw [busy_append, plain_fold _ hl]
  exact h.1

private theorem BusyInv.setState {r : Rsp D} (h : BusyInv r) (s : RState) : BusyInv (r.setState s) := by
  refine ⟨?_, by rw [setState_resend]; exact h.2⟩
  rw [setState_out, busy_append, h.1, setState_st]
  by_cases h1 : r.st = .idle <;> by_cases h2 : s = .idle <;> simp [h1, h2, Spec.busyStep]

private theorem BusyInv.send {r : Rsp D} (h : BusyInv r) (o : Out) (ho : Plain o) : BusyInv (r.send o).1 := by
  unfold Rsp.send
  split
  · exact h
  · split
    · split
      · exact h
      · exact ⟨h.1, fun o' e => by cases e; exact ho⟩
    · split
      · exact (((h.setState .idle).emit o ho).emit .statusOk ⟨by simp, by simp⟩)
      · exact h.emit o ho

private theorem plain_response (c : Resp) (t : Nat) (ps : List Nat) : Plain (.response c t ps) :=
  ⟨by simp, by simp⟩

private theorem BusyInv.reply {r : Rsp D} (h : BusyInv r) (c : Resp) : BusyInv (r.reply c) := by
  unfold Rsp.reply
  split
  · exact h
  · exact h.send _ (plain_response ..)

private theorem BusyInv.replyP {r r' : Rsp D} (h : BusyInv r) (c : Resp) (ps : List Nat)
    (hr : r.replyP c ps = .ok r') : BusyInv r' := by
  unfold Rsp.replyP at hr
  split at hr
  · cases hr; exact h.reply c
  · unfold reply1 at hr
    split at hr
    · simp at hr
    · cases hr; exact h.send _ (plain_response ..)

private theorem BusyInv.sendReply {r r' : Rsp D} (h : BusyInv r) (q : List UInt8) (p : Reply)
    (hr : r.sendReply q p = .ok r') : BusyInv r' := by
  unfold Rsp.sendReply at hr
  split at hr
  · split at hr
    · cases hr; exact h
    · exact h.replyP _ _ hr
  · next d l rest hf =>
    have hs := h.send (.data (cCode q) (cTid q) d l) ⟨by simp, by simp⟩
    split at hr
    · next r2 e => cases hr; rw [e] at hs; exact hs
    · next r2 e =>
      rw [e] at hs
      have hm : BusyInv { r2 with out := r2.out ++ rest.map fun f => .more f.1 f.2 } := by
        apply BusyInv.more hs
        intro o ho
        obtain ⟨f, _, rfl⟩ := List.mem_map.mp ho
        exact ⟨by simp, by simp⟩
      split at hr
      · cases hr; exact hm
      · exact hm.replyP _ _ hr

private theorem BusyInv.closeSession {r : Rsp D} (h : BusyInv r) : BusyInv r.closeSession := by
  unfold Rsp.closeSession
  exact BusyInv.setState (r := { r with session := 0 }.deleteStored) h .idle

private theorem BusyInv.handleCancel {r : Rsp D} (h : BusyInv r) (dv : Dev D) : BusyInv (r.handleCancel dv) := by
  unfold Rsp.handleCancel
  split
  · exact h.emit _ ⟨by simp, by simp⟩
  · have h1 := h.setState .txCancel
    generalize r.setState .txCancel = r1 at *
    simp only
    apply BusyInv.emit _ _ ⟨by simp, by simp⟩
    split
    · unfold cancelUpload
      have h2 : ∀ r2 : Rsp D, BusyInv r2 →
          BusyInv (if r2.propList.isSome then { r2 with propList := none } else { r2 with sendSeq := none }).deleteStored := by
        intro r2 h2
        split <;> exact h2
      apply h2
      split <;> exact h1
    · exact h1

private theorem BusyInv.handleSuspend {r : Rsp D} (h : BusyInv r) : BusyInv r.handleSuspend := by
  unfold Rsp.handleSuspend
  refine BusyInv.setState ?_ .suspend; exact h

private theorem BusyInv.handleResume {r : Rsp D} (h : BusyInv r) : BusyInv r.handleResume := by
  unfold Rsp.handleResume
  have h1 := h.setState r.prev
  generalize r.setState r.prev = r1 at *
  simp only
  split
  · exact h1
  · next o ho =>
    have h2 : BusyInv { r1 with resend := none } := ⟨h1.1, by simp⟩
    split
    · exact h2
    · exact h2.emit o (h1.2 o ho)

private theorem BusyInv.handleEv {r : Rsp D} (h : BusyInv r) (dv : Dev D) (e : Ev) : BusyInv (r.handleEv dv e) := by
  cases e
  · exact h.handleCancel dv
  · exact h.handleSuspend
  · exact h.handleResume
  · exact h.closeSession.emit _ ⟨by simp, by simp⟩
  · exact h.closeSession

private theorem BusyInv.nested {r : Rsp D} (h : BusyInv r) (dv : Dev D) (n : List Ev) :
    BusyInv (n.foldl (Rsp.handleEv dv) r) := by
  induction n generalizing r with
  | nil => exact h
  | cons e n ih => exact ih (h.handleEv dv e)

private theorem BusyInv.copyEnd {r r' : Rsp D} (h : BusyInv r) (c : Resp) (x : Nat)
    (hr : r.copyEnd c x = .ok r') : BusyInv r' := by
  unfold Rsp.copyEnd at hr
  split at hr
  · cases hr; exact h
  · exact BusyInv.replyP h _ [_] hr

private theorem BusyInv.copyReq {r r' : Rsp D} (h : BusyInv r) (dv : Dev D) (q : List UInt8) (n : List Ev)
    (hr : r.copyReq dv q n = .ok r') : BusyInv r' := by
  unfold Rsp.copyReq at hr
  split at hr
  · have h1 := h.nested dv n
    generalize n.foldl (Rsp.handleEv dv) r = r1 at *
    refine BusyInv.copyEnd ?_ _ _ hr; exact h1
  · exact h.copyEnd _ _ hr

private theorem BusyInv.handle {r r' : Rsp D} (h : BusyInv r) (dv : Dev D) (q : List UInt8) (n : List Ev)
    (k : OpKind) (hr : r.handle dv q n k = .ok r') : BusyInv r' := by
  cases k with
  | deviceInfo => refine BusyInv.sendReply ?_ _ _ hr; exact h
  | openSession =>
    simp only [Rsp.handle, openSessionReq] at hr
    split at hr
    · cases hr; exact h.reply _
    · split at hr
      · exact h.replyP _ [_] hr
      · cases hr
        refine BusyInv.emit (BusyInv.reply ?_ _) _ ⟨by simp, by simp⟩; exact h
  | closeSession =>
    simp only [Rsp.handle, closeSessionReq] at hr
    cases hr
    split
    · exact h.reply _
    · apply BusyInv.reply
      refine BusyInv.emit ?_ _ ⟨by simp, by simp⟩; exact h
  | propsSupported =>
    simp only [Rsp.handle] at hr
    split at hr
    · refine BusyInv.sendReply ?_ _ _ hr; exact h
    · cases hr; exact h.reply _
  | thumb =>
    simp only [Rsp.handle] at hr
    split at hr
    · split at hr
      · cases hr; exact h
      · refine BusyInv.sendReply ?_ _ _ hr; exact h
    · cases hr; exact h
  | query ps =>
    simp only [Rsp.handle] at hr
    split at hr
    · refine BusyInv.sendReply ?_ _ _ hr; exact h
    · exact h.replyP _ _ hr
  | copy => exact h.copyReq dv q n hr
  | skip => cases hr; exact h.reply _
  | refused => cases hr; exact h.reply _
  | sendInfo => cases hr; exact h
  | sendObject =>
    cases hr
    unfold sendObjectReq
    split
    · split <;> exact h
    · exact h
  | sendPropList =>
    cases hr
    unfold propListReq
    split
    · split
      · split <;> exact h
      · exact h
    · exact h
  | sendPartial =>
    cases hr
    unfold partialReq
    split
    · split
      · exact h
      · split <;> exact h
    · exact h
  | set c => cases hr; exact h
  | truncate =>
    cases hr
    unfold truncateReq
    split
    · split
      · exact h.reply _
      · split
        · exact h.reply _
        · refine BusyInv.reply ?_ _; exact h
    · exact h.reply _
  | beginEdit =>
    cases hr
    unfold beginEditReq
    split
    · split
      · refine BusyInv.reply ?_ _; exact h
      · exact h.reply _
    · exact h.reply _
  | endEdit =>
    cases hr
    unfold endEditReq
    split
    · split
      · exact h.reply _
      · split
        · exact h.reply _
        · refine BusyInv.reply ?_ _; exact h
    · exact h.reply _

private theorem BusyInv.command {r r' : Rsp D} (h : BusyInv r) (dv : Dev D) (n : List Ev)
    (hr : r.command dv n = .ok r') : BusyInv r' := by
  unfold Rsp.command at hr
  split at hr
  · simp at hr
  · simp only at hr
    split at hr
    · cases hr
      refine BusyInv.setState ?_ _; exact h
    · split at hr
      · refine BusyInv.handle ?_ dv _ n _ hr; exact h
      · cases hr
        refine BusyInv.reply ?_ _; exact h

private theorem BusyInv.uploadCheck {r : Rsp D} (h : BusyInv r) (dv : Dev D) (hd n : Nat) (l : Bool) :
    BusyInv (r.uploadCheck dv hd n l).1 := by
  unfold Rsp.uploadCheck
  split
  · simp only
    split
    · split <;> exact h
    · exact h
  · simp only
    split
    · split <;> exact h
    · exact h
  · exact h

private theorem BusyInv.uploadEnd {r : Rsp D} (h : BusyInv r) (dv : Dev D) (hd : Nat) (c : Resp) :
    BusyInv (r.uploadEnd dv hd c) := by
  unfold Rsp.uploadEnd
  simp only
  have h1 : ∀ r1 : Rsp D, BusyInv r1 → BusyInv { (r1.reply c) with propList := none } := by
    intro r1 h1
    exact h1.reply c
  apply h1
  split <;> exact h

private theorem BusyInv.uploadData {r r' : Rsp D} (h : BusyInv r) (dv : Dev D) (b : List UInt8) (f l : Bool)
    (hr : r.uploadData dv b f l = .ok r') : BusyInv r' := by
  unfold Rsp.uploadData at hr
  split at hr
  · cases hr; exact h.uploadEnd dv _ _
  · split at hr
    · simp at hr
    · simp only at hr
      split at hr
      · next d' hw =>
        have h1 := BusyInv.uploadCheck (r := { r with dev := d' }) h dv r.uploadHandle
          (if f = true then b.drop 12 else b).length l
        split at hr
        · next r2 e => cases hr; rw [e] at h1; exact h1
        · next r2 c e1 e => cases hr; rw [e] at h1; exact h1.uploadEnd dv _ _
      · cases hr
        refine BusyInv.uploadEnd ?_ dv _ _; exact h

private theorem BusyInv.dataEnd {r : Rsp D} (h : BusyInv r) (c : Resp) (l : Bool) : BusyInv (r.dataEnd c l) := by
  unfold Rsp.dataEnd
  simp only
  split
  · refine BusyInv.reply ?_ c; exact h
  · exact h

private theorem BusyInv.dataPacket {r r' : Rsp D} (h : BusyInv r) (dv : Dev D) (q b : List UInt8) (f l : Bool)
    (hr : r.dataPacket dv q b f l = .ok r') : BusyInv r' := by
  unfold Rsp.dataPacket at hr
  split at hr
  · split at hr
    · refine BusyInv.uploadData ?_ dv b f l hr; exact h
    · cases hr; refine BusyInv.dataEnd ?_ _ _; exact h
  · split at hr
    · split at hr
      · have hp : BusyInv ({ r with dataC := none }.partialData dv b f l).1 := by
          unfold partialData
          split
          · exact h
          · split
            · exact h
            · exact h
        cases hr
        exact hp.dataEnd _ _
      · cases hr; refine BusyInv.dataEnd ?_ _ _; exact h
    · have ha : BusyInv (r.accumulate b f) := by
        unfold accumulate
        split
        · exact h
        · split
          · exact h
          · split <;> exact h
      generalize r.accumulate b f = r1 at *
      simp only at hr
      split at hr
      · cases hr; exact ha
      · split at hr
        · split at hr
          · split at hr
            · cases hr; exact ha.dataEnd _ _
            · simp at hr
          · split at hr
            · cases hr
              unfold infoData
              simp only
              split
              · refine BusyInv.send ?_ _ (plain_response ..); exact ha
              · split
                · refine BusyInv.send ?_ _ (plain_response ..); exact ha
                · refine BusyInv.send ?_ _ (plain_response ..); exact ha
            · cases hr
              unfold listData
              split
              · exact ha.reply _
              · refine BusyInv.send ?_ _ (plain_response ..); exact ha
            · refine BusyInv.replyP ?_ _ _ hr; exact ha
            · cases hr; exact ha.dataEnd _ _
        · cases hr; exact ha.dataEnd _ _

private theorem BusyInv.receive {r r' : Rsp D} (h : BusyInv r) (dv : Dev D) (b : List UInt8) (f l : Bool)
    (n : List Ev) (hr : r.receive dv b f l n = .ok r') : BusyInv r' := by
  have hidle : ∀ r1 : Rsp D, BusyInv r1 →
      (if f ∧ l then
        ((({ ({ (r1.setState .idle) with req := none } : Rsp D) with req := some b }.setState
          (if hasDataPhase (cCode b) then .waitData else .waitResp)).emit .statusBusy).command dv n)
       else Res.ok ({ (r1.setState .idle) with req := none }.emit .reset)) = .ok r' → BusyInv r' := by
    intro r1 h1 he
    have h2 := h1.setState .idle
    split at he
    · refine BusyInv.command ?_ dv n he
      apply BusyInv.emit _ _ ⟨by simp, by simp⟩
      refine BusyInv.setState ?_ _; exact h2
    · cases he
      refine BusyInv.emit ?_ _ ⟨by simp, by simp⟩; exact h2
  unfold Rsp.receive at hr
  split at hr
  · exact hidle r h hr
  · exact hidle r h hr
  · exact hidle r h hr
  · split at hr
    · cases hr; exact (h.setState _).emit _ ⟨by simp, by simp⟩
    · simp only at hr
      refine BusyInv.dataPacket ?_ dv _ _ _ _ hr
      split
      · exact h.emit _ ⟨by simp, by simp⟩
      · exact h
  · split at hr
    · cases hr; exact (h.setState _).emit _ ⟨by simp, by simp⟩
    · cases hr; exact h
  · cases hr; exact (h.setState _).emit _ ⟨by simp, by simp⟩

private theorem BusyInv.step {r r' : Rsp D} (h : BusyInv r) (dv : Dev D) (i : In D)
    (hr : r.step dv i = .ok r') : BusyInv r' := by
  cases i with
  | packet b f l n => exact h.receive dv b f l n hr
  | ready n =>
    simp only [Rsp.step, storageReady] at hr
    split at hr
    · split at hr
      · simp at hr
      · next q hq =>
        split at hr
        · next r1 hc =>
          have h2 := BusyInv.command (r := _) (BusyInv.setState (r := { r with ready := true }) h _) dv n hc
          unfold Rsp.replay at hr
          split at hr
          · cases hr; exact h2
          · split at hr
            · next r2 hv =>
              have h3 := h2.receive dv _ _ _ _ hv
              cases hr
              exact h3
            · simp at hr
        · simp at hr
    · cases hr; exact h
  | ev e => cases hr; exact h.handleEv dv e
  | notify c ps =>
    cases hr
    unfold Rsp.notify
    split
    · exact h
    · exact h.send _ ⟨by simp, by simp⟩
  | env d => cases hr; exact h

/-- C42: in every history the 'pending' and 'finished' notifications alternate, starting with 'pending',
and the last one tells whether the responder is idle. -/
theorem C42_alternate (dv : Dev D) (d : D) (is : List (In D)) (r : Rsp D)
    (hr : Rsp.run dv { dev := d } is = .ok r) :
    Spec.busy r.out = some (decide (r.st ≠ .idle)) := by
  have : ∀ (is : List (In D)) (r0 : Rsp D), BusyInv r0 → Rsp.run dv r0 is = .ok r → BusyInv r := by
    intro is
    induction is with
    | nil => intro r0 h0 hr; cases hr; exact h0
    | cons i is ih =>
      intro r0 h0 hr
      unfold Rsp.run at hr
      cases hs : r0.step dv i with
      | ub w => rw [hs] at hr; simp at hr
      | ok r1 =>
        rw [hs] at hr
        exact ih r1 (h0.step dv i hs) hr
  exact (this is _ ⟨rfl, by simp⟩ hr).1

/-- C42 is violated after a cancel: no transaction is open, but the host side still sees the command as
pending. -/
theorem C42_cancel_violated (dv : Dev D) (q : List UInt8) (r : Rsp D) (hq : r.req = some q) (hb : Spec.busy r.out = some true) (hst : r.st = .waitData) :
    (r.handleCancel dv).req = none ∧ Spec.busy (r.handleCancel dv).out = some true := by
  have hne : r.st ≠ .idle := by rw [hst]; simp
  unfold Rsp.handleCancel
  rw [hq]
  simp only [emit_req, deleteStored_req, true_and, emit_out, deleteStored_out]
  have hcu : ∀ r1 : Rsp D, (r1.cancelUpload dv).out = r1.out := by
    intro r1
    unfold cancelUpload
    simp only
    split <;> split <;> rfl
  split
  · rw [hcu, setState_out]
    simp [hst, busy_append, hb, Spec.busyStep]
  · rw [setState_out]
    simp [hst, busy_append, hb, Spec.busyStep]

open Spec.Toy in
/-- A session is opened, an upload announced and cancelled: 'pending' stays unanswered until the next
command. -/
example : Spec.after (Rsp.run dev { dev := [], ready := true }
    [.packet (cmd 0x1002 1 [1]) true true [], .packet (cmd 0x100C 2 []) true true [], .ev .cancel])
    fun r => r.req = none ∧ Spec.busy r.out = some true := by
  decide +kernel

end Props
