import Verif.Model.Link
import Verif.Spec.Responder
import Verif.Lemmas.Responder
/-! Only what does not fit resets the transporter. -/
namespace Mtp
namespace Rsp

variable {D : Type} {E : Nat}

theorem resets_append (a b : List Out) : resets (a ++ b) = resets a + resets b := by
  simp [resets]

/-- The transporter was reset `E` times, and no reset is kept for later. -/
def RsInv (E : Nat) (r : Rsp D) : Prop :=
  resets r.out = E ∧ ∀ o, r.resend = some o → o.isReset = false

theorem RsInv.emit {r : Rsp D} (h : RsInv E r) (o : Out) (ho : o.isReset = false) : RsInv E (r.emit o) := by
  refine ⟨?_, h.2⟩
  rw [emit_out, resets_append, h.1]
  simp [resets, ho]

theorem RsInv.more {r : Rsp D} (h : RsInv E r) (l : List Out) (hl : ∀ o ∈ l, o.isReset = false) :
    RsInv E { r with out := r.out ++ l } := by
  refine ⟨?_, h.2⟩
  show resets (r.out ++ l) = _
  rw [resets_append, h.1]
  have : resets l = 0 := by
    unfold resets
    rw [List.countP_eq_zero]
    intro o ho
    simp [hl o ho]
  rw [this, Nat.add_zero]

theorem RsInv.setState {r : Rsp D} (h : RsInv E r) (s : RState) : RsInv E (r.setState s) := by
  refine ⟨?_, by rw [setState_resend]; exact h.2⟩
  rw [setState_out, resets_append, h.1]
  by_cases h1 : r.st = .idle <;> by_cases h2 : s = .idle <;> simp [h1, h2, resets, Out.isReset]

theorem RsInv.send {r : Rsp D} (h : RsInv E r) (o : Out) (ho : o.isReset = false) : RsInv E (r.send o).1 := by
  unfold Rsp.send
  split
  · exact h
  · split
    · split
      · exact h
      · exact ⟨h.1, fun o' e => by cases e; exact ho⟩
    · split
      · exact (((h.setState .idle).emit o ho).emit .statusOk rfl)
      · exact h.emit o ho

theorem RsInv.reply {r : Rsp D} (h : RsInv E r) (c : Resp) : RsInv E (r.reply c) := by
  unfold Rsp.reply
  split
  · exact h
  · exact h.send _ rfl

theorem RsInv.replyP {r r' : Rsp D} (h : RsInv E r) (c : Resp) (ps : List Nat)
    (hr : r.replyP c ps = .ok r') : RsInv E r' := by
  unfold Rsp.replyP at hr
  split at hr
  · cases hr; exact h.reply c
  · unfold reply1 at hr
    split at hr
    · simp at hr
    · cases hr; exact h.send _ rfl

theorem RsInv.sendReply {r r' : Rsp D} (h : RsInv E r) (q : List UInt8) (p : Reply)
    (hr : r.sendReply q p = .ok r') : RsInv E r' := by
  unfold Rsp.sendReply at hr
  split at hr
  · split at hr
    · cases hr; exact h
    · exact h.replyP _ _ hr
  · next d l rest hf =>
    have hs := h.send (.data (cCode q) (cTid q) d l) rfl
    split at hr
    · next r2 e => cases hr; rw [e] at hs; exact hs
    · next r2 e =>
      rw [e] at hs
      have hm : RsInv E { r2 with out := r2.out ++ rest.map fun f => .more f.1 f.2 } := by
        apply RsInv.more hs
        intro o ho
        obtain ⟨f, _, rfl⟩ := List.mem_map.mp ho
        exact rfl
      split at hr
      · cases hr; exact hm
      · exact hm.replyP _ _ hr

theorem RsInv.closeSession {r : Rsp D} (h : RsInv E r) : RsInv E r.closeSession := by
  unfold Rsp.closeSession
  exact RsInv.setState (r := { r with session := 0 }.deleteStored) h .idle

theorem RsInv.handleCancel {r : Rsp D} (h : RsInv E r) (dv : Dev D) : RsInv E (r.handleCancel dv) := by
  unfold Rsp.handleCancel
  split
  · exact h.emit _ rfl
  · have h1 := h.setState .txCancel
    generalize r.setState .txCancel = r1 at *
    simp only
    apply RsInv.emit _ _ rfl
    split
    · unfold cancelUpload
      have h2 : ∀ r2 : Rsp D, RsInv E r2 →
          RsInv E (if r2.propList.isSome then { r2 with propList := none } else { r2 with sendSeq := none }).deleteStored := by
        intro r2 h2
        split <;> exact h2
      apply h2
      split <;> exact h1
    · exact h1

theorem RsInv.handleSuspend {r : Rsp D} (h : RsInv E r) : RsInv E r.handleSuspend := by
  unfold Rsp.handleSuspend
  refine RsInv.setState ?_ .suspend; exact h

theorem RsInv.handleResume {r : Rsp D} (h : RsInv E r) : RsInv E r.handleResume := by
  unfold Rsp.handleResume
  have h1 := h.setState r.prev
  generalize r.setState r.prev = r1 at *
  simp only
  split
  · exact h1
  · next o ho =>
    have h2 : RsInv E { r1 with resend := none } := ⟨h1.1, by simp⟩
    split
    · exact h2
    · exact h2.emit o (h1.2 o ho)

theorem RsInv.handleEv {r : Rsp D} (h : RsInv E r) (dv : Dev D) (e : Ev) : RsInv E (r.handleEv dv e) := by
  cases e
  · exact h.handleCancel dv
  · exact h.handleSuspend
  · exact h.handleResume
  · exact h.closeSession.emit _ rfl
  · exact h.closeSession

theorem RsInv.nested {r : Rsp D} (h : RsInv E r) (dv : Dev D) (n : List Ev) :
    RsInv E (n.foldl (Rsp.handleEv dv) r) := by
  induction n generalizing r with
  | nil => exact h
  | cons e n ih => exact ih (h.handleEv dv e)

theorem RsInv.copyEnd {r r' : Rsp D} (h : RsInv E r) (c : Resp) (x : Nat)
    (hr : r.copyEnd c x = .ok r') : RsInv E r' := by
  unfold Rsp.copyEnd at hr
  split at hr
  · cases hr; exact h
  · exact RsInv.replyP h _ [_] hr

theorem RsInv.copyReq {r r' : Rsp D} (h : RsInv E r) (dv : Dev D) (q : List UInt8) (n : List Ev)
    (hr : r.copyReq dv q n = .ok r') : RsInv E r' := by
  unfold Rsp.copyReq at hr
  split at hr
  · have h1 := h.nested dv n
    generalize n.foldl (Rsp.handleEv dv) r = r1 at *
    refine RsInv.copyEnd ?_ _ _ hr; exact h1
  · exact h.copyEnd _ _ hr

theorem RsInv.handle {r r' : Rsp D} (h : RsInv E r) (dv : Dev D) (q : List UInt8) (n : List Ev)
    (k : OpKind) (hr : r.handle dv q n k = .ok r') : RsInv E r' := by
  cases k with
  | deviceInfo => refine RsInv.sendReply ?_ _ _ hr; exact h
  | openSession =>
    simp only [Rsp.handle, openSessionReq] at hr
    split at hr
    · cases hr; exact h.reply _
    · split at hr
      · exact h.replyP _ [_] hr
      · cases hr
        refine RsInv.emit (RsInv.reply ?_ _) _ rfl; exact h
  | closeSession =>
    simp only [Rsp.handle, closeSessionReq] at hr
    cases hr
    split
    · exact h.reply _
    · apply RsInv.reply
      refine RsInv.emit ?_ _ rfl; exact h
  | propsSupported =>
    simp only [Rsp.handle] at hr
    split at hr
    · refine RsInv.sendReply ?_ _ _ hr; exact h
    · cases hr; exact h.reply _
  | thumb =>
    simp only [Rsp.handle] at hr
    split at hr
    · split at hr
      · cases hr; exact h
      · refine RsInv.sendReply ?_ _ _ hr; exact h
    · cases hr; exact h
  | query ps =>
    simp only [Rsp.handle] at hr
    split at hr
    · refine RsInv.sendReply ?_ _ _ hr; exact h
    · exact h.replyP _ _ hr
  | copy => exact h.copyReq dv q n hr
  | skip => cases hr; exact h.reply _
  | refused => cases hr; exact h.reply _
  | sendInfo => cases hr; exact h
  | sendObject =>
    cases hr
    unfold sendObjectReq
    split
    · split <;> exact h
    · exact h
  | sendPropList =>
    cases hr
    unfold propListReq
    split
    · split
      · split <;> exact h
      · exact h
    · exact h
  | sendPartial =>
    cases hr
    unfold partialReq
    split
    · split
      · exact h
      · split <;> exact h
    · exact h
  | set c => cases hr; exact h
  | truncate =>
    cases hr
    unfold truncateReq
    split
    · split
      · exact h.reply _
      · split
        · exact h.reply _
        · refine RsInv.reply ?_ _; exact h
    · exact h.reply _
  | beginEdit =>
    cases hr
    unfold beginEditReq
    split
    · split
      · refine RsInv.reply ?_ _; exact h
      · exact h.reply _
    · exact h.reply _
  | endEdit =>
    cases hr
    unfold endEditReq
    split
    · split
      · exact h.reply _
      · split
        · exact h.reply _
        · refine RsInv.reply ?_ _; exact h
    · exact h.reply _

theorem RsInv.command {r r' : Rsp D} (h : RsInv E r) (dv : Dev D) (n : List Ev)
    (hr : r.command dv n = .ok r') : RsInv E r' := by
  unfold Rsp.command at hr
  split at hr
  · simp at hr
  · simp only at hr
    split at hr
    · cases hr
      refine RsInv.setState ?_ _; exact h
    · split at hr
      · refine RsInv.handle ?_ dv _ n _ hr; exact h
      · cases hr
        refine RsInv.reply ?_ _; exact h

theorem RsInv.uploadCheck {r : Rsp D} (h : RsInv E r) (dv : Dev D) (hd n : Nat) (l : Bool) :
    RsInv E (r.uploadCheck dv hd n l).1 := by
  unfold Rsp.uploadCheck
  split
  · simp only
    split
    · split <;> exact h
    · exact h
  · simp only
    split
    · split <;> exact h
    · exact h
  · exact h

theorem RsInv.uploadEnd {r : Rsp D} (h : RsInv E r) (dv : Dev D) (hd : Nat) (c : Resp) :
    RsInv E (r.uploadEnd dv hd c) := by
  unfold Rsp.uploadEnd
  simp only
  have h1 : ∀ r1 : Rsp D, RsInv E r1 → RsInv E { (r1.reply c) with propList := none } := by
    intro r1 h1
    exact h1.reply c
  apply h1
  split <;> exact h

theorem RsInv.uploadData {r r' : Rsp D} (h : RsInv E r) (dv : Dev D) (b : List UInt8) (f l : Bool)
    (hr : r.uploadData dv b f l = .ok r') : RsInv E r' := by
  unfold Rsp.uploadData at hr
  split at hr
  · cases hr; exact h.uploadEnd dv _ _
  · split at hr
    · simp at hr
    · simp only at hr
      split at hr
      · next d' hw =>
        have h1 := RsInv.uploadCheck (r := { r with dev := d' }) h dv r.uploadHandle
          (if f = true then b.drop 12 else b).length l
        split at hr
        · next r2 e => cases hr; rw [e] at h1; exact h1
        · next r2 c e1 e => cases hr; rw [e] at h1; exact h1.uploadEnd dv _ _
      · cases hr
        refine RsInv.uploadEnd ?_ dv _ _; exact h

theorem RsInv.dataEnd {r : Rsp D} (h : RsInv E r) (c : Resp) (l : Bool) : RsInv E (r.dataEnd c l) := by
  unfold Rsp.dataEnd
  simp only
  split
  · refine RsInv.reply ?_ c; exact h
  · exact h

theorem RsInv.dataPacket {r r' : Rsp D} (h : RsInv E r) (dv : Dev D) (q b : List UInt8) (f l : Bool)
    (hr : r.dataPacket dv q b f l = .ok r') : RsInv E r' := by
  unfold Rsp.dataPacket at hr
  split at hr
  · split at hr
    · refine RsInv.uploadData ?_ dv b f l hr; exact h
    · cases hr; refine RsInv.dataEnd ?_ _ _; exact h
  · split at hr
    · split at hr
      · have hp : RsInv E ({ r with dataC := none }.partialData dv b f l).1 := by
          unfold partialData
          split
          · exact h
          · split
            · exact h
            · exact h
        cases hr
        exact hp.dataEnd _ _
      · cases hr; refine RsInv.dataEnd ?_ _ _; exact h
    · have ha : RsInv E (r.accumulate b f) := by
        unfold accumulate
        split
        · exact h
        · split
          · exact h
          · split <;> exact h
      generalize r.accumulate b f = r1 at *
      simp only at hr
      split at hr
      · cases hr; exact ha
      · split at hr
        · split at hr
          · split at hr
            · cases hr; exact ha.dataEnd _ _
            · simp at hr
          · split at hr
            · cases hr
              unfold infoData
              simp only
              split
              · refine RsInv.send ?_ _ rfl; exact ha
              · split
                · refine RsInv.send ?_ _ rfl; exact ha
                · refine RsInv.send ?_ _ rfl; exact ha
            · cases hr
              unfold listData
              split
              · exact ha.reply _
              · refine RsInv.send ?_ _ rfl; exact ha
            · refine RsInv.replyP ?_ _ _ hr; exact ha
            · cases hr; exact ha.dataEnd _ _
        · cases hr; exact ha.dataEnd _ _


/-- A packet resets the transporter at most once. -/
theorem RsInv.receive {r r' : Rsp D} (h : RsInv E r) (dv : Dev D) (b : List UInt8) (f l : Bool)
    (n : List Ev) (hr : r.receive dv b f l n = .ok r') : RsInv E r' ∨ RsInv (E + 1) r' := by
  have rs : ∀ r1 : Rsp D, RsInv E r1 → RsInv (E + 1) (r1.emit .reset) := by
    intro r1 h1
    refine ⟨?_, h1.2⟩
    rw [emit_out, resets_append, h1.1]
    rfl
  have hidle : ∀ r1 : Rsp D, RsInv E r1 →
      (if f ∧ l then
        ((({ ({ (r1.setState .idle) with req := none } : Rsp D) with req := some b }.setState
          (if hasDataPhase (cCode b) then .waitData else .waitResp)).emit .statusBusy).command dv n)
       else Res.ok ({ (r1.setState .idle) with req := none }.emit .reset)) = .ok r' → RsInv E r' ∨ RsInv (E + 1) r' := by
    intro r1 h1 he
    have h2 := h1.setState .idle
    split at he
    · refine Or.inl (RsInv.command ?_ dv n he)
      apply RsInv.emit _ _ rfl
      refine RsInv.setState ?_ _; exact h2
    · cases he
      refine Or.inr (rs _ ?_); exact h2
  unfold Rsp.receive at hr
  split at hr
  · exact hidle r h hr
  · exact hidle r h hr
  · exact hidle r h hr
  · split at hr
    · cases hr; exact Or.inr (rs _ (h.setState _))
    · simp only at hr
      refine Or.inl (RsInv.dataPacket ?_ dv _ _ _ _ hr)
      split
      · exact h.emit _ rfl
      · exact h
  · split at hr
    · cases hr; exact Or.inr (rs _ (h.setState _))
    · cases hr; exact Or.inl h
  · cases hr; exact Or.inr (rs _ (h.setState _))

/-- A whole container does not reset an idle responder's transporter. -/
theorem RsInv.whole {r r' : Rsp D} (h : RsInv E r) (dv : Dev D) (b : List UInt8) (n : List Ev) (hst : r.st = .idle)
    (hr : r.receive dv b true true n = .ok r') : RsInv E r' := by
  unfold Rsp.receive at hr
  rw [hst] at hr
  simp only [and_self, if_true] at hr
  refine RsInv.command ?_ dv n hr
  apply RsInv.emit _ _ rfl
  refine RsInv.setState ?_ _; exact h.setState .idle

/-- Nor does data that was asked for. -/
theorem RsInv.data {r r' : Rsp D} (h : RsInv E r) (dv : Dev D) (q b : List UInt8) (f l : Bool) (n : List Ev) (hst : r.st = .waitData)
    (hq : r.req = some q) (hr : r.receive dv b f l n = .ok r') : RsInv E r' := by
  unfold Rsp.receive at hr
  rw [hst] at hr
  simp only at hr
  split at hr
  · next e => rw [hq] at e; cases e
  · refine RsInv.dataPacket ?_ dv _ _ _ _ hr
    split
    · exact h.emit _ rfl
    · exact h

/-- Packets only. -/
def Packets (is : List (In D)) : Prop := ∀ i ∈ is, ∃ b f l, i = .packet b f l []

theorem RsInv.run {r r' : Rsp D} (h : RsInv E r) (dv : Dev D) (is : List (In D)) (hp : Packets is)
    (hr : r.run dv is = .ok r') : ∃ k, RsInv (E + k) r' := by
  induction is generalizing r E with
  | nil => cases hr; exact ⟨0, h⟩
  | cons i is ih =>
    obtain ⟨b, f, l, rfl⟩ := hp i (by simp)
    rw [Rsp.run] at hr
    cases e : r.step dv (.packet b f l []) with
    | ub w => rw [e] at hr; cases hr
    | ok r1 =>
      rw [e] at hr
      have hr' : r1.run dv is = .ok r' := hr
      rcases h.receive dv b f l [] e with h1 | h1
      · exact ih h1 (fun i hi => hp i (by simp [hi])) hr'
      · obtain ⟨k, hk⟩ := ih h1 (fun i hi => hp i (by simp [hi])) hr'
        exact ⟨1 + k, by rw [← Nat.add_assoc]; exact hk⟩

end Rsp
end Mtp
