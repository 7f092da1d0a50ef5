import Verif.Lemmas.Control
import Verif.Lemmas.DataPhase
/-! The device status through all histories: the handlers. -/
namespace Mtp
open Spec

variable {D : Type}

namespace Rsp

variable {s : Prop}

/-- Invariant while a command is handled. -/
def HInv (s : Prop) (r : Rsp D) : Prop := StInv s r ∧ Held r

/-- The events of a history. -/
def Allowed (s : Prop) (e : Ev) : Prop := Awake e ∧ (s → e ≠ .cleanup)

theorem StInv.handleEv {r : Rsp D} (h : StInv s r) (dv : Dev D) (e : Ev) (he : Allowed s e) : HInv s (r.handleEv dv e) := by
  cases e with
  | cancel => exact h.handleCancel dv
  | suspend => exact absurd rfl he.1.1
  | resume => exact absurd rfl he.1.2
  | deviceReset => exact ⟨h.reseted, fun e => absurd (closeSession_req r) e⟩
  | cleanup =>
    have c := h.closed
    exact ⟨⟨c.talk, c.busy, c.awake, c.kept, c.has, fun hs => absurd rfl (he.2 hs)⟩, fun e => absurd (closeSession_req r) e⟩

theorem HInv.nested {r : Rsp D} (h : HInv s r) (dv : Dev D) (n : List Ev) (hn : ∀ e ∈ n, Allowed s e) :
    HInv s (n.foldl (Rsp.handleEv dv) r) := by
  induction n generalizing r with
  | nil => exact h
  | cons e n ih => exact ih (h.1.handleEv dv e (hn e (by simp))) (fun e' he => hn e' (by simp [he]))

theorem HInv.reply {r : Rsp D} (h : HInv s r) (c : Resp) : HInv s (r.reply c) := h.1.reply h.2 c

theorem HInv.replyP {r r' : Rsp D} (h : HInv s r) (c : Resp) (ps : List Nat) (hr : r.replyP c ps = .ok r') : HInv s r' := h.1.replyP h.2 c ps hr

theorem HInv.session {r : Rsp D} (h : HInv s r) (b : Bool) : HInv s (r.emit (.session b)) := ⟨h.1.plain _ False.elim rfl rfl, h.2⟩

theorem HInv.sendReply {r r' : Rsp D} (h : HInv s r) (hq : r.req ≠ none) (q : List UInt8) (p : Reply) (hr : r.sendReply q p = .ok r') : HInv s r' :=
  h.1.sendReply h.2 q p hq hr

theorem HInv.send {r : Rsp D} (h : HInv s r) (hq : r.req ≠ none) (o : Out) (ho : o.status = none) : HInv s (r.send o).1 := h.1.send h.2 o hq ho

theorem HInv.copyEnd {r r' : Rsp D} (h : HInv s r) (c : Resp) (x : Nat)
    (hr : r.copyEnd c x = .ok r') : HInv s r' := by
  unfold Rsp.copyEnd at hr
  split at hr
  · cases hr; exact h
  · exact HInv.replyP h _ [_] hr

theorem HInv.copyReq {r r' : Rsp D} (h : HInv s r) (dv : Dev D) (q : List UInt8) (n : List Ev) (hn : ∀ e ∈ n, Allowed s e)
    (hr : r.copyReq dv q n = .ok r') : HInv s r' := by
  unfold Rsp.copyReq at hr
  split at hr
  · have h1 := h.nested dv n hn
    generalize n.foldl (Rsp.handleEv dv) r = r1 at *
    refine HInv.copyEnd ?_ _ _ hr; exact h1
  · exact h.copyEnd _ _ hr

theorem HInv.handle {r r' : Rsp D} (h : HInv s r) (dv : Dev D) (q : List UInt8) (n : List Ev)
    (k : OpKind) (hq : r.req ≠ none) (hn : ∀ e ∈ n, Allowed s e) (hr : r.handle dv q n k = .ok r') : HInv s r' := by
  cases k with
  | deviceInfo => refine HInv.sendReply ?_ ?_ _ _ hr; exact h; exact hq
  | openSession =>
    simp only [Rsp.handle, openSessionReq] at hr
    split at hr
    · cases hr; exact h.reply _
    · split at hr
      · exact h.replyP _ [_] hr
      · cases hr
        refine HInv.session (HInv.reply ?_ _) _; exact h
  | closeSession =>
    simp only [Rsp.handle, closeSessionReq] at hr
    cases hr
    split
    · exact h.reply _
    · apply HInv.reply
      refine HInv.session ?_ _; exact h
  | propsSupported =>
    simp only [Rsp.handle] at hr
    split at hr
    · refine HInv.sendReply ?_ ?_ _ _ hr; exact h; exact hq
    · cases hr; exact h.reply _
  | thumb =>
    simp only [Rsp.handle] at hr
    split at hr
    · split at hr
      · cases hr; exact h
      · refine HInv.sendReply ?_ ?_ _ _ hr; exact h; exact hq
    · cases hr; exact h
  | query ps =>
    simp only [Rsp.handle] at hr
    split at hr
    · refine HInv.sendReply ?_ ?_ _ _ hr; exact h; exact hq
    · exact h.replyP _ _ hr
  | copy => exact h.copyReq dv q n hn hr
  | skip => cases hr; exact h.reply _
  | refused => cases hr; exact h.reply _
  | sendInfo => cases hr; exact h
  | sendObject =>
    cases hr
    unfold sendObjectReq
    split
    · split <;> exact h
    · exact h
  | sendPropList =>
    cases hr
    unfold propListReq
    split
    · split
      · split <;> exact h
      · exact h
    · exact h
  | sendPartial =>
    cases hr
    unfold partialReq
    split
    · split
      · exact h
      · split <;> exact h
    · exact h
  | set c => cases hr; exact h
  | truncate =>
    cases hr
    unfold truncateReq
    split
    · split
      · exact h.reply _
      · split
        · exact h.reply _
        · refine HInv.reply ?_ _; exact h
    · exact h.reply _
  | beginEdit =>
    cases hr
    unfold beginEditReq
    split
    · split
      · refine HInv.reply ?_ _; exact h
      · exact h.reply _
    · exact h.reply _
  | endEdit =>
    cases hr
    unfold endEditReq
    split
    · split
      · exact h.reply _
      · split
        · exact h.reply _
        · refine HInv.reply ?_ _; exact h
    · exact h.reply _

theorem HInv.command {r r' : Rsp D} (h : HInv s r) (w : Waiting r.st) (dv : Dev D) (n : List Ev) (hn : ∀ e ∈ n, Allowed s e)
    (hr : r.command dv n = .ok r') : HInv s r' := by
  unfold Rsp.command at hr
  split at hr
  · simp at hr
  · next q e =>
    have hq : r.req ≠ none := by rw [e]; simp
    simp only at hr
    split at hr
    · cases hr
      have hw : Waiting ((({ r with resp := .ok } : Rsp D).setState .waitStorage)).st := by rw [setState_st]; exact Or.inr (Or.inr rfl)
      refine ⟨⟨?_, ?_, ?_, ?_, ?_, ?_⟩, fun _ => hw⟩
      · exact talk_setState ({ r with resp := .ok } : Rsp D) .waitStorage h.1.talk
      · intro _
        show deviceStatus (({ r with resp := .ok } : Rsp D).setState .waitStorage).out = _
        rw [status_setState]; exact h.1.busy w
      · show (({ r with resp := .ok } : Rsp D).setState .waitStorage).st ≠ _
        rw [setState_st]; simp
      · show (({ r with resp := .ok } : Rsp D).setState .waitStorage).resend = _
        rw [setState_resend]; exact h.1.kept
      · intro _
        show (({ r with resp := .ok } : Rsp D).setState .waitStorage).req ≠ _
        rw [setState_req]; exact hq
      · intro _ _
        refine ⟨⟨fun _ => hw, fun _ => ?_⟩, Or.inl hw⟩
        show (({ r with resp := .ok } : Rsp D).setState .waitStorage).req ≠ _
        rw [setState_req]; exact hq
    · split at hr
      · refine HInv.handle (r := { r with resp := .ok }) ?_ dv _ n _ hq hn hr; exact h
      · cases hr
        refine HInv.reply ?_ _; exact h

theorem HInv.uploadCheck {r : Rsp D} (h : HInv s r) (dv : Dev D) (hd n : Nat) (l : Bool) :
    HInv s (r.uploadCheck dv hd n l).1 := by
  unfold Rsp.uploadCheck
  split
  · simp only
    split
    · split <;> exact h
    · exact h
  · simp only
    split
    · split <;> exact h
    · exact h
  · exact h

theorem HInv.uploadEnd {r : Rsp D} (h : HInv s r) (dv : Dev D) (hd : Nat) (c : Resp) :
    HInv s (r.uploadEnd dv hd c) := by
  unfold Rsp.uploadEnd
  simp only
  have h1 : ∀ r1 : Rsp D, HInv s r1 → HInv s { (r1.reply c) with propList := none } := by
    intro r1 h1
    exact h1.reply c
  apply h1
  split <;> exact h

theorem HInv.uploadData {r r' : Rsp D} (h : HInv s r) (dv : Dev D) (b : List UInt8) (f l : Bool)
    (hr : r.uploadData dv b f l = .ok r') : HInv s r' := by
  unfold Rsp.uploadData at hr
  split at hr
  · cases hr; exact h.uploadEnd dv _ _
  · split at hr
    · simp at hr
    · simp only at hr
      split at hr
      · next d' hw =>
        have h1 := HInv.uploadCheck (r := { r with dev := d' }) h dv r.uploadHandle
          (if f = true then b.drop 12 else b).length l
        split at hr
        · next r2 e => cases hr; rw [e] at h1; exact h1
        · next r2 c e1 e => cases hr; rw [e] at h1; exact h1.uploadEnd dv _ _
      · cases hr
        refine HInv.uploadEnd ?_ dv _ _; exact h

theorem HInv.dataEnd {r : Rsp D} (h : HInv s r) (c : Resp) (l : Bool) : HInv s (r.dataEnd c l) := by
  unfold Rsp.dataEnd
  simp only
  split
  · refine HInv.reply ?_ c; exact h
  · exact h

theorem HInv.dataPacket {r r' : Rsp D} (h : HInv s r) (hq : r.req ≠ none) (dv : Dev D) (q b : List UInt8) (f l : Bool)
    (hr : r.dataPacket dv q b f l = .ok r') : HInv s r' := by
  unfold Rsp.dataPacket at hr
  split at hr
  · split at hr
    · refine HInv.uploadData ?_ dv b f l hr; exact h
    · cases hr; refine HInv.dataEnd ?_ _ _; exact h
  · split at hr
    · split at hr
      · have hp : HInv s ({ r with dataC := none }.partialData dv b f l).1 := by
          unfold partialData
          split
          · exact h
          · split
            · exact h
            · exact h
        cases hr
        exact hp.dataEnd _ _
      · cases hr; refine HInv.dataEnd ?_ _ _; exact h
    · have ha : HInv s (r.accumulate b f) := by
        unfold accumulate
        split
        · exact h
        · split
          · exact h
          · split <;> exact h
      have hqa : (r.accumulate b f).req ≠ none := by rw [(accumulate_kept r b f).2.2.1]; exact hq
      generalize r.accumulate b f = r1 at *
      simp only at hr
      split at hr
      · cases hr; exact ha
      · split at hr
        · split at hr
          · split at hr
            · cases hr; exact ha.dataEnd _ _
            · simp at hr
          · split at hr
            · cases hr
              unfold infoData
              simp only
              split
              · refine HInv.send ?_ ?_ _ rfl; exact ha; exact hqa
              · split
                · refine HInv.send ?_ ?_ _ rfl; exact ha; exact hqa
                · refine HInv.send ?_ ?_ _ rfl; exact ha; exact hqa
            · cases hr
              unfold listData
              split
              · exact ha.reply _
              · refine HInv.send ?_ ?_ _ rfl; exact ha; exact hqa
            · refine HInv.replyP ?_ _ _ hr; exact ha
            · cases hr; exact ha.dataEnd _ _
        · cases hr; exact ha.dataEnd _ _

/-- A command is taken. -/
theorem HInv.begun {r : Rsp D} (h : StInv s r) (nw : r.st = .idle ∨ r.st = .txCancel) (b : List UInt8) :
    HInv s (({ ({ (r.setState .idle) with req := none } : Rsp D) with req := some b }.setState
      (if hasDataPhase (cCode b) then .waitData else .waitResp)).emit .statusBusy) ∧
    Waiting (({ ({ (r.setState .idle) with req := none } : Rsp D) with req := some b }.setState
      (if hasDataPhase (cCode b) then .waitData else .waitResp)).emit .statusBusy).st := by
  generalize hx : (if hasDataPhase (cCode b) then RState.waitData else RState.waitResp) = x
  have hxw : Waiting x := by
    rw [← hx]
    split
    · exact Or.inl rfl
    · exact Or.inr (Or.inl rfl)
  have t1 : Talk (r.setState .idle).out := talk_setState r .idle h.talk
  have k1 : (r.setState .idle).resend = none := by rw [setState_resend]; exact h.kept
  have m1 := reset_setState r .idle
  generalize r.setState .idle = r1 at *
  have t2 := talk_setState ({ ({ r1 with req := none } : Rsp D) with req := some b } : Rsp D) x t1
  have e1 := setState_st ({ ({ r1 with req := none } : Rsp D) with req := some b } : Rsp D) x
  have e2 : (({ ({ r1 with req := none } : Rsp D) with req := some b } : Rsp D).setState x).req = some b := by rw [setState_req]
  have e3 : (({ ({ r1 with req := none } : Rsp D) with req := some b } : Rsp D).setState x).resend = none := by rw [setState_resend]; exact k1
  generalize ({ ({ r1 with req := none } : Rsp D) with req := some b } : Rsp D).setState x = r2 at *
  have w : Waiting r2.st := by rw [e1]; exact hxw
  refine ⟨⟨⟨t2.snoc _ False.elim rfl, fun _ => by rw [emit_out, deviceStatus_snoc]; rfl, ?_, e3, fun _ => ?_, fun _ _ => ⟨⟨fun _ => w, fun _ => ?_⟩, Or.inl w⟩⟩,
    fun _ => w⟩, w⟩
  · show r2.st ≠ _
    rcases w with w | w | w <;> rw [w] <;> simp
  · show r2.req ≠ none
    rw [e2]; simp
  · show r2.req ≠ none
    rw [e2]; simp

/-- What does not fit resets the transporter. -/
theorem StInv.lost {r : Rsp D} (h : StInv s r) (f : Rsp D) (hf : f.out = (r.setState .idle).out) (hst : f.st = .idle) (hre : f.resend = r.resend) :
    StInv s (f.emit .reset) := by
  refine ⟨?_, ?_, ?_, by show f.resend = none; rw [hre]; exact h.kept, ?_, fun _ hr => absurd (by rw [emit_out]; simp) hr⟩
  · rw [emit_out, hf]; exact (talk_setState r .idle h.talk).snoc _ False.elim rfl
  · show Waiting f.st → _
    rw [hst]; exact fun w => absurd w not_waiting.1
  · show f.st ≠ _
    rw [hst]; simp
  · show Waiting f.st → _
    rw [hst]; exact fun w => absurd w not_waiting.1

theorem StInv.receive {r r' : Rsp D} (h : StInv s r) (dv : Dev D) (b : List UInt8) (f l : Bool)
    (n : List Ev) (hn : ∀ e ∈ n, Allowed s e) (hr : r.receive dv b f l n = .ok r') : StInv s r' := by
  have hidle : (r.st = .idle ∨ r.st = .txCancel) →
      (if f ∧ l then
        ((({ ({ (r.setState .idle) with req := none } : Rsp D) with req := some b }.setState
          (if hasDataPhase (cCode b) then .waitData else .waitResp)).emit .statusBusy).command dv n)
       else Res.ok ({ (r.setState .idle) with req := none }.emit .reset)) = .ok r' → StInv s r' := by
    intro hst he
    split at he
    · obtain ⟨h1, w⟩ := HInv.begun h hst b
      exact (h1.command w dv n hn he).1
    · cases he
      exact h.lost _ rfl (setState_st r .idle) (setState_resend r .idle)
  unfold Rsp.receive at hr
  split at hr
  · next e => exact hidle (Or.inl e) hr
  · next e => exact hidle (Or.inr e) hr
  · next e => exact absurd e h.awake
  · next e =>
    split at hr
    · cases hr; exact h.lost _ rfl (setState_st r .idle) (setState_resend r .idle)
    · next q eq =>
      simp only at hr
      have w : Waiting r.st := Or.inl e
      refine (HInv.dataPacket ?_ ?_ dv _ _ _ _ hr).1
      · refine ⟨?_, fun _ => ?_⟩
        · split
          · refine ⟨h.talk.snoc _ False.elim rfl, fun _ => by rw [emit_out, deviceStatus_snoc]; rfl, h.awake, h.kept, h.has, fun _ _ => ?_⟩
            exact ⟨⟨fun _ => w, h.has⟩, Or.inl w⟩
          · exact h
        · split <;> exact w
      · have : r.req ≠ none := by rw [eq]; simp
        split <;> exact this
  · next e =>
    split at hr
    · cases hr; exact h.lost _ rfl (setState_st r .idle) (setState_resend r .idle)
    · cases hr; exact h
  · cases hr; exact h.lost _ rfl (setState_st r .idle) (setState_resend r .idle)

theorem StInv.replay {r r' : Rsp D} (h : StInv s r) (dv : Dev D) (n : List Ev) (hn : ∀ e ∈ n, Allowed s e)
    (hr : r.replay dv n = .ok r') : StInv s r' := by
  unfold Rsp.replay at hr
  split at hr
  · cases hr; exact h
  · split at hr
    · next r1 e => cases hr; have h1 := h.receive dv _ _ _ n hn e; exact h1
    · cases hr

theorem StInv.storageReady {r r' : Rsp D} (h : StInv s r) (dv : Dev D) (n : List Ev) (hn : ∀ e ∈ n, Allowed s e)
    (hr : r.storageReady dv n = .ok r') : StInv s r' := by
  unfold Rsp.storageReady at hr
  simp only at hr
  split at hr
  · next e =>
    have w0 : Waiting r.st := Or.inr (Or.inr e)
    split at hr
    · cases hr
    · next q eq =>
      have eq' : r.req = some q := eq
      generalize hx : (if hasDataPhase (cCode q) then RState.waitData else RState.waitResp) = x at hr
      have hxw : Waiting x := by
        rw [← hx]
        split
        · exact Or.inl rfl
        · exact Or.inr (Or.inl rfl)
      have t2 := talk_setState ({ r with ready := true } : Rsp D) x h.talk
      have e1 := setState_st ({ r with ready := true } : Rsp D) x
      have e2 : (({ r with ready := true } : Rsp D).setState x).req = some q := by rw [setState_req]; exact eq'
      have e3 : (({ r with ready := true } : Rsp D).setState x).resend = none := by rw [setState_resend]; exact h.kept
      have e4 : deviceStatus (({ r with ready := true } : Rsp D).setState x).out = .busy := by rw [status_setState]; exact h.busy w0
      generalize ({ r with ready := true } : Rsp D).setState x = r2 at *
      have w : Waiting r2.st := by rw [e1]; exact hxw
      have hq : r2.req ≠ none := by rw [e2]; simp
      have h2 : HInv s r2 := by
        refine ⟨⟨t2, fun _ => e4, ?_, e3, fun _ => hq, fun _ _ => ⟨⟨fun _ => w, fun _ => hq⟩, Or.inl w⟩⟩, fun _ => w⟩
        rcases w with w | w | w <;> rw [w] <;> simp
      split at hr
      · next r3 ec => exact (h2.command w dv n hn ec).1.replay dv n hn hr
      · cases hr
  · cases hr; exact h

theorem StInv.notify {r : Rsp D} (h : StInv s r) (dv : Dev D) (ev : Nat) (ps : List Nat) : StInv s (r.notify dv ev ps) := by
  unfold Rsp.notify
  split
  · exact h
  · unfold Rsp.send
    rw [if_neg (by intro e; cases e.2), if_neg h.awake]
    exact h.plain _ False.elim rfl rfl

theorem StInv.step {r r' : Rsp D} (h : StInv s r) (dv : Dev D) (i : In D) (hn : ∀ e ∈ eventsOf i, Allowed s e)
    (hr : r.step dv i = .ok r') : StInv s r' := by
  cases i with
  | packet b f l n => exact h.receive dv b f l n hn hr
  | ready n => exact h.storageReady dv n hn hr
  | ev e => cases hr; exact (h.handleEv dv e (hn e (by simp [eventsOf]))).1
  | notify c ps => cases hr; exact h.notify dv c ps
  | env d => cases hr; exact h

theorem StInv.run {r r' : Rsp D} (h : StInv s r) (dv : Dev D) (is : List (In D)) (hn : ∀ i ∈ is, ∀ e ∈ eventsOf i, Allowed s e)
    (hr : r.run dv is = .ok r') : StInv s r' := by
  induction is generalizing r with
  | nil => cases hr; exact h
  | cons i is ih =>
    rw [Rsp.run] at hr
    cases e : r.step dv i with
    | ub w => rw [e] at hr; cases hr
    | ok r1 =>
      rw [e] at hr
      exact ih (h.step dv i (hn i (by simp)) e) (fun j hj => hn j (by simp [hj])) hr

/-- A responder that was just started. -/
theorem StInv.start (d : D) (b : Bool) : StInv s ({ dev := d, ready := b } : Rsp D) := by
  refine ⟨Talk.nil, fun w => absurd w not_waiting.1, by simp, rfl, fun w => absurd w not_waiting.1, fun _ _ => ⟨⟨fun e => absurd rfl e, fun w => absurd w not_waiting.1⟩, Or.inr rfl⟩⟩

end Rsp
end Mtp
