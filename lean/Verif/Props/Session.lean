import Verif.Lemmas.DataPhase
import Verif.Spec.Toy
/-! Property theorems C35: session discipline. -/
namespace Props
open Mtp Mtp.Rsp

variable {D : Type}

/-- No session is open (or announced upload pending), storages are ready. -/
private def Shut (d : D) (r : Rsp D) : Prop :=
  r.session = 0 ∧ r.sendSeq = none ∧ r.propList = none ∧ r.ready = true ∧ r.st ≠ .waitStorage ∧
  r.prev ≠ .waitStorage ∧ r.dev = d

private def Locked (d : D) (r : Rsp D) : Prop :=
  Shut d r ∧ ∀ q, r.req = some q → hasDataPhase (cCode q) = true → r.resp ≠ .ok

private theorem Locked.idle {d : D} {r : Rsp D} (h : Shut d r) (hq : r.req = none) : Locked d r :=
  ⟨h, fun q e => by rw [hq] at e; simp at e⟩

private theorem Shut.setState {d : D} {r : Rsp D} (h : Shut d r) {s : RState} (hs : s ≠ .waitStorage) :
    Shut d (r.setState s) := by
  unfold Shut at *
  simp only [setState_session, setState_sendSeq, setState_propList, setState_ready, setState_st,
    setState_prev, setState_dev]
  exact ⟨h.1, h.2.1, h.2.2.1, h.2.2.2.1, hs, h.2.2.2.2.2.1, h.2.2.2.2.2.2⟩

private theorem Locked.setState {d : D} {r : Rsp D} (h : Locked d r) {s : RState} (hs : s ≠ .waitStorage) :
    Locked d (r.setState s) := by
  refine ⟨h.1.setState hs, ?_⟩
  simp only [setState_req, setState_resp]
  exact h.2

private theorem Locked.send {d : D} {r : Rsp D} (h : Locked d r) (o : Out) : Locked d (r.send o).1 := by
  unfold Rsp.send
  split
  · exact h
  · split
    · split
      · exact h
      · exact h
    · split
      · exact Locked.idle (h.1.setState (by simp)) rfl
      · exact h

private theorem Locked.reply {d : D} {r : Rsp D} (h : Locked d r) (c : Resp) : Locked d (r.reply c) := by
  unfold Rsp.reply
  split
  · exact h
  · exact h.send _

private theorem Locked.replyP {d : D} {r r' : Rsp D} (h : Locked d r) (c : Resp) (ps : List Nat)
    (hr : r.replyP c ps = .ok r') : Locked d r' := by
  unfold Rsp.replyP at hr
  split at hr
  · cases hr; exact h.reply c
  · unfold reply1 at hr
    split at hr
    · simp at hr
    · cases hr; exact h.send _

private theorem Locked.sendReply {d : D} {r r' : Rsp D} (h : Locked d r) (q : List UInt8) (p : Reply)
    (hr : r.sendReply q p = .ok r') : Locked d r' := by
  unfold Rsp.sendReply at hr
  split at hr
  · split at hr
    · cases hr; exact h
    · exact h.replyP _ _ hr
  · next dd l rest hf =>
    have hs := h.send (.data (cCode q) (cTid q) dd l)
    split at hr
    · next r2 e => cases hr; rw [e] at hs; exact hs
    · next r2 e =>
      rw [e] at hs
      have hm : Locked d { r2 with out := r2.out ++ rest.map fun f => .more f.1 f.2 } := hs
      split at hr
      · cases hr; exact hm
      · exact hm.replyP _ _ hr

private theorem preCheck_shut {s : Nat} (h : s = 0) (t : Nat) : preCheck s t = .sessionNotOpen := by
  unfold preCheck; rw [if_pos h]

/-- A query that needs no session does not change the device. -/
def FreeQueries (dv : Dev D) : Prop :=
  ∀ d ps, (dv.query d 0x1001 ps).1 = d ∧ (dv.query d 0x9801 ps).1 = d

private theorem handle_locked {d : D} (dv : Dev D) (free : FreeQueries dv) {r r' : Rsp D} (h : Shut d r)
    (q : List UInt8) (hq : r.req = some q) (n : List Ev) (k : OpKind) (hk : opKind (cCode q) = some k)
    (ho : cCode q ≠ 0x1002) (hr : r.handle dv q n k = .ok r') : Locked d r' := by
  have hm := opKind_mem hk
  have hd := kind_data hk
  have ps := preCheck_shut h.1 (cTid q)
  have plain : dataKind k = false → Locked d r := by
    intro hf
    refine ⟨h, fun q' e1 e2 => ?_⟩
    have : q' = q := by rw [hq] at e1; exact (Option.some.inj e1).symm
    subst this
    rw [hd, hf] at e2
    simp at e2
  have refused : dataKind k = true → Locked d { r with resp := .sessionNotOpen } :=
    fun _ => ⟨h, fun _ _ _ => by simp⟩
  cases k with
  | deviceInfo =>
    have hc : cCode q = 0x1001 := by
      have : ∀ e ∈ opTable, e.2 = .deviceInfo → e.1 = 0x1001 := by decide
      exact this _ hm rfl
    simp only [Rsp.handle] at hr
    refine Locked.sendReply ?_ _ _ hr
    rw [hc, (free _ _).1]
    exact plain rfl
  | openSession =>
    have : ∀ e ∈ opTable, e.2 = .openSession → e.1 = 0x1002 := by decide
    exact absurd (this _ hm rfl) ho
  | closeSession =>
    simp only [Rsp.handle, closeSessionReq, h.1, if_true] at hr
    cases hr
    exact (plain rfl).reply _
  | propsSupported =>
    have hc : cCode q = 0x9801 := by
      have : ∀ e ∈ opTable, e.2 = .propsSupported → e.1 = 0x9801 := by decide
      exact this _ hm rfl
    simp only [Rsp.handle] at hr
    split at hr
    · refine Locked.sendReply ?_ _ _ hr
      rw [hc, (free _ _).2]
      exact plain rfl
    · cases hr; exact (plain rfl).reply _
  | thumb =>
    simp only [Rsp.handle, ps] at hr
    cases hr
    exact plain rfl
  | query fp =>
    simp only [Rsp.handle, ps] at hr
    exact (plain rfl).replyP _ _ hr
  | copy =>
    simp only [Rsp.handle, copyReq, ps, copyEnd] at hr
    split at hr
    · cases hr; exact plain rfl
    · exact (plain rfl).replyP _ [_] hr
  | skip => cases hr; exact (plain rfl).reply _
  | refused => cases hr; exact (plain rfl).reply _
  | sendInfo =>
    simp only [Rsp.handle, ps] at hr
    cases hr
    exact refused rfl
  | sendObject =>
    simp only [Rsp.handle, sendObjectReq, ps] at hr
    cases hr
    exact refused rfl
  | sendPropList =>
    simp only [Rsp.handle, propListReq, ps] at hr
    cases hr
    exact refused rfl
  | sendPartial =>
    simp only [Rsp.handle, partialReq, ps] at hr
    cases hr
    exact refused rfl
  | set c =>
    simp only [Rsp.handle, ps] at hr
    cases hr
    exact refused rfl
  | truncate =>
    simp only [Rsp.handle, truncateReq, ps] at hr
    cases hr
    exact (plain rfl).reply _
  | beginEdit =>
    simp only [Rsp.handle, beginEditReq, ps] at hr
    cases hr
    exact (plain rfl).reply _
  | endEdit =>
    simp only [Rsp.handle, endEditReq, ps] at hr
    cases hr
    exact (plain rfl).reply _

private theorem command_locked {d : D} (dv : Dev D) (free : FreeQueries dv) {r r' : Rsp D} (h : Shut d r)
    (q : List UInt8) (hq : r.req = some q) (n : List Ev) (ho : cCode q ≠ 0x1002)
    (hr : r.command dv n = .ok r') : Locked d r' := by
  unfold Rsp.command at hr
  split at hr
  · simp at hr
  · next q' hq' =>
    have : q' = q := by rw [hq] at hq'; exact (Option.some.inj hq').symm
    subst this
    simp only at hr
    rw [if_neg (by simp [h.2.2.2.1])] at hr
    split at hr
    · next k hk => exact handle_locked (r := { r with resp := .ok }) dv free h q' hq n k hk ho hr
    · next hk =>
      cases hr
      refine Locked.reply ?_ _
      refine ⟨h, fun q2 e1 e2 => ?_⟩
      have : q2 = q' := by rw [show ({ r with resp := Resp.ok } : Rsp D).req = r.req from rfl, hq] at e1; exact (Option.some.inj e1).symm
      subst this
      rw [kind_none hk] at e2
      simp at e2

private theorem dataEnd_locked {d : D} {r : Rsp D} (h : Shut d r) (q : List UInt8)
    (hq : r.req = some q) (c : Resp) (l : Bool) (hc : hasDataPhase (cCode q) = true → c ≠ .ok) :
    Locked d (r.dataEnd c l) := by
  have : Locked d { r with resp := c } := by
    refine ⟨h, fun q' e1 e2 => ?_⟩
    have : q' = q := by rw [show ({ r with resp := c } : Rsp D).req = r.req from rfl, hq] at e1; exact (Option.some.inj e1).symm
    subst this
    exact hc e2
  unfold dataEnd
  simp only
  split
  · exact this.reply c
  · exact this

private theorem dataPacket_locked {d : D} (dv : Dev D) {r r' : Rsp D} (h : Locked d r) (q b : List UInt8)
    (hq : r.req = some q) (f l : Bool) (hr : r.dataPacket dv q b f l = .ok r') : Locked d r' := by
  by_cases hd : hasDataPhase (cCode q) = true
  · have hc := h.2 q hq hd
    unfold dataPacket at hr
    split at hr
    · split at hr
      · next e => exact absurd e hc
      · cases hr
        exact dataEnd_locked (r := { r with dataC := none }) h.1 q hq _ l (fun _ => hc)
    · split at hr
      · split at hr
        · next e => exact absurd e hc
        · cases hr
          exact dataEnd_locked (r := { r with dataC := none }) h.1 q hq _ l (fun _ => hc)
      · obtain ⟨k, a1, a2, a3, a4⟩ := accumulate_kept r b f
        have hp : (r.accumulate b f).prev = r.prev := by
          unfold accumulate
          split
          · rfl
          · split
            · rfl
            · split <;> rfl
        have hs : Shut d (r.accumulate b f) := by
          obtain ⟨s1, s2, s3, s4, s5, s6, s7⟩ := h.1
          exact ⟨k.session.trans s1, k.sendSeq.trans s2, k.propList.trans s3, k.ready.trans s4,
            by rw [a1]; exact s5, by rw [hp]; exact s6, k.dev.trans s7⟩
        generalize r.accumulate b f = r1 at *
        simp only at hr
        have hq1 : r1.req = some q := a2.trans hq
        have hc1 : r1.resp ≠ .ok := by rw [a3]; exact hc
        split at hr
        · cases hr
          exact ⟨hs, fun _ _ _ => hc1⟩
        · have hdc : r1.dataCheck q ≠ .ok := by
            unfold dataCheck
            split
            · next e _ => exact absurd e hc1
            · exact hc1
          split at hr
          · next e => exact absurd e hdc
          · cases hr
            exact dataEnd_locked hs q hq1 _ l (fun _ => hdc)
  · have hd : hasDataPhase (cCode q) = false := by simpa using hd
    unfold dataPacket at hr
    split at hr
    · next e => rw [e] at hd; simp [hasDataPhase] at hd
    · split at hr
      · next e => rw [e] at hd; simp [hasDataPhase] at hd
      · obtain ⟨k, a1, a2, a3, a4⟩ := accumulate_kept r b f
        have hp : (r.accumulate b f).prev = r.prev := by
          unfold accumulate
          split
          · rfl
          · split
            · rfl
            · split <;> rfl
        have hs : Shut d (r.accumulate b f) := by
          obtain ⟨s1, s2, s3, s4, s5, s6, s7⟩ := h.1
          exact ⟨k.session.trans s1, k.sendSeq.trans s2, k.propList.trans s3, k.ready.trans s4,
            by rw [a1]; exact s5, by rw [hp]; exact s6, k.dev.trans s7⟩
        generalize r.accumulate b f = r1 at *
        simp only at hr
        have hq1 : r1.req = some q := a2.trans hq
        have hde : ∀ c, Locked d (r1.dataEnd c l) := by
          intro c
          refine dataEnd_locked hs q hq1 c l (fun e => ?_)
          rw [hd] at e; simp at e
        split at hr
        · cases hr
          refine ⟨hs, fun q' e1 e2 => ?_⟩
          have : q' = q := by rw [hq1] at e1; exact (Option.some.inj e1).symm
          subst this
          rw [hd] at e2; simp at e2
        · split at hr
          · split at hr
            · split at hr
              · cases hr; exact hde _
              · simp at hr
            · split at hr
              · next e => rw [kind_data e] at hd; simp [dataKind] at hd
              · next e => rw [kind_data e] at hd; simp [dataKind] at hd
              · next e => rw [kind_data e] at hd; simp [dataKind] at hd
              · cases hr; exact hde _
          · cases hr; exact hde _

private theorem receive_locked {d : D} (dv : Dev D) (free : FreeQueries dv) {r r' : Rsp D} (h : Locked d r)
    (b : List UInt8) (f l : Bool) (n : List Ev) (hb : cCode b ≠ 0x1002)
    (hr : r.receive dv b f l n = .ok r') : Locked d r' := by
  have start : (if f = true ∧ l = true then
        (({ ({ (r.setState .idle) with req := none } : Rsp D) with req := some b }.setState
          (if hasDataPhase (cCode b) then .waitData else .waitResp)).emit .statusBusy).command dv n
      else .ok (({ (r.setState .idle) with req := none } : Rsp D).emit .reset)) = .ok r' → Locked d r' := by
    intro hr
    have hi : Shut d (r.setState .idle) := h.1.setState (by simp)
    split at hr
    · refine command_locked dv free (q := b) ?_ ?_ n hb hr
      · refine Shut.setState (r := { ({ (r.setState .idle) with req := none } : Rsp D) with req := some b }) hi ?_
        split <;> simp
      · simp
    · cases hr
      exact Locked.idle hi rfl
  unfold Rsp.receive at hr
  split at hr
  · exact start hr
  · exact start hr
  · exact start hr
  · split at hr
    · next e => cases hr; exact h.setState (by simp)
    · next q hq =>
      simp only at hr
      refine dataPacket_locked dv ?_ q b ?_ f l hr
      · split <;> exact h
      · split <;> exact hq
  · next hst => exact absurd hst h.1.2.2.2.2.1
  · cases hr; exact h.setState (by simp)

private theorem closeSession_locked {d : D} {r : Rsp D} (h : Locked d r) : Locked d r.closeSession := by
  unfold closeSession
  have h1 : Locked d (({ r with session := 0 } : Rsp D).deleteStored) :=
    Locked.idle (r := ({ r with session := 0 } : Rsp D).deleteStored) ⟨rfl, h.1.2⟩ rfl
  have h2 := h1.setState (s := .idle) (by simp)
  obtain ⟨⟨s1, s2, s3, s4⟩, h3⟩ := h2
  exact ⟨⟨s1, rfl, rfl, s4⟩, h3⟩

private theorem ev_locked {d : D} (dv : Dev D) {r : Rsp D} (h : Locked d r) (e : Ev) :
    Locked d (r.handleEv dv e) := by
  cases e with
  | cancel =>
    simp only [Rsp.handleEv]
    unfold Rsp.handleCancel
    split
    · exact h
    · have h1 := (h.setState (s := .txCancel) (by simp)).1
      generalize r.setState .txCancel = r1 at *
      simp only
      have h2 : Shut d (r1.cancelUpload dv) := by
        have ht : r1.cancelTarget = 0 := by
          unfold cancelTarget
          rw [h1.2.1, h1.2.2.1]
        unfold cancelUpload
        simp only [ht, if_true, h1.2.2.1, Option.isSome_none, Bool.false_eq_true, if_false]
        obtain ⟨s1, s2, s3, s4⟩ := h1
        exact ⟨s1, rfl, rfl, s4⟩
      split
      · exact Locked.idle (r := ((r1.cancelUpload dv).deleteStored.emit .statusOk)) h2 rfl
      · exact Locked.idle (r := (r1.deleteStored.emit .statusOk)) h1 rfl
  | suspend =>
    simp only [Rsp.handleEv, Rsp.handleSuspend]
    refine Locked.setState (r := { r with prev := r.st }) ?_ (by simp)
    obtain ⟨⟨s1, s2, s3, s4, s5, s6, s7⟩, h3⟩ := h
    exact ⟨⟨s1, s2, s3, s4, s5, s5, s7⟩, h3⟩
  | resume =>
    simp only [Rsp.handleEv, Rsp.handleResume]
    have h1 := h.setState (s := r.prev) h.1.2.2.2.2.2.1
    generalize r.setState r.prev = r1 at *
    split
    · exact h1
    · split <;> exact h1
  | deviceReset => exact closeSession_locked h
  | cleanup => exact closeSession_locked h

/-- What may happen without an open session: any packets but an OpenSession command, any transport
events, change notifications. -/
def NoOpen : In D → Prop
  | .packet b _ _ _ => cCode b ≠ 0x1002
  | .ready _ => True
  | .ev _ => True
  | .notify .. => True
  | .env _ => False

/-- C35: from a state with no session open, no history without an OpenSession command changes anything on
the device or opens a session, whatever commands, data, cancels, resets, suspends and resumes it
contains. (Storages ready; the two queries needing no session change nothing.) -/
theorem C35_nothing_done (dv : Dev D) (free : FreeQueries dv) (r r' : Rsp D) (hst : r.st = .idle)
    (hprev : r.prev = .idle) (hq : r.req = none) (hs : r.session = 0) (hss : r.sendSeq = none)
    (hpl : r.propList = none) (hready : r.ready = true) (is : List (In D)) (his : ∀ i ∈ is, NoOpen i)
    (hr : r.run dv is = .ok r') : r'.dev = r.dev ∧ r'.session = 0 := by
  have main : ∀ (is : List (In D)) (r0 : Rsp D), (∀ i ∈ is, NoOpen i) → Locked r.dev r0 →
      r0.run dv is = .ok r' → Locked r.dev r' := by
    intro is
    induction is with
    | nil => intro r0 _ h hr; cases hr; exact h
    | cons i is ih =>
      intro r0 hi h hr
      unfold Rsp.run at hr
      cases hs : r0.step dv i with
      | ub w => rw [hs] at hr; simp at hr
      | ok r1 =>
        rw [hs] at hr
        refine ih r1 (fun i hi' => hi i (by simp [hi'])) ?_ hr
        have hi := hi i (by simp)
        cases i with
        | packet b f l n => exact receive_locked dv free h b f l n hi hs
        | ready n =>
          simp only [Rsp.step, storageReady] at hs
          rw [if_neg (show ¬(({ r0 with ready := true } : Rsp D).st = .waitStorage) from h.1.2.2.2.2.1)] at hs
          cases hs
          obtain ⟨⟨s1, s2, s3, s4, s5⟩, h3⟩ := h
          exact ⟨⟨s1, s2, s3, rfl, s5⟩, h3⟩
        | ev e => cases hs; exact ev_locked dv h e
        | notify c ps =>
          cases hs
          unfold Rsp.notify
          split
          · exact h
          · exact h.send _
        | env d => exact absurd hi id
  have h0 : Locked r.dev r :=
    Locked.idle ⟨hs, hss, hpl, hready, by rw [hst]; simp, by rw [hprev]; simp, rfl⟩ hq
  have := main is r his h0 hr
  exact ⟨this.1.2.2.2.2.2.2, this.1.1⟩

/-- The operations that need a session and say so: everything dispatched but GetDeviceInfo, OpenSession,
GetObjectPropsSupported, GetThumb and what is refused as unsupported. -/
def needsSession : OpKind → Bool
  | .deviceInfo | .openSession | .propsSupported | .thumb | .refused => false
  | _ => true

/-- C35: without a session every operation needing one (GetThumb excepted) is answered SessionNotOpen,
after its data phase if it has one, however that is cut into packets, and changes nothing. -/
theorem C35_session_not_open_partial (dv : Dev D) (r : Rsp D) (hst : r.st = .idle) (hs : r.session = 0)
    (b : List UInt8) (hready : r.ready = true ∨ needsStorage (cCode b) = false)
    (k : OpKind) (hk : opKind (cCode b) = some k) (hn : needsSession k = true)
    (bs : List (List UInt8)) (hbs : bs ≠ [] ↔ hasDataPhase (cCode b) = true) :
    ∃ r' ps, r.run dv (.packet b true true [] :: Spec.dataPhase true bs) = .ok r' ∧ r'.st = .idle ∧
      Spec.responses r'.out = Spec.responses r.out ++ [.response .sessionNotOpen (u16 (cTid b)) ps] ∧
      r'.dev = r.dev ∧ r'.session = 0 ∧ r'.sendSeq = r.sendSeq ∧ r'.propList = r.propList ∧
      r'.edit = r.edit := by
  have hd := kind_data hk
  have ps := preCheck_shut (s := (r.accept b).session) (by rw [accept_session]; exact hs) (cTid b)
  have step1 : r.step dv (.packet b true true []) = (r.accept b).handle dv b [] k := by
    simp only [Rsp.step]
    rw [receive_idle _ _ _ _ hst, command_accept _ _ _ _ hready, hk]
  have ka := Kept.accept r b
  -- a single reply without data phase
  have fin : ∀ (ps : List Nat) (r' : Rsp D), (r.accept b).replyP .sessionNotOpen ps = .ok r' →
      r'.st = .idle ∧ Kept r r' ∧ ∃ ps, Spec.responses r'.out =
        Spec.responses r.out ++ [.response .sessionNotOpen (u16 (cTid b)) ps] := by
    intro ps r' hr
    cases ps with
    | nil =>
      cases hr
      refine ⟨(reply_idle _ _ b (accept_req ..) (accept_live ..)).1, ka.trans (Kept.reply ..), [], ?_⟩
      rw [responses_reply _ _ b (accept_req ..) (accept_live ..), responses_accept]
    | cons p ps =>
      simp only [Rsp.replyP] at hr
      rw [reply1_eq _ _ _ b (accept_req ..) (accept_live ..)] at hr
      cases hr
      refine ⟨by simp, ?_, [p], ?_⟩
      · constructor <;> simp
      · simp only [deleteStored_out, emit_out, Spec.responses_append, responses_setState, responses_accept]
        simp [Spec.responses, Out.isResponse]
  have done : ∀ r1 : Rsp D, (r.accept b).handle dv b [] k = .ok r1 → bs = [] →
      (r1.st = .idle ∧ Kept r r1 ∧ ∃ ps, Spec.responses r1.out =
        Spec.responses r.out ++ [.response .sessionNotOpen (u16 (cTid b)) ps]) →
      ∃ r' ps, r.run dv (.packet b true true [] :: Spec.dataPhase true bs) = .ok r' ∧ r'.st = .idle ∧
      Spec.responses r'.out = Spec.responses r.out ++ [.response .sessionNotOpen (u16 (cTid b)) ps] ∧
      r'.dev = r.dev ∧ r'.session = 0 ∧ r'.sendSeq = r.sendSeq ∧ r'.propList = r.propList ∧
      r'.edit = r.edit := by
    rintro r1 hr hb ⟨h1, h2, pp, h3⟩
    subst hb
    refine ⟨r1, pp, ?_, h1, h3, h2.dev, h2.session.trans hs, h2.sendSeq, h2.propList, h2.edit⟩
    simp [Rsp.run, step1, hr, Spec.dataPhase]
  have nodata : dataKind k = false → bs = [] := by
    intro h
    rcases List.eq_nil_or_concat bs with h' | ⟨_, _, h'⟩
    · exact h'
    · have := hbs.mp (by rw [h']; simp)
      rw [hd, h] at this
      simp at this
  have refuse : dataKind k = true →
      (r.accept b).handle dv b [] k = .ok { (r.accept b) with resp := .sessionNotOpen } →
      ∃ r' ps, r.run dv (.packet b true true [] :: Spec.dataPhase true bs) = .ok r' ∧ r'.st = .idle ∧
      Spec.responses r'.out = Spec.responses r.out ++ [.response .sessionNotOpen (u16 (cTid b)) ps] ∧
      r'.dev = r.dev ∧ r'.session = 0 ∧ r'.sendSeq = r.sendSeq ∧ r'.propList = r.propList ∧
      r'.edit = r.edit := by
    intro h hr
    obtain ⟨r', e, h2, h1, _, h3⟩ := run_refuse dv b .sessionNotOpen bs (hbs.mpr (by rw [hd]; exact h))
      { (r.accept b) with resp := .sessionNotOpen } true
      ⟨(accept_st r b).trans (by rw [hd, h]; rfl), accept_req r b, rfl, by simp⟩
    have h2 := ka.trans (Kept.trans (b := { (r.accept b) with resp := .sessionNotOpen })
      ⟨rfl, rfl, rfl, rfl, rfl, rfl⟩ h2)
    refine ⟨r', [], ?_, h1, ?_, h2.dev, h2.session.trans hs, h2.sendSeq, h2.propList, h2.edit⟩
    · simp only [Rsp.run, step1, hr, Res.bind_ok]
      exact e
    · rw [h3]
      show Spec.responses (r.accept b).out ++ _ = _
      rw [responses_accept]
  cases k with
  | deviceInfo => simp [needsSession] at hn
  | openSession => simp [needsSession] at hn
  | propsSupported => simp [needsSession] at hn
  | thumb => simp [needsSession] at hn
  | refused => simp [needsSession] at hn
  | closeSession =>
    refine done ((r.accept b).reply .sessionNotOpen) ?_ (nodata rfl) (fin [] _ rfl)
    simp only [Rsp.handle, closeSessionReq]
    rw [if_pos (by rw [accept_session]; exact hs)]
  | query fp =>
    obtain ⟨r1, e⟩ : ∃ r1, (r.accept b).replyP .sessionNotOpen fp = .ok r1 := by
      cases fp with
      | nil => exact ⟨_, rfl⟩
      | cons p fp => exact ⟨_, reply1_eq _ _ _ b (accept_req ..) (accept_live ..)⟩
    refine done r1 ?_ (nodata rfl) (fin fp _ e)
    simp only [Rsp.handle, ps]
    exact e
  | copy =>
    obtain ⟨r1, e⟩ : ∃ r1, (r.accept b).replyP .sessionNotOpen [0] = .ok r1 :=
      ⟨_, reply1_eq _ _ _ b (accept_req ..) (accept_live ..)⟩
    refine done r1 ?_ (nodata rfl) (fin [0] _ e)
    simp only [Rsp.handle, copyReq, ps, copyEnd]
    rw [if_neg (accept_live ..).1]
    exact e
  | skip =>
    refine done ((r.accept b).reply .sessionNotOpen) ?_ (nodata rfl) (fin [] _ rfl)
    simp only [Rsp.handle, ps]
  | truncate =>
    refine done ((r.accept b).reply .sessionNotOpen) ?_ (nodata rfl) (fin [] _ rfl)
    simp only [Rsp.handle, truncateReq, ps]
  | beginEdit =>
    refine done ((r.accept b).reply .sessionNotOpen) ?_ (nodata rfl) (fin [] _ rfl)
    simp only [Rsp.handle, beginEditReq, ps]
  | endEdit =>
    refine done ((r.accept b).reply .sessionNotOpen) ?_ (nodata rfl) (fin [] _ rfl)
    simp only [Rsp.handle, endEditReq, ps]
  | sendInfo => exact refuse rfl (by simp only [Rsp.handle, ps])
  | sendObject => exact refuse rfl (by simp only [Rsp.handle, sendObjectReq, ps])
  | sendPropList => exact refuse rfl (by simp only [Rsp.handle, propListReq, ps])
  | sendPartial => exact refuse rfl (by simp only [Rsp.handle, partialReq, ps])
  | set c => exact refuse rfl (by simp only [Rsp.handle, ps])

open Spec.Toy in
/-- SendObjectInfo without a session, its dataset in two packets. -/
example : Spec.after (Rsp.run dev { dev := [(1, [5])], ready := true }
    (.packet (cmd 0x100C 2 []) true true [] :: Spec.dataPhase true [dat 0x100C 2 [1], [2, 3]]))
    (fun r => Spec.responses r.out = [.response .sessionNotOpen 2 []] ∧ r.dev = [(1, [5])]) := by
  decide +kernel

/-- C35: opening a session. Id 0 is refused, an open session is reported with its id and kept. -/
theorem C35_open (dv : Dev D) (r : Rsp D) (hst : r.st = .idle) (b : List UInt8) (hb : cCode b = 0x1002) :
    ∃ r', r.step dv (.packet b true true []) = .ok r' ∧ r'.st = .idle ∧ r'.dev = r.dev ∧
      Spec.responses r'.out = Spec.responses r.out ++
        [if cParam b 0 = 0 then .response .invalidParameter (u16 (cTid b)) []
         else if r.session ≠ 0 then .response .sessionAlreadyOpen (u16 (cTid b)) [r.session]
         else .response .ok (u16 (cTid b)) []] ∧
      r'.session = if r.session ≠ 0 then r.session else cParam b 0 := by
  have hk : opKind 0x1002 = some .openSession := by decide
  have step1 : r.step dv (.packet b true true []) = (r.accept b).openSessionReq b := by
    simp only [Rsp.step]
    rw [receive_idle _ _ _ _ hst, command_accept _ _ _ _ (.inr (by rw [hb]; decide)), hb, hk]
    rfl
  rw [step1]
  unfold openSessionReq
  by_cases h0 : cParam b 0 = 0
  · simp only [h0, if_true]
    refine ⟨_, rfl, (reply_idle _ _ b (accept_req ..) (accept_live ..)).1, by simp, ?_, ?_⟩
    · rw [responses_reply _ _ b (accept_req ..) (accept_live ..), responses_accept]
    · rw [reply_session, accept_session]
      split <;> omega
  · simp only [h0, if_false, accept_session]
    by_cases hs : r.session = 0
    · simp only [hs, ne_eq, not_true_eq_false, if_false]
      have hl := accept_live r b
      refine ⟨_, rfl, ?_, ?_, ?_, ?_⟩
      · exact (reply_idle { (r.accept b) with session := cParam b 0 } _ b (accept_req r b) hl).1
      · rw [emit_dev, reply_dev]; exact accept_dev ..
      · rw [emit_out, Spec.responses_append,
          responses_reply { (r.accept b) with session := cParam b 0 } _ b (accept_req r b) hl]
        show Spec.responses (r.accept b).out ++ _ ++ _ = _
        rw [responses_accept]
        simp [Spec.responses, Out.isResponse]
      · rw [emit_session, reply_session]
    · simp only [hs, ne_eq, not_false_eq_true, if_true]
      rw [reply1_eq _ _ _ b (accept_req ..) (accept_live ..)]
      refine ⟨_, rfl, by simp, by simp, ?_, by simp⟩
      simp only [deleteStored_out, emit_out, Spec.responses_append, responses_setState, responses_accept]
      simp [Spec.responses, Out.isResponse]

/-- C35: closing the session ends it and forgets announced uploads. -/
theorem C35_close (dv : Dev D) (r : Rsp D) (hst : r.st = .idle) (b : List UInt8) (hb : cCode b = 0x1003)
    (hs : r.session ≠ 0) :
    ∃ r', r.step dv (.packet b true true []) = .ok r' ∧ r'.st = .idle ∧ r'.req = none ∧ r'.session = 0 ∧
      r'.sendSeq = none ∧ r'.propList = none ∧ r'.dev = dv.eventsOff r.dev ∧
      Spec.responses r'.out = Spec.responses r.out ++ [.response .ok (u16 (cTid b)) []] := by
  have hk : opKind 0x1003 = some .closeSession := by decide
  have step1 : r.step dv (.packet b true true []) = .ok ((r.accept b).closeSessionReq dv) := by
    simp only [Rsp.step]
    rw [receive_idle _ _ _ _ hst, command_accept _ _ _ _ (.inr (by rw [hb]; decide)), hb, hk]
    rfl
  rw [step1]
  unfold closeSessionReq
  rw [if_neg (by rw [accept_session]; exact hs)]
  have hl := accept_live r b
  obtain ⟨i1, i2⟩ := reply_idle (({ (r.accept b) with
    session := 0, sendSeq := none, propList := none, dev := dv.eventsOff (r.accept b).dev } : Rsp D).emit
    (.session false)) .ok b (accept_req r b) hl
  refine ⟨_, rfl, i1, i2, ?_, ?_, ?_, ?_, ?_⟩
  · rw [reply_session]; rfl
  · rw [reply_sendSeq]; rfl
  · rw [reply_propList]; rfl
  · rw [reply_dev]
    show dv.eventsOff (r.accept b).dev = _
    rw [accept_dev]
  · rw [responses_reply (({ (r.accept b) with
      session := 0, sendSeq := none, propList := none, dev := dv.eventsOff (r.accept b).dev } : Rsp D).emit
      (.session false)) .ok b (accept_req r b) hl]
    rw [emit_out, Spec.responses_append]
    show Spec.responses (r.accept b).out ++ _ ++ _ = _
    rw [responses_accept]
    simp [Spec.responses, Out.isResponse]

open Spec.Toy in
/-- Open, open again, close, close again. -/
example : Spec.after (Rsp.run dev { dev := [] }
    [.packet (cmd 0x1002 1 [42]) true true [], .packet (cmd 0x1002 2 [43]) true true [],
     .packet (cmd 0x1003 3 []) true true [], .packet (cmd 0x1003 4 []) true true []])
    (fun r => Spec.responses r.out = [.response .ok 1 [], .response .sessionAlreadyOpen 2 [42],
      .response .ok 3 [], .response .sessionNotOpen 4 []]) := by
  decide +kernel

open Spec.Toy in
/-- C35 is violated while the storages are not ready: a suspended data phase and a resume let an
SendObjectInfo arriving in between create its object without a session. -/
theorem C35_suspended_violated : ∃ (is : List (In Objs)),
    (∀ i ∈ is, NoOpen i) ∧
    Spec.after (Rsp.run dev { dev := [] } is) (fun r => r.session = 0 ∧ r.dev ≠ []) :=
  ⟨[.packet (cmd 0x1016 1 [0x5001]) true true [], .ev .suspend, .packet (cmd 0x100C 2 []) true true [],
    .ev .resume, .packet (dat 0x100C 2 (leBytes 8 0 ++ leBytes 4 3)) true true []],
   by
    intro i hi
    simp only [List.mem_cons, List.not_mem_nil, or_false] at hi
    rcases hi with rfl | rfl | rfl | rfl | rfl
    · show cCode _ ≠ _; decide +kernel
    · trivial
    · show cCode _ ≠ _; decide +kernel
    · trivial
    · show cCode _ ≠ _; decide +kernel,
   by decide +kernel⟩

end Props
