import Verif.Lemmas.ControlRun
import Verif.Lemmas.Resets
import Verif.Props.Interrupt
/-! Property theorem C96: the device status. -/
namespace Props
open Mtp Spec

variable {D : Type}

private theorem says_busy {out : List Out} (h : deviceStatus out = .busy) : SaysBusy out := by
  intro u ⟨h1, h2⟩
  rw [h]
  simp [setupRequest, h1, h2, DevStatus.bytes, DevStatus.code]

private theorem says_ok {out : List Out} (h : deviceStatus out = .ok) : SaysOk out := by
  intro u ⟨h1, h2⟩
  rw [h]
  simp [setupRequest, h1, h2, DevStatus.bytes, DevStatus.code]

private theorem told (out : List Out) : deviceStatus out = .ok ∨ deviceStatus out = .busy := by
  suffices ∀ (l : List Out) (s : DevStatus), (s = .ok ∨ s = .busy) → (l.foldl (fun s o => o.status.getD s) s = .ok ∨
      l.foldl (fun s o => o.status.getD s) s = .busy) from this out .ok (Or.inl rfl)
  intro l
  induction l with
  | nil => exact fun _ h => h
  | cons o l ih =>
    intro s hs
    apply ih
    cases o <;> simp [Out.status, hs]

private theorem busy_says {out : List Out} (h : SaysBusy out) : deviceStatus out = .busy := by
  rcases told out with e | e
  · have := h ⟨0xa1, 0x67, 0, 0, 4, []⟩ ⟨rfl, rfl⟩
    have e2 := says_ok e ⟨0xa1, 0x67, 0, 0, 4, []⟩ ⟨rfl, rfl⟩
    rw [this] at e2
    exact absurd e2 (by decide)
  · exact e

private theorem ok_says {out : List Out} (h : SaysOk out) : deviceStatus out = .ok := by
  rcases told out with e | e
  · exact e
  · have := h ⟨0xa1, 0x67, 0, 0, 4, []⟩ ⟨rfl, rfl⟩
    have e2 := says_busy e ⟨0xa1, 0x67, 0, 0, 4, []⟩ ⟨rfl, rfl⟩
    rw [this] at e2
    exact absurd e2 (by decide)

/-- C96. Whatever has happened, the host is told OK or busy, never both; only a status request gets an answer; requests that the
still image class does not define are stalled, in the direction of the request. -/
theorem C96_answers (out : List Out) :
    (SaysOk out ∨ SaysBusy out) ∧ ¬ (SaysOk out ∧ SaysBusy out) ∧
    (∀ u b, setupRequest (deviceStatus out) u = .answer b → StatusRequest u) ∧
    (∀ u, u.request ∉ [0x64, 0x66, 0x67] → u.type < 256 → setupRequest (deviceStatus out) u = .stall (decide (128 ≤ u.type))) := by
  refine ⟨?_, ?_, ?_, ?_⟩
  · rcases told out with e | e
    · exact Or.inl (says_ok e)
    · exact Or.inr (says_busy e)
  · rintro ⟨h1, h2⟩
    have := ok_says h1
    rw [busy_says h2] at this
    cases this
  · intro u b h
    unfold setupRequest at h
    split at h
    · next h1 =>
      split at h
      · next h2 => exact ⟨h2, h1⟩
      · cases h
    · split at h
      · cases h
      · split at h <;> cases h
  · intro u hu ht
    simp only [List.mem_cons, List.not_mem_nil, or_false, not_or] at hu
    unfold setupRequest
    rw [if_neg hu.2.2, if_neg hu.1, if_neg hu.2.1]
    congr 1
    have : u.type / 128 % 2 = 1 ↔ 128 ≤ u.type := by omega
    simp [this]

/-- C96. The device is busy while it talks. In every history without suspending, whenever data or a response is sent, a host asking
at that moment is told 'busy'; and right after a response it is told OK. -/
theorem C96_busy_while_talking (dv : Dev D) (d : D) (ready : Bool) (is : List (Rsp.In D)) (hn : NeverSuspended is) (r : Rsp D)
    (hr : ({ dev := d, ready := ready } : Rsp D).run dv is = .ok r) (a b : List Out) (o : Out) (he : r.out = a ++ o :: b) :
    (OfTransaction o → SaysBusy a) ∧
    (o.isResponse = true → ∃ b', b = .statusOk :: b' ∧ SaysOk (a ++ [o, .statusOk])) := by
  have h := (Rsp.StInv.start (s := False) d ready).run dv is (fun i hi e he => ⟨hn i hi e he, False.elim⟩) hr
  obtain ⟨h1, h2⟩ := h.talk a o b he
  refine ⟨fun ho => says_busy (h1 ho), fun ho => ?_⟩
  have := h2 ho
  cases b with
  | nil => cases this
  | cons x b =>
    have : x = .statusOk := by simpa using this
    subst this
    refine ⟨b, rfl, says_ok ?_⟩
    rw [deviceStatus_append]
    rfl

/-- C96. OK means ready. In every history without suspending: when the host is told OK, the next command is taken, whatever it is:
the transporter is not reset. -/
theorem C96_ok_means_ready (dv : Dev D) (d : D) (ready : Bool) (is : List (Rsp.In D)) (hn : NeverSuspended is) (r r' : Rsp D)
    (hr : ({ dev := d, ready := ready } : Rsp D).run dv is = .ok r) (hok : SaysOk r.out) (q : List UInt8) (n : List Rsp.Ev)
    (hq : r.receive dv q true true n = .ok r') : resets r'.out = resets r.out := by
  have h := (Rsp.StInv.start (s := False) d ready).run dv is (fun i hi e he => ⟨hn i hi e he, False.elim⟩) hr
  have hrs : r.RsInv (resets r.out) := ⟨rfl, fun o e => by rw [h.kept] at e; cases e⟩
  have hst : r.st = .idle ∨ r.st = .txCancel := by
    have nw : ¬ Waiting r.st := fun w => by
      have := h.busy w
      rw [ok_says hok] at this
      cases this
    have na := h.awake
    cases e : r.st with
    | idle => exact Or.inl rfl
    | txCancel => exact Or.inr rfl
    | suspend => exact absurd e na
    | waitData => exact absurd (Or.inl e) nw
    | waitResp => exact absurd (Or.inr (Or.inl e)) nw
    | waitStorage => exact absurd (Or.inr (Or.inr e)) nw
  have key : (({ ({ (r.setState .idle) with req := none } : Rsp D) with req := some q }.setState
      (if hasDataPhase (cCode q) then .waitData else .waitResp)).emit .statusBusy).command dv n = .ok r' := by
    unfold Rsp.receive at hq
    rcases hst with e | e <;> rw [e] at hq <;> simpa using hq
  have h1 : Rsp.RsInv (resets r.out) (({ ({ (r.setState .idle) with req := none } : Rsp D) with req := some q }.setState
      (if hasDataPhase (cCode q) then .waitData else .waitResp)).emit .statusBusy) := by
    refine Rsp.RsInv.emit ?_ _ rfl
    refine Rsp.RsInv.setState ?_ _
    exact hrs.setState .idle
  exact (h1.command dv n key).1

/-- C96. The status tells whether a transaction is pending. In every history without suspending and unplugging, as long as the
transporter was not reset: busy exactly while a request is waiting for its response. -/
theorem C96_busy_iff_pending (dv : Dev D) (d : D) (ready : Bool) (is : List (Rsp.In D)) (hn : NeverSuspended is) (hc : StaysConnected is)
    (r : Rsp D) (hr : ({ dev := d, ready := ready } : Rsp D).run dv is = .ok r) (hre : Out.reset ∉ r.out) :
    SaysBusy r.out ↔ r.req ≠ none := by
  have h := (Rsp.StInv.start (s := True) d ready).run dv is (fun i hi e he => ⟨hn i hi e he, fun _ => hc i hi e he⟩) hr
  obtain ⟨h1, h2⟩ := h.free trivial hre
  constructor
  · intro hb
    rcases h2 with w | e
    · exact h1.mpr w
    · rw [busy_says hb] at e; cases e
  · intro hq
    exact says_busy (h.busy (h1.mp hq))

/-! ### What goes wrong -/

/-- C96 is violated when the cable is pulled (the interface switched off) during a transaction: the request is dropped, but the next
host is told 'busy'. -/
theorem C96_unplugged_violated (dv : Dev D) (r : Rsp D) (hb : SaysBusy r.out) :
    SaysBusy (r.handleEv dv .cleanup).out ∧ (r.handleEv dv .cleanup).req = none ∧ (r.handleEv dv .cleanup).st = .idle := by
  refine ⟨says_busy ?_, Rsp.closeSession_req r, Rsp.closeSession_st r⟩
  show deviceStatus (({ r with session := 0 } : Rsp D).deleteStored.setState .idle).out = _
  rw [Rsp.status_setState]
  exact busy_says hb

/-- C96 is violated by GetThumb outside a session, which is never answered (C36): the device stays busy, and throws away the next
command, still saying 'busy'. -/
theorem C96_unanswered_violated (dv : Dev D) (r : Rsp D) (hst : r.st = .idle) (hready : r.ready = true) (hs : r.session = 0)
    (q q2 : List UInt8) (hq : cCode q = 0x100A) :
    ∃ r1 r2, r.receive dv q true true [] = .ok r1 ∧ SaysBusy r1.out ∧ r1.receive dv q2 true true [] = .ok r2 ∧
      responses r2.out = responses r.out ∧ resets r2.out = resets r.out + 1 ∧ SaysBusy r2.out := by
  have e0 : r.setState .idle = r := by unfold Rsp.setState; rw [if_pos hst]
  have hd : hasDataPhase (cCode q) = false := by rw [hq]; decide
  refine ⟨{ r with st := .waitResp, req := some q, resp := .ok, out := r.out ++ [.pending] ++ [.statusBusy] },
    { r with st := .idle, req := some q, resp := .ok, out := r.out ++ [.pending] ++ [.statusBusy] ++ [.finished] ++ [.reset] }, ?_, ?_, ?_, ?_, ?_, ?_⟩
  · unfold Rsp.receive
    rw [hst]
    simp only [e0, and_self, if_true, hd, Bool.false_eq_true, if_false]
    have e1 : ({ ({ r with req := none } : Rsp D) with req := some q } : Rsp D).setState .waitResp =
        { r with st := .waitResp, req := some q, out := r.out ++ [.pending] } := by
      unfold Rsp.setState
      simp [hst, Rsp.emit]
    rw [e1]
    unfold Rsp.command
    have hk : opKind (cCode q) = some .thumb := by rw [hq]; rfl
    simp only [Rsp.emit, hready, hk, Bool.true_eq_false, false_and, if_false, Rsp.handle, Rsp.preCheck, hs, if_true]
  · refine says_busy ?_
    show deviceStatus (r.out ++ [.pending] ++ [.statusBusy]) = .busy
    rw [deviceStatus_snoc]
    rfl
  · unfold Rsp.receive
    simp [Rsp.setState, Rsp.emit]
  · simp [responses, Out.isResponse]
  · simp [resets, Out.isReset]
  · refine says_busy ?_
    show deviceStatus (r.out ++ [.pending] ++ [.statusBusy] ++ [.finished] ++ [.reset]) = .busy
    rw [deviceStatus_snoc, deviceStatus_snoc, deviceStatus_snoc]
    rfl

/-- C96 is violated by suspending and resuming in the middle of a transaction: the host is told OK, although the device waits for the
transaction's data and would take a command for that. -/
theorem C96_resume_violated (r : Rsp D) (q : List UInt8) (hst : r.st = .waitData) (hq : r.req = some q) (hre : r.resend = none) :
    SaysBusy r.usbSuspend.out ∧ SaysOk r.usbSuspend.usbResume.out ∧ r.usbSuspend.usbResume.st = .waitData ∧
      r.usbSuspend.usbResume.req = some q := by
  have e1 : r.usbSuspend = { r with st := .suspend, prev := .waitData, out := r.out ++ [.statusBusy] } := by
    simp [Rsp.usbSuspend, Rsp.handleSuspend, Rsp.setState, Rsp.emit, hst]
  have e2 : r.usbSuspend.usbResume = { r with st := .waitData, prev := .waitData, out := r.out ++ [.statusBusy] ++ [.statusOk] } := by
    rw [e1]
    simp [Rsp.usbResume, Rsp.handleResume, Rsp.setState, Rsp.emit, hre]
  refine ⟨says_busy ?_, says_ok ?_, by rw [e2], by rw [e2]; exact hq⟩
  · rw [e1, deviceStatus_snoc]; rfl
  · rw [e2, deviceStatus_snoc]; rfl

/-- C96 is violated by cancel requests: the six bytes that name the transaction to cancel are not read. A late cancel of an earlier
transaction cancels the one that is pending. -/
theorem C96_cancel_any_violated (dv : Dev D) (r : Rsp D) (q : List UInt8) (hq : r.req = some q) (u : Setup) (hu : u.request = 0x64)
    (_hother : (u.data.drop 2).take 4 ≠ (q.drop 8).take 4) :
    (r.control dv u).req = none ∧ (r.control dv u).st = .txCancel := by
  have e : r.control dv u = r.handleCancel dv := by
    simp [Rsp.control, setupRequest, hu, Rsp.handleEv]
  rw [e]
  unfold Rsp.handleCancel
  rw [hq]
  have h2 : (r.setState .txCancel).st = .txCancel := Rsp.setState_st r .txCancel
  generalize r.setState .txCancel = r1 at *
  have fin : ∀ r2 : Rsp D, r2.st = .txCancel → (r2.deleteStored.emit .statusOk).req = none ∧ (r2.deleteStored.emit .statusOk).st = .txCancel :=
    fun r2 h => ⟨rfl, h⟩
  simp only
  apply fin
  split
  · unfold Rsp.cancelUpload
    simp only
    split <;> split <;> exact h2
  · exact h2

/-! ### Concrete cases -/

/-- A session, an upload that is cancelled in the middle, an operation that does not exist. -/
def statusTalk : List (Rsp.In Toy.Objs) :=
  [.packet (Toy.cmd 0x1002 0 [1]) true true [], .packet (Toy.cmd 0x100C 1 [1, 0]) true true [], .ev .cancel, .packet (Toy.cmd 0x1FFF 2 []) true true [],
   .packet (Toy.cmd 0x1009 3 [1]) true true []]

/-- The hypotheses of C96 are met; the answers, and one of them before the last response. -/
theorem C96_witness : NeverSuspended statusTalk ∧ StaysConnected statusTalk ∧
    (after (({ dev := [], ready := true } : Rsp Toy.Objs).run threePackets statusTalk) fun r =>
      r.out.filter (fun o => o.status.isSome ∨ o.isResponse) =
        [.statusBusy, .response .ok 0 [], .statusOk, .statusBusy, .statusOk, .statusBusy, .response .operationNotSupported 2 [], .statusOk,
         .statusBusy, .response .ok 3 [], .statusOk] ∧ Out.reset ∉ r.out ∧ r.req = none) := by
  refine ⟨?_, ?_, by decide +kernel⟩
  · intro i hi e he
    simp only [statusTalk, List.mem_cons, List.not_mem_nil, or_false] at hi
    rcases hi with rfl | rfl | rfl | rfl | rfl <;> simp [eventsOf] at he
    subst he
    exact ⟨by simp, by simp⟩
  · intro i hi e he
    simp only [statusTalk, List.mem_cons, List.not_mem_nil, or_false] at hi
    rcases hi with rfl | rfl | rfl | rfl | rfl <;> simp [eventsOf] at he
    subst he
    simp

end Props
