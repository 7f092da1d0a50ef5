import Verif.Lemmas.Wait
import Verif.Lemmas.Upload
import Verif.Spec.Toy
/-! Property theorems C39: commands that arrive before the storages are ready. -/
namespace Props
open Mtp Mtp.Rsp Spec

variable {D : Type}

/-- The packets `bs` of a data phase as they arrive, `last` if the last of them ends it. -/
def arriving : Bool → Bool → List (List UInt8) → List (In D)
  | _, _, [] => []
  | first, last, b :: bs => .packet b first (bs.isEmpty && last) [] :: arriving false last bs

private theorem arriving_wait (dv : Dev D) (last : Bool) (bs : List (List UInt8)) (hne : bs ≠ []) :
    ∀ (r : Rsp D) (w : List UInt8) (f d : Bool), r.st = .waitStorage → (f = true → w = []) →
    ({ r with waitBuf := w, waitDone := d } : Rsp D).run dv (arriving f last bs) =
      .ok { r with waitBuf := w ++ bs.flatten, waitDone := last } := by
  induction bs with
  | nil => exact absurd rfl hne
  | cons b bs ih =>
    intro r w f d hst hf
    have h1 : ({ r with waitBuf := w, waitDone := d } : Rsp D).receive dv b f (bs.isEmpty && last) [] =
        .ok { r with waitBuf := w ++ b, waitDone := bs.isEmpty && last } := by
      unfold Rsp.receive
      have e : ({ r with waitBuf := w, waitDone := d } : Rsp D).st = .waitStorage := hst
      rw [e]
      simp only
      rw [if_neg (by rintro ⟨a, c⟩; exact c (hf a))]
    simp only [arriving, Rsp.run, Rsp.step, h1, Res.bind_ok]
    cases bs with
    | nil => simp [arriving, Rsp.run]
    | cons b2 bs =>
      rw [ih (by simp) r (w ++ b) false _ hst (by simp)]
      simp

theorem needs_iff (c : Nat) : needsStorage c = true ↔ c ∉ withoutObjects := by
  unfold needsStorage withoutObjects
  simp only [decide_eq_true_eq]

theorem needs_not (c : Nat) : needsStorage c = false ↔ c ∈ withoutObjects := by
  rw [← Bool.not_eq_true, needs_iff, Classical.not_not]

/-- The command is kept, without an answer. -/
private theorem command_waits (dv : Dev D) (r : Rsp D) (q : List UInt8) (n : List Ev) (hr : r.ready = false)
    (hs : needsStorage (cCode q) = true) :
    (r.accept q).command dv n =
      .ok { (r.accept q) with st := .waitStorage, waitBuf := [], waitDone := false } := by
  unfold Rsp.command
  split
  · next hq => rw [accept_req] at hq; simp at hq
  · next q' hq =>
    have : q' = q := by rw [accept_req] at hq; exact (Option.some.inj hq).symm
    subst this
    simp only
    rw [if_pos ⟨(accept_ready r q').trans hr, hs⟩]
    rw [setState_busy _ _ (by
      show (r.accept q').st ≠ .idle
      rw [accept_st]; split <;> simp) (by simp)]
    rfl

private theorem run_append (dv : Dev D) (is js : List (In D)) : ∀ r : Rsp D,
    r.run dv (is ++ js) = r.run dv is >>= fun r' => r'.run dv js := by
  induction is with
  | nil => intro r; rfl
  | cons i is ih =>
    intro r
    simp only [List.cons_append, Rsp.run]
    cases r.step dv i with
    | ub w => rfl
    | ok r' => simp only [Res.bind_ok]; exact ih r'

/-- C39. A command that needs the storages arrives while they are not ready, then some (all, if `last`) of its
data in any number of packets, then the storages become ready: the outcome is that of a responder which was
ready from the start, got the command and then the data, in order, as one packet. So the command is processed
once. Nothing else happens meanwhile (a suspend: `C39_suspend_violated`). -/
theorem C39_served_partial (dv : Dev D) (r : Rsp D) (q : List UInt8) (bs : List (List UInt8)) (last : Bool)
    (n0 n : List Ev) (hst : r.st = .idle) (hr : r.ready = false) (hw : r.waitBuf = [] ∧ r.waitDone = false)
    (hs : cCode q ∉ withoutObjects) (hd : hasDataPhase (cCode q) = true ∨ bs = [])
    (hb : ∀ b ∈ bs, b ≠ []) :
    r.run dv (.packet q true true n0 :: arriving true last bs ++ [.ready n]) =
      ({ r with ready := true } : Rsp D).run dv
        (.packet q true true n :: if bs = [] then [] else [.packet bs.flatten true last n]) := by
  have hs := (needs_iff _).mpr hs
  -- state after the command and its data
  have hA : r.run dv (.packet q true true n0 :: arriving true last bs) =
      .ok { (r.accept q) with
            st := .waitStorage, waitBuf := bs.flatten, waitDone := if bs = [] then false else last } := by
    simp only [Rsp.run, Rsp.step]
    rw [receive_idle dv r q n0 hst, command_waits dv r q n0 hr hs, Res.bind_ok]
    by_cases hbs : bs = []
    · subst hbs; rfl
    · have := arriving_wait dv last bs hbs ({ (r.accept q) with st := .waitStorage } : Rsp D) [] true false rfl
        (fun _ => rfl)
      rw [if_neg hbs]
      exact this
  rw [run_append, hA, Res.bind_ok]
  generalize hd2 : (if bs = [] then false else last) = done
  -- the ready responder with the same command
  generalize hr1 : ({ r with ready := true } : Rsp D) = r1
  have hst1 : r1.st = .idle := by rw [← hr1]; exact hst
  have hready1 : r1.ready = true := by rw [← hr1]
  have hq1 : (r1.accept q).req = some q := accept_req ..
  have hself : r1.accept q = (r1.accept q).hold [] false true := by
    have h1 : (r1.accept q).waitBuf = [] := by rw [accept_waitBuf, ← hr1]; exact hw.1
    have h2 : (r1.accept q).waitDone = false := by rw [accept_waitDone, ← hr1]; exact hw.2
    have h3 : (r1.accept q).ready = true := by rw [accept_ready, hready1]
    unfold hold
    rw [← h1, ← h2, ← h3]
  have hacc : r1.accept q = (r.accept q).hold r.waitBuf r.waitDone true := by
    have h1 : ({ r1 with req := some q } : Rsp D) =
        ({ r with req := some q } : Rsp D).hold r.waitBuf r.waitDone true := by rw [← hr1]; rfl
    unfold Rsp.accept
    rw [h1, hold_setState]
    rfl
  have hcr : (r1.accept q).command dv n = holdR ((r1.accept q).command dv n) [] false true := by
    have := hold_command [] false true dv (r1.accept q) q hq1 n (Or.inl (by rw [accept_ready, hready1])) (Or.inl rfl)
    rw [← hself] at this
    exact this
  have hstep : ({ (r.accept q) with st := .waitStorage, waitBuf := bs.flatten, waitDone := done } :
      Rsp D).run dv [.ready n] =
      (holdR ((r1.accept q).command dv n) bs.flatten done true >>= fun r' => r'.replay dv n) := by
    simp only [Rsp.run, Rsp.step]
    have key : ({ (r.accept q) with st := .waitStorage, waitBuf := bs.flatten, waitDone := done } :
        Rsp D).storageReady dv n =
        (holdR ((r1.accept q).command dv n) bs.flatten done true >>= fun r' => r'.replay dv n) := by
      unfold storageReady
      simp only
      rw [if_pos trivial]
      split
      · next hn => rw [show _ = some q from accept_req r q] at hn; simp at hn
      · next q' hq' =>
        have : q' = q := by rw [show _ = some q from accept_req r q] at hq'; exact (Option.some.inj hq').symm
        subst this
        rw [setState_busy _ _ (by simp) (by split <;> simp)]
        have e : ({ ({ (r.accept q') with
              st := .waitStorage, waitBuf := bs.flatten, waitDone := done, ready := true } : Rsp D) with
              st := if hasDataPhase (cCode q') = true then .waitData else .waitResp } : Rsp D) =
            (r1.accept q').hold bs.flatten done true := by
          rw [hacc]
          have : (if hasDataPhase (cCode q') = true then RState.waitData else RState.waitResp) = (r.accept q').st :=
            (accept_st r q').symm
          rw [this]
          rfl
        rw [e, hold_command _ _ _ dv _ q' hq1 n (Or.inl (by rw [accept_ready, hready1])) (Or.inl rfl)]
        cases holdR ((r1.accept q').command dv n) bs.flatten done true <;> rfl
    rw [key]
    cases (holdR ((r1.accept q).command dv n) bs.flatten done true >>= fun r' => r'.replay dv n) <;> rfl
  rw [hstep]
  simp only [Rsp.run, Rsp.step]
  rw [receive_idle dv r1 q n hst1]
  by_cases hbs : bs = []
  · subst hbs
    rw [if_pos rfl]
    rw [hcr]
    cases (r1.accept q).command dv n with
    | ub w => rfl
    | ok r' => simp [holdR, Rsp.run, replay, hold]
  · rw [if_neg hbs] at hd2 ⊢
    have hfl : bs.flatten ≠ [] := by
      intro h
      obtain ⟨b, bs', rfl⟩ := List.exists_cons_of_ne_nil hbs
      rw [List.flatten_cons, List.append_eq_nil_iff] at h
      exact hb b (by simp) h.1
    rcases hd with hd | hd
    · have hcmd : ∃ r', (r1.accept q).command dv n = .ok r' ∧ r'.st = .waitData ∧ r'.req = some q := by
        rw [command_accept dv r1 q n (Or.inl hready1)]
        cases hk : opKind (cCode q) with
        | none => rw [kind_none hk] at hd; simp at hd
        | some k =>
          obtain ⟨r', h1, h2, h3⟩ := handle_waits dv (r1.accept q) q n k (by rw [← kind_data hk]; exact hd)
          exact ⟨r', h1, by rw [h2, accept_st, if_pos hd], by rw [h3]; simp⟩
      obtain ⟨r', h1, h2, h3⟩ := hcmd
      have hself' : r' = r'.hold [] false true := by
        rw [h1] at hcr
        exact Res.ok.inj hcr
      rw [h1]
      simp only [holdR, Res.bind_ok, Rsp.run, Rsp.step, replay]
      rw [if_neg (by exact hfl), receive_data dv r' q bs.flatten true last n h2 h3]
      have : (r'.hold bs.flatten done true).receive dv (r'.hold bs.flatten done true).waitBuf true
          (r'.hold bs.flatten done true).waitDone n =
          holdR ((r'.emit .statusBusy).dataPacket dv q bs.flatten true done) bs.flatten done true := by
        have h8 := receive_data dv (r'.hold bs.flatten done true) q bs.flatten true done n h2 h3
        refine Eq.trans h8 ?_
        exact hold_dataPacket bs.flatten done true dv (r'.emit .statusBusy) q bs.flatten true done
      rw [this, hd2]
      have h6 : r'.emit .statusBusy = (r'.emit .statusBusy).hold [] false true :=
        congrArg (fun x : Rsp D => x.emit .statusBusy) hself'
      have h7 : (r'.emit .statusBusy).dataPacket dv q bs.flatten true done =
          holdR ((r'.emit .statusBusy).dataPacket dv q bs.flatten true done) [] false true := by
        have := hold_dataPacket [] false true dv (r'.emit .statusBusy) q bs.flatten true done
        rw [← h6] at this
        exact this
      simp only [if_true]
      rw [h7]
      cases (r'.emit .statusBusy).dataPacket dv q bs.flatten true done <;> rfl
    · exact absurd hd hbs

/-- C39. Meanwhile nothing is answered and the storages are left alone. -/
theorem C39_quiet (dv : Dev D) (r : Rsp D) (q : List UInt8) (bs : List (List UInt8)) (last : Bool)
    (n0 : List Ev) (hst : r.st = .idle) (hr : r.ready = false) (hs : cCode q ∉ withoutObjects) :
    ∃ r', r.run dv (.packet q true true n0 :: arriving true last bs) = .ok r' ∧
      responses r'.out = responses r.out ∧ r'.dev = r.dev := by
  have hs := (needs_iff _).mpr hs
  simp only [Rsp.run, Rsp.step]
  rw [receive_idle dv r q n0 hst, command_waits dv r q n0 hr hs, Res.bind_ok]
  by_cases hbs : bs = []
  · subst hbs
    exact ⟨_, rfl, responses_accept r q, accept_dev r q⟩
  · have := arriving_wait dv last bs hbs ({ (r.accept q) with st := .waitStorage } : Rsp D) [] true false rfl
      (fun _ => rfl)
    exact ⟨_, this, responses_accept r q, accept_dev r q⟩

/-- C39. If the data is of the kind that is collected (all but SendObject and SendPartialObject) and within its
announced length the outcome is that of receiving the same packets when ready. -/
theorem C39_in_order_partial (dv : Dev D) (r : Rsp D) (q b : List UInt8) (bs : List (List UInt8))
    (n0 : List Ev) (hst : r.st = .idle) (hr : r.ready = false) (hw : r.waitBuf = [] ∧ r.waitDone = false)
    (hs : cCode q ∉ withoutObjects) (hd : hasDataPhase (cCode q) = true)
    (hc : cCode q ≠ 0x100D ∧ cCode q ≠ 0x95C2)
    (h4 : 4 ≤ b.length) (hl : (b ++ bs.flatten).length ≤ cLen b) (hb : ∀ x ∈ bs, x ≠ []) :
    r.run dv (.packet q true true n0 :: dataPhase true (b :: bs) ++ [.ready []]) =
      ({ r with ready := true } : Rsp D).run dv (.packet q true true [] :: dataPhase true (b :: bs)) := by
  have hs := (needs_iff _).mpr hs
  have harr : ∀ (l : List (List UInt8)) (f : Bool), (dataPhase f l : List (In D)) = arriving f true l := by
    intro l
    induction l with
    | nil => intro f; rfl
    | cons x l ih => intro f; simp only [dataPhase, arriving, Bool.and_true, ih]
  rw [harr, C39_served_partial dv r q (b :: bs) true n0 [] hst hr hw ((needs_iff _).mp hs) (Or.inl hd)
    (by
      intro x hx
      rcases List.mem_cons.mp hx with rfl | hx
      · intro h; subst h; simp at h4
      · exact hb x hx), ← harr]
  simp only [Rsp.run, Rsp.step]
  generalize hr1 : ({ r with ready := true } : Rsp D) = r1
  have hst1 : r1.st = .idle := by rw [← hr1]; exact hst
  have hready1 : r1.ready = true := by rw [← hr1]
  rw [receive_idle dv r1 q [] hst1]
  have hcmd : ∃ r', (r1.accept q).command dv [] = .ok r' ∧ r'.st = .waitData ∧ r'.req = some q := by
    rw [command_accept dv r1 q [] (Or.inl hready1)]
    cases hk : opKind (cCode q) with
    | none => rw [kind_none hk] at hd; simp at hd
    | some k =>
      obtain ⟨r', h1, h2, h3⟩ := handle_waits dv (r1.accept q) q [] k (by rw [← kind_data hk]; exact hd)
      exact ⟨r', h1, by rw [h2, accept_st, if_pos hd], by rw [h3]; simp⟩
  obtain ⟨r', h1, h2, h3⟩ := hcmd
  rw [h1, Res.bind_ok, Res.bind_ok, run_collect dv q hc b bs r' h2 h3 h4 hl]
  simp only [reduceCtorEq, if_false, Rsp.run, Rsp.step, List.flatten_cons]
  cases r'.receive dv (b ++ bs.flatten) true true [] <;> rfl

/-- C39. A command that doesn't need the storages is processed at once, exactly as if they were ready. -/
theorem C39_at_once (dv : Dev D) (r : Rsp D) (q : List UInt8) (n : List Ev) (hst : r.st = .idle)
    (hs : cCode q ∈ withoutObjects) (hw : r.waitBuf = [] ∧ r.waitDone = false) :
    r.receive dv q true true n =
      match ({ r with ready := true } : Rsp D).receive dv q true true n with
      | .ok r' => .ok { r' with ready := r.ready, waitBuf := [], waitDone := false }
      | .ub w => .ub w := by
  have hs := (needs_not _).mpr hs
  rw [receive_idle dv r q n hst, receive_idle dv { r with ready := true } q n hst]
  have hacc : r.accept q = (({ r with ready := true } : Rsp D).accept q).hold [] false r.ready := by
    have h1 : ({ r with req := some q } : Rsp D) =
        (({ ({ r with ready := true } : Rsp D) with req := some q } : Rsp D).hold [] false r.ready) := by
      have h2 : ({ r with req := some q } : Rsp D) =
        ({ r with req := some q, waitBuf := r.waitBuf, waitDone := r.waitDone } : Rsp D) := rfl
      rw [h2, hw.1, hw.2]
      rfl
    unfold Rsp.accept
    rw [h1, hold_setState]
    rfl
  rw [hacc, hold_command [] false r.ready dv _ q (accept_req ..) n (Or.inr hs) (Or.inr hs)]
  cases (({ r with ready := true } : Rsp D).accept q).command dv n <;> rfl

/-- C39 fails if the bus is suspended meanwhile: readiness that comes during the suspension goes unnoticed, and
the command is never processed; not even the next command of the host is. -/
theorem C39_suspend_violated (dv : Dev D) (r : Rsp D) (q b : List UInt8)
    (hst : r.st = .idle) (hr : r.ready = false) (hs : cCode q ∉ withoutObjects) :
    ∃ r', r.run dv [.packet q true true [], .ev .suspend, .ready [], .ev .resume, .packet b true true []] = .ok r' ∧
      r'.ready = true ∧ r'.st = .waitStorage ∧ r'.dev = r.dev ∧
      (r.resend = none → responses r'.out = responses r.out) := by
  have hs := (needs_iff _).mpr hs
  simp only [Rsp.run, Rsp.step]
  rw [receive_idle dv r q [] hst, command_waits dv r q [] hr hs, Res.bind_ok]
  generalize hr1 : ({ (r.accept q) with st := .waitStorage, waitBuf := [], waitDone := false } : Rsp D) = r1
  have e1 : r1.st = .waitStorage ∧ r1.waitBuf = [] ∧ r1.dev = r.dev ∧ r1.resend = r.resend ∧
      responses r1.out = responses r.out := by
    rw [← hr1]; exact ⟨rfl, rfl, accept_dev r q, accept_resend r q, responses_accept r q⟩
  have hsus : r1.handleEv dv .suspend = { r1 with prev := .waitStorage, st := .suspend } := by
    simp only [handleEv, handleSuspend]
    rw [setState_busy _ _ (by show r1.st ≠ _; rw [e1.1]; simp) (by simp), e1.1]
  rw [hsus, Res.bind_ok]
  have hrd : ({ r1 with prev := .waitStorage, st := .suspend } : Rsp D).storageReady dv [] =
      .ok { r1 with prev := .waitStorage, st := .suspend, ready := true } := rfl
  rw [hrd, Res.bind_ok]
  have hres : ∃ o : List Out, ({ r1 with prev := .waitStorage, st := .suspend, ready := true } : Rsp D).handleEv dv .resume =
      { r1 with prev := .waitStorage, ready := true, resend := none, out := r1.out ++ o } ∧
      (r.resend = none → o = []) := by
    simp only [handleEv, handleResume]
    rw [setState_busy _ _ (by simp) (by simp)]
    simp only
    cases hx : r1.resend with
    | none =>
      refine ⟨[], ?_, fun _ => rfl⟩
      simp only [List.append_nil]
      rw [← hx, ← e1.1]
    | some o =>
      refine ⟨[o], ?_, fun h => ?_⟩
      · simp only [reduceCtorEq, if_false, emit]
        rw [← e1.1]
      · rw [← e1.2.2.2.1, hx] at h; simp at h
  obtain ⟨o, ho, ho2⟩ := hres
  rw [ho, Res.bind_ok]
  refine ⟨({ r1 with
    prev := .waitStorage, ready := true, resend := none, out := r1.out ++ o, waitBuf := b, waitDone := true } : Rsp D),
    ?_, rfl, e1.1, e1.2.2.1, ?_⟩
  · unfold Rsp.receive
    have : ({ r1 with prev := .waitStorage, ready := true, resend := none, out := r1.out ++ o } : Rsp D).st =
      .waitStorage := e1.1
    rw [this]
    simp only [e1.2.1, ne_eq, not_true_eq_false, and_false, if_false, List.nil_append]
    rfl
  · intro h
    rw [ho2 h]
    simp only [List.append_nil]
    exact e1.2.2.2.2

/-- C39 fails worse if the host also cancels during the suspension: then the readiness crashes the responder. -/
theorem C39_cancel_violated (dv : Dev D) (r : Rsp D) (q : List UInt8)
    (hst : r.st = .idle) (hr : r.ready = false) (hs : cCode q ∉ withoutObjects) :
    r.run dv [.packet q true true [], .ev .suspend, .ev .cancel, .ev .resume, .ready []] = .ub .nullDeref := by
  have hs := (needs_iff _).mpr hs
  simp only [Rsp.run, Rsp.step]
  rw [receive_idle dv r q [] hst, command_waits dv r q [] hr hs, Res.bind_ok]
  generalize hr1 : ({ (r.accept q) with st := .waitStorage, waitBuf := [], waitDone := false } : Rsp D) = r1
  have e1 : r1.st = .waitStorage ∧ r1.req = some q := by
    rw [← hr1]; exact ⟨rfl, accept_req r q⟩
  have hsus : r1.handleEv dv .suspend = { r1 with prev := .waitStorage, st := .suspend } := by
    simp only [handleEv, handleSuspend]
    rw [setState_busy _ _ (by show r1.st ≠ _; rw [e1.1]; simp) (by simp), e1.1]
  rw [hsus, Res.bind_ok, Res.bind_ok, Res.bind_ok]
  generalize hr2 : ({ r1 with prev := .waitStorage, st := .suspend } : Rsp D) = r2
  have e2 : r2.req = some q ∧ r2.prev = .waitStorage := by rw [← hr2]; exact ⟨e1.2, rfl⟩
  have hcan : (r2.handleEv dv .cancel).req = none ∧ (r2.handleEv dv .cancel).prev = .waitStorage := by
    simp only [handleEv, handleCancel]
    split
    · next h => rw [e2.1] at h; simp at h
    · refine ⟨rfl, ?_⟩
      simp only [emit_prev, deleteStored_prev]
      split
      · unfold cancelUpload
        simp only
        split <;> split <;> simp [e2.2]
      · simp [e2.2]
  generalize r2.handleEv dv .cancel = r3 at hcan
  have hres : (r3.handleEv dv .resume).st = .waitStorage ∧ (r3.handleEv dv .resume).req = none := by
    simp only [handleEv, handleResume]
    split
    · simp [hcan]
    · split <;> simp [hcan]
  generalize r3.handleEv dv .resume = r4 at hres
  have : r4.storageReady dv [] = .ub .nullDeref := by
    unfold storageReady
    simp only [hres, if_true]
  rw [this]; rfl

/-- An upload announcement sent early, its data in two packets: accepted when the storage is ready, once. -/
example : after (({ dev := [], session := 1 } : Rsp Toy.Objs).run Toy.dev
    (.packet (Toy.cmd 0x100C 7 [0, 0]) true true [] ::
      arriving true true [Toy.dat 0x100C 7 [], (Toy.dat 0x100C 7 []).take 5] ++ [.ready []]))
    (fun r => (responses r.out).length = 1 ∧ r.st = .idle) := by
  decide +kernel

end Props
