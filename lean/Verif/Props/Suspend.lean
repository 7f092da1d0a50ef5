import Verif.Lemmas.Wait
import Verif.Spec.Toy
/-! Property theorems C43: suspend and resume. -/
namespace Props
open Mtp Mtp.Rsp Spec

variable {D : Type}

/-- What may happen during a suspension without involving the host: storages change and announce changes. -/
def Background : In D → Prop
  | .notify .. => True
  | .env _ => True
  | _ => False

private theorem background_suspended (dv : Dev D) (is : List (In D)) (hi : ∀ i ∈ is, Background i) :
    ∀ r : Rsp D, r.st = .suspend → ∃ d, r.run dv is = .ok { r with dev := d } := by
  induction is with
  | nil => intro r _; exact ⟨r.dev, rfl⟩
  | cons i is ih =>
    intro r hr
    have hb := hi i (by simp)
    have ih' := ih (fun j hj => hi j (by simp [hj]))
    cases i with
    | notify c ps =>
      have : r.notify dv c ps = r := by
        unfold Rsp.notify
        split
        · rfl
        · unfold Rsp.send
          rw [if_neg (by simp [Out.isEvent]), if_pos hr, if_pos (by rfl)]
      simp only [Rsp.run, Rsp.step, Res.bind_ok, this]
      exact ih' r hr
    | env d =>
      simp only [Rsp.run, Rsp.step, Res.bind_ok]
      obtain ⟨d', h⟩ := ih' { r with dev := d } hr
      exact ⟨d', h⟩
    | packet _ _ _ _ => exact absurd hb (by simp [Background])
    | ready _ => exact absurd hb (by simp [Background])
    | ev _ => exact absurd hb (by simp [Background])

private theorem suspend_busy (r : Rsp D) (h : r.st ≠ .idle) :
    r.handleSuspend = { r with prev := r.st, st := .suspend } := by
  unfold handleSuspend
  rw [setState_busy _ _ (by exact h) (by simp)]

/-- C43. A suspension during a transaction, whatever the storages do meanwhile, ends in the state it began in:
nothing differs but the storages' state and the note of where to return to (which every suspension overwrites). -/
theorem C43_continue_partial (dv : Dev D) (r : Rsp D) (hst : r.st ≠ .idle) (hre : r.resend = none)
    (is : List (In D)) (hi : ∀ i ∈ is, Background i) :
    ∃ d, r.run dv (.ev .suspend :: is ++ [.ev .resume]) = .ok { r with prev := r.st, dev := d } := by
  obtain ⟨d, hd⟩ := background_suspended dv is hi ({ r with prev := r.st, st := .suspend } : Rsp D) rfl
  refine ⟨d, ?_⟩
  have happ : ∀ (a b : List (In D)) (x : Rsp D), x.run dv (a ++ b) = x.run dv a >>= fun y => y.run dv b := by
    intro a b
    induction a with
    | nil => intro x; rfl
    | cons i a ih =>
      intro x
      simp only [List.cons_append, Rsp.run]
      cases x.step dv i with
      | ub w => rfl
      | ok y => simp only [Res.bind_ok]; exact ih y
  simp only [List.cons_append, Rsp.run, Rsp.step, handleEv, Res.bind_ok]
  rw [suspend_busy r hst, happ, hd]
  simp only [Res.bind_ok, Rsp.run, Rsp.step, handleEv, handleResume]
  rw [setState_busy _ _ (by simp) hst]
  simp only [hre]

/-- C43. Of a suspension between transactions the host sees only that the device was busy. -/
theorem C43_idle (dv : Dev D) (r : Rsp D) (hst : r.st = .idle) (hre : r.resend = none) :
    r.run dv [.ev .suspend, .ev .resume] =
      .ok { r with prev := .idle, out := r.out ++ [.pending, .finished] } := by
  simp only [Rsp.run, Rsp.step, handleEv, Res.bind_ok, handleSuspend, handleResume]
  unfold setState
  simp [hst, hre, Rsp.emit]

/-- C43. A data container or response `o` produced during a suspension of a transaction is sent, unchanged, when
the host resumes, exactly once, as the next thing the host sees; the transaction is then in the state it was
suspended in. (Not if the transaction had been cancelled.) -/
theorem C43_resent_partial (dv : Dev D) (r : Rsp D) (hst : r.st ≠ .idle ∧ r.st ≠ .txCancel) (o : Out)
    (ho : o.isEvent = false) (is : List (In D)) (hi : ∀ i ∈ is, Background i) :
    ∃ d, (((r.handleEv dv .suspend).send o).1).run dv (is ++ [.ev .resume]) =
      .ok { r with prev := r.st, dev := d, resend := none, out := r.out ++ [o] } := by
  have hs : ((r.handleEv dv .suspend).send o).1 =
      ({ r with prev := r.st, st := .suspend, resend := some o } : Rsp D) := by
    simp only [handleEv]
    rw [suspend_busy r hst.1]
    unfold Rsp.send
    rw [if_neg (by simp), if_pos rfl, if_neg (by simp [ho])]
  rw [hs]
  obtain ⟨d, hd⟩ := background_suspended dv is hi
    ({ r with prev := r.st, st := .suspend, resend := some o } : Rsp D) rfl
  refine ⟨d, ?_⟩
  have happ : ∀ (a b : List (In D)) (x : Rsp D), x.run dv (a ++ b) = x.run dv a >>= fun y => y.run dv b := by
    intro a b
    induction a with
    | nil => intro x; rfl
    | cons i a ih =>
      intro x
      simp only [List.cons_append, Rsp.run]
      cases x.step dv i with
      | ub w => rfl
      | ok y => simp only [Res.bind_ok]; exact ih y
  rw [happ, hd]
  simp only [Res.bind_ok, Rsp.run, Rsp.step, handleEv, handleResume]
  rw [setState_busy _ _ (by simp) hst.1]
  simp only
  rw [if_neg hst.2]
  rfl

private theorem copy_ok (dv : Dev D) (a b : Rsp D) (q : List UInt8) (n : List Ev) (d : D) (c : Resp) (h : Nat)
    (hpc : preCheck a.session (cTid q) = .ok) (hb : n.foldl (handleEv dv) a = b)
    (hx : dv.copy b.dev (cParams q) (decide (b.st = .txCancel)) = (d, c, h)) :
    a.copyReq dv q n = { b with dev := d }.copyEnd c h := by
  subst hb
  unfold copyReq
  rw [hpc]
  simp only [hx]

/-- C43. A CopyObject suspended while copying: its response reaches the host on resume, with the same code, id
and new handle as without the suspension. -/
theorem C43_copy (dv : Dev D) (r : Rsp D) (q : List UInt8) (hst : r.st = .idle) (hready : r.ready = true)
    (hs : r.session ≠ 0) (hq : cCode q = 0x101A) (ht : cTid q ≠ 0 ∧ cTid q ≠ 0xFFFFFFFF) :
    ∃ (r1 r2 : Rsp D) (c : Resp) (h : Nat),
      r.run dv [.packet q true true []] = .ok r1 ∧
      r.run dv [.packet q true true [.suspend], .ev .resume] = .ok r2 ∧
      responses r1.out = responses r.out ++ [.response c (u16 (cTid q)) [h]] ∧
      responses r2.out = responses r1.out ∧ r2.dev = r1.dev := by
  have hk : opKind (cCode q) = some .copy := by rw [hq]; decide
  have hpc : preCheck (r.accept q).session (cTid q) = .ok := by rw [accept_session, preCheck_ok hs ht]
  have hsta : (r.accept q).st = .waitResp := by rw [accept_st, hq]; rfl
  have hqa := accept_req r q
  have hresp := responses_accept r q
  have hrun : ∀ n : List Ev, r.receive dv q true true n = (r.accept q).copyReq dv q n := by
    intro n
    rw [receive_idle dv r q n hst, command_accept dv r q n (Or.inl hready), hk]
    rfl
  simp only [Rsp.run, Rsp.step, hrun]
  generalize r.accept q = a at *
  obtain ⟨⟨d, c, h⟩, hx⟩ : ∃ x, dv.copy a.dev (cParams q) false = x := ⟨_, rfl⟩
  have h1 : a.copyReq dv q [] =
      .ok ((({ a with dev := d }.setState .idle).emit (.response c (u16 (cTid q)) [h])).emit .statusOk).deleteStored := by
    rw [copy_ok dv a a q [] d c h hpc rfl (by rw [hsta]; exact hx)]
    unfold copyEnd
    rw [if_neg (by show a.st ≠ _; rw [hsta]; simp)]
    exact reply1_eq ({ a with dev := d } : Rsp D) c h q hqa
      ⟨by show a.st ≠ _; rw [hsta]; simp, by show a.st ≠ _; rw [hsta]; simp⟩
  have hsus : a.handleEv dv .suspend = { a with prev := .waitResp, st := .suspend } := by
    simp only [handleEv]
    rw [suspend_busy a (by rw [hsta]; simp), hsta]
  have h2 : a.copyReq dv q [.suspend] =
      .ok { a with
            prev := .waitResp, st := .suspend, dev := d
            resend := some (.response c (u16 (cTid q)) [h]) } := by
    rw [copy_ok dv a _ q [.suspend] d c h hpc hsus hx]
    unfold copyEnd
    rw [if_neg (by simp)]
    unfold reply1
    simp only
    split
    · next hn => rw [hqa] at hn; simp at hn
    · next q' hq' =>
      have : q' = q := by rw [hqa] at hq'; exact (Option.some.inj hq').symm
      subst this
      unfold Rsp.send
      rw [if_neg (by simp), if_pos (by rfl), if_neg (by simp [Out.isEvent])]
  rw [h1, h2]
  refine ⟨_, _, c, h, rfl, rfl, ?_, ?_, ?_⟩
  · simp only [deleteStored_out, emit_out, responses_append]
    rw [responses_setState]
    show responses a.out ++ _ ++ _ = _
    rw [hresp]
    simp [responses, Out.isResponse]
  · simp only [handleEv, handleResume]
    rw [setState_busy _ _ (by simp) (by simp)]
    simp only [reduceCtorEq, if_false, deleteStored_out, emit_out, responses_append]
    rw [responses_setState]
    simp [responses, Out.isResponse]
  · simp only [handleEv, handleResume]
    rw [setState_busy _ _ (by simp) (by simp)]
    simp

/-- C43 fails after such a copy: the transaction is over, but the responder goes on waiting for a response to be
sent (mtpresponder.cpp:2753-2768 bypasses sendContainer), so the host's next command is answered by a bus reset. -/
theorem C43_copy_violated :
    after (({ dev := [(1, [5])], ready := true, session := 1 } : Rsp Toy.Objs).run Toy.dev
      [.packet (Toy.cmd 0x101A 4 [1]) true true [.suspend], .ev .resume, .packet (Toy.cmd 0x1004 5 []) true true []])
    (fun r => responses r.out = [.response .ok 4 [2]] ∧ r.out.getLast? = some .reset) := by decide +kernel

/-- C43 fails if the bus is suspended twice: the second suspend forgets the state to return to, and the
responder stays suspended after the resume (mtpresponder.cpp:2746-2751). -/
theorem C43_twice_violated (dv : Dev D) (r : Rsp D) :
    ∃ r', r.run dv [.ev .suspend, .ev .suspend, .ev .resume] = .ok r' ∧ r'.st = .suspend := by
  simp only [Rsp.run, Rsp.step, Res.bind_ok, handleEv, handleSuspend]
  refine ⟨_, rfl, ?_⟩
  simp only [handleResume]
  split
  · simp
  · split <;> simp

/-- An upload suspended between announcement and data goes on. -/
example : after (({ dev := [], ready := true, session := 1 } : Rsp Toy.Objs).run Toy.dev
    [.packet (Toy.cmd 0x100C 7 [0, 0]) true true [], .ev .suspend, .notify 0x4002 [3], .ev .resume,
     .packet (Toy.dat 0x100C 7 []) true true []])
    (fun r => responses r.out = [.response .ok 7 [1, 0, 1]] ∧ r.st = .idle) := by decide +kernel

end Props
