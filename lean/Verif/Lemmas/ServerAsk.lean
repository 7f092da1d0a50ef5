import Verif.Lemmas.ServerRun
import Verif.Lemmas.Upload
/-! What a host gets when it asks the server. -/
namespace Mtp
open Spec
namespace Server

theorem dataOf_append (a b : List Out) : dataOf (a ++ b) = dataOf a ++ dataOf b := List.flatMap_append ..

theorem dataOf_more (l : List (List UInt8 × Bool)) : dataOf (l.map fun f => .more f.1 f.2) = (l.map (·.1)).flatten := by
  induction l with
  | nil => rfl
  | cons a l ih => simp only [List.map_cons, List.flatten_cons, ← ih]; rfl

theorem responses_more (l : List (List UInt8 × Bool)) : responses (l.map fun f => .more f.1 f.2) = [] := by
  induction l with
  | nil => rfl
  | cons a l ih => simp only [List.map_cons]; exact ih

variable {D : Type}

theorem dataOf_setState (r : Rsp D) (x : RState) : dataOf (r.setState x).out = dataOf r.out := by
  rw [Rsp.setState_out, dataOf_append]
  repeat' split
  all_goals simp [dataOf]

theorem dataOf_accept (r : Rsp D) (b : List UInt8) : dataOf (r.accept b).out = dataOf r.out := by
  rw [Rsp.accept_out, dataOf_append, dataOf_append]
  split <;> simp [dataOf]

/-- A response to the command at hand. -/
theorem replyP_spec (r : Rsp D) (q : List UInt8) (hq : r.req = some q) (hst : r.st = .waitResp ∨ r.st = .waitData) (hr : r.ready = true)
    (hs : r.session ≠ 0) (c : Resp) (ps : List Nat) : ∃ r', r.replyP c ps = .ok r' ∧ r'.dev = r.dev ∧ Open r' ∧
      responses r'.out = responses r.out ++ [.response c (u16 (cTid q)) (ps.take 1)] ∧ dataOf r'.out = dataOf r.out := by
  have key : ∀ x, ∃ r', (r.send (.response c (u16 (cTid q)) x)).1 = r' ∧ r'.dev = r.dev ∧ Open r' ∧
      responses r'.out = responses r.out ++ [.response c (u16 (cTid q)) x] ∧ dataOf r'.out = dataOf r.out := by
    intro x
    refine ⟨_, rfl, Rsp.send_dev .., ?_, ?_, ?_⟩
    · rw [Rsp.send_response _ _ _ _ (by rcases hst with hst | hst <;> rw [hst] <;> simp)]
      exact ⟨by simp, rfl, by simpa using hr, by simpa using hs⟩
    · rw [Rsp.send_response _ _ _ _ (by rcases hst with hst | hst <;> rw [hst] <;> simp)]
      simp only [Rsp.deleteStored_out, Rsp.emit_out, responses_append, Rsp.responses_setState]
      simp [responses, Out.isResponse]
    · rw [Rsp.send_response _ _ _ _ (by rcases hst with hst | hst <;> rw [hst] <;> simp)]
      simp only [Rsp.deleteStored_out, Rsp.emit_out, dataOf_append, dataOf_setState]
      simp [dataOf]
  unfold Rsp.replyP
  cases ps with
  | nil =>
    obtain ⟨r', e, h⟩ := key []
    refine ⟨r', ?_, h⟩
    simp only [Rsp.reply, hq, e]
  | cons p ps =>
    obtain ⟨r', e, h⟩ := key [p]
    refine ⟨r', ?_, h⟩
    simp only [Rsp.reply1, hq, e]

/-- A request without data from the host. -/
theorem query_answer_by (dv : Dev D) (r : Rsp D) (ho : Open r) (q : List UInt8) (code : Nat) (hq : Asking q code) (l : List Nat)
    (hk : opKind code = some (.query l)) (hd : hasDataPhase code = false) (c : Resp) (ps : List Nat)
    (he : (dv.query r.dev code (cParams q)).2.response = some (c, ps)) :
    ∃ r', AnsweredBy dv r r' (ask q) q c (ps.take 1) ∧ r'.dev = (dv.query r.dev code (cParams q)).1 ∧
      dataOf r'.out = dataOf r.out ++ ((dv.query r.dev code (cParams q)).2.frames.map (·.1)).flatten := by
  have hpc : Rsp.preCheck (r.accept q).session (cTid q) = .ok := by rw [Rsp.accept_session, Rsp.preCheck_ok ho.session hq.tid]
  have h1 : r.run dv (ask q) = (r.accept q).handle dv q [] (.query l) := by
    unfold ask
    simp only [Rsp.run, Rsp.step]
    rw [Rsp.receive_idle dv r q [] ho.idle, Rsp.command_accept dv r q [] (Or.inl ho.ready), hq.code, hk]
    simp only [Res.bind_ok]
    cases (r.accept q).handle dv q [] (.query l) <;> rfl
  have h2 : (r.accept q).handle dv q [] (.query l) =
      ({ (r.accept q) with dev := (dv.query r.dev code (cParams q)).1 } : Rsp D).sendReply q (dv.query r.dev code (cParams q)).2 := by
    simp only [Rsp.handle]
    rw [hpc]
    show ({ (r.accept q) with dev := (dv.query (r.accept q).dev (cCode q) (cParams q)).1 } : Rsp D).sendReply q
      (dv.query (r.accept q).dev (cCode q) (cParams q)).2 = _
    rw [Rsp.accept_dev, hq.code]
  have hst : (r.accept q).st = .waitResp := by rw [Rsp.accept_st, hq.code, hd]; rfl
  generalize dv.query r.dev code (cParams q) = x at *
  obtain ⟨d', fr, rs⟩ := x
  simp only at he h2 ⊢
  subst he
  have fin : ∀ r2 : Rsp D, r2.req = some q → r2.st = .waitResp → r2.ready = true → r2.session ≠ 0 → r2.dev = d' →
      responses r2.out = responses r.out → r.run dv (ask q) = r2.replyP c ps →
      ∃ r', AnsweredBy dv r r' (ask q) q c (ps.take 1) ∧ r'.dev = d' ∧ dataOf r'.out = dataOf r2.out := by
    intro r2 a1 a2 a3 a4 a5 a6 a7
    obtain ⟨r', b1, b2, b3, b4, b5⟩ := replyP_spec r2 q a1 (Or.inl a2) a3 a4 c ps
    refine ⟨r', ⟨a7.trans b1, ⟨u16 (cTid q), ?_, by rw [b4, a6]⟩, b3⟩, b2.trans a5, b5⟩
    unfold u16; omega
  cases fr with
  | nil =>
    have hx := fin { (r.accept q) with dev := d' } (Rsp.accept_req ..) hst ((Rsp.accept_ready ..).trans ho.ready)
      (by show (r.accept q).session ≠ 0; rw [Rsp.accept_session]; exact ho.session) rfl (Rsp.responses_accept ..)
      (by rw [h1, h2]; rfl)
    obtain ⟨r', a, b, c⟩ := hx
    refine ⟨r', a, b, c.trans ?_⟩
    simp only [List.map_nil, List.flatten_nil, List.append_nil]
    exact dataOf_accept ..
  | cons f rest =>
    obtain ⟨p, l⟩ := f
    have hx := fin
      { (r.accept q) with dev := d', out := ((r.accept q).out ++ [.data (cCode q) (cTid q) p l]) ++ rest.map fun f => .more f.1 f.2 }
      (Rsp.accept_req ..) hst ((Rsp.accept_ready ..).trans ho.ready)
      (by show (r.accept q).session ≠ 0; rw [Rsp.accept_session]; exact ho.session) rfl
      (by
        simp only [responses_append, Rsp.responses_accept, responses_more]
        simp [responses, Out.isResponse])
      (by
        rw [h1, h2]
        unfold Rsp.sendReply
        have hsnd : ({ (r.accept q) with dev := d' } : Rsp D).send (.data (cCode q) (cTid q) p l) =
            (({ (r.accept q) with dev := d' } : Rsp D).emit (.data (cCode q) (cTid q) p l), true) := by
          unfold Rsp.send
          rw [if_neg (by show ¬ ((r.accept q).st = _ ∧ _); rw [hst]; simp), if_neg (by show ¬ (r.accept q).st = _; rw [hst]; simp), if_neg (by simp [Out.isResponse])]
        simp only [hsnd]
        rfl)
    obtain ⟨r', a, b, c⟩ := hx
    refine ⟨r', a, b, c.trans ?_⟩
    simp only [dataOf_append, dataOf_accept, dataOf_more, List.map_cons, List.flatten_cons, List.append_assoc]
    simp [dataOf]

/-- … by the server. -/
theorem query_answer (r : Rsp Server) (ho : Open r) (q : List UInt8) (code : Nat) (hq : Asking q code) (l : List Nat)
    (hk : opKind code = some (.query l)) (hd : hasDataPhase code = false) (c : Resp) (ps : List Nat)
    (he : (query r.dev code (cParams q)).2.response = some (c, ps)) :
    ∃ r', Answered r r' (ask q) q c (ps.take 1) ∧ r'.dev = (query r.dev code (cParams q)).1 ∧
      dataOf r'.out = dataOf r.out ++ ((query r.dev code (cParams q)).2.frames.map (·.1)).flatten :=
  query_answer_by dev r ho q code hq l hk hd c ps he

end Server
end Mtp
