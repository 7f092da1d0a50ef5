import Verif.Spec.Host
import Verif.Lemmas.Responder
/-! A data phase the responder has already decided to refuse. -/
namespace Mtp
namespace Rsp
variable {D : Type}

theorem responses_setState (r : Rsp D) (s : RState) :
    Spec.responses (r.setState s).out = Spec.responses r.out := by
  rw [setState_out, Spec.responses_append]
  split
  · simp [Spec.responses, Out.isResponse]
  · split <;> simp [Spec.responses, Out.isResponse]

theorem responses_accept (r : Rsp D) (b : List UInt8) :
    Spec.responses (r.accept b).out = Spec.responses r.out := by
  rw [accept_out, Spec.responses_append, Spec.responses_append]
  split <;> simp [Spec.responses, Out.isResponse]

theorem responses_reply (r : Rsp D) (c : Resp) (q : List UInt8) (hq : r.req = some q)
    (h : r.st ≠ .txCancel ∧ r.st ≠ .suspend) :
    Spec.responses (r.reply c).out = Spec.responses r.out ++ [.response c (u16 (cTid q)) []] := by
  rw [reply_eq _ _ q hq h]
  simp only [deleteStored_out, emit_out, Spec.responses_append, responses_setState]
  simp [Spec.responses, Out.isResponse]

theorem reply_idle (r : Rsp D) (c : Resp) (q : List UInt8) (hq : r.req = some q)
    (h : r.st ≠ .txCancel ∧ r.st ≠ .suspend) : (r.reply c).st = .idle ∧ (r.reply c).req = none := by
  rw [reply_eq _ _ q hq h]
  simp

theorem Kept.refl (r : Rsp D) : Kept r r := ⟨rfl, rfl, rfl, rfl, rfl, rfl⟩

theorem Kept.trans {a b c : Rsp D} (h1 : Kept a b) (h2 : Kept b c) : Kept a c :=
  ⟨h2.session.trans h1.session, h2.ready.trans h1.ready, h2.sendSeq.trans h1.sendSeq,
   h2.propList.trans h1.propList, h2.edit.trans h1.edit, h2.dev.trans h1.dev⟩

theorem Kept.reply (r : Rsp D) (c : Resp) : Kept r (r.reply c) :=
  ⟨reply_session .., reply_ready .., reply_sendSeq .., reply_propList .., reply_edit .., reply_dev ..⟩

theorem Kept.emit (r : Rsp D) (o : Out) : Kept r (r.emit o) := ⟨rfl, rfl, rfl, rfl, rfl, rfl⟩

theorem Kept.accept (r : Rsp D) (b : List UInt8) : Kept r (r.accept b) :=
  ⟨accept_session .., accept_ready .., accept_sendSeq .., accept_propList .., accept_edit .., accept_dev ..⟩

/-- The request was already refused with `c`. -/
def Refusing (r : Rsp D) (q : List UInt8) (c : Resp) : Prop :=
  r.st = .waitData ∧ r.req = some q ∧ r.resp = c ∧ c ≠ .ok

theorem dataEnd_refuse (r : Rsp D) (q : List UInt8) (c : Resp) (l : Bool) (h : Refusing r q c) :
    Kept r (r.dataEnd c l) ∧ (l = false → Refusing (r.dataEnd c l) q c ∧
      Spec.responses (r.dataEnd c l).out = Spec.responses r.out) ∧
    (l = true → (r.dataEnd c l).st = .idle ∧ (r.dataEnd c l).req = none ∧
      Spec.responses (r.dataEnd c l).out = Spec.responses r.out ++ [.response c (u16 (cTid q)) []]) := by
  obtain ⟨h1, h2, h3, h4⟩ := h
  have hl : r.st ≠ .txCancel ∧ r.st ≠ .suspend := by rw [h1]; simp
  unfold dataEnd
  cases l with
  | false => exact ⟨⟨rfl, rfl, rfl, rfl, rfl, rfl⟩, fun _ => ⟨⟨h1, h2, rfl, h4⟩, rfl⟩, fun h => by simp at h⟩
  | true =>
    refine ⟨Kept.trans (b := { r with resp := c }) ⟨rfl, rfl, rfl, rfl, rfl, rfl⟩ (Kept.reply _ _),
      fun h => by simp at h, fun _ => ?_⟩
    obtain ⟨i1, i2⟩ := reply_idle { r with resp := c } c q h2 hl
    exact ⟨i1, i2, responses_reply { r with resp := c } c q h2 hl⟩

theorem accumulate_kept (r : Rsp D) (b : List UInt8) (f : Bool) :
    Kept r (r.accumulate b f) ∧ (r.accumulate b f).st = r.st ∧ (r.accumulate b f).req = r.req ∧
    (r.accumulate b f).resp = r.resp ∧ (r.accumulate b f).out = r.out := by
  unfold accumulate
  split
  · exact ⟨⟨rfl, rfl, rfl, rfl, rfl, rfl⟩, rfl, rfl, rfl, rfl⟩
  · split
    · exact ⟨Kept.refl _, rfl, rfl, rfl, rfl⟩
    · split
      · exact ⟨⟨rfl, rfl, rfl, rfl, rfl, rfl⟩, rfl, rfl, rfl, rfl⟩
      · exact ⟨Kept.refl _, rfl, rfl, rfl, rfl⟩

/-- One packet of a refused data phase. -/
theorem dataPacket_refuse (dv : Dev D) (r : Rsp D) (q b : List UInt8) (f l : Bool) (c : Resp)
    (h : Refusing r q c) : ∃ r', r.dataPacket dv q b f l = .ok r' ∧ Kept r r' ∧
      (l = false → Refusing r' q c ∧ Spec.responses r'.out = Spec.responses r.out) ∧
      (l = true → r'.st = .idle ∧ r'.req = none ∧
        Spec.responses r'.out = Spec.responses r.out ++ [.response c (u16 (cTid q)) []]) := by
  obtain ⟨h1, h2, h3, h4⟩ := h
  have h0 : Refusing ({ r with dataC := none } : Rsp D) q c := ⟨h1, h2, h3, h4⟩
  have k0 : Kept r ({ r with dataC := none } : Rsp D) := ⟨rfl, rfl, rfl, rfl, rfl, rfl⟩
  obtain ⟨d1, d2, d3⟩ := dataEnd_refuse _ q c l h0
  unfold dataPacket
  split
  · split
    · next he => exact absurd (h3.symm.trans he) h4
    · refine ⟨_, rfl, ?_⟩
      have e : ({ r with dataC := none } : Rsp D).resp = c := h3
      rw [e]
      exact ⟨k0.trans d1, d2, d3⟩
  · split
    · split
      · next he => exact absurd (h3.symm.trans he) h4
      · refine ⟨_, rfl, ?_⟩
        have e : ({ r with dataC := none } : Rsp D).resp = c := h3
        rw [e]
        exact ⟨k0.trans d1, d2, d3⟩
    · obtain ⟨a0, a1, a2, a3, a4⟩ := accumulate_kept r b f
      have ha : Refusing (r.accumulate b f) q c := ⟨a1.trans h1, a2.trans h2, a3.trans h3, h4⟩
      generalize r.accumulate b f = r1 at *
      simp only
      split
      · next hl => exact ⟨_, rfl, a0, fun _ => ⟨ha, by rw [a4]⟩, fun h => by rw [hl] at h; simp at h⟩
      · have hc : r1.dataCheck q = c := by
          have h3 := ha.2.2.1
          unfold dataCheck
          split
          · next e1 _ => exact absurd (h3.symm.trans e1) h4
          · exact h3
        obtain ⟨d1, d2, d3⟩ := dataEnd_refuse r1 q c l ha
        rw [hc]
        split
        · exact absurd rfl h4
        · refine ⟨_, rfl, a0.trans d1, ?_, ?_⟩
          · rw [← a4]; exact d2
          · rw [← a4]; exact d3

/-- A refused data phase, however it is cut into packets: nothing changes, and one response. -/
theorem run_refuse (dv : Dev D) (q : List UInt8) (c : Resp) (bs : List (List UInt8)) (hne : bs ≠ []) :
    ∀ (r : Rsp D) (f : Bool), Refusing r q c → ∃ r', r.run dv (Spec.dataPhase f bs) = .ok r' ∧ Kept r r' ∧
      r'.st = .idle ∧ r'.req = none ∧
      Spec.responses r'.out = Spec.responses r.out ++ [.response c (u16 (cTid q)) []] := by
  induction bs with
  | nil => exact absurd rfl hne
  | cons b bs ih =>
    intro r f h
    have hr : ∀ l, r.receive dv b f l [] = (if f = true then r.emit .statusBusy else r).dataPacket dv q b f l := by
      intro l
      unfold Rsp.receive
      rw [h.1]
      simp only
      split
      · next hn => rw [h.2.1] at hn; simp at hn
      · next q' hq' =>
        have : q' = q := by rw [h.2.1] at hq'; exact (Option.some.inj hq').symm
        subst this
        rfl
    have h' : Refusing (if f = true then r.emit .statusBusy else r) q c := by split <;> exact h
    have k' : Kept r (if f = true then r.emit .statusBusy else r) := by
      split
      · exact Kept.emit ..
      · exact Kept.refl _
    have o' : Spec.responses (if f = true then r.emit .statusBusy else r).out = Spec.responses r.out := by
      split
      · rw [emit_out, Spec.responses_append]; simp [Spec.responses, Out.isResponse]
      · rfl
    generalize (if f = true then r.emit .statusBusy else r) = r0 at *
    obtain ⟨r1, e1, k1, p1, p2⟩ := dataPacket_refuse dv r0 q b f bs.isEmpty c h'
    simp only [Spec.dataPhase, Rsp.run, Rsp.step, hr, e1, Res.bind_ok]
    cases hb : bs with
    | nil =>
      subst hb
      obtain ⟨s1, s2, s3⟩ := p2 rfl
      exact ⟨r1, rfl, k'.trans k1, s1, s2, by rw [s3, o']⟩
    | cons b2 bs2 =>
      rw [hb] at p1
      obtain ⟨s1, s2⟩ := p1 rfl
      obtain ⟨r2, e2, k2, t1, t2, t3⟩ := ih (by rw [hb]; simp) r1 false s1
      rw [← hb]
      exact ⟨r2, e2, (k'.trans k1).trans k2, t1, t2, by rw [t3, s2, o']⟩

end Rsp
end Mtp
