import Verif.Lemmas.Upload
import Verif.Lemmas.Sim
import Verif.Spec.Server
/-!
What a host usually does fits.
-/
namespace Mtp
namespace Rsp
variable {D : Type} {dv : Dev D} {okq : Nat → List Nat → Prop}

theorem fitting_append {is js : List (In D)} : ∀ {r : Rsp D}, Fitting dv okq r is →
    (∀ r', r.run dv is = .ok r' → Fitting dv okq r' js) → Fitting dv okq r (is ++ js) := by
  induction is with
  | nil => intro r _ h; exact h r rfl
  | cons i is ih =>
    intro r hf h
    cases hf with
    | cons h1 h2 =>
      refine .cons h1 fun r1 e => ih (h2 r1 e) fun r' e' => h r' ?_
      rw [run, e, Res.bind_ok]
      exact e'

/-- A command without data. -/
theorem fitting_ask {r : Rsp D} (ho : Spec.Open r) {q : List UInt8} (h : okq (cCode q) (cParams q)) :
    Fitting dv okq r (Spec.ask q) :=
  .cons ⟨fun _ _ _ => h, fun e => by rw [ho.idle] at e; cases e⟩ fun _ _ => .nil _

/-- Packets after the response. -/
theorem fitting_stray (bs : List (List UInt8)) : ∀ {r : Rsp D}, r.st = .idle → Fitting dv okq r (Spec.dataPhase false bs) := by
  induction bs with
  | nil => intro r _; exact .nil _
  | cons b bs ih =>
    intro r h1
    refine .cons ⟨(fun _ e => by cases e), (fun e => by rw [h1] at e; cases e)⟩ fun r1 e => ih ?_
    have hs : r.setState .idle = r := by unfold setState; rw [if_pos h1]
    have hr : r.receive dv b false bs.isEmpty [] = .ok (({ r with req := none } : Rsp D).emit .reset) := by
      unfold Rsp.receive
      split
      · simp only [hs, Bool.false_eq_true, false_and, if_false]
      all_goals next h => rw [h1] at h; simp at h
    simp only [Rsp.step, hr] at e
    cases e
    exact h1

theorem Pend.handle {r : Rsp D} {h n w : Nat} (p : Pend r h n w) : r.uploadHandle = h := by
  rcases p with ⟨e, _⟩ | ⟨e1, p, e, eh, _⟩
  · simp [uploadHandle, e]
  · simp [uploadHandle, e, e1, eh]

/-- The data of an announced object. -/
theorem fitting_data (q : List UInt8) {h n : Nat} (h0 : h ≠ 0) (bs : List (List UInt8)) : ∀ {r : Rsp D} {w : Nat} {f : Bool},
    Going r q h n w → (f = true → ∀ b ∈ bs.head?, 12 ≤ b.length) → Fitting dv okq r (Spec.dataPhase f bs) := by
  induction bs with
  | nil => intro r w f _ _; exact .nil _
  | cons b bs ih =>
    intro r w f g hb
    refine .cons ⟨fun e => ?_, fun _ _ _ _ _ => ?_⟩ fun r1 e => ?_
    · rcases e with e | e | e <;> rw [g.st] at e <;> cases e
    · rw [g.pend.handle]; exact h0
    · obtain ⟨r', e', m⟩ := upload_packet dv r q b _ h n w f bs.isEmpty g (fun hf => hb hf b (by simp)) rfl
      simp only [Rsp.step, e'] at e
      cases e
      rcases m with ⟨-, v, -⟩ | ⟨-, -, v, -⟩ | ⟨-, -, -, v, -⟩ | ⟨-, -, -, v, -⟩
      · exact fitting_stray bs v.st
      · exact fitting_stray bs v.st
      · exact fitting_stray bs v.st
      · exact ih v fun hf => by cases hf

/-- SendObject of an announced object. -/
theorem fitting_upload {r : Rsp D} (ho : Spec.Open r) {q : List UInt8} (hq : Spec.Asking q 0x100D) (hok : okq (cCode q) (cParams q))
    {h n : Nat} (h0 : h ≠ 0) (ha : Spec.Announced r h n) {bs : List (List UInt8)} (hb : ∀ b ∈ bs.head?, 12 ≤ b.length) :
    Fitting dv okq r (Spec.sendObject q bs) := by
  refine .cons ⟨fun _ _ _ => hok, fun e => by rw [ho.idle] at e; cases e⟩ fun r1 e => ?_
  obtain ⟨r', e', g, -, -⟩ := accept_going dv r q h n ho.idle ho.ready ho.session hq.tid hq.code ha
  simp only [Rsp.step, e'] at e
  cases e
  exact fitting_data q h0 bs g fun _ => hb

theorem closed_any (dv : Dev D) (ok : Nat → Prop) : Closed dv ok fun _ _ => True := by
  constructor <;> intros <;> trivial

/-- Further packets of a dataset. -/
theorem fitting_rest (bs : List (List UInt8)) : ∀ {r : Rsp D}, Along (· = 0x100C) (fun _ _ => True) r.dev r →
    Fitting dv okq r (Spec.dataPhase false bs) := by
  induction bs with
  | nil => intro r _; exact .nil _
  | cons b bs ih =>
    intro r h
    refine .cons ⟨(fun _ e => by cases e), fun _ q e hc => ?_⟩ fun r1 e => ih ?_
    · have := h.req q e
      rw [hc] at this; cases this
    · have a := h.receive (closed_any dv _) b false bs.isEmpty [] (fun e => by cases e) e
      exact ⟨trivial, a.req, a.list⟩

/-- SendObjectInfo. -/
theorem fitting_announce {r : Rsp D} (ho : Spec.Open r) {q : List UInt8} (hq : Spec.Asking q 0x100C) (hok : okq (cCode q) (cParams q))
    {bs : List (List UInt8)} : Fitting dv okq r (Spec.sendObject q bs) := by
  refine .cons ⟨fun _ _ _ => hok, fun e => by rw [ho.idle] at e; cases e⟩ fun r1 e => ?_
  have hk : opKind (cCode q) = some .sendInfo := by rw [hq.code]; decide
  have e1 : r.receive dv q true true [] = .ok { (r.accept q) with resp := preCheck (r.accept q).session (cTid q) } := by
    rw [receive_idle dv r q [] ho.idle, command_accept dv r q [] (Or.inl ho.ready), hk]
    rfl
  simp only [Rsp.step, e1] at e
  cases e
  have hst : (r.accept q).st = .waitData := by rw [accept_st, hq.code]; rfl
  cases bs with
  | nil => exact .nil _
  | cons b bs =>
    refine .cons ⟨fun e => ?_, fun _ q' e hc => ?_⟩ fun r2 e => ?_
    · rcases e with e | e | e <;> cases hst.symm.trans e
    · cases (accept_req r q).symm.trans e
      rw [hq.code] at hc; cases hc
    · cases bs with
      | nil => exact .nil _
      | cons b2 bs =>
        refine fitting_rest _ ?_
        have h0 : Along (· = 0x100C) (fun _ _ => True) r.dev ({ (r.accept q) with resp := preCheck (r.accept q).session (cTid q) } : Rsp D) :=
          ⟨trivial, (fun q' e' => by cases (accept_req r q).symm.trans e'; exact hq.code), fun e' => by cases e'⟩
        have a := h0.receive (closed_any dv _) b true false [] (fun _ e => by cases e) e
        exact ⟨trivial, a.req, a.list⟩

end Rsp
end Mtp
