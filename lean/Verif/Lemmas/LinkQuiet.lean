import Verif.Lemmas.Link
import Verif.Lemmas.Wait
/-! Transactions that do not reset the transporter. -/
namespace Mtp
namespace Rsp
open Spec

variable {D : Type} {E : Nat}

theorem run_cons {dv : Dev D} {r r' : Rsp D} {i : In D} {is : List (In D)} (h : r.run dv (i :: is) = .ok r') :
    ∃ r1, r.step dv i = .ok r1 ∧ r1.run dv is = .ok r' := by
  rw [Rsp.run] at h
  cases e : r.step dv i with
  | ub w => rw [e] at h; cases h
  | ok r1 => rw [e] at h; exact ⟨r1, rfl, h⟩

/-- Until the last packet a data phase other than an upload's goes on. -/
theorem data_waits (dv : Dev D) {r r' : Rsp D} (q b : List UInt8) (f : Bool) (hst : r.st = .waitData) (hq : r.req = some q)
    (hc : cCode q ≠ 0x100D) (h : r.receive dv b f false [] = .ok r') : r'.st = .waitData ∧ r'.req = some q := by
  rw [receive_data dv r q b f false [] hst hq] at h
  have h0 : (if f = true then r.emit .statusBusy else r).st = .waitData ∧ (if f = true then r.emit .statusBusy else r).req = some q := by
    split
    · exact ⟨hst, hq⟩
    · exact ⟨hst, hq⟩
  generalize (if f = true then r.emit .statusBusy else r) = r0 at *
  obtain ⟨h1, h2⟩ := h0
  unfold dataPacket at h
  rw [if_neg hc] at h
  split at h
  · split at h
    · cases h
      simp only [dataEnd, Bool.false_eq_true, if_false, partialData]
      split
      · exact ⟨h1, h2⟩
      · split
        · exact ⟨h1, h2⟩
        · exact ⟨h1, h2⟩
    · cases h
      simp only [dataEnd, Bool.false_eq_true, if_false]
      exact ⟨h1, h2⟩
  · obtain ⟨_, a1, a2, _⟩ := accumulate_kept r0 b f
    simp only [if_true] at h
    cases h
    exact ⟨a1.trans h1, a2.trans h2⟩

theorem RsInv.dataPhase {r r' : Rsp D} (h : RsInv E r) (dv : Dev D) (q : List UInt8) (bs : List (List UInt8)) (f : Bool)
    (hst : r.st = .waitData) (hq : r.req = some q) (hc : cCode q ≠ 0x100D) (hr : r.run dv (Spec.dataPhase f bs) = .ok r') : RsInv E r' := by
  induction bs generalizing r f with
  | nil => cases hr; exact h
  | cons b bs ih =>
    obtain ⟨r1, h1, h2⟩ := run_cons hr
    have i1 := h.data dv q b f bs.isEmpty [] hst hq h1
    cases bs with
    | nil => cases h2; exact i1
    | cons b2 bs2 =>
      obtain ⟨s1, s2⟩ := data_waits dv q b f hst hq hc h1
      exact ih i1 false s1 s2 h2

/-- A transaction with data other than an upload's. -/
theorem RsInv.give {r r' : Rsp D} (h : RsInv E r) (dv : Dev D) (q : List UInt8) (bs : List (List UInt8)) (k : OpKind) (hst : r.st = .idle)
    (hready : r.ready = true) (hk : opKind (cCode q) = some k) (hd : dataKind k = true) (hp : hasDataPhase (cCode q) = true)
    (hc : cCode q ≠ 0x100D) (hr : r.run dv (Spec.sendObject q bs) = .ok r') : RsInv E r' := by
  obtain ⟨r1, h1, h2⟩ := run_cons hr
  have i1 := h.whole dv q [] hst h1
  have e1 : r.receive dv q true true [] = .ok r1 := h1
  rw [receive_idle dv r q [] hst, command_accept dv r q [] (Or.inl hready), hk] at e1
  obtain ⟨r2, e2, s1, s2⟩ := handle_waits dv (r.accept q) q [] k hd
  have : r2 = r1 := by
    have e1' : (r.accept q).handle dv q [] k = .ok r1 := e1
    rw [e2] at e1'; cases e1'; rfl
  subst this
  rw [accept_st, hp, if_pos rfl] at s1
  rw [accept_req] at s2
  exact i1.dataPhase dv q bs true s1 s2 hc h2

theorem append_ne {α : Type} (l : List α) (x : α) : l ≠ l ++ [x] := by
  intro h
  have := congrArg List.length h
  simp at this

/-- The data of an upload, of exactly the announced size and answered OK. -/
theorem RsInv.uploaded (dv : Dev D) (q : List UInt8) (h n : Nat) (t : Nat) (bs : List (List UInt8)) : ∀ (f : Bool) (w : Nat) (r r' : Rsp D),
    RsInv E r → Going r q h n w → (∀ b ∈ bs, b ≠ []) → (f = true → ∀ b ∈ bs.head?, 12 ≤ b.length) →
    w + (Spec.bodies f bs).flatten.length = n → r.run dv (Spec.dataPhase f bs) = .ok r' →
    Spec.responses r'.out = Spec.responses r.out ++ [.response .ok t []] → RsInv E r' := by
  induction bs with
  | nil =>
    intro f w r r' hi g _ _ _ hr _
    cases hr
    exact hi
  | cons b bs ih =>
    intro f w r r' hi g hne hb hn hr ho
    obtain ⟨r1, h1, h2⟩ := run_cons hr
    have i1 := hi.data dv q b f bs.isEmpty [] g.st g.req h1
    obtain ⟨r2, e2, m⟩ := upload_packet dv r q b (if f = true then b.drop 12 else b) h n w f bs.isEmpty g
      (fun hf => hb hf b (by simp)) rfl
    have h1' : r.receive dv b f bs.isEmpty [] = .ok r1 := h1
    rw [e2] at h1'
    have e12 : r2 = r1 := by cases h1'; rfl
    clear h1'
    subst e12
    simp only [Spec.bodies, List.flatten_cons, List.length_append] at hn
    have bad : ∀ c, c ≠ .ok → Verdict r r2 q c → RsInv E r' := by
      intro c hc v
      obtain ⟨r3, e3, _, _, _, o3⟩ := stray dv bs r2 v.st v.req
      rw [e3] at h2
      cases h2
      rw [o3, v.out, List.append_cancel_left_eq] at ho
      simp only [List.cons.injEq, Out.response.injEq] at ho
      exact absurd ho.1.1 hc
    rcases m with ⟨m1, m2, m3⟩ | ⟨m1, m2, m3, m4⟩ | ⟨m1, m2, m3, m4, m5⟩ | ⟨m1, m2, m3, m4, m5, m6, m7, m8, m9⟩
    · exact bad _ m1 m2
    · cases bs with
      | nil => cases h2; exact i1
      | cons b2 bs2 =>
        have := List.length_pos_iff.mpr (hne b2 (by simp))
        simp only [Spec.bodies, List.flatten_cons, List.length_append, Bool.false_eq_true, if_false] at hn
        omega
    · exact bad _ (by simp) m4
    · exact ih false _ r2 r' i1 m4 (fun b hb => hne b (by simp [hb])) (fun h => by cases h) (by omega) h2 (by rw [ho, m9])

end Rsp
end Mtp
