import Verif.Lemmas.LinkQuiet
/-! A container whose length the responder is asked for (mtptransporterusb.cpp:548-555). -/
namespace Mtp
namespace Link
open Spec

variable {D : Type}

theorem dataPhase_packets : ∀ (bs : List (List UInt8)) (b : Bool), Rsp.Packets (D := D) (dataPhase b bs) := by
  intro bs
  induction bs with
  | nil => intro b i hi; cases hi
  | cons x bs ih =>
    intro b i hi
    rcases List.mem_cons.mp hi with rfl | hi
    · exact ⟨_, _, _, rfl⟩
    · exact ih false i hi

theorem one_packet (p : List UInt8) (f l : Bool) : Rsp.Packets (D := D) [.packet p f l []] := by
  intro i hi
  rcases List.mem_cons.mp hi with rfl | hi
  · exact ⟨_, _, _, rfl⟩
  · cases hi

/-- The rest of an open container, in pieces. -/
theorem rest_pieces (dv : Dev D) : ∀ (ps : List (List UInt8)) (n E : Nat) (r r' : Rsp D), (∀ p ∈ ps, p ≠ []) → ps.flatten.length = n →
    r.RsInv E → r.run dv (dataPhase false ps) = .ok r' → r'.RsInv E → pieces dv ⟨r, n⟩ ps = .done ⟨r', 0⟩ := by
  intro ps
  induction ps with
  | nil =>
    intro n E r r' _ hn _ hr _
    cases hr
    cases hn
    rfl
  | cons p ps ih =>
    intro n E r r' hne hn hi hr hi'
    have hp : 0 < p.length := List.length_pos_iff.mpr (hne p (by simp))
    have hn' : n = p.length + ps.flatten.length := by rw [← hn]; simp
    have hlast : decide (n - p.length = 0) = ps.isEmpty := by
      cases ps with
      | nil => simp at hn'; simp [hn']
      | cons b bs =>
        have : 0 < b.length := List.length_pos_iff.mpr (hne b (by simp))
        simp only [List.flatten_cons, List.length_append] at hn'
        simp
        omega
    have same := Same.packet dv n (n - p.length) p.length n p.length p [] (fun i hi => (nomatch hi)) hp (fun h => by omega)
      (fun o => if_neg (by omega)) (by split <;> omega) (by
        rw [List.drop_length]
        cases e : p.length with
        | zero => omega
        | succ f => exact Same.nil dv _ f)
    rw [List.take_length, hlast] at same
    have hd : decide (n = 0) = false := by simp; omega
    rw [hd] at same
    obtain ⟨r1, h1, h2⟩ := run_append dv r r' [.packet p false ps.isEmpty []] (dataPhase false ps) hr
    have hi1 : r1.RsInv E := by
      obtain ⟨k, hk⟩ := hi.run dv [.packet p false ps.isEmpty []] (one_packet p false ps.isEmpty) h1
      obtain ⟨j, hj⟩ := hk.run dv _ (dataPhase_packets ps false) h2
      have := hj.1
      rw [hi'.1] at this
      have : k = 0 := by omega
      rw [this] at hk
      exact hk
    unfold pieces
    rw [same E r r1 hi h1 hi1]
    exact ih _ E r1 r' (fun b hb => hne b (by simp [hb])) (by omega) hi1 h2 hi'

/-- A container that starts with the piece `p` and continues with `ps`, its length being what `p` is taken to announce. -/
theorem whole_pieces (dv : Dev D) (p : List UInt8) (ps : List (List UInt8)) (E : Nat) (r r' : Rsp D) (h4 : 4 ≤ p.length) (hne : ∀ b ∈ ps, b ≠ [])
    (hlen : announced (objSize r p) p = p.length + ps.flatten.length) (hi : r.RsInv E)
    (hr : r.run dv (dataPhase true (p :: ps)) = .ok r') (hi' : r'.RsInv E) : pieces dv ⟨r, 0⟩ (p :: ps) = .done ⟨r', 0⟩ := by
  obtain ⟨r1, h1, h2⟩ := run_append dv r r' [.packet p true ps.isEmpty []] (dataPhase false ps) hr
  have hi1 : r1.RsInv E := by
    obtain ⟨k, hk⟩ := hi.run dv [.packet p true ps.isEmpty []] (one_packet p true ps.isEmpty) h1
    obtain ⟨j, hj⟩ := hk.run dv _ (dataPhase_packets ps false) h2
    have := hj.1
    rw [hi'.1] at this
    have : k = 0 := by omega
    rw [this] at hk
    exact hk
  have hlast : decide (ps.flatten.length = 0) = ps.isEmpty := by
    cases ps with
    | nil => simp
    | cons b bs =>
      have : 0 < b.length := List.length_pos_iff.mpr (hne b (by simp))
      simp
      intro h
      rw [h] at this
      cases this
  obtain ⟨r2, e1, e2⟩ := Rsp.run_cons h1
  cases e2
  have e1' : r.receive dv p true ps.isEmpty [] = .ok r1 := e1
  have first : piece dv (p.length + 1) ⟨r, 0⟩ p = .done ⟨r1, ps.flatten.length⟩ := by
    unfold piece
    rw [if_neg (by omega), if_neg (by intro hh; omega)]
    simp only [if_true, hlen]
    have hchunk : (if p.length < p.length + ps.flatten.length then p.length else p.length + ps.flatten.length) = p.length := by
      split <;> omega
    rw [hchunk, List.take_length, Nat.add_sub_cancel_left, hlast, decide_true, e1']
    simp only
    rw [if_pos (by rw [hi1.1, hi.1]), List.drop_length]
    cases e : p.length with
    | zero => omega
    | succ n => simp [piece]
  unfold pieces
  rw [first]
  exact rest_pieces dv ps _ E r1 r' hne rfl hi1 h2 hi'

theorem pieces_append (dv : Dev D) (ps rest : List (List UInt8)) (l l' : Link D) (h : pieces dv l ps = .done l') :
    pieces dv l (ps ++ rest) = pieces dv l' rest := by
  induction ps generalizing l with
  | nil => cases h; rfl
  | cons p ps ih =>
    rw [List.cons_append, pieces]
    rw [pieces] at h
    cases e : l.piece dv (p.length + 1) p with
    | done l1 => rw [e] at h; exact ih l1 h
    | running => rw [e] at h; cases h
    | short => rw [e] at h; cases h
    | crashed w => rw [e] at h; cases h

end Link
end Mtp
