import Verif.Lemmas.ServerAnswers
import Verif.Props.Dates
/-! The dates of files that were written. -/
namespace Mtp
open Spec
namespace Server

theorem format_chars {z : Zone} {t : Int} {c : Char} (h : c ∈ formatDate z t) : 0 < c.toNat ∧ c.toNat < 128 := by
  have dig : ∀ {c : Char}, (digitVal c).isSome = true → 0 < c.toNat ∧ c.toNat < 128 := by
    intro c hc
    unfold digitVal at hc
    split at hc
    · omega
    · cases hc
  have pad : ∀ {w n : Nat} {c : Char}, c ∈ padDigits w n → 0 < c.toNat ∧ c.toNat < 128 := by
    intro w n c hc
    unfold padDigits at hc
    rcases List.mem_append.mp hc with hc | hc
    · rw [List.eq_of_mem_replicate hc]; decide
    · exact dig (digit_of_mem hc)
  have year : ∀ {y : Int} {c : Char}, c ∈ fmtYear y → 0 < c.toNat ∧ c.toNat < 128 := by
    intro y c hc
    unfold fmtYear at hc
    split at hc
    · exact pad hc
    · rcases List.mem_cons.mp hc with rfl | hc
      · decide
      · exact pad hc
  unfold formatDate at h
  split at h
  · cases h
  · simp only [List.mem_append, List.mem_cons] at h
    have sgn : ∀ {b : Prop} [Decidable b], 0 < (if b then '+' else '-').toNat ∧ (if b then '+' else '-').toNat < 128 := by
      intro b _
      split <;> decide
    rcases h with ((((((((h | h) | h) | rfl | h) | h) | h)) | rfl | h) | h)
    · exact year h
    · exact pad h
    · exact pad h
    · decide
    · exact pad h
    · exact pad h
    · exact pad h
    · exact sgn
    · exact pad h
    · exact pad h

theorem toPath_fromPath {p : Path} (h : ∀ c ∈ p, c.toNat < 128) : toPath (fromPath p) = p := by
  induction p with
  | nil => rfl
  | cons c p ih =>
    have hc := h c (by simp)
    show Char.ofNat (UInt16.ofNat c.toNat).toNat :: toPath (fromPath p) = _
    rw [ih fun d hd => h d (by simp [hd])]
    have : (UInt16.ofNat c.toNat).toNat = c.toNat := by
      rw [UInt16.toNat_ofNat']
      omega
    rw [this, Char.ofNat_toNat]

/-- A date is transmitted as it is. -/
theorem text_cut (z : Times) (t : Int) : cut (z.text t) = z.text t ∧ (z.text t).length ≤ 2 ^ 20 := by
  unfold Times.text
  split
  · next h =>
    refine ⟨cut_keep ?_ ?_, ?_⟩
    · intro u hu
      unfold fromPath at hu
      obtain ⟨c, hc, rfl⟩ := List.mem_map.mp hu
      have := format_chars hc
      intro e
      have e := congrArg UInt16.toNat e
      rw [UInt16.toNat_ofNat'] at e
      simp at e
      omega
    · unfold fromPath
      rw [List.length_map]
      omega
    · unfold fromPath
      rw [List.length_map]
      exact Nat.le_trans (Nat.le_of_lt h) (by decide)
  · exact ⟨rfl, by simp⟩

theorem stamp_cut (z : Times) (n : Nat) (d : QStr) : cut (z.stamp n d) = z.stamp n d ∧ (z.stamp n d).length ≤ 2 ^ 20 := text_cut ..

theorem stamped_cut {z : Times} {a b : QStr} (h : Stamped z a b) : cut b = b ∧ b.length ≤ 2 ^ 20 := by
  cases h with
  | created n => exact stamp_cut ..
  | again n d _ => exact stamp_cut ..

/-- An instant with a date text that can be read back. -/
theorem text_back {z : Times} {t : Int} (h1 : (z.zone.off t).natAbs < 86400) (h2 : z.zone.off t % 60 = 0)
    (h3 : z.zone.mktime (t + z.zone.off t) = t) (h4 : -2208988800 ≤ t + z.zone.off t) (h5 : t + z.zone.off t < 253402300800)
    (h6 : t ≠ -1) : toPath (z.text t) = formatDate z.zone t ∧ parseDate z.zone (toPath (z.text t)) = t := by
  have hy : 1900 ≤ (tmOf (t + z.zone.off t)).year ∧ (tmOf (t + z.zone.off t)).year ≤ 9999 := by
    unfold tmOf
    simp only
    rw [Props.C44_years]
    omega
  have hl : (formatDate z.zone t).length = 20 := by
    rw [format_text h6 h1 hy]
    unfold Stamp.text stampOf
    simp [digits_length, fracText, ZoneText.text]
  have e : toPath (z.text t) = formatDate z.zone t := by
    unfold Times.text
    rw [if_pos (by omega)]
    exact toPath_fromPath fun c hc => (format_chars hc).2
  refine ⟨e, ?_⟩
  have := Props.C44_roundtrip_partial z.zone t h1 h2 h3
  rw [if_pos ⟨h4, h5⟩] at this
  rw [e]
  exact this

theorem stamp_set {z : Times} {n : Nat} {d : QStr} (hu : z.utimes n = true) (hp : parseDate z.zone (toPath d) ≠ -1) :
    z.stamp n d = z.text (parseDate z.zone (toPath d)) := by
  unfold Times.stamp
  rw [if_neg (by rintro (h | h); exact hp h; rw [hu] at h; cases h)]

end Server
end Mtp
