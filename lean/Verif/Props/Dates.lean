import Verif.Lemmas.DateText
/-!
C44: dates survive conversion between file times and MTP date texts.
-/
namespace Props
open Mtp Spec

/-- C44. The calendar used is the Gregorian one: day 0 is 1970-01-01, and each day is followed by the next day of the
calendar; dates and day numbers determine each other. -/
theorem C44_calendar : civilFromDays 0 = (1970, 1, 1) ∧ (∀ z, civilFromDays (z + 1) = nextDay (civilFromDays z)) ∧
    (∀ z, DateOk (civilFromDays z)) ∧
    (∀ z, daysFromCivil (civilFromDays z).1 (civilFromDays z).2.1 (civilFromDays z).2.2 = z) ∧
    (∀ y m d, DateOk (y, m, d) → civilFromDays (daysFromCivil y m d) = (y, m, d)) :=
  ⟨by decide, civil_next, civil_ok, days_of_civil, fun _ _ _ h => civil_of_date h⟩

/-- Days of the years 1900 to 9999. -/
theorem C44_years (z : Int) :
    (1900 ≤ (civilFromDays z).1 ∧ (civilFromDays z).1 ≤ 9999) ↔ -25567 ≤ z ∧ z ≤ 2932896 := by
  obtain ⟨e, c, q, yr, mp, d, hp, h⟩ := civil_parts z
  obtain ⟨o, ho, o1, o2, o3, o4⟩ := hp.doy
  obtain ⟨h1, h2, h3, h4, h5, h6, h7⟩ := hp
  rw [← ho] at h7
  rw [h]
  unfold partsDate
  have hc : c = 0 ∨ c = 1 ∨ c = 2 ∨ c = 3 := by omega
  have hy : yr = 0 ∨ yr = 1 ∨ yr = 2 ∨ yr = 3 := by omega
  have hm : (mp < 10) ↔ o < 306 := by omega
  have he : e < 4 ∨ e = 4 ∨ (4 < e ∧ e < 24) ∨ e = 24 ∨ 24 < e := by omega
  clear h6 h h5 ho h4 o4
  by_cases hlt : mp < 10
  · have ho := hm.mp hlt
    rw [if_pos hlt]
    dsimp only
    clear hm hlt
    rcases hc with rfl | rfl | rfl | rfl <;> rcases he with he | rfl | he | rfl | he <;> rcases hy with rfl | rfl | rfl | rfl <;> omega
  · have ho : ¬ o < 306 := fun h => hlt (hm.mpr h)
    rw [if_neg hlt]
    dsimp only
    clear hm hlt
    rcases hc with rfl | rfl | rfl | rfl <;> rcases he with he | rfl | he | rfl | he <;> rcases hy with rfl | rfl | rfl | rfl <;> omega

private theorem numVal_lt (s : List Char) : numVal s < 10 ^ s.length := by
  have key : ∀ (n : Nat) (s : List Char), s.length = n → numVal s < 10 ^ n := by
    intro n
    induction n with
    | zero => intro s h; have := List.length_eq_zero_iff.mp h; subst this; decide
    | succ n ih =>
      intro s h
      have hne : s ≠ [] := by intro e; subst e; simp at h
      have hs := List.dropLast_concat_getLast hne
      rw [← hs, numVal_snoc, Nat.pow_succ]
      have h1 := ih s.dropLast (by simp [h])
      have h2 : (digitVal (s.getLast hne)).getD 0 < 10 := by
        cases hd : digitVal (s.getLast hne) with
        | none => simp
        | some d => simpa using (digitChar_of_digitVal (n := 0) hd).2
      omega
  exact key _ s rfl

private theorem padDigits_digit {w n : Nat} {c : Char} (h : c ∈ padDigits w n) : (digitVal c).isSome := by
  unfold padDigits at h
  rcases List.mem_append.mp h with h | h
  · rw [List.eq_of_mem_replicate h]; decide
  · exact digit_of_mem h

private theorem padDigits_length (w n : Nat) : w ≤ (padDigits w n).length ∧ (decDigits n).length ≤ (padDigits w n).length := by
  unfold padDigits
  simp only [List.length_append, List.length_replicate]
  omega

private theorem takeWhile_digits (a b : List Char) (h : ∀ c ∈ a, (digitVal c).isSome) :
    (a ++ b).takeWhile (· ≠ Char.ofNat 0) = a ++ b.takeWhile (· ≠ Char.ofNat 0) := by
  induction a with
  | nil => rfl
  | cons x a ih =>
    have hx : x ≠ Char.ofNat 0 := by
      rintro rfl
      have := h _ List.mem_cons_self
      revert this; decide
    rw [List.cons_append, List.takeWhile_cons_of_pos (by simpa using hx), ih (fun c hc => h c (List.mem_cons_of_mem _ hc))]
    rfl

/-- A text that starts with nine fixDigits is rejected, and so is one that starts with a minus sign. -/
private theorem reject_digits (z : Zone) (a b : List Char) (h : ∀ c ∈ a, (digitVal c).isSome) (hl : 9 ≤ a.length) :
    parseDate z (a ++ b) = -1 := by
  apply Classical.byContradiction
  intro hne
  obtain ⟨s, _, _, ht⟩ := parse_inv z _ hne
  rw [takeWhile_digits a b h] at ht
  have e1 : (a ++ b.takeWhile (· ≠ Char.ofNat 0))[8]? = some (a[8]'(by omega)) := by
    rw [List.getElem?_append_left (by omega), List.getElem?_eq_getElem (by omega)]
  have e2 : s.text[8]? = some 'T' := by
    unfold Stamp.text
    rw [List.getElem?_append_right (by simp [digits_length])]
    simp [digits_length]
  rw [ht, e2] at e1
  have := h _ (List.getElem_mem (show 8 < a.length by omega))
  rw [← Option.some.inj e1] at this
  revert this; decide

private theorem reject_minus (z : Zone) (b : List Char) : parseDate z ('-' :: b) = -1 := by
  unfold parseDate
  rw [List.takeWhile_cons_of_pos (by decide)]
  rfl

/-- General form of the round trip: with `t'` the instant `mktime` finds for the local time of `t`. -/
private theorem roundtrip_general (z : Zone) (t : Int) (ht : t ≠ -1) (ho : (z.off t).natAbs < 86400) (hm : z.off t % 60 = 0)
    (hy : 1900 ≤ (tmOf (t + z.off t)).year ∧ (tmOf (t + z.off t)).year ≤ 9999) :
    parseDate z (formatDate z t) = z.mktime (t + z.off t) + (z.off t - z.off (z.mktime (t + z.off t))) := by
  obtain ⟨h1, h2⟩ := stamp_ok ho hy
  rw [format_text ht ho hy, parse_stamp z h1, h2, tmOf_secs]
  have e : offsetSecs (decide (0 ≤ z.off t)) ((z.off t).natAbs / 60 / 60) ((z.off t).natAbs / 60 % 60) = z.off t := by
    unfold offsetSecs
    split
    · next h => have := of_decide_eq_true h; omega
    · next h =>
      have : ¬ 0 ≤ z.off t := by simpa using h
      omega
  simp only [stampOf, e]

/-- C44. Writing an instant as a date text and reading it back gives the same instant, for every instant of the years 1900 to
9999 of local time and every time zone with offsets of whole minutes below a day, if `mktime` finds the instant again from
its local time; instants of other years give a text that is rejected. Missing: local times that occur twice
(`C44_ambiguous_violated`), offsets with seconds (`C44_seconds_violated`). -/
theorem C44_roundtrip_partial (z : Zone) (t : Int) (ho : (z.off t).natAbs < 86400) (hm : z.off t % 60 = 0)
    (hmk : z.mktime (t + z.off t) = t) :
    parseDate z (formatDate z t) = if -2208988800 ≤ t + z.off t ∧ t + z.off t < 253402300800 then t else -1 := by
  have hyr : (1900 ≤ (tmOf (t + z.off t)).year ∧ (tmOf (t + z.off t)).year ≤ 9999) ↔
      (-2208988800 ≤ t + z.off t ∧ t + z.off t < 253402300800) := by
    unfold tmOf
    simp only
    rw [C44_years]
    omega
  by_cases ht : t = -1
  · subst ht
    have e : formatDate z (-1) = [] := by unfold formatDate; rw [if_pos rfl]
    rw [e]
    have : parseDate z [] = -1 := rfl
    rw [this]
    split <;> rfl
  by_cases hy : 1900 ≤ (tmOf (t + z.off t)).year ∧ (tmOf (t + z.off t)).year ≤ 9999
  · rw [roundtrip_general z t ht ho hm hy, hmk, if_pos (hyr.mp hy)]
    omega
  · rw [if_neg (fun h => hy (hyr.mpr h))]
    unfold formatDate
    rw [if_neg ht]
    simp only
    generalize tmOf (t + z.off t) = tm at *
    unfold fmtYear
    by_cases h0 : 0 ≤ tm.year
    · rw [if_pos h0]
      by_cases h1 : tm.year < 1900
      · rw [padDigits_eq (by decide) (show tm.year.toNat < 10 ^ 4 by omega)]
        simp only [List.append_assoc]
        unfold parseDate
        rw [takeWhile_digits _ _ (fun c hc => digits_no_nul hc)]
        unfold parseTm getRange
        rw [getNumber_digits]
        have hlt : ¬ (1900 ≤ 0 * 10 ^ 4 + tm.year.toNat % 10 ^ 4 ∧ 0 * 10 ^ 4 + tm.year.toNat % 10 ^ 4 ≤ 9999) := by omega
        simp only [if_neg hlt]
        rfl
      · have h5 : 10000 ≤ tm.year.toNat := by omega
        have hlen : 5 ≤ (decDigits tm.year.toNat).length := by
          have h6 := numVal_lt (decDigits tm.year.toNat)
          rw [numVal_decDigits] at h6
          apply Classical.byContradiction
          intro hl
          have : 10 ^ (decDigits tm.year.toNat).length ≤ 10 ^ 4 := Nat.pow_le_pow_right (by decide) (by omega)
          omega
        have hp4 := padDigits_length 4 tm.year.toNat
        have hp2 := padDigits_length 2 tm.mon.toNat
        have hp3 := padDigits_length 2 tm.day.toNat
        rw [show ∀ (a b c d e f g h i : List Char) (x y : Char), a ++ b ++ c ++ x :: d ++ e ++ f ++ y :: h ++ i =
          (a ++ b ++ c) ++ (x :: d ++ e ++ f ++ y :: h ++ i) by intros; simp]
        · apply reject_digits
          · intro c hc
            simp only [List.mem_append] at hc
            rcases hc with (hc | hc) | hc <;> exact padDigits_digit hc
          · simp only [List.length_append]; omega
        · exact []
    · rw [if_neg h0]
      exact reject_minus z _

/-- A time zone with one offset. -/
def fixedZone (g : Int) : Zone := ⟨fun _ => g, fun l => l - g⟩

/-- C44. In a zone with a fixed offset of whole minutes below a day, every instant of the local years 1900 to 9999 survives. -/
theorem C44_fixed_zone (g t : Int) (ho : g.natAbs < 86400) (hm : g % 60 = 0) (h1 : -2208988800 ≤ t + g)
    (h2 : t + g < 253402300800) : parseDate (fixedZone g) (formatDate (fixedZone g) t) = t := by
  have := C44_roundtrip_partial (fixedZone g) t ho hm (by simp [fixedZone])
  rw [if_pos ⟨h1, h2⟩] at this
  exact this

/-- C44. Only date texts are accepted: a text not rejected has the fields of a date, all in range, and no "Z". -/
theorem C44_accepts_only (z : Zone) (t : List Char) (h : parseDate z t ≠ -1) :
    ∃ s : Stamp, s.InRange ∧ s.zone ≠ .utc ∧ t.takeWhile (· ≠ Char.ofNat 0) = s.text := parse_inv z t h

/-- C44. A date text without a zone is read as the local time it says. -/
theorem C44_local (z : Zone) (s : Stamp) (h : s.InRange) (hz : s.zone = .local_) :
    parseDate z s.text = z.mktime (daysFromCivil s.year s.mon s.day * 86400 + s.hour * 3600 + s.min * 60 + s.sec) := by
  rw [parse_stamp z h, hz]; rfl

/-- C44. A date text with an offset is read as the instant it says if the offset is that of the device's zone at that local
time. Missing: other offsets (`C44_offset_violated`). -/
theorem C44_offset_partial (z : Zone) (s : Stamp) (e : Bool) (a b : Nat) (h : s.InRange) (hz : s.zone = .offset e a b)
    (hmk : z.mktime s.tm.secs + z.off (z.mktime s.tm.secs) = s.tm.secs)
    (ho : z.off (z.mktime s.tm.secs) = offsetSecs e a b) :
    parseDate z s.text =
      daysFromCivil s.year s.mon s.day * 86400 + s.hour * 3600 + s.min * 60 + s.sec - offsetSecs e a b := by
  rw [parse_stamp z h, hz]
  simp only
  have : s.tm.secs = daysFromCivil s.year s.mon s.day * 86400 + s.hour * 3600 + s.min * 60 + s.sec := rfl
  rw [← this]
  omega

/-- C44 is violated for offsets other than the device's own: the correction has the wrong sign, the instant read is wrong by
twice the difference of the offsets, for every text. -/
theorem C44_offset_violated (g : Int) (s : Stamp) (e : Bool) (a b : Nat) (h : s.InRange) (hz : s.zone = .offset e a b) :
    parseDate (fixedZone g) s.text =
      (daysFromCivil s.year s.mon s.day * 86400 + s.hour * 3600 + s.min * 60 + s.sec - offsetSecs e a b) +
        2 * (offsetSecs e a b - g) := by
  rw [parse_stamp _ h, hz]
  simp only [fixedZone]
  have : s.tm.secs = daysFromCivil s.year s.mon s.day * 86400 + s.hour * 3600 + s.min * 60 + s.sec := rfl
  rw [← this]
  omega

/-- Instance: noon in Greenwich, read by a device two hours east of it, becomes eight in the morning. -/
theorem C44_offset_example_violated :
    parseDate (fixedZone 7200) "20240101T120000+0000".toList = 1704096000 ∧
    parseDate (fixedZone 0) "20240101T120000+0000".toList = 1704110400 := by decide

/-- C44 is violated for local times that occur twice (end of summer time): whichever of the two instants `mktime` chooses,
the other one does not survive. -/
theorem C44_ambiguous_violated (z : Zone) (t₁ t₂ : Int) (hne : t₁ ≠ t₂) (hsame : t₁ + z.off t₁ = t₂ + z.off t₂)
    (hmk : z.mktime (t₁ + z.off t₁) + z.off (z.mktime (t₁ + z.off t₁)) = t₁ + z.off t₁)
    (h1 : t₁ ≠ -1) (h2 : t₂ ≠ -1)
    (o1 : (z.off t₁).natAbs < 86400 ∧ z.off t₁ % 60 = 0) (o2 : (z.off t₂).natAbs < 86400 ∧ z.off t₂ % 60 = 0)
    (hy : 1900 ≤ (tmOf (t₁ + z.off t₁)).year ∧ (tmOf (t₁ + z.off t₁)).year ≤ 9999) :
    parseDate z (formatDate z t₁) ≠ t₁ ∨ parseDate z (formatDate z t₂) ≠ t₂ := by
  rw [roundtrip_general z t₁ h1 o1.1 o1.2 hy, roundtrip_general z t₂ h2 o2.1 o2.2 (hsame ▸ hy)]
  rw [← hsame]
  omega

/-- Central Europe around the end of summer time in 2023 (2023-10-29 01:00 Greenwich time). -/
def demoZone : Zone :=
  ⟨fun t => if t < 1698541200 then 7200 else 3600, fun l => if l - 7200 < 1698541200 then l - 7200 else l - 3600⟩

/-- Witness: in such a zone an instant well after the change survives, and the hypotheses of `C44_ambiguous_violated` are
met; the second 02:30 of the night is read two hours early. -/
theorem C44_witness :
    String.ofList (formatDate demoZone 1698650000) = "20231030T081320+0100" ∧
    parseDate demoZone "20231030T081320+0100".toList = 1698650000 ∧
    demoZone.mktime (1698650000 + demoZone.off 1698650000) = 1698650000 ∧
    (1698541200 + 1800 : Int) + demoZone.off (1698541200 + 1800) = (1698541200 - 1800) + demoZone.off (1698541200 - 1800) ∧
    parseDate demoZone (formatDate demoZone (1698541200 + 1800)) = 1698541200 + 1800 - 7200 := by
  refine ⟨by decide, by decide, by decide, by decide, by decide⟩

/-- C44 is violated for offsets that are not whole minutes (local mean times before standard time). -/
theorem C44_seconds_violated : parseDate (fixedZone 21208) (formatDate (fixedZone 21208) 0) = -28 := by decide

/-- C44 is violated for days that do not exist: they are read as another day instead of being rejected. -/
theorem C44_no_such_day_violated (z : Zone) :
    parseDate z "20230230T000000".toList = parseDate z "20230302T000000".toList := by
  have a := parse_stamp z (s := ⟨2023, 2, 30, 0, 0, 0, none, .local_⟩)
    ⟨by decide, by decide, by decide, by decide, by decide, by decide, by simp, by simp⟩
  have b := parse_stamp z (s := ⟨2023, 3, 2, 0, 0, 0, none, .local_⟩)
    ⟨by decide, by decide, by decide, by decide, by decide, by decide, by simp, by simp⟩
  have ta : Stamp.text ⟨2023, 2, 30, 0, 0, 0, none, .local_⟩ = "20230230T000000".toList := by decide
  have tb : Stamp.text ⟨2023, 3, 2, 0, 0, 0, none, .local_⟩ = "20230302T000000".toList := by decide
  rw [ta] at a
  rw [tb] at b
  rw [a, b]
  have : Tm.secs (Stamp.tm ⟨2023, 2, 30, 0, 0, 0, none, .local_⟩) = Tm.secs (Stamp.tm ⟨2023, 3, 2, 0, 0, 0, none, .local_⟩) := by
    decide
  simp only [this]

/-- C44. Texts in Greenwich time ("Z"), although named as supported in the code, are always rejected. -/
theorem C44_utc_rejected (z : Zone) (s : Stamp) (h : s.InRange) (hz : s.zone = .utc) : parseDate z s.text = -1 := by
  rw [parse_stamp z h, hz]

end Props
