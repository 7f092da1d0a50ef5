import Verif.Model.Dates
import Verif.Spec.Dates
import Verif.Lemmas.Decimal
/-! Dates: digits, the calendar, parsing. -/
namespace Mtp
open Spec

/-- The parts of a day count: era, century, four-year cycle, year, month counted from March, day. -/
structure DayParts (z era cen quad yr mp d : Int) : Prop where
  hcen : 0 ≤ cen ∧ cen ≤ 3
  hquad : 0 ≤ quad ∧ quad ≤ 24
  hyr : 0 ≤ yr ∧ yr ≤ 3
  hmp : 0 ≤ mp ∧ mp ≤ 11
  hd : 1 ≤ d
  top : d ≤ (if mp = 11 then (if yr = 3 ∧ (quad < 24 ∨ cen = 3) then 29 else 28)
    else if mp = 1 ∨ mp = 3 ∨ mp = 6 ∨ mp = 8 then 30 else 31)
  sum : z + 719468 = era * 146097 + cen * 36524 + quad * 1461 + yr * 365 + ((153 * mp + 2) / 5 + d - 1)

/-- The date of the parts. -/
def partsDate (era cen quad yr mp d : Int) : Int × Int × Int :=
  if mp < 10 then (era * 400 + 100 * cen + 4 * quad + yr, mp + 3, d) else (era * 400 + 100 * cen + 4 * quad + yr + 1, mp - 9, d)

theorem civil_parts (z : Int) : ∃ era cen quad yr mp d, DayParts z era cen quad yr mp d ∧
    civilFromDays z = partsDate era cen quad yr mp d := by
  unfold civilFromDays
  simp only
  generalize hz' : z + 719468 = z'
  generalize he : z' / 146097 = era
  have h1 : 0 ≤ z' - era * 146097 ∧ z' - era * 146097 ≤ 146096 := by omega
  generalize hd : z' - era * 146097 = doe at *
  generalize hc : (if doe / 36524 < 4 then doe / 36524 else 3) = cen
  have h2 : 0 ≤ cen ∧ cen ≤ 3 ∧ 0 ≤ doe - cen * 36524 ∧ doe - cen * 36524 ≤ 36524 ∧
      (cen < 3 → doe - cen * 36524 < 36524) := by split at hc <;> omega
  generalize hdoc : doe - cen * 36524 = doc at *
  generalize hq : doc / 1461 = quad
  have h3 : 0 ≤ quad ∧ quad ≤ 24 ∧ 0 ≤ doc - quad * 1461 ∧ doc - quad * 1461 ≤ 1460 ∧
      (quad = 24 → cen < 3 → doc - quad * 1461 < 1460) := by omega
  generalize hdoq : doc - quad * 1461 = doq at *
  generalize hy : (if doq / 365 < 4 then doq / 365 else 3) = yr
  have h4 : 0 ≤ yr ∧ yr ≤ 3 ∧ 0 ≤ doq - yr * 365 ∧ doq - yr * 365 ≤ 365 ∧
      (doq - yr * 365 = 365 → yr = 3 ∧ doq = 1460) := by split at hy <;> omega
  generalize hdoy : doq - yr * 365 = doy at *
  generalize hmp : (5 * doy + 2) / 153 = mp
  have h5 : 0 ≤ mp ∧ mp ≤ 11 := by omega
  refine ⟨era, cen, quad, yr, mp, doy - (153 * mp + 2) / 5 + 1, ⟨by omega, by omega, by omega, h5, by omega, ?_, ?_⟩, ?_⟩
  · have h6 : mp = 0 ∨ mp = 1 ∨ mp = 2 ∨ mp = 3 ∨ mp = 4 ∨ mp = 5 ∨ mp = 6 ∨ mp = 7 ∨ mp = 8 ∨ mp = 9 ∨ mp = 10 ∨ mp = 11 := by
      omega
    by_cases h7 : mp = 11
    · rw [if_pos h7]
      subst h7
      split <;> omega
    · rw [if_neg h7]
      split <;> omega
  · omega
  · unfold partsDate
    by_cases hm : mp < 10
    · have a1 : ¬ (mp + 3 ≤ 2) := by omega
      simp only [if_pos hm, if_neg a1, Prod.mk.injEq, and_true]
      omega
    · have a1 : mp - 9 ≤ 2 := by omega
      simp only [if_neg hm, if_pos a1, Prod.mk.injEq, and_true]
      omega

theorem days_parts {z era cen quad yr mp d : Int} (h : DayParts z era cen quad yr mp d) :
    daysFromCivil (partsDate era cen quad yr mp d).1 (partsDate era cen quad yr mp d).2.1
      (partsDate era cen quad yr mp d).2.2 = z := by
  obtain ⟨h1, h2, h3, h4, h5, h6, h7⟩ := h
  unfold partsDate daysFromCivil
  by_cases hm : mp < 10
  · have a1 : ¬ (mp + 3 ≤ 2) := by omega
    have a2 : mp + 3 > 2 := by omega
    simp only [if_pos hm, if_neg a1, if_pos a2]
    have e1 : (era * 400 + 100 * cen + 4 * quad + yr) / 400 = era := by omega
    rw [e1]
    have e2 : mp + 3 - 3 = mp := by omega
    have e3 : (era * 400 + 100 * cen + 4 * quad + yr - era * 400) = 100 * cen + 4 * quad + yr := by omega
    rw [e2, e3]
    omega
  · have a1 : mp - 9 ≤ 2 := by omega
    have a2 : ¬ (mp - 9 > 2) := by omega
    simp only [if_neg hm, if_pos a1, if_neg a2]
    have e0 : era * 400 + 100 * cen + 4 * quad + yr + 1 - 1 = era * 400 + 100 * cen + 4 * quad + yr := by omega
    have e1 : (era * 400 + 100 * cen + 4 * quad + yr) / 400 = era := by omega
    rw [e0, e1]
    have e2 : mp - 9 + 9 = mp := by omega
    have e3 : (era * 400 + 100 * cen + 4 * quad + yr - era * 400) = 100 * cen + 4 * quad + yr := by omega
    rw [e2, e3]
    omega

/-- Day of the year counted from March. -/
theorem DayParts.doy {z era cen quad yr mp d : Int} (h : DayParts z era cen quad yr mp d) :
    ∃ doy, doy = (153 * mp + 2) / 5 + d - 1 ∧ 0 ≤ doy ∧ doy ≤ 365 ∧ (doy = 365 → yr = 3 ∧ (quad < 24 ∨ cen = 3)) ∧
      mp = (5 * doy + 2) / 153 := by
  obtain ⟨h1, h2, h3, h4, h5, h6, h7⟩ := h
  refine ⟨_, rfl, by omega, ?_⟩
  by_cases c1 : mp = 11
  · subst c1
    rw [if_pos rfl] at h6
    split at h6 <;> omega
  · rw [if_neg c1] at h6
    clear h7
    have h8 : mp = 0 ∨ mp = 1 ∨ mp = 2 ∨ mp = 3 ∨ mp = 4 ∨ mp = 5 ∨ mp = 6 ∨ mp = 7 ∨ mp = 8 ∨ mp = 9 ∨ mp = 10 := by omega
    rcases h8 with rfl | rfl | rfl | rfl | rfl | rfl | rfl | rfl | rfl | rfl | rfl <;> simp at h6 <;> omega

theorem DayParts.unique {z e c q y m d e' c' q' y' m' d' : Int} (h : DayParts z e c q y m d)
    (h' : DayParts z e' c' q' y' m' d') : e = e' ∧ c = c' ∧ q = q' ∧ y = y' ∧ m = m' ∧ d = d' := by
  obtain ⟨o, ho, o1, o2, o3, o4⟩ := h.doy
  obtain ⟨o', ho', o1', o2', o3', o4'⟩ := h'.doy
  obtain ⟨h1, h2, h3, h4, h5, h6, h7⟩ := h
  obtain ⟨h1', h2', h3', h4', h5', h6', h7'⟩ := h'
  rw [← ho] at h7
  rw [← ho'] at h7'
  clear h6 h6'
  have e1 : e = e' := by omega
  subst e1
  have e2 : c = c' := by omega
  subst e2
  have e3 : q = q' := by omega
  subst e3
  have e4 : y = y' := by omega
  subst e4
  have e5 : o = o' := by omega
  subst e5
  have e6 : m = m' := by rw [o4, o4']
  subst e6
  exact ⟨rfl, rfl, rfl, rfl, rfl, by omega⟩

/-- Every date of the calendar has parts. -/
theorem parts_of_date {y m d : Int} (h : DateOk (y, m, d)) :
    ∃ era cen quad yr mp, DayParts (daysFromCivil y m d) era cen quad yr mp d ∧
      partsDate era cen quad yr mp d = (y, m, d) := by
  obtain ⟨h1, h2, h3, h4⟩ := h
  simp only at h1 h2 h3 h4
  by_cases hm : m ≤ 2
  · have hp : partsDate ((y-1) / 400) ((y-1) % 400 / 100) ((y-1) % 100 / 4) ((y-1) % 4) (m + 9) d = (y, m, d) := by
      unfold partsDate
      rw [if_neg (by omega)]
      simp only [Prod.mk.injEq, and_true]
      omega
    refine ⟨(y-1) / 400, (y-1) % 400 / 100, (y-1) % 100 / 4, (y-1) % 4, m + 9,
      ⟨by omega, by omega, by omega, by omega, h3, ?_, ?_⟩, hp⟩
    · unfold monthLen leap at h4
      have : m = 1 ∨ m = 2 := by omega
      rcases this with rfl | rfl
      · simp at h4; simp; exact h4
      · simp only [Bool.and_eq_true, Bool.or_eq_true, decide_eq_true_eq, if_true] at h4
        rw [if_pos (by decide)]
        split at h4
        · split <;> omega
        · split <;> omega
    · unfold daysFromCivil
      simp only [if_pos hm, if_neg (show ¬ m > 2 by omega)]
      generalize y - 1 = x at *
      have e1 : (x - x / 400 * 400) / 4 = 25 * (x % 400 / 100) + x % 100 / 4 := by omega
      have e2 : (x - x / 400 * 400) / 100 = x % 400 / 100 := by omega
      rw [e1, e2]
      omega
  · have hp : partsDate (y / 400) (y % 400 / 100) (y % 100 / 4) (y % 4) (m - 3) d = (y, m, d) := by
      unfold partsDate
      rw [if_pos (by omega)]
      simp only [Prod.mk.injEq, and_true]
      omega
    refine ⟨y / 400, y % 400 / 100, y % 100 / 4, y % 4, m - 3,
      ⟨by omega, by omega, by omega, by omega, h3, ?_, ?_⟩, hp⟩
    · unfold monthLen at h4
      rw [if_neg (by omega)] at h4
      rw [if_neg (by omega)]
      split at h4
      · rw [if_pos (by omega)]; exact h4
      · rw [if_neg (by omega)]; exact h4
    · unfold daysFromCivil
      simp only [if_neg hm, if_pos (show m > 2 by omega)]
      have e1 : (y - y / 400 * 400) / 4 = 25 * (y % 400 / 100) + y % 100 / 4 := by omega
      have e2 : (y - y / 400 * 400) / 100 = y % 400 / 100 := by omega
      rw [e1, e2]
      omega

theorem civil_of_date {y m d : Int} (h : DateOk (y, m, d)) : civilFromDays (daysFromCivil y m d) = (y, m, d) := by
  obtain ⟨e, c, q, yr, mp, hp, h1⟩ := parts_of_date h
  obtain ⟨e', c', q', yr', mp', d', hp', h2⟩ := civil_parts (daysFromCivil y m d)
  obtain ⟨rfl, rfl, rfl, rfl, rfl, rfl⟩ := hp.unique hp'
  rw [h2, h1]

theorem days_of_civil (z : Int) : daysFromCivil (civilFromDays z).1 (civilFromDays z).2.1 (civilFromDays z).2.2 = z := by
  obtain ⟨e, c, q, yr, mp, d, hp, h⟩ := civil_parts z
  rw [h]; exact days_parts hp

theorem civil_ok (z : Int) : DateOk (civilFromDays z) := by
  obtain ⟨e, c, q, yr, mp, d, hp, h⟩ := civil_parts z
  rw [h]
  obtain ⟨h1, h2, h3, h4, h5, h6, h7⟩ := hp
  unfold partsDate DateOk
  by_cases hm : mp < 10
  · rw [if_pos hm]
    refine ⟨by show 1 ≤ mp + 3; omega, by show mp + 3 ≤ 12; omega, h5, ?_⟩
    show d ≤ monthLen _ (mp + 3)
    unfold monthLen
    rw [if_neg (by omega)]
    rw [if_neg (by omega)] at h6
    split at h6
    · rw [if_pos (by omega)]; exact h6
    · rw [if_neg (by omega)]; exact h6
  · rw [if_neg hm]
    refine ⟨by show 1 ≤ mp - 9; omega, by show mp - 9 ≤ 12; omega, h5, ?_⟩
    show d ≤ monthLen _ (mp - 9)
    unfold monthLen leap
    have : mp = 10 ∨ mp = 11 := by omega
    rcases this with rfl | rfl
    · simp at h6; simp; exact h6
    · simp only [Bool.and_eq_true, Bool.or_eq_true, decide_eq_true_eq]
      rw [if_pos rfl] at h6
      rw [if_pos (by omega)]
      split at h6
      · rw [if_pos (by omega)]; exact h6
      · rw [if_neg (by omega)]; exact h6

/-- The day after. -/
theorem days_next {c : Int × Int × Int} (h : DateOk c) :
    DateOk (nextDay c) ∧ daysFromCivil (nextDay c).1 (nextDay c).2.1 (nextDay c).2.2 = daysFromCivil c.1 c.2.1 c.2.2 + 1 := by
  obtain ⟨y, m, d⟩ := c
  obtain ⟨h1, h2, h3, h4⟩ := h
  simp only at h1 h2 h3 h4
  unfold nextDay
  simp only
  split
  · next hd =>
    refine ⟨⟨h1, h2, by show 1 ≤ d + 1; omega, by show d + 1 ≤ monthLen y m; omega⟩, ?_⟩
    unfold daysFromCivil
    simp only
    omega
  · next hd =>
    have hd : d = monthLen y m := by omega
    have hlen : ∀ y m, 1 ≤ monthLen y m := by
      intro y m; unfold monthLen; split
      · split <;> omega
      · split <;> omega
    have hm : m = 1 ∨ m = 2 ∨ m = 3 ∨ m = 4 ∨ m = 5 ∨ m = 6 ∨ m = 7 ∨ m = 8 ∨ m = 9 ∨ m = 10 ∨ m = 11 ∨ m = 12 := by omega
    split
    · next hlt =>
      refine ⟨⟨by show 1 ≤ m + 1; omega, by show m + 1 ≤ 12; omega, by show (1:Int) ≤ 1; omega, hlen _ _⟩, ?_⟩
      subst hd
      rcases hm with rfl | rfl | rfl | rfl | rfl | rfl | rfl | rfl | rfl | rfl | rfl | rfl
      case inr.inl =>
        unfold daysFromCivil monthLen leap
        simp only [Bool.and_eq_true, Bool.or_eq_true, decide_eq_true_eq]
        simp only [show ¬ ((2:Int) + 1 ≤ 2) by decide, if_pos, show (2:Int) ≤ 2 by decide, show ¬ ((2:Int) > 2) by decide,
          show (2:Int) + 1 > 2 by decide, if_false]
        split <;> omega
      all_goals
        first
          | omega
          | (unfold daysFromCivil monthLen
             simp
             try omega)
    · next hlt =>
      have : m = 12 := by omega
      subst this
      refine ⟨⟨by show (1:Int) ≤ 1; decide, by show (1:Int) ≤ 12; decide, by show (1:Int) ≤ 1; decide, hlen _ _⟩, ?_⟩
      subst hd
      unfold daysFromCivil monthLen
      simp
      omega

theorem civil_next (z : Int) : civilFromDays (z + 1) = nextDay (civilFromDays z) := by
  obtain ⟨h1, h2⟩ := days_next (civil_ok z)
  rw [days_of_civil] at h2
  rw [← h2]
  exact civil_of_date h1

end Mtp
