import Verif.Model.Cache
/-! Finite maps: lookup after insertion and removal. -/
namespace Mtp.AMap
variable {K V : Type} [DecidableEq K]

theorem get_erase (m : AMap K V) (k j : K) :
    AMap.get (AMap.erase m k) j = if j = k then none else AMap.get m j := by
  induction m with
  | nil => simp [AMap.get, erase]
  | cons e m ih =>
    obtain ⟨x, v⟩ := e
    unfold erase at *
    simp only [List.filter_cons]
    by_cases hx : x = k
    · subst hx
      simp only [ne_eq, not_true, decide_false, Bool.false_eq_true, ite_false, ih, AMap.get]
      by_cases hj : j = x <;> simp [hj]
    · simp only [ne_eq, hx, not_false_eq_true, decide_true, ite_true, AMap.get]
      simp only [ne_eq] at ih
      rw [ih]
      by_cases hj : j = x
      · subst hj; simp [hx]
      · simp [hj]

theorem get_insert (m : AMap K V) (k : K) (v : V) (j : K) :
    AMap.get (AMap.insert m k v) j = if j = k then some v else AMap.get m j := by
  unfold insert
  simp only [AMap.get]
  by_cases h : j = k
  · simp [h]
  · simp [h, get_erase]

theorem get_nil (k : K) : AMap.get ([] : AMap K V) k = none := rfl

omit [DecidableEq K] in
theorem eq_nil_of_isEmpty {m : AMap K V} (h : m.isEmpty = true) : m = [] := by
  cases m <;> simp_all

theorem mem_of_get {m : AMap K V} {k : K} {v : V} (h : AMap.get m k = some v) : (k, v) ∈ m := by
  induction m with
  | nil => simp [AMap.get] at h
  | cons e m ih =>
    obtain ⟨x, w⟩ := e
    simp only [AMap.get] at h
    split at h
    · next g => subst g; cases h; simp
    · exact List.mem_cons_of_mem _ (ih h)

theorem get_isSome_iff {m : AMap K V} {k : K} : (AMap.get m k).isSome ↔ ∃ v, (k, v) ∈ m := by
  induction m with
  | nil => simp [AMap.get]
  | cons e m ih =>
    obtain ⟨x, w⟩ := e
    simp only [AMap.get]
    split
    · next g => subst g; simp
    · next g => rw [ih]; simp [g]

end Mtp.AMap
