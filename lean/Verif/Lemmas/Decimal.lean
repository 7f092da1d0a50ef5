import Verif.Model.Decimal
/-! Decimal text determines the number. -/
namespace Mtp

theorem digitVal_digitChar (n : Nat) : digitVal (digitChar n) = some (n % 10) := by
  have h : n % 10 < 10 := Nat.mod_lt _ (by decide)
  unfold digitChar
  generalize n % 10 = d at *
  have : d = 0 ∨ d = 1 ∨ d = 2 ∨ d = 3 ∨ d = 4 ∨ d = 5 ∨ d = 6 ∨ d = 7 ∨ d = 8 ∨ d = 9 := by omega
  rcases this with rfl | rfl | rfl | rfl | rfl | rfl | rfl | rfl | rfl | rfl <;> decide

/-- Value of a digit string. -/
def numVal (s : List Char) : Nat := s.foldl (fun a c => 10 * a + (digitVal c).getD 0) 0

theorem numVal_snoc (s : List Char) (c : Char) : numVal (s ++ [c]) = 10 * numVal s + (digitVal c).getD 0 := by
  simp [numVal]

theorem numVal_decDigitsAux (k n : Nat) (h : n ≤ k) : numVal (decDigitsAux k n) = n := by
  induction k generalizing n with
  | zero =>
    have : n = 0 := by omega
    subst this; decide
  | succ k ih =>
    unfold decDigitsAux
    split
    · next hn =>
      simp only [numVal, List.foldl_cons, List.foldl_nil, digitVal_digitChar, Option.getD_some]
      omega
    · next hn =>
      rw [numVal_snoc, ih (n / 10) (by omega), digitVal_digitChar]
      simp only [Option.getD_some]
      omega

theorem numVal_decDigits (n : Nat) : numVal (decDigits n) = n := numVal_decDigitsAux n n (Nat.le_refl n)

theorem decDigits_inj {a b : Nat} (h : decDigits a = decDigits b) : a = b := by
  rw [← numVal_decDigits a, ← numVal_decDigits b, h]

theorem decDigitsAux_ne_nil (k n : Nat) : decDigitsAux k n ≠ [] := by
  cases k <;> unfold decDigitsAux
  · simp
  · split <;> simp

theorem decDigits_ne_nil (n : Nat) : decDigits n ≠ [] := decDigitsAux_ne_nil n n

/-- Every character of a number is a digit. -/
theorem digit_of_mem_aux (k n : Nat) : ∀ c ∈ decDigitsAux k n, (digitVal c).isSome := by
  induction k generalizing n with
  | zero => intro c hc; simp only [decDigitsAux, List.mem_singleton] at hc; subst hc; simp [digitVal_digitChar]
  | succ k ih =>
    intro c hc
    unfold decDigitsAux at hc
    split at hc
    · simp only [List.mem_singleton] at hc; subst hc; simp [digitVal_digitChar]
    · rcases List.mem_append.mp hc with hc | hc
      · exact ih _ _ hc
      · simp only [List.mem_singleton] at hc; subst hc; simp [digitVal_digitChar]

theorem digit_of_mem {n : Nat} {c : Char} (h : c ∈ decDigits n) : (digitVal c).isSome := digit_of_mem_aux n n c h

end Mtp
