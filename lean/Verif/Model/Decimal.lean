import Verif.Model.Basic
/-!
Decimal numbers as text: `QString::arg(int)` and `printf("%d")`, `printf("%0nd")`.
-/
namespace Mtp

/-- A decimal digit. -/
def digitChar (n : Nat) : Char := Char.ofNat (48 + n % 10)

/-- Decimal digits, most significant first; `fuel` bounds the number of digits. -/
def decDigitsAux : Nat → Nat → List Char
  | 0, n => [digitChar n]
  | k + 1, n => if n < 10 then [digitChar n] else decDigitsAux k (n / 10) ++ [digitChar (n % 10)]

/-- `%d` of a non-negative number (a number has no more digits than its value). -/
def decDigits (n : Nat) : List Char := decDigitsAux n n

/-- `to_digit` (fsstorageplugin.cpp:80-93): value of a digit, -1 (`none`) for anything else. -/
def digitVal (c : Char) : Option Nat :=
  if 48 ≤ c.toNat ∧ c.toNat ≤ 57 then some (c.toNat - 48) else none

/-- `%0wd` of a non-negative number: padded with zeros to `w` places, longer numbers are not cut. -/
def padDigits (w n : Nat) : List Char :=
  List.replicate (w - (decDigits n).length) '0' ++ decDigits n

end Mtp
