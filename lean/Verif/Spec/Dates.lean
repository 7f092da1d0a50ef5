import Verif.Model.Decimal
/-!
What an MTP date text means (PTP 5.3.2 / MTP 3.2.5: "YYYYMMDDThhmmss[.s]", followed by nothing, "Z" or "+hhmm" or "-hhmm") and the
rules of the Gregorian calendar.
-/
namespace Spec
open Mtp

/-- Exactly `w` fixDigits. -/
def fixDigits : Nat → Nat → List Char
  | 0, _ => []
  | w + 1, n => fixDigits w (n / 10) ++ [digitChar n]

/-- Leap years. -/
def leap (y : Int) : Bool := y % 4 = 0 && (y % 100 ≠ 0 || y % 400 = 0)

/-- Length of a month. -/
def monthLen (y m : Int) : Int :=
  if m = 2 then (if leap y then 29 else 28) else if m = 4 ∨ m = 6 ∨ m = 9 ∨ m = 11 then 30 else 31

/-- The day after a date. -/
def nextDay (c : Int × Int × Int) : Int × Int × Int :=
  if c.2.2 < monthLen c.1 c.2.1 then (c.1, c.2.1, c.2.2 + 1)
  else if c.2.1 < 12 then (c.1, c.2.1 + 1, 1) else (c.1 + 1, 1, 1)

/-- A date exists in the calendar. -/
def DateOk (c : Int × Int × Int) : Prop := 1 ≤ c.2.1 ∧ c.2.1 ≤ 12 ∧ 1 ≤ c.2.2 ∧ c.2.2 ≤ monthLen c.1 c.2.1

/-- Time zone part of a date text. -/
inductive ZoneText
  | local_
  | utc
  | offset (east : Bool) (h m : Nat)

/-- A date text, taken apart. -/
structure Stamp where
  year : Nat
  mon : Nat
  day : Nat
  hour : Nat
  min : Nat
  sec : Nat
  frac : Option Nat
  zone : ZoneText

/-- The text of a time zone. -/
def ZoneText.text : ZoneText → List Char
  | .local_ => []
  | .utc => ['Z']
  | .offset east h m => (if east then '+' else '-') :: (fixDigits 2 h ++ fixDigits 2 m)

/-- The text of a fraction of a second. -/
def fracText : Option Nat → List Char
  | none => []
  | some f => '.' :: fixDigits 1 f

/-- The text. -/
def Stamp.text (s : Stamp) : List Char :=
  fixDigits 4 s.year ++ fixDigits 2 s.mon ++ fixDigits 2 s.day ++ 'T' :: (fixDigits 2 s.hour ++ fixDigits 2 s.min ++ fixDigits 2 s.sec ++
    fracText s.frac ++ s.zone.text)

/-- Seconds east of Greenwich of an offset. -/
def offsetSecs (east : Bool) (h m : Nat) : Int := if east then (h * 60 + m : Nat) * 60 else -((h * 60 + m : Nat) * 60)

/-- Ranges of the fields, apart from the length of the month. -/
structure Stamp.InRange (s : Stamp) : Prop where
  year : 1900 ≤ s.year ∧ s.year ≤ 9999
  mon : 1 ≤ s.mon ∧ s.mon ≤ 12
  day : 1 ≤ s.day ∧ s.day ≤ 31
  hour : s.hour ≤ 23
  min : s.min ≤ 59
  sec : s.sec ≤ 59
  frac : ∀ f, s.frac = some f → f ≤ 9
  zone : ∀ e h m, s.zone = .offset e h m → h ≤ 23 ∧ m ≤ 59

end Spec
