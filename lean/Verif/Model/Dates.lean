import Verif.Model.Decimal
/-!
Dates of objects: conversion between file times and MTP date texts
(mts/platform/storage/fsstorageplugin/fsstorageplugin.cpp:82-334).

The C library is a parameter as far as time zones go; its calendar (`timegm`, `gmtime`) is written out below and checked
against the rules of the Gregorian calendar in `Props/Dates.lean`. Years too large for an `int` are not modelled.
-/
namespace Mtp

/-- Days from 1970-01-01 to a date. The day of the month enters linearly, as in `mktime`, which accepts a 31st of June. -/
def daysFromCivil (y m d : Int) : Int :=
  let y' := if m ≤ 2 then y - 1 else y
  let era := y' / 400
  let yoe := y' - era * 400
  let mp := if m > 2 then m - 3 else m + 9
  let doy := (153 * mp + 2) / 5 + d - 1
  era * 146097 + (yoe * 365 + yoe / 4 - yoe / 100 + doy) - 719468

/-- Date of a day counted from 1970-01-01. -/
def civilFromDays (z : Int) : Int × Int × Int :=
  let z' := z + 719468
  let era := z' / 146097
  let doe := z' - era * 146097
  let cen := if doe / 36524 < 4 then doe / 36524 else 3
  let doc := doe - cen * 36524
  let quad := doc / 1461
  let doq := doc - quad * 1461
  let yr := if doq / 365 < 4 then doq / 365 else 3
  let yoe := 100 * cen + 4 * quad + yr
  let doy := doq - yr * 365
  let mp := (5 * doy + 2) / 153
  let d := doy - (153 * mp + 2) / 5 + 1
  let m := if mp < 10 then mp + 3 else mp - 9
  (if m ≤ 2 then yoe + era * 400 + 1 else yoe + era * 400, m, d)

/-- `struct tm`, with the year and the month as people write them. -/
structure Tm where
  year : Int
  mon : Int
  day : Int
  hour : Int
  min : Int
  sec : Int

/-- `timegm`. -/
def Tm.secs (t : Tm) : Int := daysFromCivil t.year t.mon t.day * 86400 + t.hour * 3600 + t.min * 60 + t.sec

/-- `gmtime`. -/
def tmOf (s : Int) : Tm :=
  let c := civilFromDays (s / 86400)
  let r := s % 86400
  ⟨c.1, c.2.1, c.2.2, r / 3600, r / 60 % 60, r % 60⟩

/-- The time zone in use. -/
structure Zone where
  /-- `tm_gmtoff` of an instant: seconds east of Greenwich. -/
  off : Int → Int
  /-- `mktime`: the instant of a local time (given as if it were Greenwich time), with `tm_isdst = -1`. -/
  mktime : Int → Int

/-- `get_number` (lines 95-117): exactly `w` digits. -/
def getNumber : Nat → Nat → List Char → Option (Nat × List Char)
  | 0, acc, s => some (acc, s)
  | _ + 1, _, [] => none
  | w + 1, acc, c :: s =>
    match digitVal c with
    | none => none
    | some d => getNumber w (acc * 10 + d) s

/-- `get_number` followed by a range check. -/
def getRange (w lo hi : Nat) (s : List Char) : Option (Nat × List Char) :=
  match getNumber w 0 s with
  | some (n, r) => if lo ≤ n ∧ n ≤ hi then some (n, r) else none
  | none => none

/-- `get_constant` (lines 119-131). -/
def getConst (c : Char) : List Char → Option (List Char)
  | [] => none
  | x :: r => if x = c then some r else none

/-- The optional fraction of a second (lines 197-207), checked and ignored. -/
def skipFraction (s : List Char) : Option (List Char) :=
  match getConst '.' s with
  | none => some s
  | some r => (getRange 1 0 9 r).map (·.2)

/-- The fields up to the time zone (lines 159-212); a year below 1900 is rejected. -/
def parseTm (s : List Char) : Option (Tm × List Char) := do
  let (y, s) ← getRange 4 1900 9999 s
  let (mo, s) ← getRange 2 1 12 s
  let (d, s) ← getRange 2 1 31 s
  let s ← getConst 'T' s
  let (h, s) ← getRange 2 0 23 s
  let (mi, s) ← getRange 2 0 59 s
  let (sec, s) ← getRange 2 0 59 s
  let s ← skipFraction s
  some (⟨y, mo, d, h, mi, sec⟩, s)

/-- The time zone (lines 216-257): instant and text left over. -/
def parseZone (z : Zone) (tm : Tm) (s : List Char) : Option (Int × List Char) :=
  match s with
  | [] => some (z.mktime tm.secs, [])
  | c :: r =>
    if c = 'Z' then some (tm.secs, s)
    else if c = '+' ∨ c = '-' then do
      let (oh, r) ← getRange 2 0 23 r
      let (om, r) ← getRange 2 0 59 r
      let o : Int := (oh * 60 + om) * 60
      let o := if c = '+' then o else -o
      let t := z.mktime tm.secs
      some (t + (o - z.off t), r)
    else none

/-- `datetime_to_time_t` (lines 133-266); -1 stands for a rejected text. The C text ends at the first zero character. -/
def parseDate (z : Zone) (s : List Char) : Int :=
  match parseTm (s.takeWhile (· ≠ Char.ofNat 0)) with
  | none => -1
  | some (tm, r) =>
    match parseZone z tm r with
    | none => -1
    | some (t, rest) => if rest.isEmpty then t else -1

/-- `%04d` of a possibly negative year. -/
def fmtYear (y : Int) : List Char := if 0 ≤ y then padDigits 4 y.toNat else '-' :: padDigits 3 (-y).toNat

/-- `datetime_from_time_t` (lines 268-318, 326-334): empty for -1. -/
def formatDate (z : Zone) (t : Int) : List Char :=
  if t = -1 then []
  else
    let g := z.off t
    let tm := tmOf (t + g)
    let o := g.natAbs
    fmtYear tm.year ++ padDigits 2 tm.mon.toNat ++ padDigits 2 tm.day.toNat ++ 'T' :: padDigits 2 tm.hour.toNat ++
      padDigits 2 tm.min.toNat ++ padDigits 2 tm.sec.toNat ++ (if 0 ≤ g then '+' else '-') ::
      padDigits 2 (o / 60 / 60) ++ padDigits 2 (o / 60 % 60)

end Mtp
