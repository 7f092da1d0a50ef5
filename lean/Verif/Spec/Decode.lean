import Verif.Spec.PropDesc
/-! Which byte sequences contain a complete dataset of given shape (host's view, C08). -/
namespace Spec
open Mtp (Ty)

/-- Number of bytes the first datum of `bs` occupies, if `bs` contains all of it. -/
def extent : Ty → List UInt8 → Option Nat
  | .int w, bs => if w ≤ bs.length then some w else none
  | .arr w, bs =>
    if 4 ≤ bs.length ∧ 4 + digits (bs.take 4) * w ≤ bs.length then
      some (4 + digits (bs.take 4) * w) else none
  | .str, bs =>
    if 1 ≤ bs.length ∧ 1 + 2 * digits (bs.take 1) ≤ bs.length then
      some (1 + 2 * digits (bs.take 1)) else none

/-- `bs` starts with a complete sequence of data of the given types. -/
def complete : List Ty → List UInt8 → Bool
  | [], _ => true
  | t :: ts, bs =>
    match extent t bs with
    | some n => complete ts (bs.drop n)
    | none => false

/-- Types with a fixed-width integer of 1..16 bytes, arrays of them, strings. -/
def TyOk : Ty → Prop
  | .int w => w ∈ [1, 2, 4, 8, 16]
  | .arr w => w ∈ [1, 2, 4, 8, 16]
  | .str => True

/-- The contents of a receive buffer of `limit` bytes fed with packets: a packet is kept whole if
it still fits and dropped otherwise. -/
def keepFitting (limit : Nat) : List UInt8 → List (List UInt8) → List UInt8
  | got, [] => got
  | got, p :: ps =>
    if got.length + p.length ≤ limit then keepFitting limit (got ++ p) ps
    else keepFitting limit got ps

end Spec
