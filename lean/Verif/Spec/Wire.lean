import Verif.Model.Codec
/-!
The MTP/PTP wire format, written independently of the serializer: which bytes a datum is.
(Only the datum type `Val`/`Ty` is shared with the model.)
-/
namespace Spec
open Mtp (Val Ty QStr)

/-- Little-endian digits of a `w`-byte integer. -/
def intBytes (w v : Nat) : List UInt8 :=
  (List.range w).map fun i => UInt8.ofNat (v / 256 ^ i % 256)

/-- What of a string is transmitted: what precedes the first NUL, at most 254 units. -/
def cut (s : QStr) : QStr := (s.takeWhile (fun c => c != 0)).take 254

/-- MTP string: unit count including terminator (0 for the empty string), units, terminator. -/
def strBytes (s : QStr) : List UInt8 :=
  if s = [] then [0]
  else UInt8.ofNat (s.length + 1) :: ((s.flatMap fun c => intBytes 2 c.toNat) ++ [0, 0])

/-- The bytes of a datum. -/
def enc : Val → List UInt8
  | .int w v => intBytes w v
  | .arr w vs => intBytes 4 vs.length ++ vs.flatMap (intBytes w)
  | .str s => strBytes (cut s)

/-- The bytes of a sequence of data. -/
def encs (vs : List Val) : List UInt8 := vs.flatMap enc

/-- A datum the C++ types can hold. -/
def Fits : Val → Prop
  | .int w v => w ∈ [1, 2, 4, 8, 16] ∧ v < 256 ^ w
  | .arr w vs => w ∈ [1, 2, 4, 8, 16] ∧ vs.length < 2 ^ 32 ∧ ∀ v ∈ vs, v < 256 ^ w
  | .str _ => True

/-- What Qt's UTF-16 import does with a leading byte-order mark. -/
def bom : QStr → QStr
  | [] => []
  | c :: cs =>
    if c = 0xFEFF then cs
    else if c = 0xFFFE then cs.map (fun (u : UInt16) => (u >>> 8) ||| (u <<< 8))
    else c :: cs

/-- What the receiver of a datum obtains. -/
def received : Val → Val
  | .str s => .str (bom (cut s))
  | v => v

/-- A container header. -/
def header (len type code tid : Nat) : List UInt8 :=
  intBytes 4 len ++ intBytes 2 type ++ intBytes 2 code ++ intBytes 4 tid

end Spec
