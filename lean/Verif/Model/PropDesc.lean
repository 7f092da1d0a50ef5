import Verif.Model.Codec
import Verif.Model.Decimal
/-!
Property descriptions: mts/common/mtptypes.h:770-828 `MtpRangeForm`, `MtpEnumForm`,
`MtpDevPropDesc`, `MtpObjPropDesc`; mtptxcontainer.cpp:252-273, 289-376, 407-448.
-/
namespace Mtp

/-- Which C++ type each MTP data type code stands for: the `case` labels of
`serializeVariantByType` (mtptxcontainer.cpp:291-375) and `deserializeVariantByType`
(mtprxcontainer.cpp:254-353), codes from mts/common/mtptypes.h:69-90. -/
def dtShape (code : Nat) : Option Ty :=
  if code = 0x0001 ∨ code = 0x0002 then some (.int 1)
  else if code = 0x0003 ∨ code = 0x0004 then some (.int 2)
  else if code = 0x0005 ∨ code = 0x0006 then some (.int 4)
  else if code = 0x0007 ∨ code = 0x0008 then some (.int 8)
  else if code = 0x0009 ∨ code = 0x000A then some (.int 16)
  else if code = 0x4001 ∨ code = 0x4002 then some (.arr 1)
  else if code = 0x4003 ∨ code = 0x4004 then some (.arr 2)
  else if code = 0x4005 ∨ code = 0x4006 then some (.arr 4)
  else if code = 0x4007 ∨ code = 0x4008 then some (.arr 8)
  else if code = 0x4009 ∨ code = 0x400A then some (.arr 16)
  else if code = 0xFFFF then some .str
  else none

/-- `QVariant::value<T>()`: a number is truncated to the target width and printed in decimal as a string, a value of an
unrelated type gives the default; the 128 bit struct converts to and from nothing else. Simplified: a string is never read as a
number, and numbers are printed without sign. -/
def convert : Ty → Val → Val
  | .int w, .int w' v => if w = 16 ↔ w' = 16 then .int w (v % 256 ^ w) else .int w 0
  | .int w, _ => .int w 0
  | .arr w, .arr w' vs => if w = w' then .arr w vs else .arr w []
  | .arr w, _ => .arr w []
  | .str, .str s => .str s
  | .str, .int w v => if w = 16 then .str [] else .str ((decDigits v).map fun c => UInt16.ofNat c.toNat)
  | .str, _ => .str []

/-- mtptxcontainer.cpp:289-376 `serializeVariantByType`; unknown types write nothing. -/
def Tx.putVariant (t : Tx) (dt : Nat) (v : Val) : Res Tx :=
  match dtShape dt with
  | some ty => t.put (convert ty v)
  | none => .ok t

/-- What the `formField` variant holds (mts/common/mtptypes.h:788-828). -/
inductive Form where
  | none
  | range (min max step : Val)
  | enum (total : Nat) (vals : List Val)
  | num (v : Nat)      -- quint16 / quint32 payloads
  | str (s : QStr)
  deriving DecidableEq, Repr

/-- Serializes a list of variants of one type (mtptxcontainer.cpp:422-424). -/
def Tx.putVariants (t : Tx) (dt : Nat) : List Val → Res Tx
  | [] => .ok t
  | v :: vs => t.putVariant dt v >>= fun t' => t'.putVariants dt vs

/-- mtptxcontainer.cpp:407-448 `serializeFormField`; a form field of the wrong kind reads as the
default (`formField.value<T>()`; an invalid variant is written `.arr 0 []`, which converts to every default). -/
def Tx.putForm (t : Tx) (dt flag : Nat) (f : Form) : Res Tx :=
  if flag = 0x01 then
    match f with
    | .range a b c => do
        let t ← t.putVariant dt a
        let t ← t.putVariant dt b
        t.putVariant dt c
    | _ => do
        let t ← t.putVariant dt (.arr 0 [])
        let t ← t.putVariant dt (.arr 0 [])
        t.putVariant dt (.arr 0 [])
  else if flag = 0x02 then
    match f with
    | .enum n vs => do
        let t ← t.putInt 2 n
        t.putVariants dt vs
    | _ => t.putInt 2 0
  else if flag = 0x04 then
    match f with
    | .num n => t.putInt 2 (u16 n)
    | _ => t.putInt 2 0
  else if flag = 0x05 then
    match f with
    | .str s => t.putStr s
    | _ => t.putStr []
  else if flag = 0x06 ∨ flag = 0xFF then
    match f with
    | .num n => t.putInt 4 (u32 n)
    | _ => t.putInt 4 0
  else .ok t

/-- `MtpDevPropDesc` (mts/common/mtptypes.h). -/
structure DevPropDesc where
  code : Nat
  dtype : Nat
  getSet : Bool
  defVal : Val
  curVal : Val
  flag : Nat
  form : Form
  deriving DecidableEq, Repr

/-- `MtpObjPropDesc` (mts/common/mtptypes.h:818-828). -/
structure ObjPropDesc where
  code : Nat
  dtype : Nat
  getSet : Bool
  defVal : Val
  group : Nat
  flag : Nat
  form : Form
  deriving DecidableEq, Repr

/-- mtptxcontainer.cpp:252-262 `operator<<(MtpDevPropDesc)`. -/
def Tx.putDevPropDesc (t : Tx) (d : DevPropDesc) : Res Tx := do
  let t ← t.putInt 2 d.code
  let t ← t.putInt 2 d.dtype
  let t ← t.putBool d.getSet
  let t ← t.putVariant d.dtype d.defVal
  let t ← t.putVariant d.dtype d.curVal
  let t ← t.putInt 1 d.flag
  t.putForm d.dtype d.flag d.form

/-- mtptxcontainer.cpp:264-273 `operator<<(MtpObjPropDesc)`. -/
def Tx.putObjPropDesc (t : Tx) (d : ObjPropDesc) : Res Tx := do
  let t ← t.putInt 2 d.code
  let t ← t.putInt 2 d.dtype
  let t ← t.putBool d.getSet
  let t ← t.putVariant d.dtype d.defVal
  let t ← t.putInt 4 d.group
  let t ← t.putInt 1 d.flag
  t.putForm d.dtype d.flag d.form

/-- mtprxcontainer.cpp:252-354 `deserializeVariantByType`; unknown types leave the variant as it
was (here: the result is `none`). -/
def Rx.getVariant (r : Rx) (dt : Nat) : Res (Option Val × Rx) :=
  match dtShape dt with
  | some ty => r.get ty >>= fun p => pure (some p.1, p.2)
  | none => .ok (none, r)

end Mtp
