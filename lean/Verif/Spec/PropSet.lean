import Verif.Spec.PropList
/-!
What a host sends and reads when it changes properties (MTP 1.1: SetObjectPropValue, SetObjectPropList, SendObjectPropList).
-/
namespace Spec
open Mtp (Val)

/-- A data container as a host sends it. -/
def dataContainer (op tid : Nat) (pay : List UInt8) : List UInt8 := header (12 + pay.length) 2 op tid ++ pay

/-- The data of an element of a property list. -/
def elemData (e : Elem) : List Val := [.int 4 e.handle, .int 2 e.code, .int 2 e.dtype, e.val]

/-- A property list dataset. -/
def listData (es : List Elem) : List UInt8 := intBytes 4 es.length ++ encs (es.flatMap elemData)

/-- An element whose numbers fit their fields and whose value has the type it names. -/
def SoundElem (e : Elem) : Prop := e.handle < 2 ^ 32 ∧ e.code < 2 ^ 16 ∧ e.dtype < 2 ^ 16 ∧ Typed e.dtype e.val

/-- A host reads a value of a known type that fills the payload. -/
def readValue (op tid dt : Nat) (bytes : List UInt8) : Option Val := do
  let p ← payload op tid bytes
  let ty ← typeOf dt
  match takeVal ty p with
  | some (v, []) => some v
  | _ => none

end Spec
