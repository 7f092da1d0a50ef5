import Verif.Spec.PropDesc
import Verif.Spec.PropPod
import Verif.Spec.PropSet
import Verif.Model.DevProps
/-! What a host makes of the answers about device properties. -/
namespace Spec
open Mtp

/-- A complete device property description. -/
def readDevDesc (op tid : Nat) (bytes : List UInt8) : Option DevPropDesc := do
  let p ← payload op tid bytes
  match takeDevPropDesc p with
  | some (d, []) => some d
  | _ => none

/-- What the host is told on asking for the description of property `p`. -/
def toldDesc (s : DevState) (p : Nat) (d : DevPropDesc) : Prop :=
  ∀ tid, ∃ bytes, getDevicePropDesc s tid p = .ok (some bytes, .ok) ∧ readDevDesc 0x1014 tid bytes = some d

/-- What the host is told on asking for the value of property `p` of data type `dt`. -/
def toldDevValue (s : DevState) (p dt : Nat) (v : Val) : Prop :=
  ∀ tid, ∃ bytes, getDevicePropValue s tid p = .ok (some bytes, .ok) ∧ readValue 0x1015 tid dt bytes = some v

end Spec
