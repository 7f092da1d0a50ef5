import Verif.Spec.ServerProps
import Verif.Spec.Through
/-! The server with properties and the server without (C104). -/
namespace Spec
open Mtp

/-- GetObjPropValue, SetObjPropValue, GetObjectPropList, SetObjectPropList. -/
def propOps : List Nat := [0x9803, 0x9804, 0x9805, 0x9806]

/-- The same responder in front of the storage alone: no properties, nothing cached. -/
def plainly (r : Rsp PServer) : Rsp Server := r.via (·.srv)

/-- A history without the property requests. -/
def NoProps (r : Rsp PServer) (is : List (Rsp.In PServer)) : Prop := Rsp.Fitting PServer.dev (fun c _ => c ∉ propOps) r is

/-- A history (property requests included) no step of which addresses object `x` (see `Spares`). -/
inductive SparesAll (x : Nat) : Rsp PServer → List (Rsp.In PServer) → Rsp PServer → Prop
  | nil (r : Rsp PServer) : SparesAll x r [] r
  | cons {r r1 r' : Rsp PServer} {i : Rsp.In PServer} {is : List (Rsp.In PServer)} : r.step PServer.dev i = .ok r1 →
      Spares x (plainly r) (i.via (·.srv)) (plainly r1) → SparesAll x r1 is r' → SparesAll x r (i :: is) r'

end Spec
