import Verif.Spec.Device
import Verif.Spec.Mixed
/-! The files of the whole device (C115, C116). -/
namespace Spec
open Mtp

/-- GetObjPropValue, SetObjPropValue, GetObjectPropList, SetObjectPropList; GetDeviceInfo, GetStorageIDs, GetStorageInfo,
GetDevicePropDesc, GetDevicePropValue, SetDevicePropValue, GetObjectPropsSupported, GetObjectPropDesc, GetObjectReferences,
SetObjectReferences. -/
def ownOps : List Nat :=
  propOps ++ [0x1001, 0x1004, 0x1005, 0x1014, 0x1015, 0x1016, 0x9801, 0x9802, 0x9810, 0x9811]

/-- The same responder in front of the storage alone: no properties, no references. -/
def stored (r : Rsp Device) : Rsp Server := r.via (·.ps.srv)

/-- A history of the whole device (all operations included) no step of which addresses object `x` (see `Spares`); at any time the device
may also drop cached values, notice another battery level, and its file system may fill. -/
inductive SparesWhole (x : Nat) : Rsp Device → Rsp Device → Prop
  | start (r : Rsp Device) : SparesWhole x r r
  | step {r r1 r2 : Rsp Device} {i : Rsp.In Device} : SparesWhole x r r1 → r1.step Device.dev i = .ok r2 →
      Spares x (stored r1) (i.via (·.ps.srv)) (stored r2) → SparesWhole x r r2
  | drop {r r1 : Rsp Device} (h p : Nat) : SparesWhole x r r1 →
      SparesWhole x r { r1 with dev := { r1.dev with ps := { r1.dev.ps with cache := r1.dev.ps.cache.remove h p } } }
  | battery {r r1 : Rsp Device} (n : Int) : SparesWhole x r r1 →
      SparesWhole x r { r1 with dev := { r1.dev with props := r1.dev.props.batteryChanged n } }
  | space {r r1 : Rsp Device} (v : Option StatVfs) : SparesWhole x r r1 →
      SparesWhole x r { r1 with dev := { r1.dev with stat := v } }

end Spec
