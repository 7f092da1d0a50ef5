import Verif.Model.Device
import Verif.Spec.ServerProps
import Verif.Spec.DevProps
/-! What a host relies on when it talks to the whole device (C109–C112). -/
namespace Spec
open Mtp

/-- A history of the device in which no command among `avoid` is given: commands, data, cancellations, suspends, resets,
notifications; at any time the device may drop cached property values, its battery level may change (to `n` percent) and so may its
file system (by other programs: what `statvfs` says about it). -/
inductive Elapsed (avoid : List Nat) : Rsp Device → Rsp Device → Prop
  | start (r : Rsp Device) : Elapsed avoid r r
  | step {r r1 r2 : Rsp Device} {i : Rsp.In Device} : Elapsed avoid r r1 → Avoiding avoid i → r1.step Device.dev i = .ok r2 →
      Elapsed avoid r r2
  | drop {r r1 : Rsp Device} (h p : Nat) : Elapsed avoid r r1 →
      Elapsed avoid r { r1 with dev := { r1.dev with ps := { r1.dev.ps with cache := r1.dev.ps.cache.remove h p } } }
  | battery {r r1 : Rsp Device} (n : Int) : Elapsed avoid r r1 →
      Elapsed avoid r { r1 with dev := { r1.dev with props := r1.dev.props.batteryChanged n } }
  | space {r r1 : Rsp Device} (v : Option StatVfs) : Elapsed avoid r r1 →
      Elapsed avoid r { r1 with dev := { r1.dev with stat := v } }

/-- A SetObjectReferences transaction: command `q` for object `h`, the list `l` in the packets `bs`. -/
structure SettingRefs (q : List UInt8) (bs : List (List UInt8)) (h : Nat) (l : List Nat) : Prop where
  ask : Asking q 0x9811
  object : cParam q 0 = h
  data : CarriesDataset bs (dataContainer 0x9811 (cTid q) (enc (.arr 4 l)))
  short : l.length ≤ 2 ^ 27
  handles : ∀ x ∈ l, x < 2 ^ 32

/-- A history in which no references of object `h` are set: anything else, also SetObjectReferences transactions (between two
commands) for other objects, and for `h` ones with a reference to something that does not exist. -/
inductive Referring (h : Nat) : Rsp Device → Rsp Device → Prop
  | start (r : Rsp Device) : Referring h r r
  | lived {r r1 r2 : Rsp Device} : Referring h r r1 → Elapsed [0x9811] r1 r2 → Referring h r r2
  | other {r r1 r2 : Rsp Device} {q : List UInt8} {bs : List (List UInt8)} {x : Nat} {l : List Nat} : Referring h r r1 → Open r1 →
      SettingRefs q bs x l → (x ≠ h ∨ ∃ y ∈ l, r1.dev.ps.srv.tree.has y = false) → r1.run Device.dev (sendObject q bs) = .ok r2 →
      Referring h r r2

/-- Asked for the references of object `h`, the device says `l`. -/
def TellsRefs (r : Rsp Device) (h : Nat) (l : List Nat) : Prop :=
  ∀ q, Asking q 0x9810 → cParam q 0 = h → ∃ (r1 : Rsp Device) (b : List UInt8),
    AnsweredBy Device.dev r r1 (ask q) q .ok [] ∧ dataOf r1.out = dataOf r.out ++ b ∧
    readHandles 0x9810 0 (dataContainer 0x9810 0 b) = some l

/-- A SetDevicePropValue transaction: command `q` for property `p`, the value's bytes `pay` in the packets `bs`. -/
structure SettingProp (q : List UInt8) (bs : List (List UInt8)) (p : Nat) (pay : List UInt8) : Prop where
  ask : Asking q 0x1016
  prop : cParam q 0 = p
  data : CarriesDataset bs (dataContainer 0x1016 (cTid q) pay)
  short : pay.length ≤ 2 ^ 30

/-- A history in which device property `p` is not set: anything else, also SetDevicePropValue transactions (between two commands)
for other properties (of the first parameter the device looks at the lower 16 bits). -/
inductive Leaving (p : Nat) : Rsp Device → Rsp Device → Prop
  | start (r : Rsp Device) : Leaving p r r
  | lived {r r1 r2 : Rsp Device} : Leaving p r r1 → Elapsed [0x1016] r1 r2 → Leaving p r r2
  | other {r r1 r2 : Rsp Device} {q : List UInt8} {bs : List (List UInt8)} {x : Nat} {pay : List UInt8} : Leaving p r r1 →
      Open r1 → SettingProp q bs x pay → x % 2 ^ 16 ≠ p → r1.run Device.dev (sendObject q bs) = .ok r2 → Leaving p r r2

/-- Asked for the value of device property `p` (of data type `dt`), the device says `v`. -/
def TellsProp (r : Rsp Device) (p dt : Nat) (v : Val) : Prop :=
  ∀ q, Asking q 0x1015 → cParam q 0 = p → ∃ (r1 : Rsp Device) (b : List UInt8),
    AnsweredBy Device.dev r r1 (ask q) q .ok [] ∧ dataOf r1.out = dataOf r.out ++ b ∧ r1.dev = r.dev ∧
    readValue 0x1015 0 dt (dataContainer 0x1015 0 b) = some v

/-- Asked for the description of device property `p`, the device says `d`. -/
def Describes (r : Rsp Device) (p : Nat) (d : DevPropDesc) : Prop :=
  ∀ q, Asking q 0x1014 → cParam q 0 = p → ∃ (r1 : Rsp Device) (b : List UInt8),
    AnsweredBy Device.dev r r1 (ask q) q .ok [] ∧ dataOf r1.out = dataOf r.out ++ b ∧ r1.dev = r.dev ∧
    readDevDesc 0x1014 0 (dataContainer 0x1014 0 b) = some d

/-- The responder is between two commands; there may be a session or none, and the storages may not have been read yet. -/
structure Quiescent (r : Rsp Device) : Prop where
  idle : r.st = .idle
  none : r.req = none

/-- The command `q` was answered with one response, `c` without parameters, and the data `b`; nothing else changed. (The transaction id
of responses is cut to 16 bits, see C36.) -/
structure Replied (r r' : Rsp Device) (q : List UInt8) (c : Resp) (b : List UInt8) : Prop where
  run : r.run Device.dev (ask q) = .ok r'
  out : ∃ t, t % 2 ^ 16 = cTid q % 2 ^ 16 ∧ responses r'.out = responses r.out ++ [.response c t []]
  data : dataOf r'.out = dataOf r.out ++ b
  again : Quiescent r'
  same : r'.session = r.session ∧ r'.ready = r.ready ∧ r'.dev = r.dev

/-- Asked about itself, the device says `i`. -/
def TellsInfo (r : Rsp Device) (i : DeviceInfo) : Prop :=
  ∀ q, cCode q = 0x1001 → ∃ (r1 : Rsp Device) (b : List UInt8), Replied r r1 q .ok b ∧
    readDeviceInfo 0 (dataContainer 0x1001 0 b) = some i

/-- Asked for its storages, the device lists `l`. -/
def TellsStorages (r : Rsp Device) (l : List Nat) : Prop :=
  ∀ q, Asking q 0x1004 → ∃ (r1 : Rsp Device) (b : List UInt8), Replied r r1 q .ok b ∧
    readHandles 0x1004 0 (dataContainer 0x1004 0 b) = some l

/-- Asked about storage `id`, the device says `i`. -/
def TellsStorage (r : Rsp Device) (id : Nat) (i : StorageInfo) : Prop :=
  ∀ q, Asking q 0x1005 → cParam q 0 = id → ∃ (r1 : Rsp Device) (b : List UInt8), Replied r r1 q .ok b ∧
    readStorageInfo 0 (dataContainer 0x1005 0 b) = some i

/-- Asked for the properties of objects of format `fmt`, the device lists `l`. -/
def ListsProps (r : Rsp Device) (fmt : Nat) (l : List Nat) : Prop :=
  ∀ q, Asking q 0x9801 → cParam q 0 = fmt → ∃ (r1 : Rsp Device) (b : List UInt8), Replied r r1 q .ok b ∧
    readCodes 0x9801 0 (dataContainer 0x9801 0 b) = some l

/-- Asked for the description of property `p` of objects of format `fmt`, the device says `d`. -/
def DescribesProp (r : Rsp Device) (fmt p : Nat) (d : ObjPropDesc) : Prop :=
  ∀ q, Asking q 0x9802 → cParam q 0 = p → cParam q 1 = fmt → ∃ (r1 : Rsp Device) (b : List UInt8), Replied r r1 q .ok b ∧
    readDesc 0x9802 0 (dataContainer 0x9802 0 b) = some d

/-- Every such command is refused with `c`, without data. -/
def RefusesAll (r : Rsp Device) (code : Nat) (which : List UInt8 → Prop) (c : Resp) : Prop :=
  ∀ q, Asking q code → which q → ∃ r1 : Rsp Device, Replied r r1 q c []

end Spec
