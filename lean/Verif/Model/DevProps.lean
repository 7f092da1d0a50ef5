import Verif.Model.PropDesc
import Verif.Model.Factory
/-!
Device properties: mts/protocol/propertypod.cpp:417-457, 501-530 and 594-632, mtpresponder.cpp:1341-1428 and 2521-2562,
mts/platform/deviceinfo/mtpdeviceinfo.cpp, deviceinfoprovider.cpp and xmlhandler.cpp.
-/
namespace Mtp

/-- One `DevProp` element of the device's configuration file (mts/deviceinfo.xml:97-123): the property code and, if it has a
`DevPropValue` element, its `id` attribute and its text. Simplified: the XML library gives back the text that was written. -/
structure ConfItem where
  code : Nat
  value : Option (QStr × QStr)
  deriving DecidableEq, Repr

/-- `QChar::isSpace` (used by `QString::simplified`, xmlhandler.cpp:155). -/
def isSpace (c : UInt16) : Bool :=
  (9 ≤ c ∧ c ≤ 13) ∨ c = 0x20 ∨ c = 0x85 ∨ c = 0xA0 ∨ c = 0x1680 ∨ (0x2000 ≤ c ∧ c ≤ 0x200A) ∨ c = 0x2028 ∨ c = 0x2029 ∨
  c = 0x202F ∨ c = 0x205F ∨ c = 0x3000

/-- xmlhandler.cpp:155: text that is ignored. -/
def blank (s : QStr) : Bool := s.all isSpace

/-- "friendlyname", mtpdeviceinfo.cpp:532. -/
def ID_NAME : QStr := "friendlyname".toList.map fun c => UInt16.ofNat c.toNat
/-- "syncpartner", mtpdeviceinfo.cpp:521. -/
def ID_PARTNER : QStr := "syncpartner".toList.map fun c => UInt16.ofNat c.toNat

/-- Members of `MtpDeviceInfo` that device properties are about, the default values captured by `PropertyPod`'s constructor, and
the configuration file. `changes` is the list of emitted `devicePropertyChanged` signals. Simplified: the device type is fixed. -/
structure DevState where
  name : QStr
  partner : QStr
  devType : Nat
  battery : Nat
  icon : List UInt8
  advertised : List Nat
  defName : QStr
  defPartner : QStr
  conf : List ConfItem
  changes : List Nat
  deriving DecidableEq, Repr

/-- xmlhandler.cpp:229-251 for one element: name and partner read so far. -/
def confStep (st : QStr × QStr × List Nat) (i : ConfItem) : QStr × QStr × List Nat :=
  let (n, p, adv) := st
  let adv := adv ++ [i.code]
  match i.value with
  | none => (n, p, adv)
  | some (_, text) =>
    if blank text then (n, p, adv)
    else if i.code = 0xD402 then (text, p, adv)
    else if i.code = 0xD401 then (n, text, adv)
    else (n, p, adv)

/-- "Friendly" and "Nemo", mtpdeviceinfo.cpp:47-48. -/
def DEF_NAME : QStr := "Friendly".toList.map fun c => UInt16.ofNat c.toNat
def DEF_PARTNER : QStr := "Nemo".toList.map fun c => UInt16.ofNat c.toNat

/-- mtpdeviceinfo.cpp:538-561 `modifyDeviceInfoXml`: the first element with that id gets the new text. -/
def confSet (id v : QStr) : List ConfItem → List ConfItem
  | [] => []
  | i :: r =>
    match i.value with
    | some (id', _) => if id' = id then { i with value := some (id', v) } :: r else i :: confSet id v r
    | none => i :: confSet id v r

/-- mtpdeviceinfo.cpp:264-378 with a readable configuration, deviceinfoprovider.cpp:42-60, propertypod.cpp:501-530. `fresh` tells
that the file was just created from the template, in which case the name becomes the model. -/
def DevState.start (conf : List ConfItem) (fresh : Bool) (model : QStr) (devType : Nat) (icon : List UInt8) : DevState :=
  let (n, p, adv) := conf.foldl confStep (DEF_NAME, DEF_PARTNER, [])
  let (n, conf) := if fresh then (model, confSet ID_NAME model conf) else (n, conf)
  { name := n, partner := p, devType := devType, battery := 0, icon := icon, advertised := adv,
    defName := n, defPartner := p, conf := conf, changes := [] }

/-- mtpdeviceinfo.cpp:527-533 `setDeviceFriendlyName`. -/
def DevState.setName (s : DevState) (v : QStr) : DevState := { s with name := v, conf := confSet ID_NAME v s.conf }

/-- mtpdeviceinfo.cpp:516-522 `setSyncPartner`. -/
def DevState.setPartner (s : DevState) (v : QStr) : DevState :=
  { s with partner := v, conf := confSet ID_PARTNER v s.conf }

/-- mtpdeviceinfo.cpp:604-610 `setBatteryLevel`, deviceinfoprovider.cpp:66-71 `onBatteryPercentageChanged`. -/
def DevState.batteryChanged (s : DevState) (percentage : Int) : DevState :=
  if percentage ≥ 0 then
    let level := u8 (min percentage.toNat 255)
    if s.battery ≠ level then { s with battery := level, changes := s.changes ++ [0x5001] } else s
  else s

/-- propertypod.cpp:594-632 `getDevicePropDesc` with the table 417-446 and the constructor 501-530. Absent defaults are invalid
variants, `.arr 0 []`; the range of the battery level is given by plain `int`s (mtpdeviceinfo.cpp:594-597). -/
def DevState.desc (s : DevState) (p : Nat) : Option DevPropDesc :=
  if p = 0x5001 then
    some { code := p, dtype := 0x0002, getSet := false, defVal := .arr 0 [], curVal := .int 1 s.battery, flag := 1,
           form := .range (.int 4 0) (.int 4 100) (.int 4 10) }
  else if p = 0xD401 then
    some { code := p, dtype := 0xFFFF, getSet := true, defVal := .str s.defPartner, curVal := .str s.partner, flag := 0,
           form := .none }
  else if p = 0xD402 then
    some { code := p, dtype := 0xFFFF, getSet := true, defVal := .str s.defName, curVal := .str s.name, flag := 0,
           form := .none }
  else if p = 0xD405 then
    some { code := p, dtype := 0x4002, getSet := false, defVal := .arr 0 [], curVal := .arr 1 (s.icon.map UInt8.toNat),
           flag := 0, form := .none }
  else if p = 0xD407 then
    some { code := p, dtype := 0x0006, getSet := false, defVal := .int 4 s.devType, curVal := .int 4 s.devType, flag := 0,
           form := .none }
  else none

/-- mtpresponder.cpp:1341-1371 `getDevicePropDescReq` after the transaction check; `propCode` is a quint16 parameter of
`getDevicePropDesc`, 64 stands for `sizeof(MtpDevPropDesc)`. -/
def getDevicePropDesc (s : DevState) (tid p0 : Nat) : Res (Option (List UInt8) × Resp) :=
  match s.desc (u16 p0) with
  | some d => do
    let t ← Tx.new 2 0x1014 tid 64
    let t ← t.putDevPropDesc d
    let (bytes, _) ← t.buffer
    return (some bytes, .ok)
  | none => .ok (none, .devicePropNotSupported)

/-- mtpresponder.cpp:1373-1403 `getDevicePropValueReq` after the transaction check. -/
def getDevicePropValue (s : DevState) (tid p0 : Nat) : Res (Option (List UInt8) × Resp) :=
  match s.desc (u16 p0) with
  | some d => do
    let t ← Tx.new 2 0x1015 tid 16
    let t ← t.putVariant d.dtype d.curVal
    let (bytes, _) ← t.buffer
    return (some bytes, .ok)
  | none => .ok (none, .devicePropNotSupported)

/-- mtpresponder.cpp:1405-1428 `setDevicePropValueReq` after the transaction check. -/
def setDevicePropValueReq (s : DevState) (p0 : Nat) : Resp :=
  match s.desc (u16 p0) with
  | some _ => .ok
  | none => .devicePropNotSupported

/-- mtpresponder.cpp:2521-2562 `setDevicePropValueData`, reached only if the request phase was accepted (638-700: otherwise its
response is sent at the end of the data phase). -/
def setDevicePropValueData (s : DevState) (resp : Resp) (p0 : Nat) (rx : Rx) : Res (DevState × Resp) :=
  if resp = .ok then
    if u16 p0 = 0xD402 then rx.getStr >>= fun q => .ok (s.setName q.1, .ok)
    else if u16 p0 = 0xD401 then rx.getStr >>= fun q => .ok (s.setPartner q.1, .ok)
    else .ok (s, .ok)
  else .ok (s, resp)

/-- What happens to the device properties over time. -/
inductive DevOp where
  | describe (tid p : Nat)
  | value (tid p : Nat)
  | set (p : Nat) (rx : Rx)
  | battery (percentage : Int)

/-- One such step; a request that runs into undefined behaviour is left without effect here. -/
def DevState.step (s : DevState) : DevOp → DevState
  | .describe _ _ => s
  | .value _ _ => s
  | .set p rx =>
    match setDevicePropValueData s (setDevicePropValueReq s p) p rx with
    | .ok (s', _) => s'
    | .ub _ => s
  | .battery n => s.batteryChanged n

end Mtp
