import Verif.Model.Responder
import Verif.Model.TreeQuery
import Verif.Model.Transfer
import Verif.Model.ObjInfo
/-!
The datasets the responder sends for queries about the device, its storages and objects: mts/protocol/mtpresponder.cpp, and the
device's configuration behind the device information: mts/platform/deviceinfo/mtpdeviceinfo.cpp and xmlhandler.cpp.
-/
namespace Mtp

/-- Members of `MtpDeviceInfo` that GetDeviceInfo reports (platform/deviceinfo/mtpdeviceinfo.h:151-350). -/
structure InfoState where
  stdVersion : Nat
  vendorExt : Nat
  mtpVersion : Nat
  extension : QStr
  mode : Nat
  ops : List Nat
  events : List Nat
  devProps : List Nat
  common : List Nat
  image : List Nat
  audio : List Nat
  video : List Nat
  manufacturer : QStr
  model : QStr
  version : QStr
  serial : QStr
  deriving DecidableEq, Repr

/-- A text element of the configuration file as `XMLHandler` sees it (xmlhandler.cpp:56-133), in document order. Simplified: a
number is given as its value, or `none` if the text is no number of that width; elements not reported by GetDeviceInfo and blank
texts do nothing (xmlhandler.cpp:155). Simplified: the parser reports a text in one piece. -/
inductive ConfLeaf where
  | stdVersion (n : Option Nat) | vendorExt (n : Option Nat) | mtpVersion (n : Option Nat) | extension (s : QStr)
  | mode (n : Option Nat) | manufacturer (s : QStr) | model (s : QStr) | version (s : QStr) | serial (s : QStr)
  | op (n : Option Nat) | event (n : Option Nat) | devProp (n : Option Nat)
  | common (n : Option Nat) | image (n : Option Nat) | audio (n : Option Nat) | video (n : Option Nat)
  | other
  deriving DecidableEq, Repr

/-- xmlhandler.cpp:152-375 `characters`: the new state and whether the parser goes on. A text that is no number still
stores or appends 0. -/
def InfoState.leaf (s : InfoState) : ConfLeaf → InfoState × Bool
  | .stdVersion n => ({ s with stdVersion := n.getD 0 }, n.isSome)
  | .vendorExt n => ({ s with vendorExt := n.getD 0 }, n.isSome)
  | .mtpVersion n => ({ s with mtpVersion := n.getD 0 }, n.isSome)
  | .extension _ => (s, true)
  | .mode n => ({ s with mode := n.getD 0 }, n.isSome)
  | .manufacturer t => ({ s with manufacturer := t }, true)
  | .model t => ({ s with model := t }, true)
  | .version t => ({ s with version := t }, true)
  | .serial t => ({ s with serial := t }, true)
  | .op n => ({ s with ops := s.ops ++ [n.getD 0] }, n.isSome)
  | .event n => ({ s with events := s.events ++ [n.getD 0] }, n.isSome)
  | .devProp n => ({ s with devProps := s.devProps ++ [n.getD 0] }, n.isSome)
  | .common n => ({ s with common := s.common ++ [n.getD 0] }, n.isSome)
  | .image n => ({ s with image := s.image ++ [n.getD 0] }, n.isSome)
  | .audio n => ({ s with audio := s.audio ++ [n.getD 0] }, n.isSome)
  | .video n => ({ s with video := s.video ++ [n.getD 0] }, n.isSome)
  | .other => (s, true)

/-- `QXmlSimpleReader::parse` with that handler (mtpdeviceinfo.cpp:329): the parser stops at the first refused text. -/
def InfoState.leaves (s : InfoState) : List ConfLeaf → InfoState × Bool
  | [] => (s, true)
  | l :: ls => if (s.leaf l).2 then (s.leaf l).1.leaves ls else ((s.leaf l).1, false)

/-- mtpdeviceinfo.cpp:130-184 `m_commonFormatsTable`. -/
def commonTable : List Nat :=
  [0x3000, 0x3001, 0x3004, 0x3005, 0xBA03, 0xBA05, 0xBB82, 0xBB83, 0xBE02, 0xBA13, 0xBB21, 0xBA09, 0xBB11, 0xBE01, 0xBA08, 0xBB81,
   0xBA06, 0xBA81, 0xBA02, 0xBA0B, 0xBB01, 0xBA07, 0xBA01, 0xBB61, 0xBB41, 0xBA04, 0xBA0A, 0x3006, 0x3003, 0xBA11, 0xBA84, 0xBA12,
   0xBA85, 0xBA86, 0xBA83, 0xBA14, 0x3002, 0xBB20, 0xBB10, 0xBE00, 0xBA00, 0xBB80, 0xBA80, 0xB802, 0xBB00, 0xBB60, 0xBB40, 0xBE80,
   0xBA10, 0xBA82, 0xBB42, 0xBE03, 0xBB22]
/-- mtpdeviceinfo.cpp:186-206 `m_imageFormatsTable`. -/
def imageTable : List Nat :=
  [0x3800, 0x3801, 0x3807, 0x380B, 0x380D, 0x3804, 0xB908, 0x3805, 0x3803, 0x3808, 0x380F, 0xB804, 0x3810, 0x3809, 0x380A, 0x3802,
   0x380E, 0xB803, 0xB881]
/-- mtpdeviceinfo.cpp:208-221 `m_audioFormatsTable`. -/
def audioTable : List Nat :=
  [0x3009, 0xB901, 0x3008, 0xB903, 0xB985, 0x3007, 0xB904, 0xB906, 0xB983, 0xB907, 0xB215, 0xB900]
/-- mtpdeviceinfo.cpp:223-234 `m_videoFormatsTable`. -/
def videoTable : List Nat := [0x300A, 0x300B, 0xB984, 0xB982, 0xB981, 0x300C, 0xB987, 0xB986, 0xB988, 0xB980]
/-- mtpdeviceinfo.cpp:236-248 `m_eventsSupportedTable`. -/
def eventTable : List Nat :=
  [0x4009, 0x4003, 0x4002, 0x4004, 0x4005, 0x400A, 0x400C, 0x4007, 0x4008, 0x4006, 0xC801]
/-- mtpdeviceinfo.cpp:250-253 `m_devPropsSupportedTable`. -/
def devPropTable : List Nat := [0xD401, 0xD402]

/-- A C string literal as a `QString`. -/
def ascii (s : String) : QStr := s.toList.map fun c => UInt16.ofNat c.toNat

/-- mtpdeviceinfo.cpp:46-59 and 264-303: the values before the configuration is read. -/
def initialInfo : InfoState :=
  { stdVersion := 100, vendorExt := 6, mtpVersion := 100,
    extension := ascii "microsoft.com: 1.0; microsoft.com/WMPPD: 11.0; android.com: 1.0;", mode := 0, ops := [], events := [],
    devProps := [], common := [], image := [], audio := [], video := [], manufacturer := ascii "Nemo", model := ascii "Nemo",
    version := ascii "Nemo", serial := ascii "00000000000000000000000000000001" }

/-- mtpdeviceinfo.cpp:354-357 and its four copies: what is not contained yet is appended. -/
def augment (l : List Nat) : List Nat → List Nat
  | [] => l
  | x :: xs => augment (if x ∈ l then l else l ++ [x]) xs

/-- mtpdeviceinfo.cpp:329-375: the configuration is read; if that fails (also because the file is not well-formed XML, `wf`) the
tables of events and device properties are appended; the tables of operations and formats always augment what was read. -/
def loadInfo (ls : List ConfLeaf) (wf : Bool) : InfoState :=
  let (s, ok) := initialInfo.leaves ls
  let s := if ok && wf then s else { s with events := s.events ++ eventTable, devProps := s.devProps ++ devPropTable }
  { s with ops := augment s.ops advertised, common := augment s.common commonTable, audio := augment s.audio audioTable,
           image := augment s.image imageTable, video := augment s.video videoTable }

/-- mtpdeviceinfo.cpp:377 `m_supportedFormats`. -/
def InfoState.formats (s : InfoState) : List Nat := s.image ++ s.audio ++ s.video ++ s.common

/-- mtpresponder.cpp:855-866: the estimated payload length. -/
def InfoState.estimate (s : InfoState) : Nat :=
  u32 (2 + 4 + 2 + 2 + s.ops.length + s.ops.length * 2 + s.events.length + s.events.length * 2 + s.devProps.length +
    s.devProps.length * 2 + 4 + 0 + s.formats.length + s.formats.length * 2 + 1 + (s.extension.length + 1) * 2 +
    1 + (s.manufacturer.length + 1) * 2 + 1 + (s.model.length + 1) * 2 + 1 + (s.version.length + 1) * 2 +
    1 + (s.serial.length + 1) * 2)

/-- mtpresponder.cpp:815-890 `getDeviceInfoReq`: the data sent. -/
def getDeviceInfo (s : InfoState) (tid : Nat) : Res (List UInt8) :=
  transmit 2 0x1001 tid s.estimate
    [.int 2 s.stdVersion, .int 4 s.vendorExt, .int 2 s.mtpVersion, .str s.extension, .int 2 s.mode, .arr 2 s.ops, .arr 2 s.events,
     .arr 2 s.devProps, .int 4 0, .arr 2 s.formats, .str s.manufacturer, .str s.model, .str s.version, .str s.serial]

/-- What `statvfs` reports (POSIX sys/statvfs.h): the block size, the fragment size, and the numbers of blocks. -/
structure StatVfs where
  bsize : Nat
  frsize : Nat
  blocks : Nat
  bavail : Nat
  deriving DecidableEq, Repr

/-- `MTPStorageInfo` (mts/common/mtptypes.h) as the constructor fills it (fsstorageplugin.cpp:396-414). -/
structure StoreDesc where
  type : Nat
  fsType : Nat := 2
  access : Nat := 0
  capacity : Nat := 0
  free : Nat := 0
  freeObjects : Nat := 0xFFFFFFFF
  description : QStr
  label : QStr
  deriving DecidableEq, Repr

/-- fsstorageplugin.cpp:1431-1446 `storageInfo`; `none` is a failing `statvfs`. -/
def StoreDesc.info (d : StoreDesc) (st : Option StatVfs) : Resp × StoreDesc :=
  match st with
  | none => (.generalError, d)
  | some v => (.ok, { d with capacity := u64 (v.blocks * v.bsize), free := u64 (v.bavail * v.bsize) })

/-- mtpresponder.cpp:937-968 `getStorageIDReq` (after `preCheck`) with storagefactory.cpp:332-341; the order is that of the
hash table. -/
def getStorageIDs (ss : List (Nat × StoreDesc)) (tid : Nat) : Res (List UInt8) :=
  transmit 2 0x1004 tid (u32 (ss.length * 4 + 4)) [.arr 4 (ss.map (·.1))]

/-- mtpresponder.cpp:970-1022 `getStorageInfoReq` (after `preCheck`) with storagefactory.cpp:345-369; `stat` is what `statvfs`
finds out about each storage. -/
def getStorageInfo (ss : List (Nat × StoreDesc)) (stat : Nat → Option StatVfs) (tid id : Nat) :
    Res (Option (List UInt8) × Resp) :=
  match AMap.get ss id with
  | none => .ok (none, .invalidStorageID)
  | some d =>
    match d.info (stat id) with
    | (.ok, i) => do
      let bytes ← transmit 2 0x1005 tid (u32 (28 + (i.description.length + 1) * 2 + (i.label.length + 1) * 2))
        [.int 2 i.type, .int 2 i.fsType, .int 2 i.access, .int 8 i.capacity, .int 8 i.free, .int 4 i.freeObjects,
         .str i.description, .str i.label]
      return (some bytes, .ok)
    | (r, _) => .ok (none, r)

/-- mtpresponder.cpp:1101-1122: the data phase of GetObjectHandles. -/
def getObjectHandles (ss : List (Nat × Tree)) (fmts : List Nat) (tid storage fmt assoc : Nat) :
    Res (Option (List UInt8) × Resp) :=
  match handlesReply ss fmts storage fmt assoc with
  | (.ok, l) => do
    let bytes ← transmit 2 0x1007 tid (u32 ((l.length + 1) * 4)) [.arr 4 l]
    return (some bytes, .ok)
  | (r, _) => .ok (none, r)

/-- mtpresponder.cpp:1124-1160 `getObjectInfoReq` (after `preCheck`); `info` is what the storages say about the object
(`sizeof(MTPObjectInfo)` is `size`). -/
def getObjectInfo (info : Resp × ObjInfo) (size tid : Nat) : Res (Option (List UInt8) × Resp) :=
  match info with
  | (.ok, o) => do
    let t ← Tx.new 2 0x1008 tid (u32 (size + (if o.fileName = [] then 0 else (o.fileName.length + 1) * 2) +
      (if o.captureDate = [] then 0 else (o.captureDate.length + 1) * 2) +
      (if o.modDate = [] then 0 else (o.modDate.length + 1) * 2)))
    let t ← t.putObjInfo o
    let (bytes, _) ← t.buffer
    return (some bytes, .ok)
  | (r, _) => .ok (none, r)

/-- mtpresponder.cpp:2132-2162 `getObjReferencesReq` (after `preCheck`) with storagefactory.cpp:374-382, for a single
storage. -/
def getObjReferences (s : RefTree) (tid h : Nat) : Res (RefTree × Option (List UInt8) × Resp) :=
  if s.t.has h = false then .ok (s, none, .invalidObjectHandle) else
  match s.getRefs h with
  | (s, .ok, l) => do
    let bytes ← transmit 2 0x9810 tid (u32 (l.length * 4 + 4)) [.arr 4 l]
    return (s, some bytes, .ok)
  | (s, r, _) => .ok (s, none, r)

/-- mtpresponder.cpp:2606-2623 `setObjReferencesData` with storagefactory.cpp:387-395, for a single storage. -/
def setObjReferencesData (s : RefTree) (h : Nat) (rx : Rx) : Res (RefTree × Resp) := do
  let (l, _) ← rx.getArr 4
  return s.setRefs h l

end Mtp
