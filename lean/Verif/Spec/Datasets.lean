import Verif.Spec.PropPod
import Verif.Model.Datasets
/-! What a host reads from the datasets about the device, its storages and objects, from the MTP standard. -/
namespace Spec
open Mtp (Val Ty QStr)

/-- Reads data of given shapes one after another. -/
def takeAll : List Ty → List UInt8 → Option (List Val × List UInt8)
  | [], bs => some ([], bs)
  | ty :: tys, bs => do
    let (v, bs) ← takeVal ty bs
    let (vs, bs) ← takeAll tys bs
    return (v :: vs, bs)

/-- A data container whose payload is exactly data of these shapes. -/
def readDataset (op tid : Nat) (tys : List Ty) (bytes : List UInt8) : Option (List Val) := do
  let p ← payload op tid bytes
  match takeAll tys p with
  | some (vs, []) => some vs
  | _ => none

/-- The DeviceInfo dataset of the standard. -/
structure DeviceInfo where
  standardVersion : Nat
  vendorExtensionId : Nat
  vendorExtensionVersion : Nat
  vendorExtensions : QStr
  functionalMode : Nat
  operations : List Nat
  events : List Nat
  deviceProperties : List Nat
  captureFormats : List Nat
  playbackFormats : List Nat
  manufacturer : QStr
  model : QStr
  deviceVersion : QStr
  serialNumber : QStr
  deriving DecidableEq, Repr

/-- A host reads the DeviceInfo dataset. -/
def readDeviceInfo (tid : Nat) (bytes : List UInt8) : Option DeviceInfo := do
  let vs ← readDataset 0x1001 tid [.int 2, .int 4, .int 2, .str, .int 2, .arr 2, .arr 2, .arr 2, .arr 2, .arr 2,
    .str, .str, .str, .str] bytes
  match vs with
  | [.int _ a, .int _ b, .int _ c, .str d, .int _ e, .arr _ f, .arr _ g, .arr _ h, .arr _ i, .arr _ j,
     .str k, .str l, .str m, .str n] => some ⟨a, b, c, d, e, f, g, h, i, j, k, l, m, n⟩
  | _ => none

/-- The StorageInfo dataset of the standard. -/
structure StorageInfo where
  storageType : Nat
  filesystemType : Nat
  accessCapability : Nat
  maxCapacity : Nat
  freeSpaceBytes : Nat
  freeSpaceObjects : Nat
  description : QStr
  volumeIdentifier : QStr
  deriving DecidableEq, Repr

/-- A host reads the StorageInfo dataset. -/
def readStorageInfo (tid : Nat) (bytes : List UInt8) : Option StorageInfo := do
  let vs ← readDataset 0x1005 tid [.int 2, .int 2, .int 2, .int 8, .int 8, .int 4, .str, .str] bytes
  match vs with
  | [.int _ a, .int _ b, .int _ c, .int _ d, .int _ e, .int _ f, .str g, .str h] => some ⟨a, b, c, d, e, f, g, h⟩
  | _ => none

/-- A host reads an array of 32-bit numbers: storage ids, object handles or references. -/
def readHandles (op tid : Nat) (bytes : List UInt8) : Option (List Nat) := do
  match ← readDataset op tid [.arr 4] bytes with
  | [.arr _ vs] => some vs
  | _ => none

/-- A host reads the ObjectInfo dataset. -/
def readObjInfo (tid : Nat) (bytes : List UInt8) : Option Mtp.ObjInfo := do
  let vs ← readDataset 0x1008 tid [.int 4, .int 2, .int 2, .int 4, .int 2, .int 4, .int 4, .int 4, .int 4, .int 4, .int 4, .int 4,
    .int 2, .int 4, .int 4, .str, .str, .str, .str] bytes
  match vs with
  | [.int _ a, .int _ b, .int _ c, .int _ d, .int _ e, .int _ f, .int _ g, .int _ h, .int _ i, .int _ j, .int _ k, .int _ l,
     .int _ m, .int _ n, .int _ o, .str p, .str q, .str r, .str s] =>
    some { storageId := a, format := b, protection := c, size := d, thumbFormat := e, thumbSize := f, thumbWidth := g,
           thumbHeight := h, imageWidth := i, imageHeight := j, bitDepth := k, parent := l, assocType := m, assocDesc := n,
           sequence := o, fileName := p, captureDate := q, modDate := r, keywords := s }
  | _ => none

/-- The bytes a file system has and the bytes available to users (POSIX: blocks are counted in fragments). -/
def capacityOf (v : Mtp.StatVfs) : Nat := v.blocks * v.frsize
def availableOf (v : Mtp.StatVfs) : Nat := v.bavail * v.frsize

end Spec
