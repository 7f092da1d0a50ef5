import Verif.Model.Server
import Verif.Model.Facts
import Verif.Model.Persist
/-!
The device after its start: one file-system storage with what was found in its directory
(mts/platform/storage/fsstorageplugin/fsstorageplugin.cpp).
-/
namespace Mtp

/-- What a file system knows about the files, besides the names: their bytes, their dates as `getModifiedDate` (1938-1942) writes
them, and the size of a ready thumbnail (`getThumbCompressedSize`, 1851-1863; 0 if there is none yet). Simplified: what a symbolic
link leads to is a file of its own. -/
structure DiskFacts where
  bytes : Path → List UInt8
  date : Path → QStr
  thumb : Path → Nat

namespace Server

/-- fsstorageplugin.cpp:1683-1737 `populateObjectInfo` with 1760-1958; the dates again at 1079-1080. GenFolder is 1. -/
def startInfo (sid : Nat) (k : DiskFacts) (it : Item) : ObjInfo :=
  { storageId := sid
    format := it.fmt
    protection := 0
    size := if it.fmt = ASSOC then 0 else (k.bytes it.path).length
    thumbFormat := if thumbnailable it.path then 0x3808 else UNDEF
    thumbSize := if thumbnailable it.path then k.thumb it.path else 0
    thumbWidth := if thumbnailable it.path then 100 else 0
    thumbHeight := if thumbnailable it.path then 100 else 0
    imageWidth := 0
    imageHeight := 0
    bitDepth := 0
    parent := it.par
    assocType := if it.fmt = ASSOC then 1 else 0
    assocDesc := 0
    sequence := 0
    fileName := fromPath it.name
    captureDate := k.date it.path
    modDate := k.date it.path
    keywords := [] }

/-- fsstorageplugin.cpp:385-450, 466-480 `enumerateStorage_worker` with 959-1092 for each entry: the storage `sid` at `t.rootPath`,
before which only the ids it read are known (`t`), after reading its directory `d`. The references it reads then are in
Verif.Model.DeviceStart. -/
def start (sid : Nat) (fmts : List Nat) (caps : DevCaps) (t : Tree) (d : Disk) (k : DiskFacts) (ios : Nat → Nat → FileIO) (alloc : Nat → Bool)
    (room : Nat → Nat) (times : Times) :
    Server :=
  { sid := sid
    fmts := fmts
    caps := caps
    tree := (t.enumerate d).dropUnused
    infos := (t.enumerate d).items.map fun e => (e.1, startInfo sid k e.2)
    files := (t.enumerate d).items.filterMap fun e =>
      if e.2.fmt = ASSOC then none else some (String.ofList e.2.path, k.bytes e.2.path)
    dataFile := none
    writing := 0
    ios := ios
    alloc := alloc
    room := room
    times := times
    calls := 0 }

end Server
end Mtp
