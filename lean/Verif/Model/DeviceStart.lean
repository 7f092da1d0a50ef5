import Verif.Model.Device
import Verif.Model.Startup
/-!
The device across its restarts: what it writes when it ends, and how it starts
(mts/platform/storage/fsstorageplugin/fsstorageplugin.cpp:387-488, 518-655, 2455-2603, mts/platform/storage/storagefactory.cpp:130-217).
-/
namespace Mtp

/-- The two files in the device's own directory (fsstorageplugin.cpp:417-427): the ids and the references. A file that is missing is
empty here: reading it gives nothing, as not opening it (519-523, 2565-2569). -/
structure Saved where
  ids : List UInt8
  refs : List UInt8

/-- What a start finds besides these files: the configuration, the storage directory, the operating system. `junk` is the content of
fresh memory (see `loadIds`); `asked` is the number of handles given out before. -/
structure Setting where
  junk : Nat → UInt8
  sid : Nat
  fmts : List Nat
  caps : DevCaps
  root : Path
  excl : List Path
  policy : SymPolicy
  fs : Nat → Bool
  asked : Nat
  disk : Disk
  facts : DiskFacts
  ios : Nat → Nat → FileIO
  alloc : Nat → Bool
  room : Nat → Nat
  times : Times
  props : DevState
  info : InfoState
  store : StoreDesc
  stat : Option StatVfs

namespace Device

/-- fsstorageplugin.cpp:485-488, 590-655, 2455-2555: what the destructor of the storage writes. `m_largestPuoid` is the factory's
counter: with one storage both start from the file (392, 531, storagefactory.cpp:192-195; the comparison there as for unsigned
`char`, see C14) and go on together (779-783). -/
def save (d : Device) : Saved := ⟨storeIds d.ps.srv.tree.idsAsked d.ps.srv.tree.puoids, storeRefs d.refTree⟩

/-- fsstorageplugin.cpp:387-488 with storagefactory.cpp:160-217: a device with one storage, started. -/
def start (e : Setting) (f : Saved) : Device :=
  let srv := Server.start e.sid e.fmts e.caps
    (Tree.empty e.root e.excl e.policy (readIds e.junk f.ids).2 e.fs e.asked (readIds e.junk f.ids).1) e.disk e.facts e.ios e.alloc
    e.room e.times
  { ps := ⟨srv, [], []⟩
    refs := readRefs (p2h srv.tree) f.refs
    props := e.props
    info := e.info
    store := e.store
    stat := e.stat }

end Device
end Mtp
