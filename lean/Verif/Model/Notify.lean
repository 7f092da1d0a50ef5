import Verif.Model.Tree
/-!
File-system notifications (fsstorageplugin.cpp:2309-2373, 3083-3104; fsinotify.cpp:84-102), storage
readiness (storagefactory.cpp:210-220) and free-space events (fsstorageplugin.cpp:3026-3045).

The reader (fsinotify.cpp) passes the events of each read one after the other; it never passes a null
event. Handlers are recorded as actions; their effect on the tree is `Act.apply`.
-/
namespace Mtp

/-- The event kinds looked at by `inotifyEventSlot`; the kernel sets one of them per event. -/
inductive NKind where
  | create | delete | movedTo | movedFrom | closeWrite | other
  deriving DecidableEq

/-- `struct inotify_event`: kind (mask), watched directory (`wd`), cookie and, if `len` is not 0, the
name. -/
structure NEv where
  kind : NKind
  dir : Nat
  cookie : Nat
  name : Option Path
  deriving DecidableEq

/-- A handler call. -/
inductive Act where
  | create (e : NEv) | delete (e : NEv) | move (from_ to : NEv) | modify (e : NEv)
  deriving DecidableEq

/-- fsstorageplugin.h `m_iNotifyCache`: the last moved-from; cleared = all zero. -/
structure NCache where
  ev : NEv
  deriving DecidableEq

/-- fsstorageplugin.cpp:3100-3104 `clearCachedInotifyEvent`: zeroed (mask 0 = `other`). -/
def NCache.zero : NCache := ⟨⟨.other, 0, 0, none⟩⟩

/-- fsstorageplugin.cpp:2882-2884 `handleFSDelete`, whether it looks at the event at all. -/
def delAct (e : NEv) : List Act := if e.kind = .delete ∨ e.kind = .movedFrom then [.delete e] else []

/-- fsstorageplugin.cpp:2309-2373 `inotifyEventSlot`. `fromEvent` is a pointer into the cache: after a
clear it still is non-null and sees zeroes. -/
def slot (c : NCache) : Option NEv → NCache × List Act
  | none => if c.ev.cookie ≠ 0 then (NCache.zero, delAct c.ev) else (c, [])
  | some e =>
    if e.name = none then (c, [])
    else
      let fromEvent := decide (c.ev.cookie ≠ 0)
      let flush := fromEvent && decide (c.ev.cookie ≠ e.cookie)
      let a1 := if flush then delAct c.ev else []
      let c1 := if flush then NCache.zero else c
      match e.kind with
      | .create => (c1, a1 ++ [.create e])
      | .delete => (c1, a1 ++ delAct e)
      | .movedTo =>
        if fromEvent && decide (c1.ev.cookie = e.cookie) then (NCache.zero, a1 ++ [.move c1.ev e])
        else (c1, a1 ++ [.create e])
      | .movedFrom => (⟨e⟩, a1 ++ (if fromEvent then delAct c1.ev else []))
      | .closeWrite => (c1, a1 ++ [.modify e])
      | .other => (c1, a1)

/-- A sequence of notifications. -/
def slots (c : NCache) : List (Option NEv) → NCache × List Act
  | [] => (c, [])
  | e :: r => ((slots (slot c e).1 r).1, (slot c e).2 ++ (slots (slot c e).1 r).2)

/-- What the handlers do to the tree (`disk` tells what is found at a new entry; content changes are
not part of the tree). -/
def Act.apply (disk : Path → Disk) (fmt : Nat) (t : Tree) : Act → Tree
  | .create e => t.fsCreate e.dir (e.name.getD []) (disk (e.name.getD []))
  | .delete e => t.fsDelete e.dir (e.name.getD [])
  | .move a b => t.fsMove a.dir (a.name.getD []) b.dir (b.name.getD []) fmt
  | .modify _ => t

/-! ### Readiness -/

/-- storagefactory.h: `m_allStorages` (ids) and `m_readyStorages` (a set). -/
structure Ready where
  all : List Nat
  ready : List Nat
  /-- how often `storageReady` was emitted -/
  signals : Nat

namespace Ready

/-- storagefactory.cpp:210-213 `storageIsReady`. -/
def isReady (r : Ready) : Bool := decide (r.ready.length = r.all.length)

/-- storagefactory.cpp:215-220 `onStoragePluginReady`. -/
def report (r : Ready) (id : Nat) : Ready :=
  let r := { r with ready := if id ∈ r.ready then r.ready else id :: r.ready }
  if r.isReady then { r with signals := r.signals + 1 } else r

/-- Before any report. -/
def init (all : List Nat) : Ready := { all := all, ready := [], signals := 0 }

end Ready

/-! ### Free space -/

/-- `int x = 100 * a / b` with 64-bit unsigned operands; the value is kept modulo 2^32. -/
def percent (a b : Nat) : Nat := ((100 * a) % 2^64 / b) % 2^32

/-- fsstorageplugin.cpp:3026-3045 `sendStorageInfoChanged`: new `m_reportedFreeSpace` and whether an
event is sent. -/
def infoChanged (reported max free : Nat) : Nat × Bool :=
  if max = 0 then (reported, false)
  else if percent reported max ≠ percent free max then (free, true)
  else (reported, false)

/-- A sequence of calls: capacity and free space at each. Result: `m_reportedFreeSpace` and the
free space at each event sent. -/
def infoRun (reported : Nat) : List (Nat × Nat) → Nat × List Nat
  | [] => (reported, [])
  | (m, f) :: r =>
    let s := infoChanged reported m f
    ((infoRun s.1 r).1, (if s.2 then [f] else []) ++ (infoRun s.1 r).2)

end Mtp
