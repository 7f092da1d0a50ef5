import Verif.Model.Basic
/-!
128-bit identifiers (mts/common/mtptypes.h:702-779) and the allocation counters of the storage
factory (mts/platform/storage/storagefactory.cpp:51-53, 192-197, 671-681).
-/
namespace Mtp

/-- `MtpInt128`: 16 bytes, least significant first (mtptypes.h:703). -/
abbrev I128 := List UInt8

namespace I128

/-- mtptypes.h:705-724 constructor from two 64-bit halves. -/
def mk (lower upper : Nat) : I128 := leBytes 8 lower ++ leBytes 8 upper

/-- mtptypes.h:735-750 `operator++`: the halves seen as host (little-endian) `quint64`. -/
def inc (v : I128) : I128 :=
  let lower := u64 (leVal (v.take 8) + 1)
  let upper := leVal (v.drop 8)
  leBytes 8 lower ++ leBytes 8 (if lower = 0 then u64 (upper + 1) else upper)

/-- The value of a `char`: platform dependent signedness. -/
def charVal (signed : Bool) (b : UInt8) : Int :=
  if signed ∧ 128 ≤ b.toNat then (b.toNat : Int) - 256 else b.toNat

/-- The loop of `compare` (mtptypes.h:753-760) over byte pairs, most significant pair first. -/
def cmpLoop (signed : Bool) : List (UInt8 × UInt8) → Int
  | [] => 0
  | (a, b) :: r =>
    let diff := charVal signed a - charVal signed b
    if diff = 0 then cmpLoop signed r else diff

/-- mtptypes.h:753-760 `compare`. -/
def compare (signed : Bool) (a b : I128) : Int := cmpLoop signed (a.reverse.zip b.reverse)

/-- mtptypes.h:762-765. -/
def eq (signed : Bool) (a b : I128) : Bool := compare signed a b == 0
/-- mtptypes.h:767-770. -/
def lt (signed : Bool) (a b : I128) : Bool := decide (compare signed a b < 0)
/-- mtptypes.h:772-775. -/
def gt (signed : Bool) (a b : I128) : Bool := decide (compare signed a b > 0)

end I128

/-- storagefactory.cpp:671-676 `getObjectHandle`: the handle given out and the counter afterwards. -/
def nextHandle (counter : Nat) : Nat × Nat :=
  let c := u32 (counter + 1)
  (if c = 0xFFFFFFFF then 1 else c, c)

/-- The handles given out by `n` successive requests in one process, and the counter
(initially 0, storagefactory.cpp:52). -/
def handlesGiven : Nat → List Nat × Nat
  | 0 => ([], 0)
  | n+1 =>
    let (hs, c) := handlesGiven n
    let (h, c') := nextHandle c
    (hs ++ [h], c')

/-! ### Persistent ids over several runs of the daemon -/

/-- What one storage knows about persistent ids: `m_largestPuoid` and `m_puoidsMap`
(fsstorageplugin.h:390-397); paths are abstract. -/
structure IdTable (Path : Type) where
  largest : I128
  ids : List (Path × I128)

/-- The daemon: the id file of every storage (`disk`), and while running the factory's counter
(`m_newPuoid`) and the tables in memory. -/
structure IdState (Path : Type) where
  disk : List (IdTable Path)
  run : Option (I128 × List (IdTable Path))

/-- storagefactory.cpp:165-198: high-water mark over the storages, `if (puoid > m_newPuoid)`. -/
def highWater {Path : Type} (signed : Bool) (ts : List (IdTable Path)) : I128 :=
  ts.foldl (fun m t => if I128.gt signed t.largest m then t.largest else m) (I128.mk 0 0)

/-- A step in the life of the daemon. -/
inductive IdOp (Path : Type) where
  | start                            -- process start: tables loaded, counter initialised
  | request (i : Nat) (p : Path)     -- storage `i` exposes an object at path `p`
  | forget (i : Nat) (p : Path)      -- an entry of storage `i` is dropped
  | save (i : Nat)                   -- storage `i` writes its id file
  | cut (i : Nat) (n : Nat)          -- the file of storage `i` loses all but `n` entries
  | exit                             -- process ends or crashes

variable {Path : Type} [DecidableEq Path]

/-- fsstorageplugin.cpp:1094-1110 `addItemToMaps` (id part) with 779-783 `requestNewPuoid` and
storagefactory.cpp:678-681 `getPuoid`: a known path keeps its id, otherwise the counter is
incremented. Returns the id, whether it is new, the counter and the table. -/
def giveId (next : I128) (t : IdTable Path) (p : Path) : I128 × Bool × I128 × IdTable Path :=
  match t.ids.lookup p with
  | some v => (v, false, next, t)
  | none =>
    let v := I128.inc next
    (v, true, v, { largest := v, ids := (p, v) :: t.ids })

/-- One step; the second component is the id allocated anew, if any. `forget` covers
`removeUnusedPuoids` (fsstorageplugin.cpp:574-585) and renames; `save` is `storePuoids`
(590-655), `start` is `populatePuoids` (517-569) plus `enumerateStorages`. -/
def IdState.step (signed : Bool) (s : IdState Path) : IdOp Path → IdState Path × Option I128
  | .start => ({ s with run := some (highWater signed s.disk, s.disk) }, none)
  | .request i p =>
    match s.run with
    | none => (s, none)
    | some (next, mem) =>
      match mem[i]? with
      | none => (s, none)
      | some t =>
        let (v, fresh, next', t') := giveId next t p
        ({ s with run := some (next', mem.set i t') }, if fresh then some v else none)
  | .forget i p =>
    match s.run with
    | none => (s, none)
    | some (next, mem) =>
      match mem[i]? with
      | none => (s, none)
      | some t =>
        ({ s with run := some (next, mem.set i { t with ids := t.ids.filter (·.1 ≠ p) }) }, none)
  | .save i =>
    match s.run with
    | none => (s, none)
    | some (_, mem) =>
      match mem[i]? with
      | none => (s, none)
      | some t => ({ s with disk := s.disk.set i t }, none)
  | .cut i n =>
    match s.disk[i]? with
    | none => (s, none)
    | some t => ({ s with disk := s.disk.set i { t with ids := t.ids.take n } }, none)
  | .exit => ({ s with run := none }, none)

/-- Runs a history; collects the ids allocated anew since the last process start. -/
def IdState.exec (signed : Bool) (s : IdState Path) : List (IdOp Path) → List I128 →
    IdState Path × List I128
  | [], given => (s, given)
  | op :: ops, given =>
    let (s', new) := s.step signed op
    let given := match op with
      | .start => []
      | _ => given
    s'.exec signed ops (given ++ new.toList)

end Mtp
