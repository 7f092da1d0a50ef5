import Verif.Model.Tree
/-!
Queries over the trees of all storages: object handles (storagefactory.cpp:299-325,
mtpresponder.cpp:1024-1122) and object references (fsstorageplugin.cpp:2378-2452).
-/
namespace Mtp

/-- storagefactory.cpp:299-325 `getObjectHandles`: all storages are asked in turn until one fails;
what was collected before the failure is kept. -/
def allHandles (fmt assoc : Nat) : List (Nat × Tree) → List Nat → Resp × List Nat
  | [], acc => (.invalidStorageID, acc)
  | [(_, t)], acc =>
    match t.handles fmt assoc with
    | (.ok, l) => (.ok, acc ++ l)
    | (r, _) => (r, acc)
  | (_, t) :: r, acc =>
    match t.handles fmt assoc with
    | (.ok, l) => allHandles fmt assoc r (acc ++ l)
    | (e, _) => (e, acc)

/-- See `allHandles`; a storage id selects one storage. -/
def factoryHandles (ss : List (Nat × Tree)) (storage fmt assoc : Nat) : Resp × List Nat :=
  if storage = ALL then allHandles fmt assoc ss []
  else match AMap.get ss storage with
    | some t => t.handles fmt assoc
    | none => (.invalidStorageID, [])

/-- mtpresponder.cpp:1040-1058, 1079-1095: the checks before the query. `fmts` are the supported
formats; both the check and the query use the low 16 bits of the format parameter. -/
def handlesCheck (ss : List (Nat × Tree)) (fmts : List Nat) (storage fmt assoc : Nat) : Resp :=
  if storage ≠ ALL ∧ (AMap.get ss storage).isNone then .invalidStorageID
  else if fmt ≠ 0 ∧ fmt % 65536 ∉ fmts then .invalidObjectPropFormat
  else if assoc ≠ 0 ∧ assoc ≠ ALL ∧ ss.all (fun s => ! s.2.has assoc) then .invalidObjectHandle
  else .ok

/-- `std::sort` of handles, as insertion sort (any sort gives the same list of numbers). -/
def sortHandles (l : List Nat) : List Nat := l.foldr ins []
where
  /-- insertion -/
  ins (a : Nat) : List Nat → List Nat
    | [] => [a]
    | b :: r => if a ≤ b then a :: b :: r else b :: ins a r

/-- mtpresponder.cpp:1065-1122 `getObjectHandlesReq` (after `preCheck`): response and, if OK, the
handles of the data phase sorted. -/
def handlesReply (ss : List (Nat × Tree)) (fmts : List Nat) (storage fmt assoc : Nat) : Resp × List Nat :=
  match handlesCheck ss fmts storage fmt assoc with
  | .ok =>
    match factoryHandles ss storage (fmt % 65536) assoc with
    | (.ok, l) => (.ok, sortHandles l)
    | (r, _) => (r, [])
  | r => (r, [])

/-- mtpresponder.cpp:1024-1063 `getNumObjectsReq` (after `preCheck`): response and its parameter; the
count is sent even when the query failed. -/
def countReply (ss : List (Nat × Tree)) (fmts : List Nat) (storage fmt assoc : Nat) : Resp × Nat :=
  match handlesCheck ss fmts storage fmt assoc with
  | .ok => ((factoryHandles ss storage (fmt % 65536) assoc).1,
            (factoryHandles ss storage (fmt % 65536) assoc).2.length)
  | r => (r, 0)

/-! ### Object references -/

/-- A storage with its reference table `m_objectReferencesMap`. -/
structure RefTree where
  t : Tree
  refs : AMap Nat (List Nat)

namespace RefTree

/-- fsstorageplugin.cpp:2432-2452 `removeInvalidObjectReferences`. -/
def purge (s : RefTree) (h : Nat) : RefTree :=
  { s with refs := (AMap.erase s.refs h).map (fun e => (e.1, e.2.filter (· ≠ h))) }

/-- fsstorageplugin.cpp:2378-2400 `getReferences`. -/
def getRefs (s : RefTree) (h : Nat) : RefTree × Resp × List Nat :=
  if s.t.has h = false then (s.purge h, .invalidObjectHandle, [])
  else match AMap.get s.refs h with
    | none => (s, .ok, [])
    | some l =>
      let l := l.filter s.t.has
      ({ s with refs := AMap.insert s.refs h l }, .ok, l)

/-- fsstorageplugin.cpp:2404-2428 `setReferences` (the playlist entries collected are not used). -/
def setRefs (s : RefTree) (h : Nat) (l : List Nat) : RefTree × Resp :=
  if s.t.has h = false then (s, .invalidObjectHandle)
  else if l.all s.t.has then ({ s with refs := AMap.insert s.refs h l }, .ok)
  else (s, .invalidObjRef)

/-- What can happen to a storage with references. -/
inductive Op where
  | tree (op : Tree.Op) | set (h : Nat) (l : List Nat) | get (h : Nat)

/-- One operation. -/
def step (s : RefTree) : Op → RefTree
  | .tree op => { s with t := s.t.step op }
  | .set h l => (s.setRefs h l).1
  | .get h => (s.getRefs h).1

/-- A history. -/
def run (s : RefTree) (ops : List Op) : RefTree := ops.foldl step s

end RefTree
end Mtp
