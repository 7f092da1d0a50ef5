import Verif.Model.ServerAcross
/-!
The responder with several file-system storages behind it (mts/platform/storage/storagefactory.cpp): each request goes to the storage it
concerns. The storages are those of Verif.Model.Server. The factory gives out the handles and the persistent ids of all of them
(storagefactory.cpp:169-192, 671-686 connect every plug-in to the same counters; see Verif.Model.Ids).

Simplified: moving from one storage to another is refused here (OperationNotSupported); Verif.Model.ServerMoveAcross, `fullDev`, adds it (C106). The order of the storages in the factory's hash table is the order of their numbers here.
-/
namespace Mtp

/-- Storages `part 0`, `part 1`, …, `part (count - 1)`. The numbers of handles and ids given out and of calls so far are common to all:
those in `part j` are not used (see `at`). -/
structure Storages where
  count : Nat
  part : Nat → Server
  fmts : List Nat
  asked : Nat
  ids : Nat
  calls : Nat

namespace Storages

/-- Storage `j`. -/
def «at» (m : Storages) (j : Nat) : Server :=
  { m.part j with
    calls := m.calls
    tree := { (m.part j).tree with asked := m.asked, idsAsked := m.ids } }

/-- Storage `j` became `s`. -/
def put (m : Storages) (j : Nat) (s : Server) : Storages :=
  { m with
    part := fun k => if k = j then s else m.part k
    asked := s.tree.asked
    ids := s.tree.idsAsked
    calls := s.calls }

/-- A call on storage `j`. -/
def on {A : Type} (m : Storages) (j : Nat) (op : Server → Server × A) : Storages × A :=
  (m.put j (op (m.at j)).1, (op (m.at j)).2)

/-- The first storage with property `p`. -/
def first (m : Storages) (p : Server → Bool) : Option Nat := (List.range m.count).find? fun j => p (m.at j)

/-- storagefactory.cpp:243-252 `storageOfHandle`. -/
def ofHandle (m : Storages) (h : Nat) : Option Nat := m.first fun s => s.tree.has h

/-- `m_allStorages.value(storageId)`. -/
def ofSid (m : Storages) (i : Nat) : Option Nat := m.first fun s => decide (s.sid = i)

/-- storagefactory.cpp:354-357 `checkHandle`. -/
def has (m : Storages) (h : Nat) : Bool := (m.ofHandle h).isSome

/-- A request about object `h`: storagefactory.cpp:243-252 and the functions that use it (374-398, 400-646). For an object that no
storage has, the answer is that of a storage without it, here the first. -/
def byHandle {A : Type} (m : Storages) (h : Nat) (op : Server → Server × A) : Storages × A := m.on ((m.ofHandle h).getD 0) op

/-- storagefactory.cpp:256-272 `addItem`: a new object on storage `i`; 0 means 0x00010001. For an id that no storage has, the answer is
that of a storage with another id, here the first. -/
def bySid {A : Type} (m : Storages) (i : Nat) (op : Server → Server × A) : Storages × A :=
  m.on ((m.ofSid (if i = 0 then 0x00010001 else i)).getD 0) op

/-- storagefactory.cpp:277-294 for handle 0xFFFFFFFF: all storages delete; the response is that of the last one. -/
def deleteAll (fmt : Nat) : List Nat → Storages → Resp → Storages × Resp
  | [], m, r => (m, r)
  | j :: js, m, _ => deleteAll fmt js (m.on j fun s => s.delete ALL fmt).1 (m.on j fun s => s.delete ALL fmt).2

/-- storagefactory.cpp:277-294 `deleteItem`. -/
def delete (m : Storages) (h fmt : Nat) : Storages × Resp :=
  if h = ALL then deleteAll fmt (List.range m.count) m .generalError
  else m.byHandle h fun s => s.delete h fmt

/-- mtpresponder.cpp:1437-1508: the destination is another storage than that of the object. -/
def across (m : Storages) (h sid : Nat) : Bool :=
  match m.ofHandle h, m.ofSid sid with
  | some i, some j => decide (i ≠ j)
  | _, _ => false

/-- The storages' ids and trees, as Verif.Model.TreeQuery has them. -/
def trees (m : Storages) : List (Nat × Tree) := (List.range m.count).map fun j => ((m.at j).sid, (m.at j).tree)

/-- storagefactory.cpp:330-338 `storageIds`. -/
def sids (m : Storages) : List Nat := (List.range m.count).map fun j => (m.at j).sid

/-- The requests without data from the host (see Verif.Model.Server, `query`). -/
def query (m : Storages) (code : Nat) (ps : List Nat) : Storages × Reply :=
  let p := fun i => ps.getD i 0
  if code = 0x1004 then
    (m, Server.oneFrame ((transmit 2 0x1004 0 (u32 (m.sids.length * 4 + 4)) [.arr 4 m.sids]).bind fun b => .ok (some b, .ok)))
  else if code = 0x1006 then
    (m, ⟨[], some ((countReply m.trees m.fmts (p 0) (p 1) (p 2)).1, [(countReply m.trees m.fmts (p 0) (p 1) (p 2)).2])⟩)
  else if code = 0x1007 then (m, Server.oneFrame (getObjectHandles m.trees m.fmts 0 (p 0) (p 1) (p 2)))
  else if code = 0x1008 ∨ code = 0x1009 ∨ code = 0x101B ∨ code = 0x95C1 then m.byHandle (p 0) fun s => s.query code ps
  else if code = 0x100B then ((m.delete (p 0) (p 1 % 65536)).1, ⟨[], some ((m.delete (p 0) (p 1 % 65536)).2, [])⟩)
  else if code = 0x1019 then
    if m.across (p 0) (p 1) then (m, ⟨[], some (.operationNotSupported, [])⟩) else m.byHandle (p 0) fun s => s.query code ps
  else (m, ⟨[], some (.operationNotSupported, [])⟩)

/-- mtpresponder.cpp:1470-1508, storagefactory.cpp:400-425 `copyObject`. Simplified: when there is no room for the object itself, the
factory asks to delete handle 0, which the first storage refuses (fsstorageplugin.cpp:1268-1271); here the destination does. -/
def copy (m : Storages) (ps : List Nat) (cancelled : Bool) : Storages × Resp × Nat :=
  if m.across (ps.getD 0 0) (ps.getD 1 0) then
    m.on ((m.ofSid (ps.getD 1 0)).getD 0) fun s => Server.copyFrom (m.at ((m.ofHandle (ps.getD 0 0)).getD 0)) s ps cancelled
  else m.byHandle (ps.getD 0 0) fun s => s.copy ps cancelled

/-- mtpresponder.cpp:2079-2112 (see Verif.Model.Server, `listCheck`). -/
def listCheck (m : Storages) (ps : List Nat) : Resp :=
  (sendObjectPropListReq (fun i => if (m.ofSid i).isSome then .ok else .invalidStorageID)
    (fun h => if m.has h then .ok else .invalidObjectHandle) (ps.getD 0 0) (ps.getD 1 0) (ps.getD 2 0) 0 (ps.getD 4 0)).1

/-- The storages behind the responder. What Verif.Model.Server, `dev`, leaves out is left out here too. -/
def dev : Dev Storages where
  query := query
  copy := copy
  check m code ps :=
    if code = 0x9804 then if m.has (ps.getD 0 0) then .ok else .invalidObjectHandle
    else .operationNotSupported
  store m code ps b :=
    if code = 0x9804 then m.byHandle (ps.getD 0 0) fun s => s.store code ps b else (m, .operationNotSupported, [])
  listCheck := listCheck
  addInfo m ps b := m.bySid (ps.getD 0 0) fun s => s.addInfo ps b
  addList m ps b := m.bySid (ps.getD 0 0) fun s => s.addList ps b
  write m h b f l := m.byHandle h fun s => s.write h b f l
  truncate m h n := m.byHandle h fun s => s.truncate h n
  setProps m _ _ := m
  writePartial m h o b f l := m.byHandle h fun s => s.writePartial h o b f l
  delete m h := m.delete h 0
  handleOk m h := if m.has h then .ok else .invalidObjectHandle
  flush m _ := m
  setEvents m _ _ := m
  eventsOff m := m
  eventsOn _ _ := true

end Storages
end Mtp
