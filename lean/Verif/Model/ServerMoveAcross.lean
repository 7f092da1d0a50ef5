import Verif.Model.Storages
/-!
MoveObject from one storage to another: the object is copied under its handle, then deleted where it was.
-/
namespace Mtp
namespace Server

/-- fsstorageplugin.cpp:1149-1197, 1176-1181 with 959-1092 `addToStorage`: an object like `o` is created in folder `p`, with handle `h`. A
path that is known already is left as it is, and that is OK (see `addItem`). -/
def adopt (s : Server) (o : ObjInfo) (p h : Nat) : Server × Resp :=
  match s.tree.get p with
  | none => (s, .invalidParentObject)
  | some pit =>
    match (grant s.tree (pit.fmt = ASSOC)).add (join pit.path (toPath o.fileName)) (.node none o.format [])
        (some ⟨toPath o.fileName, o.format, p⟩) false true h with
    | (t, some y, .ok) =>
      let t' : Tree := { t with fs := s.tree.fs }
      if s.tree.has y then ({ s with tree := t' }.tickCall, .ok)
      else
        ({ s with
           tree := t'
           infos := AMap.insert s.infos y (s.kept o)
           files := if o.format = ASSOC then s.files
             else AMap.insert s.files (String.ofList (join pit.path (toPath o.fileName))) (s.newFile o.size) }.tickCall, .ok)
    | (t, _, r) => ({ s with tree := { t with fs := s.tree.fs } }.tickCall, r)

/-- fsstorageplugin.cpp:1149-1197 `copyHandle`: object `h` of storage `a` and everything in it, with the same handles. The first number
bounds the depth; the depth of what storage `a` holds is enough. As in `copyTo`, names that the model of strings cannot give are refused.
Simplified: the host does not cancel the request meanwhile. The third result is for `copyKids` only. -/
def adoptTo (a : Server) : Nat → Server → Nat → Nat → Server × Resp × Nat
  | 0, s, h, _ => (s, .generalError, h)
  | n + 1, s, h, par =>
    if s.tree.has h then (s, .invalidDataset, h)
    else
      let p := if par = ALL then 0 else par
      match s.tree.get p, a.tree.get h with
      | none, _ => (s, .invalidParentObject, h)
      | some _, none => (s, .invalidObjectHandle, h)
      | some _, some it =>
        if (a.infoOf h).1 ≠ .ok then (s, .invalidObjectHandle, h)
        else if copyable it.name = false then (s, .generalError, h)
        else
          let b := s.adopt { (a.infoOf h).2 with parent := p } p h
          if b.2 = .ok then
            let c := if it.fmt = ASSOC then copyKids (fun s k => adoptTo a n s k h) (a.tree.handles 0 h).2 b.1
              else fromData a b.1 false h h
            (c.1, c.2, h)
          else (b.1, b.2, h)

end Server

namespace Storages

/-- fsstorageplugin.cpp:1585-1599 `moveObject` from storage `i` to storage `j`. -/
def carry (m : Storages) (i j h par : Nat) : Storages × Resp :=
  let b := Server.adoptTo (m.at i) (Tree.maxLen (m.at i).tree.items + 1) (m.at j) h par
  if b.2.1 = .ok then (m.put j b.1).on i fun s => s.delete h UNDEF else (m.put j b.1, b.2.1)

/-- mtpresponder.cpp:1437-1468 `moveObjectReq` (after `preCheck`), storagefactory.cpp:427-447 `moveObject`, to another storage. -/
def moveTo (m : Storages) (h sid par : Nat) : Storages × Resp :=
  match m.ofHandle h, m.ofSid sid with
  | none, _ => (m, .invalidObjectHandle)
  | some _, none => (m, .invalidStorageID)
  | some i, some j => if par ≠ 0 ∧ m.has par = false then (m, .invalidParentObject) else m.carry i j h par

/-- The storages behind the responder, with MoveObject to another storage, which `dev` refuses. -/
def fullDev : Dev Storages :=
  { dev with
    query := fun m code ps =>
      if code = 0x1019 ∧ m.across (ps.getD 0 0) (ps.getD 1 0) = true then
        ((m.moveTo (ps.getD 0 0) (ps.getD 1 0) (ps.getD 2 0)).1, ⟨[], some ((m.moveTo (ps.getD 0 0) (ps.getD 1 0) (ps.getD 2 0)).2, [])⟩)
      else m.query code ps }

end Storages
end Mtp
