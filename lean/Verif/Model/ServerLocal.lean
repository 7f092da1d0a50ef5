import Verif.Model.Startup
import Verif.Model.Responder
/-!
Changes of the storage directory by other programs, in the end-to-end model: a file or folder appears, is written, is removed, is moved.
Each change comes with the handling of its notification (fsstorageplugin.cpp:2309-2373 and 2882-3080): nothing else happens in
between. What happens when something does is in Verif.Model.Facts and Verif.Model.Notify. Folders are watched.
-/
namespace Mtp

/-- A change made by another program, by folder and name. -/
inductive DiskEdit where
  /-- something appears in folder `d` under the name `n`: a file, or a folder with its contents -/
  | appears (d : Nat) (n : Path) (disk : Disk)
  /-- entry `n` of folder `d` is deleted, or moved out of the storage -/
  | vanishes (d : Nat) (n : Path)
  /-- file `n` of folder `d` was written to and closed; by its name it has format `fmt` -/
  | written (d : Nat) (n : Path) (fmt : Nat)
  /-- entry `n1` of folder `d1` is renamed to `n2` in folder `d2`; by its new name it has format `fmt` -/
  | moves (d1 : Nat) (n1 : Path) (d2 : Nat) (n2 : Path) (fmt : Nat)

namespace Server

/-- fsstorageplugin.cpp:2905-2923 `handleFSCreate`, 959-1092 `addToStorage`: the new objects with what is known about them
(1683-1737 `populateObjectInfo`). -/
def appears (s : Server) (k : DiskFacts) (d : Nat) (n : Path) (disk : Disk) : Server :=
  let t := s.tree.fsCreate d n disk
  let new := t.items.filter fun e => ! s.tree.has e.1
  { s with
    tree := t
    infos := (new.map fun e => (e.1, startInfo s.sid k e.2)) ++ s.infos
    files := (new.filterMap fun e => if e.2.fmt = ASSOC then none else some (String.ofList e.2.path, k.bytes e.2.path)) ++ s.files }

/-- fsstorageplugin.cpp:2882-2902 `handleFSDelete`. -/
def vanishes (s : Server) (d : Nat) (n : Path) : Server := s.dropGone (s.tree.fsDelete d n)

/-- What is known about object `h` is computed again (fsstorageplugin.cpp:2984-2987, 3063-3065). -/
def refresh (s : Server) (k : DiskFacts) (h fmt : Nat) : Server :=
  match s.tree.get h with
  | none => s
  | some it =>
    { s with
      tree := s.tree.upd h fun i => { i with name := baseOf i.path, fmt := fmt, par := i.parent.getD 0 }
      infos := AMap.insert s.infos h (startInfo s.sid k { it with name := baseOf it.path, fmt := fmt, par := it.parent.getD 0 }) }

/-- fsstorageplugin.cpp:3046-3080 `handleFSModify`; 3057: not while the host writes to it. -/
def overwritten (s : Server) (k : DiskFacts) (d : Nat) (n : Path) (fmt : Nat) : Server :=
  match s.tree.get d with
  | none => s
  | some dit =>
    match AMap.get s.tree.paths (join dit.path n) with
    | none => s
    | some h =>
      let p := String.ofList (join dit.path n)
      let s1 := { s with files := if (AMap.get s.files p).isSome then AMap.insert s.files p (k.bytes (join dit.path n)) else s.files }
      if h ≠ 0 ∧ h ≠ s.writing then s1.refresh k h fmt else s1

/-- fsstorageplugin.cpp:2926-2995 `handleFSMove`. If there is an object at the new place (`rename` replaced its file), the moved one is
forgotten and the other one stays as it was known (2953-2960); an open file that was replaced is no longer at any path. -/
def moves (s : Server) (k : DiskFacts) (d1 : Nat) (n1 : Path) (d2 : Nat) (n2 : Path) (fmt : Nat) : Server :=
  if d1 = d2 ∧ n1 = n2 then s
  else match s.tree.get d1, s.tree.get d2 with
    | some i1, some i2 =>
      let old := join i1.path n1
      let new := join i2.path n2
      let t := s.tree.fsMove d1 n1 d2 n2 fmt
      match AMap.get s.tree.paths old with
      | none => s
      | some h =>
        if (AMap.get s.tree.paths new).isSome then
          let f := { s with
            files := match AMap.get s.files (String.ofList old) with
              | some c => AMap.insert s.files (String.ofList new) c
              | none => s.files
            dataFile := s.dataFile.map fun (e : String × Nat) => if e.1 = String.ofList new then ("", e.2) else if e.1 = String.ofList old then (String.ofList new, e.2) else e }
          f.dropGone t
        else
          { ({ s with tree := t }.moveFiles old new) with
            infos := match t.get h with
              | some it => AMap.insert s.infos h (startInfo s.sid k it)
              | none => s.infos }
    | _, _ => s

/-- The storage after the change. `k`: what the files hold, and their dates, then. -/
def here (s : Server) (k : DiskFacts) : DiskEdit → Server
  | .appears d n disk => s.appears k d n disk
  | .vanishes d n => s.vanishes d n
  | .written d n fmt => s.overwritten k d n fmt
  | .moves d1 n1 d2 n2 fmt => s.moves k d1 n1 d2 n2 fmt

/-- fsstorageplugin.cpp:3063-3075, mtptypes.h:881-912: whether something about a written file is different. -/
def writtenEvents (s s' : Server) (d : Nat) (n : Path) : List TEvent :=
  match s.tree.get d with
  | none => []
  | some dit =>
    match AMap.get s.tree.paths (join dit.path n) with
    | none => []
    | some h => if h ≠ 0 ∧ h ≠ s.writing ∧ s.infoOf h ≠ s'.infoOf h then [.infoChanged h] else []

/-- The events the storage emits for it (StorageInfoChanged is in Verif.Model.Notify). -/
def hereEvents (s : Server) (k : DiskFacts) (c : DiskEdit) : List TEvent :=
  match c with
  | .written d n _ => writtenEvents s (s.here k c) d n
  | _ => (s.here k c).tree.evs.drop s.tree.evs.length

/-- mtpresponder.cpp:3017-3073: as the responder gets it. -/
def eventIn : TEvent → Rsp.In Server
  | .added h => .notify Rsp.EV_ADDED [h]
  | .removed h => .notify Rsp.EV_REMOVED [h]
  | .infoChanged h => .notify Rsp.EV_INFO [h]

/-- What happens to the responder when the change is made. -/
def occurs (s : Server) (k : DiskFacts) (c : DiskEdit) : List (Rsp.In Server) :=
  .env (s.here k c) :: (s.hereEvents k c).map eventIn

end Server
end Mtp
