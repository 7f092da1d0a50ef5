import Verif.Model.Datasets
import Verif.Model.Download
import Verif.Model.PropSet
import Verif.Model.Copy
import Verif.Model.Dates
/-!
The responder with one file-system storage behind it: object tree (Verif.Model.Tree), object information, and the files
(Verif.Model.FileIO), put together as the parameter `Dev` of the responder (Verif.Model.Responder). Sources:
mts/protocol/mtpresponder.cpp, mts/platform/storage/storagefactory.cpp and mts/platform/storage/fsstorageplugin/fsstorageplugin.cpp.

The disk holds exactly the objects of the tree: nobody else changes it. The notifications about what the storage itself does to
the disk are not included: Verif.Model.Facts is about them. The operating system's answers are arbitrary (`Tree.fs`, `ios`, `alloc`), but it does not do the impossible (`grant`). The operations
for enumerating, creating (announced either way), writing, editing, reading, copying, moving, renaming and deleting objects are
modelled; the others (reading property lists, references, device properties: Verif.Model.PropList, TreeQuery, DevProps) are answered
OperationNotSupported here.
-/
namespace Mtp

/-- Modification times of files: the time zone, the time a file has after the `n`-th call if nobody sets it, and whether setting it
succeeds (utimes(2)). -/
structure Times where
  zone : Zone
  clock : Nat → Int
  utimes : Nat → Bool

/-- One storage with its files. `infos` holds what `MTPObjectInfo` (mtptypes.h) has besides name, format and parent, which are in
the tree. `ios n i` are the answers of the system to the `i`-th file access of the `n`-th call, `alloc n` that to its `fallocate`;
`room n` is the space free then. -/
structure Server where
  sid : Nat
  fmts : List Nat
  caps : DevCaps
  tree : Tree
  infos : AMap Nat ObjInfo
  files : AMap String (List UInt8)
  dataFile : Option (String × Nat)
  writing : Nat
  ios : Nat → Nat → FileIO
  alloc : Nat → Bool
  room : Nat → Nat
  times : Times
  calls : Nat

namespace Server

/-- A file name as path characters. Simplified: a UTF-16 unit is a character. -/
def toPath (n : QStr) : Path := n.map fun u => Char.ofNat u.toNat

/-- `MTPObjectInfo::mtpFileName`, back from the path characters. -/
def fromPath (p : Path) : QStr := p.map fun c => UInt16.ofNat c.toNat

/-- Names this model can store. Simplified: a name that is empty, `.` or `..`, has a separator, a NUL or half a surrogate pair would
be passed on to the file system by the code (see C24); it is refused here. -/
def plain (n : QStr) : Bool :=
  ! n.isEmpty && toPath n ≠ ['.'] && toPath n ≠ ['.', '.'] &&
    n.all fun u => u.toNat ≠ 0 && u.toNat ≠ 0x2F && ! (decide (0xD800 ≤ u.toNat) && decide (u.toNat ≤ 0xDFFF))

/-- The reported size of an object (`mtpObjectCompressedSize`). -/
def sizeOf (s : Server) (h : Nat) : Nat := ((AMap.get s.infos h).map (·.size)).getD 0

/-- The storage as the functions of Verif.Model.FileIO see it. -/
def view (s : Server) : FStore :=
  { files := s.files
    items := s.tree.items.map fun e => (e.1, ⟨String.ofList e.2.path, decide (e.2.fmt = ASSOC), s.sizeOf e.1⟩)
    dataFile := s.dataFile
    writing := s.writing }

/-- What such a function leaves; it can have changed the reported size of `h`. -/
def absorb (s : Server) (f : FStore) (h : Nat) : Server :=
  { s with
    files := f.files
    dataFile := f.dataFile
    writing := f.writing
    infos := match AMap.get s.infos h, AMap.get f.items h with
      | some o, some it => AMap.insert s.infos h { o with size := it.size }
      | _, _ => s.infos }

/-- The next call. -/
def tickCall (s : Server) : Server := { s with calls := s.calls + 1 }

/-- `getModifiedDate` of a file with time `t` (fsstorageplugin.cpp:326-334, 1938-1942): a text that does not fit into 64 bytes is
dropped. -/
def _root_.Mtp.Times.text (z : Times) (t : Int) : QStr :=
  if (formatDate z.zone t).length < 64 then fromPath (formatDate z.zone t) else []

/-- `datetime_to_time_t`, `file_set_mtime`, `getModifiedDate` one after the other (fsstorageplugin.cpp:370-382, 1938-1942): the date
told about a file that is to have date `d`. A text that is no date is not set. -/
def _root_.Mtp.Times.stamp (t : Times) (n : Nat) (d : QStr) : QStr :=
  t.text (if parseDate t.zone (toPath d) = -1 ∨ t.utimes n = false then t.clock n else parseDate t.zone (toPath d))

/-- fsstorageplugin.cpp:2064-2075, 2204-2215: when a file was closed after writing, it gets back the date it had, and its dates are
read again. -/
def redate (s : Server) (h : Nat) (closed : Bool) : Server :=
  match closed, AMap.get s.infos h with
  | true, some o =>
    { s with
      infos := AMap.insert s.infos h
        { o with captureDate := s.times.stamp s.calls o.modDate, modDate := s.times.stamp s.calls o.modDate } }
  | _, _ => s

/-- The system refuses to open a directory for writing (open(2) EISDIR). -/
def ioFor (s : Server) (h : Nat) : FileIO :=
  match s.tree.get h with
  | some it => if it.fmt = ASSOC then { s.ios s.calls 0 with openOk := false } else s.ios s.calls 0
  | none => s.ios s.calls 0

/-- The tree with a file system that refuses the next call unless it is possible. -/
def grant (t : Tree) (possible : Bool) : Tree := { t with fs := fun n => t.fs n && possible }

/-- The information about an object: storagefactory.cpp:493-502, fsstorageplugin.cpp:1658-1677 `getObjectInfo`. -/
def infoOf (s : Server) (h : Nat) : Resp × ObjInfo :=
  match s.tree.get h, AMap.get s.infos h with
  | some it, some o => (.ok, { o with fileName := fromPath it.name, format := it.fmt, parent := it.par })
  | _, _ => (.invalidObjectHandle, ⟨0, 0, 0, 0, 0, 0, 0, 0, 0, 0, 0, 0, 0, 0, 0, [], [], [], []⟩)

/-- fsstorageplugin.cpp:790-832 `createFile`: the new file is extended to the announced size, if the system agrees. -/
def newFile (s : Server) (size : Nat) : List UInt8 := if s.alloc s.calls then List.replicate size 0 else []

/-- fsstorageplugin.cpp:825-829, 1078-1080: the dates of a new file, which got the date announced, and those of a new folder. -/
def newDate (s : Server) (o : ObjInfo) : QStr :=
  if o.format = ASSOC then s.times.text (s.times.clock s.calls) else s.times.stamp s.calls o.modDate

/-- The information kept about a new object announced as `o`: the host's, with the storage's id (fsstorageplugin.cpp:1011-1013) and
the dates of the file (1078-1080). -/
def kept (s : Server) (o : ObjInfo) : ObjInfo := { o with storageId := s.sid, captureDate := s.newDate o, modDate := s.newDate o }

/-- fsstorageplugin.cpp:1118-1144, 1011-1091: the object is created; an object that has this path already is kept as it is. Result:
response and handle. -/
def addItem (s : Server) (o : ObjInfo) (par : Nat) : Server × Resp × Nat :=
  let p := if par = ALL then 0 else par
  let possible := match s.tree.get p with
    | some pit => pit.fmt = ASSOC
    | none => false
  match (grant s.tree possible).addItem ⟨toPath o.fileName, o.format, par⟩ (.node none o.format []) with
  | (t, some h, .ok) =>
    let t' : Tree := { t with fs := s.tree.fs }
    if s.tree.has h then ({ s with tree := t' }.tickCall, .ok, h)
    else
      match t'.get h with
      | none => ({ s with tree := t' }.tickCall, .ok, h)
      | some it =>
        ({ s with
           tree := t'
           infos := AMap.insert s.infos h (s.kept o)
           files := if it.fmt = ASSOC then s.files
             else AMap.insert s.files (String.ofList it.path) (s.newFile o.size) }.tickCall, .ok, h)
  | (t, _, r) => ({ s with tree := { t with fs := s.tree.fs } }.tickCall, r, 0)

/-- mtprxcontainer.cpp: the object information in a received container. -/
def decodeInfo (b : List UInt8) : Option ObjInfo :=
  match collect b [] >>= Rx.getObjInfo with
  | .ok (o, _) => some o
  | .ub _ => none

/-- storagefactory.cpp:256-272: a new object on storage `sid` (0 means the first storage, 0x00010001) in folder `par`. The response
carries storage, parent and handle. -/
def announce (s : Server) (sid par : Nat) (o : ObjInfo) : Server × Resp × List Nat × Nat :=
  let sid := if sid = 0 then 0x00010001 else sid
  if sid ≠ s.sid ∨ plain o.fileName = false then (s, .generalError, [], 0)
  else match s.addItem { o with parent := par } par with
    | (s', .ok, h) => (s', .ok, [sid, ((s'.tree.get h).bind (·.parent)).getD 0, h], h)
    | (s', r, _) => (s', r, [], 0)

/-- mtpresponder.cpp:2204-2226: the dataset is decoded (what is done with one that ends too early is not modelled: answered
GeneralError here, see C08), its parent is the command's second parameter. -/
def addInfo (s : Server) (ps : List Nat) (b : List UInt8) : Server × Resp × List Nat × Nat :=
  match decodeInfo b with
  | none => (s, .generalError, [], 0)
  | some o => s.announce (ps.getD 0 0) (ps.getD 1 0) o

/-- mtpresponder.cpp:2430-2482: the property list in a received container: the index of the element refused, or the kept elements
with the file name and its index. -/
def decodeList (c : DevCaps) (fmt : Nat) (b : List UInt8) : Option (Nat ⊕ (List Kept × Option (QStr × Nat))) :=
  match collect b [] >>= fun rx => rx.getInt 4 >>= fun q => scanElems c (c.category fmt) q.1 0 q.2 none with
  | .ok w => some w
  | .ub _ => none

/-- mtpresponder.cpp:2494-2499 with mtptypes.h:872-879: what an announcement by property list says about the object. -/
def listInfo (ps : List Nat) (name : QStr) : ObjInfo :=
  { storageId := ps.getD 0 0, format := u16 (ps.getD 2 0), protection := 0, size := ps.getD 4 0, thumbFormat := UNDEF, thumbSize := 0
    thumbWidth := 0, thumbHeight := 0, imageWidth := 0, imageHeight := 0, bitDepth := 0, parent := ps.getD 1 0, assocType := 0
    assocDesc := 0, sequence := 0, fileName := name, captureDate := [], modDate := [], keywords := [] }

/-- mtpresponder.cpp:2079-2112, the request phase of SendObjectPropList without the size (Verif.Model.Responder has that). -/
def listCheck (s : Server) (ps : List Nat) : Resp :=
  (sendObjectPropListReq (fun i => if i = s.sid then .ok else .invalidStorageID)
    (fun h => if s.tree.has h then .ok else .invalidObjectHandle) (ps.getD 0 0) (ps.getD 1 0) (ps.getD 2 0) 0 (ps.getD 4 0)).1

/-- mtpresponder.cpp:2412-2525 `sendObjectPropListData` with storagefactory.cpp:256-272. A list that ends too early: as for
`addInfo`. -/
def addList (s : Server) (ps : List Nat) (b : List UInt8) : Server × Resp × List Nat × Nat :=
  match decodeList s.caps (u16 (ps.getD 2 0)) b with
  | none => (s, .generalError, [], 0)
  | some (.inl i) => (s, .invalidDataset, [0, 0, 0, i], 0)
  | some (.inr (_, none)) => (s, .invalidDataset, [], 0)
  | some (.inr (_, some (name, i))) =>
    if name = [] then (s, .invalidDataset, [0, 0, 0, i], 0)
    else match s.announce (ps.getD 0 0) (ps.getD 1 0) (listInfo ps name) with
      | (s', .ok, qs, h) => (s', .ok, qs, h)
      | (s', r, _, _) => (s', r, [0, 0, 0, i], 0)

/-- storagefactory.cpp:507-517, fsstorageplugin.cpp:2035-2125 `writeData`. -/
def write (s : Server) (h : Nat) (buf : Option (List UInt8)) (first last : Bool) : Server × Resp :=
  if s.tree.has h = false then (s, .invalidObjectHandle)
  else ((s.absorb (s.view.writeData (s.ioFor h) h buf first last).1 h).tickCall.redate h
      (last && buf.isNone && s.dataFile.isSome),
    (s.view.writeData (s.ioFor h) h buf first last).2)

/-- storagefactory.cpp:541-550, fsstorageplugin.cpp:2008-2030 `truncateItem`. -/
def truncate (s : Server) (h size : Nat) : Server × Resp :=
  if s.tree.has h = false then (s, .invalidObjectHandle)
  else ((s.absorb (s.view.truncateItem (s.ioFor h) h size).1 h).tickCall, (s.view.truncateItem (s.ioFor h) h size).2)

/-- storagefactory.cpp:522-536, fsstorageplugin.cpp:2130-2230 `writePartialData`. -/
def writePartial (s : Server) (h off : Nat) (d : List UInt8) (first last : Bool) : Server × Resp :=
  if s.tree.has h = false then (s, .invalidObjectHandle)
  else match s.view.writePartial (s.ioFor h) h off d first last with
    | .ok (f, r) => ((s.absorb f h).tickCall.redate h
        (f.dataFile.isNone && (if first then (s.ioFor h).openOk else s.dataFile.isSome)), r)
    | .ub _ => (s, .generalError)

/-- What is left of the files when objects went: an unlinked file that is still open has no path. -/
def dropGone (s : Server) (t : Tree) : Server :=
  { s with
    tree := t
    infos := s.infos.filter fun e => t.has e.1
    files := s.files.filter fun e => (AMap.get t.paths e.1.toList).isSome
    dataFile := s.dataFile.map fun e => if (AMap.get t.paths e.1.toList).isSome then e else ("", e.2) }

/-- storagefactory.cpp:277-294, fsstorageplugin.cpp:1202-1247 `deleteItem`. -/
def delete (s : Server) (h fmt : Nat) : Server × Resp :=
  if h ≠ ALL ∧ s.tree.has h = false then (s, .generalError)
  else (s.dropGone (s.tree.deleteItem h fmt).1, (s.tree.deleteItem h fmt).2)

/-- The path of a file after the file system moved `old` to `new` (rename(2)). -/
def moved (old new : Path) (p : String) : String :=
  if p.toList = old ∨ (old ++ ['/']).isPrefixOf p.toList then String.ofList (new ++ p.toList.drop old.length) else p

/-- The disk after that move. -/
def moveFiles (s : Server) (old new : Path) : Server :=
  { s with
    files := s.files.map fun e => (moved old new e.1, e.2)
    dataFile := s.dataFile.map fun e => (if e.1 = "" then e.1 else moved old new e.1, e.2) }

/-- mtpresponder.cpp:1437-1468 `moveObjectReq` (after `preCheck`), storagefactory.cpp:427-447, fsstorageplugin.cpp:1585-1653. The
system does not move an object onto another one, into itself or into something that is no folder (rename(2), QFile::rename). -/
def move (s : Server) (h sid p : Nat) : Server × Resp :=
  match s.tree.get h, s.tree.get p with
  | none, _ => (s, .invalidObjectHandle)
  | some it, pit? =>
    if sid ≠ s.sid then (s, .invalidStorageID)
    else match pit? with
      | none => (s, .invalidParentObject)
      | some pit =>
        let dest := join pit.path it.name
        let possible := pit.fmt = ASSOC && (AMap.get s.tree.paths dest).isNone && ! (it.path ++ ['/']).isPrefixOf dest
        match (grant s.tree possible).move h p true with
        | (t, .ok) => ({ s with tree := { t with fs := s.tree.fs } }.moveFiles it.path dest, .ok)
        | (t, r) => ({ s with tree := { t with fs := s.tree.fs } }, r)

/-- storageplugin.cpp:62-81: the copy loop, from file `x` to file `y`; the first number bounds the rounds (see `copyData`). The host
cancels before the first chunk or not at all (see Verif.Model.Responder, `copyReq`). -/
def copyLoop (cancelled : Bool) (x y : Nat) : Nat → Server → Nat → Nat → Server × Resp
  | 0, s, _, _ => (s, .ok)
  | n + 1, s, off, rem =>
    if rem = 0 then (s, .ok)
    else
      let len := if rem ≥ COPY_CHUNK then COPY_CHUNK else rem
      let d := s.view.readData (s.ios s.calls 0) x len off
      if cancelled then ((s.tickCall.delete y UNDEF).1, .generalError)
      else if d.1 ≠ .ok then (s.tickCall, d.1)
      else
        let s1 := s.tickCall.write y (some d.2) (off = 0) false
        if rem - len = 0 then s1.1.write y none false true
        else if s1.2 ≠ .ok then s1
        else copyLoop cancelled x y n s1.1 (u32 (off + len)) (rem - len)

/-- storageplugin.cpp:43-84 `copyData`. -/
def copyData (s : Server) (cancelled : Bool) (x y : Nat) : Server × Resp :=
  if (s.tree.has x && s.tree.has y) = false then (s, .invalidObjectHandle)
  else copyLoop cancelled x y (u32 (s.sizeOf x) / COPY_CHUNK + 1) s 0 (u32 (s.sizeOf x))

/-- fsstorageplugin.cpp:1538-1546: the loop over the children; it stops at the first failure. -/
def copyKids (f : Server → Nat → Server × Resp × Nat) : List Nat → Server → Server × Resp
  | [], s => (s, .ok)
  | k :: ks, s => if (f s k).2.1 = .ok then copyKids f ks (f s k).1 else ((f s k).1, (f s k).2.1)

/-- A name this model can give to a copy (see `plain`). -/
def copyable (n : Path) : Bool := plain (fromPath n) && decide (toPath (fromPath n) = n)

/-- fsstorageplugin.cpp:1448-1560 `copyObject` within the storage (see Verif.Model.Copy, `Cp.copyTo`, for the same with other storages
and watches). The first number bounds the depth: a folder that is copied into itself comes to an end there, in the code when the file
system refuses a path (C71). -/
def copyTo (cancelled : Bool) : Nat → Server → Nat → Nat → Bool → Nat → Server × Resp × Nat
  | 0, s, _, _, _, out => (s, .generalError, out)
  | n + 1, s, h, p, top, out =>
    match s.tree.get h, s.tree.get p with
    | none, _ => (s, .invalidObjectHandle, out)
    | some _, none => (s, .invalidParentObject, out)
    | some it, some pit =>
      if (s.infoOf h).1 ≠ .ok then (s, .invalidObjectHandle, out)
      else if s.room s.calls < s.sizeOf h then (s.tickCall, .storeFull, out)
      else if (top && decide (it.fmt = ASSOC) && Cp.taken s.tree p (join pit.path it.name)) = true then (s, .invalidParentObject, out)
      else if copyable it.name = false then (s, .generalError, out)
      else
        let a := s.addItem { (s.infoOf h).2 with parent := p } p
        if a.2.1 = .ok then
          let b := if it.fmt = ASSOC then
              copyKids (fun s k => copyTo cancelled n s k a.2.2 false a.2.2) (((a.1.tree.get h).map (·.kids)).getD []) a.1
            else a.1.copyData cancelled h a.2.2
          (b.1, b.2, a.2.2)
        else (a.1, a.2.1, out)

/-- mtpresponder.cpp:1482-1500 (after `preCheck`), storagefactory.cpp:400-425 `copyObject`: a copy that ran out of space is deleted
again. -/
def copy (s : Server) (ps : List Nat) (cancelled : Bool) : Server × Resp × Nat :=
  if s.tree.has (ps.getD 0 0) = false then (s, .invalidObjectHandle, 0)
  else if ps.getD 1 0 ≠ s.sid then (s, .invalidStorageID, 0)
  else if ps.getD 2 0 ≠ 0 ∧ s.tree.has (ps.getD 2 0) = false then (s, .invalidParentObject, 0)
  else
    let a := copyTo cancelled (Tree.maxLen s.tree.items + 1) s (ps.getD 0 0) (ps.getD 2 0) true 0
    if a.2.1 = .storeFull then ((a.1.delete a.2.2 UNDEF).1, .storeFull, a.2.2) else a

/-- The string a host sends as property value. -/
def decodeName (b : List UInt8) : Option QStr :=
  match collect b [] >>= Rx.getStr with
  | .ok (n, _) => some n
  | .ub _ => none

/-- mtpresponder.cpp:2541-2604 `setObjPropValueData`, fsstorageplugin.cpp:2816-2863: the file name (0xDC07) of an object. The
system does not rename to an empty name. The other properties are not modelled here. -/
def rename (s : Server) (h : Nat) (n : QStr) : Server × Resp :=
  match s.tree.get h with
  | none => (s, .generalError)
  | some it =>
    let g := grant s.tree (plain n)
    let r := g.rename h (toPath n)
    let s' : Server := { s with tree := { r.1 with fs := s.tree.fs } }
    if g.fs g.tick && r.1.tick ≠ g.tick then (s'.moveFiles it.path (join (dirOf it.path) (toPath n)), r.2)
    else (s', r.2)

/-- A data phase of one packet, or none. -/
def oneFrame (x : Res (Option (List UInt8) × Resp)) : Reply :=
  match x with
  | .ok (some b, r) => ⟨[(b.drop 12, true)], some (r, [])⟩
  | .ok (none, r) => ⟨[], some (r, [])⟩
  | .ub _ => ⟨[], some (.generalError, [])⟩

/-- mtpresponder.cpp:2891-2991: a download as the responder's data phase; only GetPartialObject is told the number of bytes. -/
def downloadReply (d : Download) (count : Bool) : Reply :=
  ⟨d.frames.map fun f => (f.payload, f.last), d.response.map fun r => (r.1, if count then [r.2] else [])⟩

/-- The requests without data from the host. -/
def query (s : Server) (code : Nat) (ps : List Nat) : Server × Reply :=
  let p := fun i => ps.getD i 0
  let io := s.ios s.calls
  let ss := [(s.sid, s.tree)]
  if code = 0x1004 then (s, oneFrame ((transmit 2 0x1004 0 8 [.arr 4 [s.sid]]).bind fun b => .ok (some b, .ok)))
  else if code = 0x1006 then
    (s, ⟨[], some ((countReply ss s.fmts (p 0) (p 1) (p 2)).1, [(countReply ss s.fmts (p 0) (p 1) (p 2)).2])⟩)
  else if code = 0x1007 then (s, oneFrame (getObjectHandles ss s.fmts 0 (p 0) (p 1) (p 2)))
  else if code = 0x1008 then (s, oneFrame (getObjectInfo (s.infoOf (p 0)) 96 0))
  else if code = 0x1009 then (s.tickCall, downloadReply (getObject s.view io (fun _ => true) (p 0)) false)
  else if code = 0x101B then (s.tickCall, downloadReply (getPartialObject s.view io (fun _ => true) (p 0) (p 1) (p 2)) true)
  else if code = 0x95C1 then
    (s.tickCall, downloadReply (getPartialObject64 s.view io (fun _ => true) (p 0) (p 1) (p 2) (p 3)) false)
  else if code = 0x100B then ((s.delete (p 0) (p 1 % 65536)).1, ⟨[], some ((s.delete (p 0) (p 1 % 65536)).2, [])⟩)
  else if code = 0x1019 then ((s.move (p 0) (p 1) (p 2)).1, ⟨[], some ((s.move (p 0) (p 1) (p 2)).2, [])⟩)
  else (s, ⟨[], some (.operationNotSupported, [])⟩)

/-- SetObjectPropValue of the file name; mtpresponder.cpp:1876-1902 for its request phase. -/
def store (s : Server) (code : Nat) (ps : List Nat) (b : List UInt8) : Server × Resp × List Nat :=
  if code = 0x9804 ∧ ps.getD 1 0 = 0xDC07 then
    match decodeName b with
    | none => (s, .generalError, [])
    | some n => ((s.rename (ps.getD 0 0) n).1, (s.rename (ps.getD 0 0) n).2, [])
  else (s, .operationNotSupported, [])

/-- The storage behind the responder. Events are not switched on or off here. The properties kept for the end of an upload
(`setProps`, mtpresponder.cpp:2299-2343) change no object here: the file name is not among them, and the storage ignores the others
(fsstorageplugin.cpp:2816-2863); the factory's cache of them is in Verif.Model.PropSet. -/
def dev : Dev Server where
  query := query
  copy := copy
  check s code ps :=
    if code = 0x9804 then if s.tree.has (ps.getD 0 0) then .ok else .invalidObjectHandle
    else .operationNotSupported
  store := store
  listCheck := listCheck
  addInfo := addInfo
  addList := addList
  write := write
  truncate := truncate
  setProps s _ _ := s
  writePartial := writePartial
  delete s h := s.delete h 0
  handleOk s h := if s.tree.has h then .ok else .invalidObjectHandle
  flush s _ := s
  setEvents s _ _ := s
  eventsOff s := s
  eventsOn _ _ := true

end Server
end Mtp
