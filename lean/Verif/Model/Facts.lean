import Verif.Model.Tree
import Verif.Model.Dates
/-!
What a file-system storage says about a file: format, size, dates, thumbnail fields
(mts/platform/storage/fsstorageplugin/fsstorageplugin.cpp). They are computed once and kept with the
object (`m_objectInfo`); this file models what fills and what renews them.

Only files are modelled here, by their full path; the tree of folders is in Verif.Model.Tree. Every
folder is watched. A file is its length and its modification time. The notifications of the kernel wait in
`pending` until the event loop delivers them; a pair "moved from"/"moved to" is one notification (its
pairing is in Verif.Model.Notify). Handles are not reused (their counter does not wrap here). The size of
a ready thumbnail, and names and parents, are not modelled here.
-/
namespace Mtp

/-- fsstorageplugin.cpp:677-750 `m_formatByExtTable`. -/
def extTable : List (String × Nat) :=
  [("pla", 0xBA05), ("wav", 0x3008), ("mp3", 0x3009), ("ogg", 0xB902), ("txt", 0x3004), ("htm", 0x3005),
   ("html", 0x3005), ("wmv", 0xB981), ("avi", 0x300A), ("mpg", 0x300B), ("mpeg", 0x300B), ("bmp", 0x3804),
   ("gif", 0x3807), ("jpg", 0x3801), ("jpeg", 0x3801), ("png", 0x380B), ("tif", 0x380D), ("tiff", 0x380D),
   ("wma", 0xB901), ("aac", 0xB903), ("mp4", 0xB982), ("3gp", 0xB984), ("pls", 0xBA14), ("alb", 0xBA03),
   ("pbm", 0x3800), ("pcx", 0x3800), ("pgm", 0x3800), ("ppm", 0x3800), ("xpm", 0x3800), ("xwd", 0x3800),
   ("3g2", 0xB985), ("aiff", 0x3007), ("aif", 0x3007), ("mp2", 0xB983), ("flac", 0xB906), ("mrk", 0x3006),
   ("wpl", 0xBA10), ("m3u", 0xBA11), ("m3u8", 0xBA11), ("mpl", 0xBA12), ("mpls", 0xBA12), ("asx", 0xBA13),
   ("xml", 0xBA82), ("mht", 0xBA84), ("mhtml", 0xBA84), ("asf", 0x300C), ("mts", 0xB986), ("m2ts", 0xB986),
   ("ts", 0xB988), ("jp2", 0x380F), ("jpg2", 0x380F), ("jpx", 0x3810), ("wbmp", 0xB803), ("fpx", 0x3803),
   ("dib", 0x3804), ("crw", 0x3805), ("jfif", 0x3808), ("jfi", 0x3808), ("pcd", 0x3809), ("pict", 0x380A),
   ("pct", 0x380A), ("pic", 0x380A), ("jxr", 0xB804), ("hdp", 0xB804), ("wdp", 0xB804), ("m4a", 0xB215),
   ("aa", 0xB904), ("aax", 0xB904), ("qcp", 0xB907), ("amr", 0xB908)]

/-- `QString::section('.', -1)`: what follows the last dot, everything if there is none. -/
def lastSection (p : Path) : Path := (p.reverse.takeWhile (· ≠ '.')).reverse

/-- `QString::toLower`; what happens to characters outside ASCII is a parameter. -/
def lowerWith (other : Char → List Char) (p : Path) : Path :=
  p.flatMap fun c => if c.toNat < 128 then [c.toLower] else other c

/-- fsstorageplugin.cpp:1742-1757 `getObjectFormatByExtension` for something that is not a directory. -/
def formatOf (other : Char → List Char) (p : Path) : Nat :=
  match extTable.find? (fun e => e.1.toList = lowerWith other (lastSection p)) with
  | some e => e.2
  | none => UNDEF

/-- fsstorageplugin.cpp:1787-1815 `isThumbnailableImage`. -/
def thumbnailable (p : Path) : Bool :=
  [".bmp", ".gif", ".jpeg", ".jpg", ".png"].any fun e => e.toList.isSuffixOf p

/-- A regular file: `st_size` and `st_mtime`. -/
structure FileNode where
  len : Nat
  mtime : Int
  deriving DecidableEq

/-- The members of `MTPObjectInfo` that come from the file (mts/common/mtptypes.h). -/
structure Facts where
  fmt : Nat
  size : Nat
  created : List Char
  modified : List Char
  thumbFmt : Nat
  thumbW : Nat
  thumbH : Nat
  deriving DecidableEq

/-- fsstorageplugin.cpp:1938-1942 `getModifiedDate` with 354-368 `file_get_mtime`. -/
def dateOf (z : Zone) (n : Option FileNode) : List Char :=
  match n with
  | none => formatDate z (-1)
  | some n => formatDate z n.mtime

/-- fsstorageplugin.cpp:1773-1782 `getObjectSize`. -/
def sizeOf' (n : Option FileNode) : Nat :=
  match n with
  | none => 0
  | some n => n.len

/-- fsstorageplugin.cpp:1683-1737 `populateObjectInfo` for the file `n` at path `p`, with 1820-1846 (thumbnail
fields; MTP_OBF_FORMAT_JFIF) and 1921-1933 `getCreatedDate`. -/
def factsOf (z : Zone) (other : Char → List Char) (p : Path) (n : Option FileNode) : Facts :=
  { fmt := formatOf other p, size := sizeOf' n, created := dateOf z n, modified := dateOf z n,
    thumbFmt := if thumbnailable p then 0x3808 else UNDEF,
    thumbW := if thumbnailable p then 100 else 0,
    thumbH := if thumbnailable p then 100 else 0 }

/-- A notification of the kernel about a file in a watched folder (fsstorageplugin.cpp:438, 2309-2373). -/
inductive Note where
  | created (p : Path) | deleted (p : Path) | moved (p q : Path) | closed (p : Path)
  deriving DecidableEq

/-- The storage and the files: `objs` is `m_objectHandlesMap`, `paths` is `m_pathNamesMap`, `dataFile` is
`m_dataFile` with its position (its path is `none` once the file is deleted), `writing` is `m_writeObjectHandle`; `dirty` are the files other programs
have changed and not yet closed. -/
structure FactSt where
  zone : Zone
  other : Char → List Char
  disk : AMap Path FileNode
  objs : AMap Nat (Path × Facts)
  paths : AMap Path Nat
  next : Nat
  dataFile : Option (Option Path × Nat)
  writing : Nat
  pending : List Note
  dirty : List Path
  evs : List TEvent

namespace FactSt

/-- `m_pathNamesMap.contains(p)`. -/
def known (s : FactSt) (p : Path) : Bool := (AMap.get s.paths p).isSome

/-- The kernel queues a notification. -/
def note (s : FactSt) (n : Note) : FactSt := { s with pending := s.pending ++ [n] }

/-- The facts as they would be computed now. -/
def fresh (s : FactSt) (p : Path) : Facts := factsOf s.zone s.other p (AMap.get s.disk p)

/-- Replace a file, or create it. -/
def put (s : FactSt) (p : Path) (n : FileNode) : FactSt := { s with disk := AMap.insert s.disk p n }

/-- open(O_RDWR | O_CREAT). -/
def openFile (s : FactSt) (p : Path) (now : Int) : FactSt :=
  match AMap.get s.disk p with
  | some _ => s
  | none => (s.put p ⟨0, now⟩).note (.created p)

/-- fsstorageplugin.cpp:370-382 `file_set_mtime`; `ok`: utimes() succeeds. -/
def setMtime (s : FactSt) (p : Path) (t : Int) (ok : Bool) : FactSt :=
  if t = -1 ∨ ok = false then s
  else match AMap.get s.disk p with
    | none => s
    | some n => s.put p { n with mtime := t }

/-- A new object (fsstorageplugin.cpp:1001-1092) with the given facts. -/
def addObj (s : FactSt) (p : Path) (f : Facts) : FactSt :=
  { s with
    objs := AMap.insert s.objs s.next (p, f)
    paths := AMap.insert s.paths p s.next
    next := s.next + 1 }

/-- An object disappears (fsstorageplugin.cpp:1283-1308). -/
def dropObj (s : FactSt) (h : Nat) (p : Path) : FactSt :=
  { s with objs := AMap.erase s.objs h, paths := AMap.erase s.paths p }

/-- What the host announces in SendObjectInfo: the members of `Facts` and the file name. The dates of
`facts` other than the modification date are ignored. -/
structure Announced where
  path : Path
  facts : Facts

/-- fsstorageplugin.cpp:790-832 `createFile` in `addItem`/`addToStorage` with the host's object info. `opened`:
open() succeeds, `fal`: fallocate() does, `ut`: utimes() does. -/
def announce (s : FactSt) (a : Announced) (opened fal ut : Bool) (now : Int) : FactSt :=
  if s.known a.path then s
  else if opened = false then { s with next := s.next + 1 }
  else
    let s := s.openFile a.path now
    let old := sizeOf' (AMap.get s.disk a.path)
    let len := if a.facts.size = 0 then 0 else if fal then max old a.facts.size else old
    let s := (s.put a.path ⟨len, now⟩).note (.closed a.path)
    let s := s.setMtime a.path (parseDate s.zone a.facts.modified) ut
    s.addObj a.path
      { a.facts with created := dateOf s.zone (AMap.get s.disk a.path), modified := dateOf s.zone (AMap.get s.disk a.path) }

/-- `n` bytes are stored at position `pos` of the file at `p`; nothing is visible if it was deleted. -/
def store (s : FactSt) (p : Option Path) (pos n : Nat) (now : Int) : FactSt :=
  match p with
  | none => s
  | some p =>
    match AMap.get s.disk p with
    | none => s
    | some f => if n = 0 then s else s.put p ⟨max f.len (pos + n), now⟩

/-- The open file is cut at `pos` and closed. -/
def cut (s : FactSt) (p : Option Path) (pos : Nat) (now : Int) : FactSt :=
  match p with
  | none => s
  | some p =>
    match AMap.get s.disk p with
    | none => s
    | some _ => (s.put p ⟨pos, now⟩).note (.closed p)

/-- fsstorageplugin.cpp:2066-2124, a segment of an upload: `n` bytes of it are stored. -/
def writeSeg (s : FactSt) (h : Nat) (first opened ut : Bool) (n : Nat) (now : Int) : FactSt :=
  match AMap.get s.objs h with
  | none => s
  | some (p, f) =>
    let s := { s with writing := h }
    if first ∧ opened = false then { s with dataFile := none }
    else
      let s := if first then { (s.openFile p now).setMtime p (parseDate s.zone f.modified) ut with dataFile := some (some p, 0) } else s
      match s.dataFile with
      | none => s
      | some (q, pos) => { s.store q pos n now with dataFile := some (q, pos + n) }

/-- fsstorageplugin.cpp:2045-2065, the end of an upload: cut at the position, close, put the time back, and keep the
dates as the file system has them. The size is not renewed. -/
def writeEnd (s : FactSt) (h : Nat) (ut : Bool) (now : Int) : FactSt :=
  match AMap.get s.objs h with
  | none => s
  | some (p, f) =>
    let s := { s with writing := 0 }
    match s.dataFile with
    | none => s
    | some (q, pos) =>
      let s := { s with dataFile := none }.cut q pos now
      let s := s.setMtime p (parseDate s.zone f.modified) ut
      let d := dateOf s.zone (AMap.get s.disk p)
      { s with objs := AMap.insert s.objs h (p, { f with modified := d, created := d }) }

/-- fsstorageplugin.cpp:2130-2230, a whole SendPartialObject: open, store `n` bytes at `off`, close, put the time back,
and keep size and dates as the file system has them. -/
def editWrite (s : FactSt) (h off n : Nat) (opened ut : Bool) (now : Int) : FactSt :=
  match AMap.get s.objs h with
  | none => s
  | some (p, f) =>
    if opened = false then { s with writing := 0, dataFile := none }
    else
      let s := (((s.openFile p now).store (some p) off n now).note (.closed p)).setMtime p (parseDate s.zone f.modified) ut
      let d := dateOf s.zone (AMap.get s.disk p)
      { s with
        writing := 0
        dataFile := none
        objs := AMap.insert s.objs h
          (p, { f with size := sizeOf' (AMap.get s.disk p), modified := d, created := d }) }

/-- fsstorageplugin.cpp:2008-2030 `truncateItem`: truncate() by name; the kept size is renewed, the kept dates are not. -/
def truncate (s : FactSt) (h size : Nat) (ok : Bool) (now : Int) : FactSt :=
  match AMap.get s.objs h with
  | none => s
  | some (p, f) =>
    match ok, AMap.get s.disk p with
    | true, some _ =>
      { s.put p ⟨size, now⟩ with objs := AMap.insert s.objs h (p, { f with size := size }) }
    | _, _ => s

/-- A renamed file takes with it that a program has it open; one that is replaced is gone. -/
def follow (dirty : List Path) (p q : Path) : List Path := (dirty.filter (· ≠ q)).map fun x => if x = p then q else x

/-- The same for the file the storage has open. -/
def followFile (d : Option (Option Path × Nat)) (p q : Path) : Option (Option Path × Nat) :=
  d.map fun e => (if e.1 = some p then some q else if e.1 = some q then none else e.1, e.2)

/-- And when a file is deleted. -/
def detach (d : Option (Option Path × Nat)) (p : Path) : Option (Option Path × Nat) :=
  d.map fun e => (if e.1 = some p then none else e.1, e.2)

/-- rename(): a file at the new name is replaced. -/
def diskMove (s : FactSt) (p q : Path) : FactSt :=
  match AMap.get s.disk p with
  | none => s
  | some n =>
    { s with disk := AMap.insert (AMap.erase s.disk p) q n, dirty := follow s.dirty p q,
             dataFile := followFile s.dataFile p q }.note (.moved p q)

/-- MoveObject and a new Object_File_Name (fsstorageplugin.cpp:1585-1653, 2816-2863) for a file: the kept facts stay as
they are. -/
def hostMove (s : FactSt) (h : Nat) (q : Path) (ok : Bool) : FactSt :=
  match AMap.get s.objs h with
  | none => s
  | some (p, f) =>
    if s.known q ∨ ok = false ∨ AMap.get s.disk p = none ∨ AMap.get s.disk q ≠ none then s
    else
      { s.diskMove p q with
        objs := AMap.insert s.objs h (q, f)
        paths := AMap.insert (AMap.erase s.paths p) q h }

/-- unlink(). -/
def diskDelete (s : FactSt) (p : Path) : FactSt :=
  { s with disk := AMap.erase s.disk p, dirty := s.dirty.filter (· ≠ p), dataFile := detach s.dataFile p }.note (.deleted p)

/-- DeleteObject of a file (fsstorageplugin.cpp:1252-1309). -/
def hostDelete (s : FactSt) (h : Nat) (ok : Bool) : FactSt :=
  match AMap.get s.objs h with
  | none => s
  | some (p, _) =>
    if ok = false ∨ AMap.get s.disk p = none then s
    else
      (s.diskDelete p).dropObj h p

/-- `if (changed) emit` of fsstorageplugin.cpp:3063-3075 with mtptypes.h:881-912 `differsFrom`. -/
def renew (s : FactSt) (h : Nat) (p : Path) (old new : Facts) : FactSt :=
  { s with
    objs := AMap.insert s.objs h (p, new)
    evs := if old = new then s.evs else s.evs ++ [.infoChanged h] }

/-- The plugin handles a notification: fsstorageplugin.cpp:2882-2902, 2905-2923, 2926-2995, 3046-3080. -/
def process (s : FactSt) : Note → FactSt
  | .created p =>
    if s.known p then s else { s.addObj p (s.fresh p) with evs := s.evs ++ [.added s.next] }
  | .deleted p =>
    match AMap.get s.paths p with
    | none => s
    | some h => { s.dropObj h p with evs := s.evs ++ [.removed h] }
  | .moved p q =>
    match AMap.get s.paths p with
    | none => s
    | some h =>
      if s.known q then { s.dropObj h p with evs := s.evs ++ [.removed h] }
      else
        { s with
          objs := AMap.insert s.objs h (q, s.fresh q)
          paths := AMap.insert (AMap.erase s.paths p) q h
          evs := s.evs ++ [.infoChanged h] }
  | .closed p =>
    match AMap.get s.paths p with
    | none => s
    | some h =>
      match AMap.get s.objs h with
      | none => s
      | some (_, f) => if h = s.writing then s else s.renew h p f (s.fresh p)

/-- The event loop delivers the oldest notification. -/
def deliver (s : FactSt) : FactSt :=
  match s.pending with
  | [] => s
  | n :: r => { s with pending := r }.process n

/-- What happens: requests of the host, other programs at work, notifications delivered. -/
inductive FOp where
  | announce (a : Announced) (opened fal ut : Bool) (now : Int)
  | writeSeg (h : Nat) (first opened ut : Bool) (n : Nat) (now : Int)
  | writeEnd (h : Nat) (ut : Bool) (now : Int)
  | editWrite (h off n : Nat) (opened ut : Bool) (now : Int)
  | truncate (h size : Nat) (ok : Bool) (now : Int)
  | hostMove (h : Nat) (q : Path) (ok : Bool)
  | hostDelete (h : Nat) (ok : Bool)
  /-- a program creates or changes a file, which it holds open -/
  | change (p : Path) (n : FileNode)
  /-- the program closes it -/
  | close (p : Path)
  /-- a program deletes a file -/
  | unlink (p : Path)
  /-- a program renames a file, replacing a file at the new name if there is one -/
  | rename (p q : Path)
  /-- a program changes a file by its name only (truncate(2), utimes(2)) -/
  | byName (p : Path) (n : FileNode)
  | deliver

/-- One of them. -/
def step (s : FactSt) : FOp → FactSt
  | .announce a o fa u n => s.announce a o fa u n
  | .writeSeg h f o u k n => s.writeSeg h f o u k n
  | .writeEnd h u n => s.writeEnd h u n
  | .editWrite h off k o u n => s.editWrite h off k o u n
  | .truncate h k ok n => s.truncate h k ok n
  | .hostMove h q ok => s.hostMove h q ok
  | .hostDelete h ok => s.hostDelete h ok
  | .change p n =>
    { (if (AMap.get s.disk p).isSome then s else s.note (.created p)).put p n with
      dirty := if p ∈ s.dirty then s.dirty else p :: s.dirty }
  | .close p => if p ∈ s.dirty then { s with dirty := s.dirty.filter (· ≠ p) }.note (.closed p) else s
  | .unlink p =>
    if (AMap.get s.disk p).isSome then s.diskDelete p else s
  | .rename p q => if p = q then s else s.diskMove p q
  | .byName p n => if (AMap.get s.disk p).isSome then s.put p n else s
  | .deliver => s.deliver

/-- A history. -/
def run (s : FactSt) (ops : List FOp) : FactSt := ops.foldl step s

/-- The storage after its start: the files found, in this order, each an object (fsstorageplugin.cpp:1038-1056). -/
def start (z : Zone) (other : Char → List Char) (disk : AMap Path FileNode) : FactSt :=
  (disk.map (·.1)).foldl (fun s p => if s.known p then s else s.addObj p (s.fresh p))
    { zone := z, other := other, disk := disk, objs := [], paths := [], next := 1, dataFile := none, writing := 0,
      pending := [], dirty := [], evs := [] }

end FactSt
end Mtp
