import Verif.Model.Factory
import Verif.Model.Ids
/-!
The object tree of one file-system storage
(mts/platform/storage/fsstorageplugin/fsstorageplugin.cpp, storageitem.cpp).

Items are identified by their handle instead of by pointer; the chain `m_firstChild`/`m_nextSibling`
is the list `kids`. What the file system answers is arbitrary: the `n`-th system call that can fail
succeeds iff `fs n` (`tick` counts the calls). Watch descriptors are not modelled: a notification
names the watched directory by its handle. Event-loop re-entry during long scans
(`processEvents`, lines 1048-1051) is not modelled.
-/
namespace Mtp

/-- A path name (`QString`). -/
abbrev Path := List Char

/-- `p + "/" + n`. -/
def join (p n : Path) : Path := p ++ '/' :: n

/-- `path.left(path.lastIndexOf('/'))`: the whole string when there is no `/`
(`left(-1)` is the entire string). -/
def dirOf (p : Path) : Path :=
  if '/' ∈ p then ((p.reverse.dropWhile (· ≠ '/')).drop 1).reverse else p

/-- `name.remove(0, path.lastIndexOf("/") + 1)`, fsstorageplugin.cpp:1697-1698. -/
def baseOf (p : Path) : Path := (p.reverse.takeWhile (· ≠ '/')).reverse

/-- MTP_OBF_FORMAT_Association, mtptypes.h. -/
def ASSOC : Nat := 0x3001
/-- MTP_OBF_FORMAT_Undefined, mtptypes.h. -/
def UNDEF : Nat := 0x3000
/-- "all objects" / "root level" in parameters. -/
def ALL : Nat := 0xFFFFFFFF

/-- storageitem.h `StorageItem` with the parts of its object info the tree depends on: `name` is
`mtpFileName`, `fmt` is `mtpObjectFormat`, `par` is `mtpParentObject`. `m_parent` is `parent`. -/
structure Item where
  path : Path
  name : Path
  fmt : Nat
  par : Nat
  parent : Option Nat
  kids : List Nat
  puoid : Nat
  deriving DecidableEq

/-- Events for the host emitted by the storage (`eventGenerated`). -/
inductive TEvent where
  | added (h : Nat) | removed (h : Nat) | infoChanged (h : Nat)
  deriving DecidableEq

/-- The symbolic-link policy (fsstorageplugin.h `SymLinkPolicy`). -/
inductive SymPolicy where
  | undefined | allowAll | allowWithinStorage | denyAll
  deriving DecidableEq

/-- The state of a storage: `m_objectHandlesMap`, `m_pathNamesMap`, `m_puoidsMap`
(fsstorageplugin.h:381-400), `m_storagePath`, `m_excludePaths`, policy; `asked` counts the handle
requests to the factory since process start (its 32-bit counter is `asked` modulo 2^32), `puoids`
those for persistent ids. -/
structure Tree where
  rootPath : Path
  items : AMap Nat Item
  paths : AMap Path Nat
  puoids : AMap Path Nat
  excl : List Path
  policy : SymPolicy
  asked : Nat
  idsAsked : Nat
  fs : Nat → Bool
  tick : Nat
  evs : List TEvent

/-- What is on disk at a path, as reported by `QFileInfo`/`QDir`: whether it is a symbolic link
(`none` = no, `some none` = broken, `some (some t)` = link to canonical path `t`), the format
`getObjectFormatByExtension` (1742-1757) computes (`ASSOC` for a directory) and, for a directory,
its entries. -/
inductive Disk where
  | node (link : Option (Option Path)) (fmt : Nat) (entries : List (Path × Disk))

namespace Tree

/-- `m_objectHandlesMap.value(h)`. -/
def get (t : Tree) (h : Nat) : Option Item := AMap.get t.items h

/-- fsstorageplugin.cpp:1423-1426 `checkHandle`. -/
def has (t : Tree) (h : Nat) : Bool := (t.get h).isSome

/-- Change the item with handle `h` in place. -/
def upd (t : Tree) (h : Nat) (f : Item → Item) : Tree :=
  match t.get h with
  | none => t
  | some it => { t with items := AMap.insert t.items h (f it) }

/-- The next answer of the file system. -/
def ask (t : Tree) : Bool × Tree := (t.fs t.tick, { t with tick := t.tick + 1 })

/-- fsstorageplugin.cpp:765-777 `requestNewObjectHandle` with storagefactory.cpp:671-676. -/
def newHandle (t : Tree) : Nat × Tree :=
  ((nextHandle (u32 t.asked)).1, { t with asked := t.asked + 1 })

/-- fsstorageplugin.cpp:860-878 `linkChildStorageItem`, the parent's side: new first child. -/
def link (t : Tree) (c p : Nat) : Tree := t.upd p (fun it => { it with kids := c :: it.kids })

/-- fsstorageplugin.cpp:883-904 `unlinkChildStorageItem`; a child without parent is left alone. -/
def unlink (t : Tree) (c : Nat) (p : Option Nat) : Tree :=
  match p with
  | none => t
  | some p => t.upd p (fun it => { it with kids := it.kids.filter (· ≠ c) })

/-- fsstorageplugin.cpp:909-918 `findStorageItemByPath`. -/
def findByPath (t : Tree) (p : Path) : Option Nat :=
  match AMap.get t.paths p with
  | none => none
  | some h => if t.has h then some h else none

/-- fsstorageplugin.cpp:968-996: is the path refused by the exclusion list or the symbolic-link
policy? `targetPath[prefixLen]` with `targetPath.length() > prefixLen`. -/
def refused (t : Tree) (path : Path) (link : Option (Option Path)) : Bool :=
  t.excl.contains path ||
  match link with
  | none => false
  | some none => true
  | some (some target) =>
    target.isEmpty ||
    match t.policy with
    | .allowAll => false
    | .allowWithinStorage =>
      decide (target.length ≤ t.rootPath.length) || target[t.rootPath.length]? ≠ some '/' ||
      ! t.rootPath.isPrefixOf target
    | _ => true

/-- fsstorageplugin.cpp:1096-1112 `addItemToMaps`. -/
def addToMaps (t : Tree) (h : Nat) (it : Item) : Tree :=
  let (v, t) : Nat × Tree := match AMap.get t.puoids it.path with
    | some v => (v, t)
    | none =>
      (t.idsAsked + 1,
        { t with idsAsked := t.idsAsked + 1, puoids := AMap.insert t.puoids it.path (t.idsAsked + 1) })
  { t with paths := AMap.insert t.paths it.path h,
           items := AMap.insert t.items h { it with puoid := v } }

/-- The object info passed by the host, as far as it matters here. -/
structure Info where
  name : Path
  fmt : Nat
  par : Nat

/-- Emit an event if asked to. -/
def emit (t : Tree) (b : Bool) (e : TEvent) : Tree :=
  if b then { t with evs := t.evs ++ [e] } else t

/-- fsstorageplugin.cpp:1007-1009: the object at the directory part of the path, else the root. -/
def parentFor (t : Tree) (path : Path) : Option Nat :=
  match t.findByPath (dirOf path) with
  | some p => some p
  | none => if t.has 0 then some 0 else none

/-- fsstorageplugin.cpp:1011-1016: the object info is the host's or computed from the file
(`populateObjectInfo`, 1683-1737). -/
def newItem (path : Path) (parent : Option Nat) (dfmt : Nat) : Option Info → Item
  | some i => { path := path, name := i.name, fmt := i.fmt, par := i.par, parent := parent,
                kids := [], puoid := 0 }
  | none => { path := path, name := baseOf path, fmt := dfmt, par := parent.getD 0,
              parent := parent, kids := [], puoid := 0 }

/-- fsstorageplugin.cpp:1018-1026: the handle of a new object. -/
def pickHandle (t : Tree) (path : Path) (handle : Nat) : Nat × Tree :=
  if path = t.rootPath then (0, t) else if handle ≠ 0 then (handle, t) else t.newHandle

/-- `createDirectory`/`createFile` (790-855) if requested. -/
def tryCreate (t : Tree) (create : Bool) : Bool × Tree := if create then t.ask else (true, t)

/-- `linkChildStorageItem` with a possibly null parent (862). -/
def linkOpt (t : Tree) (h : Nat) : Option Nat → Tree
  | some p => t.link h p
  | none => t

/-- fsstorageplugin.cpp:959-1047, 1058-1071: one object is added, without the contents of a
directory. The result is `none` when nothing was added (refused, already known, or the file system
refused to create it); in the last case the parent link made at 1009 is undone (1040, 1065), so that
only the handle request is left. -/
def addOne (t : Tree) (path : Path) (link : Option (Option Path)) (dfmt : Nat)
    (info : Option Info) (create : Bool) (handle : Nat) : Tree × Option Nat × Resp :=
  if t.refused path link then (t, none, .accessDenied)
  else if (AMap.get t.paths path).isSome then (t, none, .ok)
  else
    let parent := t.parentFor path
    let it := newItem path parent dfmt info
    let ht := t.pickHandle path handle
    let ct := ht.2.tryCreate create
    if ct.1 = false then (ct.2, none, if it.fmt = ASSOC then .generalError else .accessDenied)
    else ((ct.2.linkOpt ht.1 parent).addToMaps ht.1 it, some ht.1, .ok)

mutual
/-- fsstorageplugin.cpp:959-1092 `addToStorage`. -/
def add (t : Tree) (path : Path) (d : Disk) (info : Option Info) (ev create : Bool) (handle : Nat) :
    Tree × Option Nat × Resp :=
  match d with
  | .node link dfmt entries =>
    match t.addOne path link dfmt info create handle with
    | (t1, some h, r) =>
      let t2 := if (newItem path none dfmt info).fmt = ASSOC then addAll t1 path ev create entries else t1
      (t2.emit ev (.added h), some h, r)
    | (t1, none, r) =>
      -- 998-1003: an object known under this path is handed back
      (t1, if r = .ok then t1.findByPath path else none, r)

/-- fsstorageplugin.cpp:1049-1062: the entries of a new directory. -/
def addAll (t : Tree) (path : Path) (ev create : Bool) (entries : List (Path × Disk)) : Tree :=
  match entries with
  | [] => t
  | (n, d) :: r => addAll (add t (join path n) d none ev create 0).1 path ev create r
end

/-- fsstorageplugin.cpp:1118-1144 `addItem`; `entries` is what the new directory turns out to
contain. Result: response, handle. -/
def addItem (t : Tree) (i : Info) (d : Disk) : Tree × Option Nat × Resp :=
  let i := if i.par = ALL then { i with par := 0 } else i
  match t.get i.par with
  | none => (t, none, .invalidParentObject)
  | some p => t.add (join p.path i.name) d (some i) false true 0

/-- fsstorageplugin.cpp:1149-1197 `copyHandle`, one object: the handle it had in another storage is
kept. -/
def adopt (t : Tree) (i : Info) (d : Disk) (handle : Nat) : Tree × Option Nat × Resp :=
  if t.has handle then (t, none, .invalidDataset)
  else
    let i := if i.par = ALL then { i with par := 0 } else i
    match t.get i.par with
    | none => (t, none, .invalidParentObject)
    | some p => t.add (join p.path i.name) d (some i) false true handle

/-- fsstorageplugin.cpp:1314-1338 `removeFromStorage`. -/
def remove (t : Tree) (h : Nat) (ev : Bool) : Tree :=
  let t := match t.get h with
    | none => t
    | some it =>
      ({ t with items := AMap.erase t.items h, paths := AMap.erase t.paths it.path } : Tree).unlink
        h it.parent
  t.emit ev (.removed h)

mutual
/-- fsstorageplugin.cpp:1252-1309 `deleteItemHelper`. The first argument bounds the recursion (see
`delFuel`; theorems show the bound is never reached). -/
def del (n : Nat) (t : Tree) (h : Nat) (phys ev : Bool) : Tree × Resp :=
  match n with
  | 0 => (t, .generalError)
  | n+1 =>
    match t.get h with
    | none => (t, .invalidObjectHandle)
    | some it =>
      if h = 0 then (t, .objectWriteProtected)
      else if it.kids = [] then
        let (good, t) : Bool × Tree := if phys then t.ask else (true, t)
        if ! good then (t, .generalError) else (t.remove h ev, .ok)
      else
        match delKids n t h phys ev with
        | (t1, true) => ((del n t1 h true false).1, .ok)
        | (t1, false) => (t1, .partialDeletion)

/-- fsstorageplugin.cpp:1289-1299: the loop deleting the first child until none is left. -/
def delKids (n : Nat) (t : Tree) (h : Nat) (phys ev : Bool) : Tree × Bool :=
  match n with
  | 0 => (t, false)
  | n+1 =>
    match t.get h with
    | none => (t, true)
    | some it =>
      match it.kids with
      | [] => (t, true)
      | c :: _ =>
        match del n t c phys ev with
        | (t1, .ok) => delKids n t1 h phys ev
        | (t1, _) => (t1, false)
end

/-- The longest path name. -/
def maxLen (m : AMap Nat Item) : Nat := m.foldr (fun e n => max e.2.path.length n) 0

/-- A recursion bound for `del`: twice (longest path + twice the number of objects). -/
def delFuel (t : Tree) : Nat := 2 * maxLen t.items + 4 * t.items.length + 3

/-- fsstorageplugin.cpp:1209-1232: the loop over a copy of the handle map. `resp` is the variable
`response`, which keeps its value when the format does not match. The last component tells whether
the format of an object was read after the object had been destroyed (1217-1218). -/
def delAll (fmt : Nat) : List (Nat × Item) → Tree → Resp → Bool → Bool → Bool →
    Tree × Resp × Bool × Bool × Bool
  | [], t, resp, ds, fsome, bad => (t, resp, ds, fsome, bad)
  | (h, it) :: r, t, resp, ds, fsome, bad =>
    let filtered := fmt ≠ 0 ∧ fmt ≠ UNDEF
    let bad := bad || (decide filtered && ! t.has h)
    let (t, resp) : Tree × Resp :=
      if filtered ∧ it.fmt ≠ fmt then (t, resp) else del (delFuel t) t h true false
    delAll fmt r t resp (ds || resp = .ok) (fsome || (resp ≠ .ok && resp ≠ .invalidObjectHandle)) bad

/-- fsstorageplugin.cpp:1202-1247 `deleteItem`. -/
def deleteItem (t : Tree) (h fmt : Nat) : Tree × Resp :=
  if h = ALL then
    match delAll fmt t.items t .generalError false false false with
    | (t, resp, ds, fsome, _) => (t, if ds && fsome then .partialDeletion else resp)
  else del (delFuel t) t h true false

/-- fsstorageplugin.cpp:1365-1371, 1380-1389: format filter of `getObjectHandles` for all objects
and for the children of a folder. -/
def fmtAll (fmt : Nat) (it : Item) : Bool := fmt = 0 || fmt = it.fmt
/-- See `fmtAll`. -/
def fmtKids (fmt : Nat) (it : Item) : Bool := fmt = 0 || (fmt ≠ UNDEF && fmt = it.fmt)

/-- fsstorageplugin.cpp:1343-1418 `getObjectHandles`. -/
def handles (t : Tree) (fmt assoc : Nat) : Resp × List Nat :=
  let sel := fun (it : Item) =>
    it.kids.filter (fun c => match t.get c with | some ci => fmtKids fmt ci | none => false)
  if assoc = 0 then
    (.ok, (t.items.filter (fun e => e.1 ≠ 0 && fmtAll fmt e.2)).map (·.1))
  else if assoc = ALL then
    match t.get 0 with
    | none => (.invalidParentObject, [])
    | some it => (.ok, sel it)
  else match t.get assoc with
    | none => (.invalidParentObject, [])
    | some it => if it.fmt ≠ ASSOC then (.invalidParentObject, []) else (.ok, sel it)

/-- fsstorageplugin.cpp:1565-1580 `adjustMovedItemsPath`; the first argument bounds the recursion. -/
def adjust : Nat → Tree → Path → Nat → Tree
  | 0, t, _, _ => t
  | n+1, t, anc, h =>
    match t.get h with
    | none => t
    | some it =>
      let dest := join anc it.name
      let t := { t with paths := AMap.insert (AMap.erase t.paths it.path) dest h,
                        items := AMap.insert t.items h { it with path := dest } }
      it.kids.foldl (fun t c => adjust n t dest c) t

/-- fsstorageplugin.cpp:1630-1650: path map, unlink from the old parent, adjust the paths below, link
to the new parent, new path and parent of the object. -/
def relocate (t : Tree) (h : Nat) (it : Item) (p : Nat) (dest : Path) : Tree :=
  let n := maxLen t.items + 1
  let t1 : Tree := { t with paths := AMap.insert (AMap.erase t.paths it.path) dest h }
  let t2 := t1.unlink h it.parent
  let t3 := it.kids.foldl (fun t c => adjust n t dest c) t2
  let t4 := (t3.link h p).upd h (fun i => { i with parent := some p })
  t4.upd h (fun i => { i with path := dest, par := p })

/-- fsstorageplugin.cpp:1585-1653 `moveObject` within one storage. -/
def move (t : Tree) (h p : Nat) (phys : Bool) : Tree × Resp :=
  match t.get h with
  | none => (t, .invalidObjectHandle)
  | some it =>
    match t.get p with
    | none => (t, .invalidParentObject)
    | some pit =>
      let dest := join pit.path it.name
      if it.fmt = ASSOC ∧ (AMap.get t.paths dest).isSome then (t, .invalidParentObject)
      else
        let (good, t) : Bool × Tree := if phys then t.ask else (true, t)
        if ! good then (t, .invalidParentObject)
        else
          (t.relocate h it p dest, .ok)

/-- Characters rejected by FILENAMES_FILTER_REGEX (fsstorageplugin.cpp:71):
`[<>:\"\/\\\|\?\*\x0000-\x001F]`. -/
def illegal (c : Char) : Bool :=
  c = '<' || c = '>' || c = ':' || c = '"' || c = '/' || c = '\\' || c = '|' || c = '?' || c = '*' ||
  decide (c.toNat ≤ 0x1F)

/-- fsstorageplugin.cpp:3146-3160 `isFileNameValid`. -/
def nameValid (t : Tree) (name : Path) (pit : Item) : Bool :=
  ! (name.any illegal) && ! (name ≠ [] && name.all (· = '.')) &&
  (AMap.get t.paths (join pit.path name)).isNone

/-- fsstorageplugin.cpp:2833, 2851-2859 (also 2961-2972): the item `h` gets path `path` and name
`name`, its descendants follow. -/
def repath (t : Tree) (h : Nat) (it : Item) (path name : Path) : Tree :=
  let n := maxLen t.items + 1
  let t : Tree := { t with paths := AMap.insert (AMap.erase t.paths it.path) path h,
                           items := AMap.insert t.items h { it with path := path, name := name } }
  it.kids.foldl (fun t c => adjust n t path c) t

/-- fsstorageplugin.cpp:2816-2863 `setObjectPropertyValue` for the file name. A refused physical
rename is answered OK. The root has no parent (`isFileNameValid` would dereference a null pointer):
answered GeneralError here. -/
def rename (t : Tree) (h : Nat) (name : Path) : Tree × Resp :=
  match t.get h with
  | none => (t, .generalError)
  | some it =>
    match it.parent.bind t.get with
    | none => (t, .generalError)
    | some pit =>
      if ! t.nameValid name pit then (t, .invalidObjectPropValue)
      else
        -- path.truncate(lastIndexOf("/") + 1) + newName
        let path := if '/' ∈ it.path then join (dirOf it.path) name else name
        let (good, t) := t.ask
        if ! good then (t, .ok)
        else
          let t := t.repath h it path name
          ({ t with puoids := AMap.insert (AMap.erase t.puoids it.path) path it.puoid }, .ok)

/-- fsstorageplugin.cpp:2882-2902 `handleFSDelete` (and of an unpaired moved-from): entry `name` of
the watched directory `d` is gone. -/
def fsDelete (t : Tree) (d : Nat) (name : Path) : Tree :=
  match t.get d with
  | none => t
  | some dit =>
    match AMap.get t.paths (join dit.path name) with
    | none => t
    | some h => (del (delFuel t) t h false true).1

/-- fsstorageplugin.cpp:2905-2923 `handleFSCreate`. -/
def fsCreate (t : Tree) (d : Nat) (name : Path) (disk : Disk) : Tree :=
  match t.get d with
  | none => t
  | some dit =>
    if (AMap.get t.paths (join dit.path name)).isSome then t
    else (t.add (join dit.path name) disk none true false 0).1

/-- fsstorageplugin.cpp:2926-3001 `handleFSMove`; `fmt` is the format computed anew for the moved
object (2984-2987). -/
def fsMove (t : Tree) (d1 : Nat) (n1 : Path) (d2 : Nat) (n2 : Path) (fmt : Nat) : Tree :=
  if d1 = d2 ∧ n1 = n2 then t
  else match t.get d1, t.get d2 with
    | some i1, some i2 =>
      let old := join i1.path n1
      let h := (AMap.get t.paths old).getD 0
      if h = 0 then t
      else match t.get h with
        | none => t
        | some it =>
          let new := join i2.path n2
          if (AMap.get t.paths new).isSome then (del (delFuel t) t h false true).1
          else
            let t := if d1 = d2 then t.repath h it new n2 else (t.move h d2 false).1
            let t := t.upd h (fun i => { i with name := baseOf i.path, fmt := fmt,
                                                par := i.parent.getD 0 })
            t.emit true (.infoChanged h)
    | _, _ => t

/-- Everything that changes the tree of a storage after enumeration. `other` stands for handle
requests by other storages. -/
inductive Op where
  | add (i : Info) (d : Disk)
  | adopt (i : Info) (d : Disk) (h : Nat)
  | delete (h fmt : Nat)
  | move (h p : Nat)
  | rename (h : Nat) (name : Path)
  | fsCreate (d : Nat) (name : Path) (disk : Disk)
  | fsDelete (d : Nat) (name : Path)
  | fsMove (d1 : Nat) (n1 : Path) (d2 : Nat) (n2 : Path) (fmt : Nat)
  | other (n : Nat)

/-- One operation. -/
def step (t : Tree) : Op → Tree
  | .add i d => (t.addItem i d).1
  | .adopt i d h => (t.adopt i d h).1
  | .delete h fmt => (t.deleteItem h fmt).1
  | .move h p => (t.move h p true).1
  | .rename h n => (t.rename h n).1
  | .fsCreate d n k => t.fsCreate d n k
  | .fsDelete d n => t.fsDelete d n
  | .fsMove d1 n1 d2 n2 f => t.fsMove d1 n1 d2 n2 f
  | .other n => { t with asked := t.asked + n }

/-- A history. -/
def run (t : Tree) (ops : List Op) : Tree := ops.foldl step t

/-- A storage before enumeration. -/
def empty (rootPath : Path) (excl : List Path) (policy : SymPolicy) (puoids : AMap Path Nat)
    (fs : Nat → Bool) (asked ids : Nat) : Tree :=
  { rootPath := rootPath, items := [], paths := [], puoids := puoids, excl := excl, policy := policy,
    asked := asked, idsAsked := ids, fs := fs, tick := 0, evs := [] }

/-- fsstorageplugin.cpp:466-472: enumeration of the storage directory. -/
def enumerate (t : Tree) (d : Disk) : Tree := (t.add t.rootPath d none false false 0).1

end Tree
end Mtp
