import Verif.Model.Tree
/-!
CopyObject, and MoveObject to another storage, as trees
(mts/platform/storage/fsstorageplugin/fsstorageplugin.cpp:1149-1197, 1448-1560, 1585-1599,
mts/platform/storage/storagefactory.cpp:400-425).

The contents of a file are looked up by handle. How `copyData` behaves inside is the model of
`FStore.copyData` (C30); here one call is one step whose outcome is arbitrary.
-/
namespace Mtp

/-- storageplugin.cpp:43-84: how one `copyData` of a non-empty file ends. `cancelled`: the host cancelled, the
destination object is deleted (68-72). Otherwise the response, and what the content of the source became. -/
structure CopyRes where
  cancelled : Bool := false
  resp : Resp := .ok
  made : List UInt8 → List UInt8 := id

/-- What the outside world answers, per step: is the free space below the size of the object (1477-1483), and how
does a file copy end. -/
structure CopyEnv where
  full : Nat → Bool
  file : Nat → CopyRes

/-- The destination storage during a copy: its tree, the contents of its files, the folders under an inotify watch.
`k` counts the steps. -/
structure Cp where
  t : Tree
  data : Nat → List UInt8
  watch : List Nat
  k : Nat

/-- The source of a copy: another storage, or (`none`) the destination storage itself. -/
abbrev CopySrc := Option (Tree × (Nat → List UInt8))

/-- The source tree as it is now. -/
def CopySrc.tree (src : CopySrc) (c : Cp) : Tree := match src with | some s => s.1 | none => c.t

/-- The contents of the source storage as they are now. -/
def CopySrc.data (src : CopySrc) (c : Cp) : Nat → List UInt8 := match src with | some s => s.2 | none => c.data

namespace Cp

/-- fsstorageplugin.cpp `addWatchDescriptor`; the kernel running out of watches is not modelled. -/
def addWatch (c : Cp) (h : Nat) : Cp := { c with watch := if h ∈ c.watch then c.watch else h :: c.watch }

/-- fsstorageplugin.cpp `removeWatchDescriptor`. -/
def removeWatch (c : Cp) (h : Nat) : Cp := { c with watch := c.watch.filter (· ≠ h) }

/-- The content of object `h` becomes `d`. -/
def setData (c : Cp) (h : Nat) (d : List UInt8) : Cp := { c with data := fun x => if x = h then d else c.data x }

/-- storageplugin.cpp:43-84 `copyData` from content `d` to object `y`: nothing is written for an empty source. -/
def copyFile (env : CopyEnv) (c : Cp) (d : List UInt8) (y : Nat) : Cp × Resp :=
  if ! c.t.has y then (c, .invalidObjectHandle)
  else if d = [] then (c, .ok)
  else if (env.file c.k).cancelled then ({ c with t := (c.t.deleteItem y UNDEF).1, k := c.k + 1 }, .generalError)
  else ({ c with k := c.k + 1 }.setData y ((env.file c.k).made d), (env.file c.k).resp)

/-- fsstorageplugin.cpp:959-1092 as used by a copy: an object like `it` below `p`, with handle `keep` (0: a new one).
A new folder comes out empty and is watched (1041); a new file gets the expected size (813-817; `size` zero bytes). -/
def create (c : Cp) (p : Nat) (pit it : Item) (keep size : Nat) : Cp × Option Nat × Resp :=
  match c.t.add (join pit.path it.name) (.node none it.fmt []) (some ⟨it.name, it.fmt, p⟩) false true keep with
  | (t1, some y, .ok) =>
    let c1 : Cp := { c with t := t1 }
    let known := (AMap.get c.t.paths (join pit.path it.name)).isSome
    (if known then c1 else if it.fmt = ASSOC then c1.addWatch y else c1.setData y (List.replicate size 0), some y, .ok)
  | (t1, y, r) => ({ c with t := t1 }, y, r)

/-- fsstorageplugin.cpp:1489-1504: the destination path is taken by an object listed for the parent. -/
def taken (t : Tree) (p : Nat) (dest : Path) : Bool :=
  match t.handles 0 p with
  | (.ok, l) => l.any (fun x => match t.get x with | some i => i.path = dest | none => false)
  | _ => false

/-- fsstorageplugin.cpp:1538-1546: the loop over the children; it stops at the first failure. -/
def copyKids (f : Cp → Nat → Option (Cp × Resp × Nat)) : List Nat → Cp → Option (Cp × Resp)
  | [], c => some (c, .ok)
  | k :: ks, c =>
    match f c k with
    | none => none
    | some (c1, .ok, _) => copyKids f ks c1
    | some (c1, r, _) => some (c1, r)

/-- fsstorageplugin.cpp:1448-1560 `copyObject`; the first argument bounds the recursion, `none` means that it was too
small. `top` is `recursionCounter == 0`, `out` the value of `copiedObjectHandle`. Reading `m_firstChild` once after the
creation and following the list is the same as the pointer chase of the code: new siblings are linked at the front. -/
def copyTo (env : CopyEnv) (src : CopySrc) : Nat → Cp → Nat → Nat → Bool → Nat → Option (Cp × Resp × Nat)
  | 0, _, _, _, _, _ => none
  | n+1, c, h, p, top, out =>
    match (src.tree c).get h with
    | none => some (c, .invalidObjectHandle, out)
    | some it =>
      match c.t.get p with
      | none => some (c, .invalidParentObject, out)
      | some pit =>
        if env.full c.k then some ({ c with k := c.k + 1 }, .storeFull, out)
        else if (top && decide (it.fmt = ASSOC) && taken c.t p (join pit.path it.name)) = true then
          some ({ c with k := c.k + 1 }, .invalidParentObject, out)
        else
          match ({ c with k := c.k + 1 }.removeWatch p).create p pit it 0 ((src.data c) h).length with
          | (c1, some y, .ok) =>
            if it.fmt = ASSOC then
              match copyKids (fun c k => copyTo env src n c k y false y)
                  ((((src.tree c1).get h).map Item.kids).getD []) c1 with
              | none => none
              | some (c2, .ok) => some (c2.addWatch p, .ok, y)
              | some (c2, r) => some (c2, r, y)
            else
              match copyFile env c1 ((src.data c1) h) y with
              | (c2, .ok) => some (c2.addWatch p, .ok, y)
              | (c2, r) => some (c2, r, y)
          | (c1, y, r) => some (c1.addWatch p, r, y.getD out)

/-- storagefactory.cpp:400-425 `copyObject`: a copy that ran out of space is deleted again. -/
def copyObject (env : CopyEnv) (src : CopySrc) (n : Nat) (c : Cp) (h p : Nat) : Option (Cp × Resp × Nat) :=
  match copyTo env src n c h p true 0 with
  | some (c1, .storeFull, y) => some ({ c1 with t := (c1.t.deleteItem y UNDEF).1 }, .storeFull, y)
  | r => r

/-- fsstorageplugin.cpp:1149-1197 `copyHandle`: the object `h` of storage `s` and everything in it, with the same
handles. -/
def copyHandle (env : CopyEnv) (s : Tree) (sdata : Nat → List UInt8) : Nat → Cp → Nat → Nat → Option (Cp × Resp × Nat)
  | 0, _, _, _ => none
  | n+1, c, h, p0 =>
    if c.t.has h then some (c, .invalidDataset, h)
    else
      let p := if p0 = ALL then 0 else p0
      match c.t.get p with
      | none => some (c, .invalidParentObject, h)
      | some pit =>
        match s.get h with
        | none => some (c, .invalidObjectHandle, h)
        | some it =>
          match c.create p pit it h (sdata h).length with
          | (c1, some _, .ok) =>
            if it.fmt = ASSOC then
              match copyKids (fun c k => copyHandle env s sdata n c k h) (s.handles 0 h).2 c1 with
              | none => none
              | some (c2, r) => some (c2, r, h)
            else
              match copyFile env c1 (sdata h) h with
              | (c2, r) => some (c2, r, h)
          | (c1, _, r) => some (c1, r, h)

/-- fsstorageplugin.cpp:1585-1599 `moveObject` to another storage: copied with its handles, then deleted here. -/
def moveAcross (env : CopyEnv) (s : Tree) (sdata : Nat → List UInt8) (n : Nat) (c : Cp) (h p : Nat) :
    Option (Tree × Cp × Resp) :=
  if ! s.has h then some (s, c, .invalidObjectHandle)
  else match copyHandle env s sdata n c h p with
    | none => none
    | some (c1, .ok, _) => some ((s.deleteItem h UNDEF).1, c1, (s.deleteItem h UNDEF).2)
    | some (c1, r, _) => some (s, c1, r)

end Cp
end Mtp
