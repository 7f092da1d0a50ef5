import Verif.Spec.Tree
/-!
Specification of a copied folder or file (C71, C72), in terms of handles, names, formats, paths and contents.
-/
namespace Spec
open Mtp

/-- Storage `t'` with contents `d'` is storage `t` with contents `d` after the object `h` of storage `s` (contents
`D`), with everything in it, was copied into folder `p`; `m` lists pairs of an object and its copy. -/
structure CopyOf (s : Tree) (D : Nat → List UInt8) (h : Nat) (t : Tree) (d : Nat → List UInt8) (p : Nat) (t' : Tree)
    (d' : Nat → List UInt8) (m : List (Nat × Nat)) : Prop where
  /-- every object of the subtree, and nothing else, has a copy -/
  source : ∀ x, Below s h x ↔ ∃ y, (x, y) ∈ m
  /-- the copies are the objects that are new in the storage -/
  new : ∀ y, (t'.has y = true ∧ t.has y = false) ↔ ∃ x, (x, y) ∈ m
  /-- one object, one copy -/
  once : (m.map (·.1)).Nodup ∧ (m.map (·.2)).Nodup
  /-- a copy has the name and format of the original and lies at the corresponding path -/
  same : ∀ x y, (x, y) ∈ m → ∃ hi pi xi yi, s.get h = some hi ∧ t.get p = some pi ∧ s.get x = some xi ∧
    t'.get y = some yi ∧ yi.name = xi.name ∧ yi.fmt = xi.fmt ∧
    yi.path = reprefix hi.path (join pi.path hi.name) xi.path
  /-- a copied file has the contents of the original -/
  content : ∀ x y xi, (x, y) ∈ m → s.get x = some xi → xi.fmt ≠ ASSOC → d' y = D x
  /-- the objects that were there are unchanged, but for new children of `p` -/
  old : ∀ x xi, t.get x = some xi → ∃ l, t'.get x = some { xi with kids := l ++ xi.kids } ∧ (x ≠ p → l = [])
  /-- and so are their contents -/
  oldContent : ∀ x, t.has x = true → d' x = d x
  /-- the result is a well-formed tree -/
  wf : TreeWF t'

/-- In a storage only folders contain objects. -/
def FoldersOnly (t : Tree) : Prop := ∀ x ix, t.get x = some ix → ix.kids ≠ [] → ix.fmt = ASSOC

end Spec
