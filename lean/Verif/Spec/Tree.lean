import Verif.Model.Tree
/-!
Specification of a well-formed object tree and of histories (C18–C24), in terms of what a storage
shows: handles, paths, names, parents and children.
-/
namespace Spec
open Mtp

/-- The tree is well formed: every object has a different path, every path maps to the object having
it, every object but the root has a parent that lists it exactly once, and its path is the parent's
path plus its name. -/
structure TreeWF (t : Tree) : Prop where
  /-- the root exists, lies at the storage path and has no parent -/
  root : ∃ r, t.get 0 = some r ∧ r.path = t.rootPath ∧ r.parent = none
  /-- looking up an object's path finds that object (so paths are different) -/
  pathOf : ∀ h it, t.get h = some it → AMap.get t.paths it.path = some h
  /-- every known path is the path of an object -/
  ofPath : ∀ p h, AMap.get t.paths p = some h → ∃ it, t.get h = some it ∧ it.path = p
  /-- every object but the root has a parent object listing it exactly once -/
  parent : ∀ h it, t.get h = some it → h ≠ 0 →
    ∃ p pit, it.parent = some p ∧ it.par = p ∧ t.get p = some pit ∧ pit.kids.count h = 1 ∧
      it.path = join pit.path it.name ∧ '/' ∉ it.name
  /-- children are objects having this parent -/
  kids : ∀ h it c, t.get h = some it → c ∈ it.kids → ∃ ci, t.get c = some ci ∧ ci.parent = some h
  /-- a handle denotes one object -/
  nodup : (t.items.map (·.1)).Nodup

/-- Every handle in use was given out by the factory. -/
def Issued (t : Tree) : Prop := ∀ h it, t.get h = some it → h ≤ t.asked

/-- `x` is `a` or a descendant of `a`, following parents. -/
inductive Below (t : Tree) (a : Nat) : Nat → Prop where
  | self : Below t a a
  | child {x p : Nat} {it : Item} : t.get x = some it → it.parent = some p → Below t a p → Below t a x

/-- `q` is `p` or lies below directory `p`. -/
def Under (p q : Path) : Prop := q = p ∨ ∃ s, q = join p s

/-- `q` with the prefix `old` replaced by `new`. -/
def reprefix (old new q : Path) : Path := new ++ q.drop old.length

mutual
/-- No entry name on disk contains a separator. -/
def DiskOk : Disk → Prop
  | .node _ _ es => DisksOk es
/-- See `DiskOk`. -/
def DisksOk : List (Path × Disk) → Prop
  | [] => True
  | (n, d) :: r => ('/' ∉ n ∧ DiskOk d) ∧ DisksOk r
end

/-- What is assumed about an operation in state `t`: entry names contain no separator; the file
system does not carry out a move onto an existing object or of a directory into itself; a notified
move keeps the name or does not collide; the root is not renamed. -/
def OpOk (t : Tree) : Tree.Op → Prop
  | .add i d => '/' ∉ i.name ∧ DiskOk d
  | .adopt i d h => '/' ∉ i.name ∧ DiskOk d ∧ h ≠ 0 ∧ h ≤ t.asked
  | .delete _ _ => True
  | .move h p => ∀ it pit, t.get h = some it → t.get p = some pit → t.fs t.tick = true →
      AMap.get t.paths (join pit.path it.name) = none ∧ ¬ Below t h p
  | .rename _ _ => True
  | .fsCreate _ n k => '/' ∉ n ∧ DiskOk k
  | .fsDelete _ _ => True
  | .fsMove d1 n1 d2 n2 _ => '/' ∉ n1 ∧ '/' ∉ n2 ∧
      ∀ i1 i2 h, t.get d1 = some i1 → t.get d2 = some i2 →
        AMap.get t.paths (join i1.path n1) = some h →
        ¬ Below t h d2 ∧ (d1 ≠ d2 → AMap.get t.paths (join i2.path n1) = none)
  | .other _ => True

/-- All operations of a history satisfy `OpOk` when they happen. -/
def HistOk : Tree → List Tree.Op → Prop
  | _, [] => True
  | t, op :: r => OpOk t op ∧ HistOk (t.step op) r

/-- Characters that must not occur in a name: separators, the characters Windows reserves, and control characters. -/
def BadChar (c : Char) : Prop := c ∈ ['<', '>', ':', '"', '/', '\\', '|', '?', '*'] ∨ c.toNat < 32

end Spec
