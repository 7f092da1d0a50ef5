import Verif.Model.Startup
import Verif.Spec.Tree
/-! What a storage directory is to show when the device starts (C93). -/
namespace Spec
open Mtp

mutual
/-- In no directory on disk are there two entries of the same name. -/
def DiskNames : Disk → Prop
  | .node _ _ es => (es.map (·.1)).Nodup ∧ DisksNames es
/-- See `DiskNames`. -/
def DisksNames : List (Path × Disk) → Prop
  | [] => True
  | (_, d) :: r => DiskNames d ∧ DisksNames r
end

/-- May the entry at path `p` (link status `l`) be shown? It is not excluded, not a broken link, and the policy for symbolic links
agrees: all, or those into the storage directory `root`. -/
def MayShow (excl : List Path) (pol : SymPolicy) (root p : Path) (l : Option (Option Path)) : Prop :=
  p ∉ excl ∧
    match l with
    | none => True
    | some none => False
    | some (some target) => target ≠ [] ∧
      (pol = .allowAll ∨ (pol = .allowWithinStorage ∧ ∃ s, target = root ++ '/' :: s))

/-- Of what is on disk at path `p`, path `q` is to be shown, with format `f`: it may be shown and so may all folders from `p`
down to it. -/
inductive Shown (excl : List Path) (pol : SymPolicy) (root : Path) : Path → Disk → Path → Nat → Prop where
  | self {p l f es} : MayShow excl pol root p l → Shown excl pol root p (.node l f es) p f
  | inside {p l es n d q f} : MayShow excl pol root p l → (n, d) ∈ es → Shown excl pol root (join p n) d q f →
      Shown excl pol root p (.node l ASSOC es) q f

/-- An object of format `f` at path `q`. -/
def HasAt (t : Tree) (q : Path) (f : Nat) : Prop := ∃ h it, t.get h = some it ∧ it.path = q ∧ it.fmt = f

/-- Directory `d` at path `rp` can be a storage: it is a directory, it may be shown, and on disk the entries of a directory have
different names without separators. -/
structure Directory (rp : Path) (excl : List Path) (pol : SymPolicy) (d : Disk) : Prop where
  dir : ∃ l es, d = .node l ASSOC es ∧ MayShow excl pol rp rp l
  names : DiskOk d
  distinct : DiskNames d

/-- Server `s` is a device just started on directory `d` (contents and dates `k`) at path `rp`; not all handles are used up. -/
def Started (s : Server) (rp : Path) (excl : List Path) (pol : SymPolicy) (d : Disk) (k : DiskFacts) : Prop :=
  ∃ sid fmts caps pu fs asked ids ios alloc room times, s = Server.start sid fmts caps (Tree.empty rp excl pol pu fs asked ids) d k ios alloc room times ∧
    s.tree.asked < 0xFFFFFFFF

/-- Object `h` is what is on disk at path `q`. -/
def IsAt (s : Server) (h : Nat) (q : Path) : Prop := ∃ it, s.tree.get h = some it ∧ it.path = q

end Spec
