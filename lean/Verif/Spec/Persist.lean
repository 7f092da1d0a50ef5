import Verif.Model.Tree
/-! Notions used in the statements about the files kept over a restart. -/
namespace Mtp

/-- Plain ASCII without NUL. -/
def Ascii (s : List Char) : Prop := ∀ c ∈ s, 0 < c.toNat ∧ c.toNat < 128

/-- An entry of the id table that can be stored faithfully: a non-empty ASCII path, sizes within the fields. -/
def EntryOk (e : List Char × Nat) : Prop := Ascii e.1 ∧ e.1 ≠ [] ∧ e.1.length < 2^32 ∧ e.2 < 2^128

/-- The ids of a storage are in order: every object has the id recorded for its path, no id is recorded for two paths, and
ids not yet given out are not recorded. -/
structure IdsInv (t : Tree) : Prop where
  own : ∀ h it, t.get h = some it → AMap.get t.puoids it.path = some it.puoid
  inj : ∀ p q v, AMap.get t.puoids p = some v → AMap.get t.puoids q = some v → p = q
  bound : ∀ p v, AMap.get t.puoids p = some v → v ≤ t.idsAsked
  keys : (t.puoids.map (·.1)).Nodup

/-- The operations that neither move nor rename. -/
def PlainOp : Tree.Op → Prop
  | .move _ _ => False
  | .rename _ _ => False
  | .fsMove _ _ _ _ _ => False
  | _ => True

end Mtp
