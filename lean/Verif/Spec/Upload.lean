import Verif.Spec.Host
/-! Uploads as an observer of the storage sees them. -/
namespace Spec
open Mtp

/-- An object of `n` bytes with handle `h` was announced to the responder, by SendObjectInfo or by
SendObjectPropList, and none of its data was sent yet. -/
def Announced {D : Type} (r : Rsp D) (h n : Nat) : Prop :=
  (r.sendSeq = some ⟨h, n, 0⟩ ∧ r.propList = none) ∨
  (r.sendSeq = none ∧ ∃ p, r.propList = some p ∧ p.handle = h ∧ p.size = n ∧ p.curr = 0)

/-- A storage in which `content` tells what an object holds: a successful write replaces (first segment)
or extends it, truncating to 0 empties it, closing it and setting properties leave it alone. -/
structure Stores {D : Type} (dv : Dev D) (content : D → Nat → List UInt8) : Prop where
  write : ∀ d h b first last, (dv.write d h (some b) first last).2 = .ok →
    content (dv.write d h (some b) first last).1 h = (if first then [] else content d h) ++ b
  close : ∀ d h, content (dv.write d h none false true).1 h = content d h
  cut : ∀ d h, content (dv.truncate d h 0).1 h = []
  props : ∀ d h ds, content (dv.setProps d h ds) h = content d h

/-- The storage takes everything. -/
def Unfailing {D : Type} (dv : Dev D) : Prop :=
  ∀ d h b first last, (dv.write d h (some b) first last).2 = .ok

/-- What the packets of a data phase carry: the first one starts with a 12 byte header. -/
def bodies : Bool → List (List UInt8) → List (List UInt8)
  | _, [] => []
  | first, b :: bs => (if first then b.drop 12 else b) :: bodies false bs

/-- A SendObject transaction: the command `q` and its data in the packets `bs`. -/
def sendObject {D : Type} (q : List UInt8) (bs : List (List UInt8)) : List (Rsp.In D) :=
  .packet q true true [] :: dataPhase true bs

end Spec
