import Verif.Model.Usb
/-! Specification of container framing on the USB bulk pipe. -/
namespace Spec
open Mtp

/-- A well-formed container: it announces its length in its first four bytes (little endian), or
carries the marker 0xFFFFFFFF because the object of `objSize` bytes that it transports is too large. -/
def WellFormed (objSize : Nat) (c : List UInt8) : Prop :=
  4 ≤ c.length ∧
  ((leVal (c.take 4) = c.length ∧ c.length ≠ 0xFFFFFFFF) ∨
   (leVal (c.take 4) = 0xFFFFFFFF ∧ c.length = objSize + 12 ∧ objSize > 0xFFFFFFFF - 12 ∧
     c.length < 2 ^ 64))

instance (o : Nat) (c : List UInt8) : Decidable (WellFormed o c) := by
  unfold WellFormed; infer_instance

/-- Reassembles packets by their marks: `none` if the marks do not match up. The first argument is
the container begun but not ended. -/
def regroup : Option (List UInt8) → List Pkt → Option (List (List UInt8))
  | none, [] => some []
  | some _, [] => none
  | none, p :: ps =>
    if p.first then
      if p.last then (regroup none ps).map (p.data :: ·) else regroup (some p.data) ps
    else none
  | some a, p :: ps =>
    if p.first then none
    else if p.last then (regroup none ps).map ((a ++ p.data) :: ·)
    else regroup (some (a ++ p.data)) ps

/-- No cut between two reads falls strictly inside the length field of a container. -/
def CutsClear (cs pieces : List (List UInt8)) : Prop :=
  ∀ ps₁ ps₂ c₁ c c₂, pieces = ps₁ ++ ps₂ → cs = c₁ ++ c :: c₂ →
    ¬ (c₁.flatten.length < ps₁.flatten.length ∧ ps₁.flatten.length < c₁.flatten.length + 4)

end Spec
