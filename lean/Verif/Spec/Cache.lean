import Verif.Model.Cache
/-! What a cached property is, in terms of the history only (no map involved). -/
namespace Spec
open Mtp (Cache)

variable {V : Type}

/-- The value last stored for property `p` by a batch of stores, if the batch mentions it. -/
def lastIn (l : List (Nat × V)) (p : Nat) : Option V :=
  ((l.filter (fun e => e.1 = p)).getLast?).map (·.2)

/-- Code 0 in an invalidation means the whole object. -/
def invalidates (code p : Nat) : Bool := code = p ∨ code = 0

/-- The value property `p` of object `h` should have in the cache after a history, most recent
operation first: what was stored last, unless invalidated since. -/
def cached : List (Cache.Op V) → Nat → Nat → Option V
  | [], _, _ => none
  | .add h' p' v :: past, h, p => if h' = h ∧ p' = p then some v else cached past h p
  | .addList h' l :: past, h, p =>
    if h' = h then (lastIn l p).or (cached past h p) else cached past h p
  | .remove h' code :: past, h, p => if h' = h ∧ invalidates code p then none else cached past h p
  | .removeList h' codes :: past, h, p =>
    if h' = h ∧ codes.any (invalidates · p) then none else cached past h p
  | .clear :: _, _, _ => none
  | .lookup _ _ :: past, h, p => cached past h p

end Spec
