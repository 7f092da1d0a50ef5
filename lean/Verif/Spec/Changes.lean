import Verif.Spec.Tree
/-! Specification for C74: what a host that only listens to events believes to exist. -/
namespace Spec
open Mtp

/-- The set of objects a host believes to exist, after an event. -/
def hears (K : Nat → Prop) : TEvent → Nat → Prop
  | .added h => fun x => x = h ∨ K x
  | .removed h => fun x => x ≠ h ∧ K x
  | .infoChanged _ => K

/-- After several events, in order. -/
def hearsAll (K : Nat → Prop) (es : List TEvent) : Nat → Prop := es.foldl hears K

/-- Changes that a host cannot know about but by events, and changes of a place or name it made itself; nothing that
disappears from the device has known contents. -/
def Heard (t : Tree) : Tree.Op → Prop
  | .fsCreate _ _ _ => True
  | .fsDelete d n => ∀ di h it, t.get d = some di → AMap.get t.paths (join di.path n) = some h → t.get h = some it →
      it.kids = []
  | .fsMove d1 n1 d2 n2 _ => ∀ i1 i2 h it, t.get d1 = some i1 → t.get d2 = some i2 →
      AMap.get t.paths (join i1.path n1) = some h → t.get h = some it →
      (AMap.get t.paths (join i2.path n2)).isSome = true → it.kids = []
  | .move _ _ | .rename _ _ | .other _ => True
  | .add _ _ | .adopt _ _ _ | .delete _ _ => False

/-- All operations of a history are of that kind when they happen. -/
def AllHeard : Tree → List Tree.Op → Prop
  | _, [] => True
  | t, op :: r => Heard t op ∧ AllHeard (t.step op) r

end Spec
