import Verif.Model.ServerMoveAcross
import Verif.Spec.ServerAcross
/-!
Specification of MoveObject to another storage (C106).
-/
namespace Spec
open Mtp

/-- Nothing stands in the way of moving object `h` of storage `a` into folder `p` of storage `b`: the folder has no entry of that
name; the names are ones the device can tell; the files hold what the device says and have less than 4 GB; the operating system refuses
nothing on either storage; there are handles left. -/
structure MovableAcross (a b : Server) (h p : Nat) : Prop where
  notRoot : h ≠ 0
  place : ∃ it pit, a.tree.get h = some it ∧ b.tree.get p = some pit ∧ pit.fmt = ASSOC ∧
    (∀ x ix, b.tree.get x = some ix → ix.path ≠ join pit.path it.name) ∧ ∀ e ∈ b.tree.excl, ¬ Under (join pit.path it.name) e
  names : ∀ x xi, Below a.tree h x → a.tree.get x = some xi →
    Server.plain (Server.fromPath xi.name) = true ∧ Server.toPath (Server.fromPath xi.name) = xi.name
  files : ∀ x xi, Below a.tree h x → a.tree.get x = some xi → xi.fmt ≠ ASSOC → ∃ c, Holds a x c ∧ c.length < 2 ^ 32
  granted : (∀ k, a.tree.fs k = true) ∧ ∀ k, b.tree.fs k = true
  willing : Willing a ∧ Willing b
  handles : b.tree.asked < 0xFFFFFFFF

/-- Object `h` left storage `a`, which became `a'`, with everything in it; the rest is as before. -/
structure WentFrom (a a' : Server) (h : Nat) : Prop where
  ok : ServerOk a'
  sid : a'.sid = a.sid
  gone : ∀ x, a'.tree.has x = true ↔ a.tree.has x = true ∧ ¬ Below a.tree h x
  rest : ∀ x, a'.tree.has x = true → contents a' x = contents a x ∧ a'.infoOf x = a.infoOf x

/-- What MoveObject of object `h` from storage `i` of `m` to storage `j` must not do, whatever happened and whatever it was answered:
harm anything else, or lose a file that is moved. -/
structure NothingLost (m m' : Storages) (i j h : Nat) : Prop where
  count : m'.count = m.count
  each : ∀ k, k < m.count → ServerOk (m'.at k)
  others : ∀ k, k ≠ i → k ≠ j → apart (m'.at k) = apart (m.at k)
  /-- what was on the destination is as before -/
  there : ∀ x, (m.at j).tree.has x = true →
    (m'.at j).tree.has x = true ∧ contents (m'.at j) x = contents (m.at j) x ∧ (m'.at j).infoOf x = (m.at j).infoOf x
  /-- so is what was on the storage of the object, but not in it -/
  here : ∀ x, (m.at i).tree.has x = true → ¬ Below (m.at i).tree h x →
    (m'.at i).tree.has x = true ∧ contents (m'.at i) x = contents (m.at i) x ∧ (m'.at i).infoOf x = (m.at i).infoOf x
  /-- the moved files are on one of the two storages, all their bytes -/
  files : ∀ x c, Below (m.at i).tree h x → Holds (m.at i) x c → c.length < 2 ^ 32 →
    contents (m'.at i) x = some c ∨ contents (m'.at j) x = some c

end Spec
