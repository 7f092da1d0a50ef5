import Verif.Spec.ServerCopy
import Verif.Spec.Storages
/-!
Specification of CopyObject to another storage (C105).
-/
namespace Spec
open Mtp

/-- Nothing stands in the way of copying object `h` of storage `a` into folder `p` of storage `b`: the folder has no entry of that
name; the names are ones the device can tell; the files hold what the device says, have less than 4 GB and fit into the free space of
`b`; the operating system refuses nothing; there are handles left. -/
structure CopyableAcross (a b : Server) (h p : Nat) : Prop where
  notRoot : h ≠ 0
  place : ∃ it pit, a.tree.get h = some it ∧ b.tree.get p = some pit ∧ pit.fmt = ASSOC ∧
    (∀ x ix, b.tree.get x = some ix → ix.path ≠ join pit.path it.name) ∧ ∀ e ∈ b.tree.excl, ¬ Under (join pit.path it.name) e
  names : ∀ x xi, Below a.tree h x → a.tree.get x = some xi →
    Server.plain (Server.fromPath xi.name) = true ∧ Server.toPath (Server.fromPath xi.name) = xi.name
  files : ∀ x xi, Below a.tree h x → a.tree.get x = some xi → xi.fmt ≠ ASSOC → ∃ c, Holds a x c ∧ c.length < 2 ^ 32
  room : ∀ x k, Below a.tree h x → (a.infoOf x).2.size ≤ b.room k
  granted : ∀ k, b.tree.fs k = true
  willing : Willing a ∧ Willing b
  handles : b.tree.asked + a.tree.items.length < 0xFFFFFFFF

/-- Storage `b` became `b'` when object `h` of storage `a` was copied into its folder `p`; `m` lists pairs of an object and its copy. -/
structure CopiedAcross (a b b' : Server) (h p : Nat) (m : List (Nat × Nat)) : Prop where
  sid : b'.sid = b.sid
  ok : ServerOk b'
  /-- `h` and everything in it, and nothing else, was copied -/
  source : ∀ x, Below a.tree h x ↔ ∃ y, (x, y) ∈ m
  /-- the copies are the objects that are new -/
  new : ∀ y, (b'.tree.has y = true ∧ b.tree.has y = false) ↔ ∃ x, (x, y) ∈ m
  /-- one object, one copy -/
  once : (m.map (·.1)).Nodup ∧ (m.map (·.2)).Nodup
  /-- the copy of `h` is in folder `p`, the copy of another object in the copy of its folder -/
  place : ∀ x y, (x, y) ∈ m → ∃ xi yi q, a.tree.get x = some xi ∧ b'.tree.get y = some yi ∧ yi.parent = some q ∧
    if x = h then q = p else ∃ x', xi.parent = some x' ∧ (x', q) ∈ m
  /-- copies hold the same bytes -/
  contents : ∀ x y, (x, y) ∈ m → contents b' y = contents a x
  /-- what is told about a copy is what is told about the original, but for its storage, folder and dates; the date of a file is the
  original's if the device can set it -/
  told : ∀ x y, (x, y) ∈ m → ∃ xi yi q d, a.tree.get x = some xi ∧ b'.tree.get y = some yi ∧ yi.parent = some q ∧
    (xi.fmt ≠ ASSOC → Stamped b.times (a.infoOf x).2.modDate d) ∧
    b'.infoOf y = (.ok, { (a.infoOf x).2 with storageId := b.sid, parent := q, captureDate := d, modDate := d })
  /-- everything that was there is as before -/
  old : ∀ x, b.tree.has x = true → b'.tree.has x = true ∧ Spec.contents b' x = Spec.contents b x ∧ b'.infoOf x = b.infoOf x
  /-- the system is the same -/
  ios : b'.ios = b.ios
  times : b'.times = b.times

/-- The same objects, holding the same and with the same told about them. -/
structure AsBefore (s s' : Server) : Prop where
  has : ∀ z, s'.tree.has z = s.tree.has z
  told : ∀ z, z ≠ 0 → s.tree.has z = true → contents s' z = contents s z ∧ s'.infoOf z = s.infoOf z

end Spec
