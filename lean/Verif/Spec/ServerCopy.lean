import Verif.Spec.Server
/-!
Specification of CopyObject as a host sees it (C101).
-/
namespace Spec
open Mtp

/-- Nothing stands in the way of copying object `h` into folder `p`: the folder has no entry of that name and is not in `h`; the names
are ones the device can tell; the files hold what the device says, have less than 4 GB and fit into the free space; the operating
system refuses nothing; there are handles left. -/
structure CopyableTo (s : Server) (h p : Nat) : Prop where
  notRoot : h ≠ 0
  place : ∃ it pit, s.tree.get h = some it ∧ s.tree.get p = some pit ∧ pit.fmt = ASSOC ∧
    (∀ x ix, s.tree.get x = some ix → ix.path ≠ join pit.path it.name) ∧ ∀ e ∈ s.tree.excl, ¬ Under (join pit.path it.name) e
  apart : ¬ Below s.tree h p
  names : ∀ x xi, Below s.tree h x → s.tree.get x = some xi →
    Server.plain (Server.fromPath xi.name) = true ∧ Server.toPath (Server.fromPath xi.name) = xi.name
  files : ∀ x xi, Below s.tree h x → s.tree.get x = some xi → xi.fmt ≠ ASSOC → ∃ c, Holds s x c ∧ c.length < 2 ^ 32
  room : ∀ x k, Below s.tree h x → (s.infoOf x).2.size ≤ s.room k
  granted : ∀ k, s.tree.fs k = true
  willing : Willing s
  handles : s.tree.asked + s.tree.items.length < 0xFFFFFFFF

/-- The storage after `h` was copied into folder `p`; `m` lists pairs of an object and its copy. -/
structure Copied (s s' : Server) (h p : Nat) (m : List (Nat × Nat)) : Prop where
  sid : s'.sid = s.sid
  ok : ServerOk s'
  /-- `h` and everything in it, and nothing else, was copied -/
  source : ∀ x, Below s.tree h x ↔ ∃ y, (x, y) ∈ m
  /-- the copies are the objects that are new -/
  new : ∀ y, (s'.tree.has y = true ∧ s.tree.has y = false) ↔ ∃ x, (x, y) ∈ m
  /-- one object, one copy -/
  once : (m.map (·.1)).Nodup ∧ (m.map (·.2)).Nodup
  /-- the copy of `h` is in folder `p`, the copy of another object in the copy of its folder -/
  place : ∀ x y, (x, y) ∈ m → ∃ xi yi q, s.tree.get x = some xi ∧ s'.tree.get y = some yi ∧ yi.parent = some q ∧
    if x = h then q = p else ∃ x', xi.parent = some x' ∧ (x', q) ∈ m
  /-- copies hold the same bytes -/
  contents : ∀ x y, (x, y) ∈ m → contents s' y = contents s x
  /-- what is told about a copy is what is told about the original, but for its folder and dates; the date of a file is the original's
  if the device can set it -/
  told : ∀ x y, (x, y) ∈ m → ∃ xi yi q d, s.tree.get x = some xi ∧ s'.tree.get y = some yi ∧ yi.parent = some q ∧
    (xi.fmt ≠ ASSOC → Stamped s.times (s.infoOf x).2.modDate d) ∧
    s'.infoOf y = (.ok, { (s.infoOf x).2 with storageId := s.sid, parent := q, captureDate := d, modDate := d })
  /-- everything that was there is as before -/
  old : ∀ x, s.tree.has x = true → s'.tree.has x = true ∧ Spec.contents s' x = Spec.contents s x ∧ s'.infoOf x = s.infoOf x
  /-- the system is the same -/
  ios : s'.ios = s.ios
  times : s'.times = s.times

end Spec
