import Verif.Model.Storages
import Verif.Spec.Server
import Verif.Spec.Through
/-!
Specification for several storages (C103).
-/
namespace Spec
open Mtp

/-- Each storage is in order, and they have nothing in common: neither ids nor objects. Handle 0 is the root of each of them. -/
structure StoragesOk (m : Storages) : Prop where
  some : 0 < m.count
  each : ∀ j, j < m.count → ServerOk (m.at j)
  /-- ids are no numbers with a meaning of their own -/
  real : ∀ j, j < m.count → (m.at j).sid ≠ 0 ∧ (m.at j).sid ≠ ALL
  ids : ∀ i j, i < m.count → j < m.count → (m.at i).sid = (m.at j).sid → i = j
  handles : ∀ i j h, i < m.count → j < m.count → h ≠ 0 → (m.at i).tree.has h = true → (m.at j).tree.has h = true → i = j
  fmts : ∀ j, j < m.count → (m.at j).fmts = m.fmts

/-- Handle of an object on another storage than `i`. -/
def OnOthers (m : Storages) (i h : Nat) : Prop := h ≠ 0 ∧ ∃ j, j < m.count ∧ j ≠ i ∧ (m.at j).tree.has h = true

/-- Requests whose first parameter is an object. -/
def objectOps : List Nat := [0x1008, 0x1009, 0x100B, 0x1019, 0x101A, 0x101B, 0x9804, 0x95C1, 0x95C4]

/-- The request concerns storage `i` only: its objects are no objects of other storages (they may be unknown), and where it names a
storage, it names this one. (GetStorageIDs concerns all.) -/
structure Concerns (m : Storages) (i : Nat) (code : Nat) (ps : List Nat) : Prop where
  object : code ∈ objectOps → ps.getD 0 0 ≠ 0 ∧ ps.getD 0 0 ≠ ALL ∧ ¬ OnOthers m i (ps.getD 0 0)
  to : code = 0x1019 ∨ code = 0x101A → ps.getD 1 0 = (m.at i).sid
  list : code = 0x1006 ∨ code = 0x1007 → ps.getD 0 0 = (m.at i).sid ∧ ¬ OnOthers m i (ps.getD 2 0)
  new : code = 0x100C ∨ code = 0x9808 →
    ps.getD 0 0 = (m.at i).sid ∨ (ps.getD 0 0 = 0 ∧ (m.at i).sid = 0x00010001)
  parent : code = 0x9808 → ¬ OnOthers m i (ps.getD 1 0)
  ids : code ≠ 0x1004

/-- A storage apart from the numbers that are common to all storages. -/
def apart (s : Server) : Server := { s with calls := 0, tree := { s.tree with asked := 0, idsAsked := 0 } }

/-- There are handles left. -/
def HandlesLeft (m : Storages) : Prop := m.asked < 0xFFFFFFFF

/-- No upload or edit is under way. -/
structure NothingPending {D : Type} (r : Rsp D) : Prop where
  req : r.req = none
  seq : r.sendSeq = none
  list : r.propList = none
  edit : r.edit = none

/-- A history of requests that concern storage `i`, from `r` on. -/
def UsesOnly (i : Nat) (r : Rsp Storages) (is : List (Rsp.In Storages)) : Prop :=
  Rsp.Fitting Storages.dev (Concerns r.dev i) r is

/-- The responder with storage `i` alone. -/
def onlyStorage (i : Nat) (r : Rsp Storages) : Rsp Server := r.via (·.at i)

end Spec
