import Verif.Spec.Whole
import Verif.Spec.DeviceStart
/-! Files across restarts of the device (C116). -/
namespace Spec
open Mtp

/-- The storage directory found by a start in the setting `e` still holds, at path `p`, a file with the bytes that server `s` had there. -/
structure HoldsStill (s : Server) (e : Setting) (p : Path) : Prop where
  shown : ∃ f, Shown e.excl e.policy e.root e.root e.disk p f ∧ f ≠ ASSOC
  bytes : ∀ h b, IsAt s h p → contents s h = some b → e.facts.bytes p = b

/-- The storage directory found by a start in the setting `e` holds what server `s` had: the same folders, and the same files with the
same bytes (it may be that a file is of another kind by its name than the host had announced). -/
structure SameThere (s : Server) (e : Setting) : Prop where
  root : s.tree.rootPath = e.root
  folders : ∀ q, Shown e.excl e.policy e.root e.root e.disk q ASSOC ↔ ∃ x it, s.tree.get x = some it ∧ it.path = q ∧ it.fmt = ASSOC
  files : ∀ q, (∃ f, Shown e.excl e.policy e.root e.root e.disk q f ∧ f ≠ ASSOC) ↔
    ∃ x it, s.tree.get x = some it ∧ it.path = q ∧ it.fmt ≠ ASSOC
  bytes : ∀ x q b, IsAt s x q → contents s x = some b → e.facts.bytes q = b

/-- Object `y` of the device in state `s` lies where object `x` of the device in state `r` did. -/
def Again (r s : Rsp Device) (x y : Nat) : Prop := ∃ p, Lies r x p ∧ Lies s y p

/-- Object `x` is in folder `p`. -/
def InFolder (s : Server) (x p : Nat) : Prop := ∃ it, s.tree.get x = some it ∧ it.parent = some p

end Spec
