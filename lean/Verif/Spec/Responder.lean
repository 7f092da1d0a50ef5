import Verif.Model.Responder
/-! Specification vocabulary for the responder: what an observer of its output can tell. -/
namespace Spec
open Mtp

/-- Follows the 'command pending' / 'command finished' notifications; `none` once they fail to alternate. -/
def busyStep : Option Bool → Out → Option Bool
  | some false, .pending => some true
  | some true, .pending => none
  | some true, .finished => some false
  | some false, .finished => none
  | s, _ => s

/-- Whether the host was told that a command is pending, `none` if the notifications did not alternate
(starting with 'pending'). -/
def busy (out : List Out) : Option Bool := out.foldl busyStep (some false)

/-- The response containers sent. -/
def responses (out : List Out) : List Out := out.filter (·.isResponse)

theorem responses_append (a b : List Out) : responses (a ++ b) = responses a ++ responses b := by
  simp [responses]

/-- The events sent. -/
def events (out : List Out) : List Out := out.filter (·.isEvent)

/-- The computation is defined and its result satisfies `p`. -/
def after {α : Type} (x : Res α) (p : α → Prop) : Prop :=
  match x with
  | .ok a => p a
  | .ub _ => False

instance {α : Type} (x : Res α) (p : α → Prop) [DecidablePred p] : Decidable (after x p) := by
  unfold after; split <;> infer_instance

/-- Operations that are about the device, the session or the list of storages, not about the objects in them: they are answered
before the storages have been read. GetDeviceInfo, OpenSession, CloseSession, GetStorageIDs, GetStorageInfo, GetDevicePropDesc,
GetDevicePropValue, SetDevicePropValue, ResetDevicePropValue. -/
def withoutObjects : List Nat := [0x1001, 0x1002, 0x1003, 0x1004, 0x1005, 0x1014, 0x1015, 0x1016, 0x1017]

end Spec
