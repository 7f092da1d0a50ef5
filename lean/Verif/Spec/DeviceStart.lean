import Verif.Model.DeviceStart
import Verif.Spec.Device
import Verif.Spec.Startup
import Verif.Spec.Persist
/-! What a host relies on across restarts of the device (C113, C114). -/
namespace Spec
open Mtp

/-- The device was started in the setting `e` with the files `f`; nothing was asked yet. The storage directory can be one, and not
all handles are used up by it. -/
structure Boots (e : Setting) (f : Saved) (r : Rsp Device) : Prop where
  dev : r.dev = Device.start e f
  req : r.req = none
  list : r.propList = none
  dir : Directory e.root e.excl e.policy e.disk
  handles : r.dev.ps.srv.tree.asked < 0xFFFFFFFF

/-- A SetObjectPropValue transaction: command `q` for property `p` of object `h`, the value's bytes `pay` in the packets `bs`. -/
structure SettingValue (q : List UInt8) (bs : List (List UInt8)) (h p : Nat) (pay : List UInt8) : Prop where
  ask : Asking q 0x9804
  object : cParam q 0 = h
  prop : cParam q 1 = p
  data : CarriesDataset bs (dataContainer 0x9804 (cTid q) pay)
  short : pay.length ≤ 2 ^ 30

/-- Is object `h` a file (no folder)? -/
def IsFile (s : Server) (h : Nat) : Prop := ∃ it, s.tree.get h = some it ∧ it.fmt ≠ ASSOC

/-- A history in which no object is moved and no folder renamed (nor a command among `avoid` given): no MoveObject, no
SetObjectPropList; SetObjectPropValue transactions (between two commands) of any property but the file name, or of files (of the
second parameter the device looks at the lower 16 bits). -/
inductive Naming (avoid : List Nat) : Rsp Device → Rsp Device → Prop
  | start (r : Rsp Device) : Naming avoid r r
  | lived {r r1 r2 : Rsp Device} : Naming avoid r r1 → Elapsed (0x1019 :: 0x9804 :: 0x9806 :: avoid) r1 r2 → Naming avoid r r2
  | set {r r1 r2 : Rsp Device} {q : List UInt8} {bs : List (List UInt8)} {h p : Nat} {pay : List UInt8} : Naming avoid r r1 → Open r1 →
      SettingValue q bs h p pay → (p % 2 ^ 16 ≠ 0xDC07 ∨ IsFile r1.dev.ps.srv h) →
      r1.run Device.dev (sendObject q bs) = .ok r2 → Naming avoid r r2

/-- What device `d` remembers about ids can be written: not too much, and all paths in plain ASCII. -/
structure Writable (d : Device) : Prop where
  number : d.ps.srv.tree.puoids.length < 2 ^ 32
  entries : ∀ e ∈ d.ps.srv.tree.puoids, EntryOk e
  ids : d.ps.srv.tree.idsAsked < 2 ^ 128

/-- The device was just started, and every time before it had been ended properly: the first time it found none of its files, later
those it had written, after histories as described (`Naming`). -/
inductive Booted : Rsp Device → Prop
  | first {e : Setting} {r : Rsp Device} : Boots e ⟨[], []⟩ r → Booted r
  | again {e : Setting} {r r1 r2 : Rsp Device} : Booted r → Naming [] r r1 → r1.dev.ps.srv.tree.asked < 0xFFFFFFFF →
      Writable r1.dev → Boots e r1.dev.save r2 → Booted r2

/-- Asked for the persistent unique identifier of object `h` (GetObjPropValue of 0xDC41), the device says `n`. -/
def TellsId (r : Rsp Device) (h n : Nat) : Prop :=
  ∀ q, Asking q 0x9803 → cParam q 0 = h → cParam q 1 = 0xDC41 → ∃ (r1 : Rsp Device) (b : List UInt8),
    AnsweredBy Device.dev r r1 (ask q) q .ok [] ∧ dataOf r1.out = dataOf r.out ++ b ∧
    readValue 0x9803 0 (stdType 0xDC41) (dataContainer 0x9803 0 b) = some (.int 16 n)

/-- Object `h` is in storage at path `p`. -/
def Lies (r : Rsp Device) (h : Nat) (p : Path) : Prop := IsAt r.dev.ps.srv h p

/-- The file (no folder) at path `p`. -/
def fileFound (s : Server) (p : Path) : Option Nat :=
  (s.tree.items.find? fun e => decide (e.2.path = p ∧ e.2.fmt ≠ ASSOC)).map (·.1)

/-- What is found again of the objects `l` of the device in state `r`, after it was started as `s`: the files that are where those
objects were, in the same order. -/
def foundAgain (r s : Rsp Device) (l : List Nat) : List Nat :=
  l.filterMap fun x => (r.dev.ps.srv.tree.get x).bind fun it => fileFound s.dev.ps.srv it.path

/-- What device `d` remembers about references can be written and told: not too much. -/
structure WritableRefs (d : Device) : Prop where
  number : d.refs.length < 2 ^ 32
  lists : ∀ e ∈ d.refs, e.2.length ≤ 2 ^ 27

end Spec
