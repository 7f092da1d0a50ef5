import Verif.Model.ServerProps
import Verif.Spec.Server
import Verif.Spec.PropSet
import Verif.Spec.PropPod
/-! What a host relies on when it asks for properties of objects (C100). -/
namespace Spec
open Mtp

/-- The properties that say again what the ObjectInfo dataset says: storage, format, protection, size, file name, date created, date
modified, parent. -/
def infoValue (o : ObjInfo) : Nat → Option Val
  | 0xDC01 => some (.int 4 o.storageId)
  | 0xDC02 => some (.int 2 o.format)
  | 0xDC03 => some (.int 2 o.protection)
  | 0xDC04 => some (.int 8 o.size)
  | 0xDC07 => some (.str o.fileName)
  | 0xDC08 => some (.str o.captureDate)
  | 0xDC09 => some (.str o.modDate)
  | 0xDC0B => some (.int 4 o.parent)
  | _ => none

/-- Their codes, and the persistent unique object identifier. -/
def toldProps : List Nat := [0xDC01, 0xDC02, 0xDC03, 0xDC04, 0xDC07, 0xDC08, 0xDC09, 0xDC0B, 0xDC41]

/-- The operations that may make the device forget the value of property `p`: an upload announced with a list of properties; for
the size and the dates, any upload, editing and copying (a copy may overwrite an object); for the file name, setting properties. -/
def spoiling (p : Nat) : List Nat :=
  0x9808 :: ((if p ∈ [0xDC04, 0xDC08, 0xDC09] then [0x100D, 0x95C2, 0x95C3, 0x101A] else []) ++
    (if p = 0xDC07 then [0x9804, 0x9806] else []))

/-- Anything that can happen to the responder, but no command among `avoid`. -/
def Avoiding {D : Type} (avoid : List Nat) : Rsp.In D → Prop
  | .packet b first last _ => first = true → last = true → cCode b ∉ avoid
  | .ready _ => False
  | .ev _ => True
  | .notify .. => True
  | .env _ => False

/-- A history: commands (none among `avoid`), data, cancellations, suspends, resets, notifications; at any time the device may also
drop cached values of properties (`p` = 0: all) of an object. -/
inductive Talked (avoid : List Nat) : Rsp PServer → Rsp PServer → Prop
  | start (r : Rsp PServer) : Talked avoid r r
  | step {r r1 r2 : Rsp PServer} {i : Rsp.In PServer} : Talked avoid r r1 → Avoiding avoid i → r1.step PServer.dev i = .ok r2 →
      Talked avoid r r2
  | drop {r r1 : Rsp PServer} (h p : Nat) : Talked avoid r r1 →
      Talked avoid r { r1 with dev := { r1.dev with cache := r1.dev.cache.remove h p } }

/-- The device has started: objects and disk agree, nothing is cached, no command or upload is under way. -/
structure Fresh (r : Rsp PServer) : Prop where
  ok : ServerOk r.dev.srv
  cache : ∀ h p, r.dev.cache.get h p = none
  req : r.req = none
  list : r.propList = none

/-- Object `h` exists, and what is known about it fits into the ObjectInfo dataset. -/
def Tellable (s : Server) (h : Nat) : Prop :=
  ∃ o, s.infoOf h = (.ok, o) ∧ ObjInfoFits o ∧ o.size < 2 ^ 32 ∧
    o.fileName.length ≤ 2 ^ 20 ∧ o.captureDate.length ≤ 2 ^ 20 ∧ o.modDate.length ≤ 2 ^ 20

/-- Asked about object `h` (GetObjectInfo) and then about its property `p` (GetObjPropValue), the device says the same. -/
def SaysSame (r : Rsp PServer) (h p : Nat) : Prop :=
  ∀ q1 q2, Asking q1 0x1008 → cParam q1 0 = h → Asking q2 0x9803 → cParam q2 0 = h → cParam q2 1 = p →
    ∃ (r1 r2 : Rsp PServer) (b1 b2 : List UInt8) (o : ObjInfo) (v : Val),
      AnsweredBy PServer.dev r r1 (ask q1) q1 .ok [] ∧ dataOf r1.out = dataOf r.out ++ b1 ∧
      readObjInfo 0 (dataContainer 0x1008 0 b1) = some o ∧
      AnsweredBy PServer.dev r1 r2 (ask q2) q2 .ok [] ∧ dataOf r2.out = dataOf r1.out ++ b2 ∧
      readValue 0x9803 0 (stdType p) (dataContainer 0x9803 0 b2) = some v ∧
      infoValue o p = some v

/-- Asked about property `p` of object `h`, the device says `v`. -/
def Says (r : Rsp PServer) (h p : Nat) (v : Val) : Prop :=
  ∀ q, Asking q 0x9803 → cParam q 0 = h → cParam q 1 = p →
    ∃ (r1 : Rsp PServer) (b : List UInt8), AnsweredBy PServer.dev r r1 (ask q) q .ok [] ∧ dataOf r1.out = dataOf r.out ++ b ∧
      readValue 0x9803 0 (stdType p) (dataContainer 0x9803 0 b) = some v

end Spec
