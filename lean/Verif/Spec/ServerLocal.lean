import Verif.Model.ServerLocal
import Verif.Spec.Server
import Verif.Spec.Startup
/-! What other programs can do to the storage directory (C102). -/
namespace Spec
open Mtp

/-- Object `h` is the entry named `n` of folder `d`. -/
def Entry (s : Server) (d : Nat) (n : Path) (h : Nat) : Prop :=
  ∃ dit it, s.tree.get d = some dit ∧ s.tree.get h = some it ∧ it.path = join dit.path n

/-- Such a change can be made, and `k` tells the truth about the files afterwards. What appears is in a folder, and on disk the entries
of a directory have different names without separators; what is written is a file; what is moved is not moved into itself, stays a file or
a folder, and its bytes stay the same. A file may replace a file. Restricted: what goes to another folder keeps its name
(`C102_moved_violated`). -/
def Possible (s : Server) (k : DiskFacts) : DiskEdit → Prop
  | .appears d n disk => (∃ dit, s.tree.get d = some dit ∧ dit.fmt = ASSOC) ∧ '/' ∉ n ∧ DiskOk disk ∧ DiskNames disk
  | .vanishes _ _ => True
  | .written d n fmt => fmt ≠ ASSOC ∧ ∀ h it, Entry s d n h → s.tree.get h = some it → it.fmt ≠ ASSOC
  | .moves d1 n1 d2 n2 fmt => '/' ∉ n1 ∧ '/' ∉ n2 ∧ (∃ dit, s.tree.get d2 = some dit ∧ dit.fmt = ASSOC) ∧
      ∀ h it dit, Entry s d1 n1 h → s.tree.get h = some it → s.tree.get d2 = some dit →
        (fmt = ASSOC ↔ it.fmt = ASSOC) ∧ (it.fmt ≠ ASSOC → contents s h = some (k.bytes (join dit.path n2))) ∧
        ((∃ y iy, Entry s d2 n2 y ∧ s.tree.get y = some iy ∧ iy.fmt ≠ ASSOC ∧ it.fmt ≠ ASSOC) ∨
          ((∀ y, ¬ Entry s d2 n2 y) ∧ (d1 = d2 ∨ n1 = n2) ∧ ¬ Below s.tree h d2))

/-- The change does not concern object `x`: its file is not written; neither it nor a folder it is in disappears; it is not moved or
replaced itself (though it may be inside a folder that is moved). -/
def Unconcerned (s : Server) (x : Nat) : DiskEdit → Prop
  | .appears _ _ _ => True
  | .vanishes d n => ∀ h, Entry s d n h → ¬ Below s.tree h x
  | .written d n _ => ¬ Entry s d n x
  | .moves d1 n1 d2 n2 _ => ¬ Entry s d1 n1 x ∧ ¬ Entry s d2 n2 x

/-- A history: whatever the host sends and whatever happens to the responder, and possible changes made by other programs, in any order. -/
inductive Lived : Rsp Server → Rsp Server → Prop
  | done (r : Rsp Server) : Lived r r
  | host {r r1 r' : Rsp Server} (i : Rsp.In Server) : (∀ d, i ≠ .env d) → r.step Server.dev i = .ok r1 → Lived r1 r' → Lived r r'
  | local {r r1 r' : Rsp Server} (k : DiskFacts) (c : DiskEdit) : Possible r.dev k c → r.run Server.dev (r.dev.occurs k c) = .ok r1 →
      Lived r1 r' → Lived r r'

/-- A history that leaves object `x` alone: the host's part as in C88, the changes by other programs do not concern it. -/
inductive LivedApart (x : Nat) : Rsp Server → Rsp Server → Prop
  | done (r : Rsp Server) : LivedApart x r r
  | host {r r1 r' : Rsp Server} {is : List (Rsp.In Server)} : SparesRun x r is r1 → LivedApart x r1 r' → LivedApart x r r'
  | local {r r1 r' : Rsp Server} (k : DiskFacts) (c : DiskEdit) : Possible r.dev k c → Unconcerned r.dev x c →
      r.run Server.dev (r.dev.occurs k c) = .ok r1 → LivedApart x r1 r' → LivedApart x r r'

/-- The device with interest flags `e` instead of none (C41): which objects the host hears of. -/
def listeningDev (e : Server → Nat → Bool) : Dev Server := { Server.dev with eventsOn := e }

/-- What a host that is told about object `h` by GetObjectInfo should be told: the facts `k` about the file at path `q`. -/
structure ToldFacts (s : Server) (k : DiskFacts) (q : Path) (f : Nat) (o : ObjInfo) : Prop where
  storage : o.storageId = s.sid
  format : o.format = f
  size : o.size = if f = ASSOC then 0 else (k.bytes q).length
  folder : o.assocType = if f = ASSOC then 1 else 0
  parent : IsAt s o.parent (dirOf q)
  name : o.fileName = cut (Server.fromPath (baseOf q))
  modified : o.modDate = cut (k.date q)
  captured : o.captureDate = cut (k.date q)

/-- The numbers and texts about the file fit into a dataset. -/
def FactsFit (k : DiskFacts) (q : Path) (f : Nat) : Prop :=
  f < 2 ^ 16 ∧ (k.bytes q).length ≤ 0xFFFFFFFF - 12 ∧ k.thumb q < 2 ^ 32 ∧ q.length ≤ 2 ^ 20 ∧ (k.date q).length ≤ 2 ^ 20

end Spec
