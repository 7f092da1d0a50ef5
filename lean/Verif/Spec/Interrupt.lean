import Verif.Model.Interrupt
import Verif.Spec.Responder
/-! What a host and a user rely on when an answer is interrupted (C94). -/
namespace Spec
open Mtp Mtp.Rsp

/-- The host gives the transaction up, or goes away: cancel request, reset request, or the bus is disabled, suspended or
unplugged. -/
def Ends (e : Ev) : Prop := e = .cancel ∨ e = .deviceReset ∨ e = .cleanup

instance (e : Ev) : Decidable (Ends e) := by unfold Ends; infer_instance

/-- Only such things happen during the writes `ws`. -/
def OnlyEnds (ws : List Writing) : Prop := ∀ w ∈ ws, ∀ e ∈ w.events, Ends e

/-- Something happens during the first `n` of them. -/
def Interrupted (n : Nat) (ws : List Writing) : Prop := ∃ w ∈ ws.take n, w.events ≠ []

/-- All writes succeed. -/
def AllWritten (ws : List Writing) : Prop := ∀ w ∈ ws, w.ok = true

/-- The responder accepts a command. -/
def Accepting {D : Type} (r : Rsp D) : Prop := r.st = .idle ∨ r.st = .txCancel ∨ r.st = .suspend

/-- The responder accepts a command and knows nothing about the last one. -/
def Free {D : Type} (r : Rsp D) : Prop := r.req = none ∧ (r.st = .idle ∨ r.st = .txCancel)

/-- A command without data from the host, in a session, answered by the storages with `p`, after which they are `d`. -/
structure Queried {D : Type} (dv : Dev D) (r : Rsp D) (b : List UInt8) (d : D) (p : Reply) : Prop where
  accepting : Accepting r
  ready : r.ready = true
  session : r.session ≠ 0
  tid : cTid b ≠ 0 ∧ cTid b ≠ 0xFFFFFFFF
  kind : ∃ l, opKind (cCode b) = some (.query l)
  answer : dv.query r.dev (cCode b) (cParams b) = (d, p)

end Spec
