import Verif.Spec.Responder
/-! A host that follows the protocol, as a monitor over what happens to the responder. -/
namespace Mtp.Rsp

/-- What a refused data phase leaves alone. -/
structure Kept {D : Type} (r r' : Rsp D) : Prop where
  session : r'.session = r.session
  ready : r'.ready = r.ready
  sendSeq : r'.sendSeq = r.sendSeq
  propList : r'.propList = r.propList
  edit : r'.edit = r.edit
  dev : r'.dev = r.dev

end Mtp.Rsp

namespace Spec
open Mtp

/-- What the host has done: the transaction ids of its completed transactions, and the open one: its
command and whether the first packet of its data was sent. -/
structure Host where
  finished : List Nat := []
  current : Option (List UInt8 × Bool) := none

/-- The host sends a command in one packet when no transaction is open; if the operation has a data phase
this is followed by data packets, the first of which carries at least a header and is marked first, until
one is marked last. Meanwhile the storages may change and announce changes. Nothing else happens: no
cancel, reset, suspend. GetThumb (0x100A) is left out. -/
def Host.step {D : Type} (h : Host) (i : Rsp.In D) : Option Host :=
  match h.current, i with
  | _, .notify .. => some h
  | _, .env _ => some h
  | none, .packet b true true [] =>
    if cCode b = 0x100A then none
    else if hasDataPhase (cCode b) then some { h with current := some (b, false) }
    else some { h with finished := h.finished ++ [cTid b] }
  | some (q, seen), .packet b first last [] =>
    if first = seen ∨ (first = true ∧ b.length < 12) then none
    else if last then some { finished := h.finished ++ [cTid q], current := none }
    else some { h with current := some (q, true) }
  | _, _ => none

/-- The whole conversation, if the host follows the protocol. -/
def Host.talk {D : Type} (h : Host) : List (Rsp.In D) → Option Host
  | [] => some h
  | i :: is => (h.step i).bind (·.talk is)

/-- The tables and storages answer every query (a download that breaks off has no response). -/
def Total {D : Type} (dv : Dev D) : Prop := ∀ d c ps, (dv.query d c ps).2.response.isSome

/-- Answers to the transactions with these ids, one each, in order. -/
inductive Answers (id : Nat → Nat → Prop) : List Nat → List Out → Prop
  | nil : Answers id [] []
  | snoc {ts : List Nat} {os : List Out} {t t' : Nat} {c : Resp} {ps : List Nat} :
      Answers id ts os → id t t' → Answers id (ts ++ [t]) (os ++ [.response c t' ps])

/-- A data phase: the packets `bs`, the first marked first (unless some came before), the last marked
last. -/
def dataPhase {D : Type} : Bool → List (List UInt8) → List (Rsp.In D)
  | _, [] => []
  | first, b :: bs => .packet b first bs.isEmpty [] :: dataPhase false bs

end Spec
