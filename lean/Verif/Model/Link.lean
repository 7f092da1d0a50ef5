import Verif.Model.Usb
import Verif.Model.Ring
import Verif.Model.Responder
/-!
The receiving side put together: what the bulk pipe delivers (mts/transport/usb/mtptransporterusb.cpp) goes, container by
container, to the responder (mts/protocol/mtpresponder.cpp). `Model/Usb.lean` has the splitting of the stream alone, with a
responder that never resets the transporter. Not here: events during bulk writes (`Model/Interrupt.lean`).
-/
namespace Mtp

variable {D : Type}

/-- The signal that resets the transporter. -/
def Out.isReset : Out → Bool
  | .reset => true
  | _ => false

/-- How often the responder reset the transporter (mtpresponder.cpp:403-440 `emit … reset()`); the transporter counts these in
`m_resetCount` (mtptransporterusb.cpp:225). -/
def resets (out : List Out) : Nat := out.countP (·.isReset)

/-- The responder and `m_containerReadLen`, the number of bytes missing from the current container. -/
structure Link (D : Type) where
  rsp : Rsp D
  readLen : Nat := 0

/-- Outcome of `processReceivedData`. -/
inductive LinkOut (D : Type) where
  | running             -- not finished within the given number of rounds
  | short               -- reads the length field beyond the received bytes
  | crashed (w : UB)    -- the responder fails
  | done (l : Link D)

namespace Link

/-- mtpresponder.cpp:2730-2744 `fetchObjectSize`. -/
def objSize (r : Rsp D) (data : List UInt8) : Nat :=
  match r.propList with
  | some p => if rd 2 data 4 = 2 ∧ cCode data = 0x100D then p.size else 0
  | none => 0

/-- mtptransporterusb.cpp:530-582 `processReceivedData`: at most `fuel` rounds of the loop on the piece `data`. `dataReceived` is
handled synchronously (mtpresponder.cpp:158). When the responder resets the transporter (mtptransporterusb.cpp:214-231) the rest
of the piece is dropped and a container is expected to start next. -/
def piece (dv : Dev D) : Nat → Link D → List UInt8 → LinkOut D
  | 0, _, _ => .running
  | fuel+1, l, data =>
    if data.length = 0 then .done l
    else if l.readLen = 0 ∧ data.length < 4 then .short
    else
      let len := if l.readLen = 0 then announced (objSize l.rsp data) data else l.readLen
      let chunk := if data.length < len then data.length else len
      match l.rsp.receive dv (data.take chunk) (l.readLen = 0) (len - chunk = 0) [] with
      | .ub w => .crashed w
      | .ok r =>
        if resets r.out = resets l.rsp.out then piece dv fuel ⟨r, len - chunk⟩ (data.drop chunk)
        else .done ⟨r, 0⟩

/-- Successive pieces (one call of `processReceivedData` each, mtptransporterusb.cpp:488-510); every call is given as many rounds
as it has bytes, plus one. -/
def pieces (dv : Dev D) : Link D → List (List UInt8) → LinkOut D
  | l, [] => .done l
  | l, p :: ps =>
    match l.piece dv (p.length + 1) p with
    | .done l' => l'.pieces dv ps
    | o => o

/-- Control requests reach the responder through the transporter (mtptransporterusb.cpp:163-174). A cancel or a device reset is
only passed on; when the interface is disabled or suspended (`stopRead`, 661-670) the current container is forgotten too. -/
def ev (dv : Dev D) (l : Link D) (e : Rsp.Ev) : Link D :=
  ⟨l.rsp.handleEv dv e, if e = .cleanup then 0 else l.readLen⟩

end Link
end Mtp
