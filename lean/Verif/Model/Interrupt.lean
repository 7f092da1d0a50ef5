import Verif.Model.Responder
/-!
Answers that are interrupted: while the transporter writes a container to the bus the main thread handles
transport events (mtptransporterusb.cpp:286-297, 306-313: `processEvents` in `sendData`), so a cancel, a reset
or a disconnection reaches the responder in the middle of a handler. `Model/Responder.lean` has this only for
copies; here it is added to the answers of commands without data from the host. Commands that arrive meanwhile
are postponed (mtptransporterusb.cpp:488-506). Changes of the storages meanwhile are left out.
-/
namespace Mtp.Rsp

variable {D : Type}

/-- What happens while one packet is written: transport events, and whether the write succeeds. -/
structure Writing where
  events : List Ev := []
  ok : Bool := true
  deriving DecidableEq

/-- mtpresponder.cpp:286-347 `sendContainer` for a data or response container; the result of the write is
ignored (336). -/
def sendI (dv : Dev D) (r : Rsp D) (o : Out) (w : Writing) : Rsp D × Bool :=
  if r.st = .txCancel then (r, false)
  else if r.st = .suspend then ({ r with resend := some o }, false)
  else if o.isResponse then
    (((w.events.foldl (handleEv dv) ((r.setState .idle).emit o)).emit .statusOk).deleteStored, true)
  else (w.events.foldl (handleEv dv) (r.emit o), true)

/-- mtpresponder.cpp:349-379 `sendResponse`, both versions. -/
def replyI (dv : Dev D) (r : Rsp D) (c : Resp) (ps : List Nat) (w : Writing) : Res (Rsp D) :=
  match r.req, ps with
  | some q, [] => .ok (r.sendI dv (.response c (u16 (cTid q)) []) w).1
  | none, [] => .ok r
  | some q, p :: _ => .ok (r.sendI dv (.response c (u16 (cTid q)) [p]) w).1
  | none, _ :: _ => .ub .nullDeref

/-- mtpresponder.cpp:2940-2966: the rest of a data phase goes straight to the transporter, whatever state the
responder is in, until a write fails. The flag tells whether all of it was sent. -/
def moreI (dv : Dev D) (r : Rsp D) : List (List UInt8 × Bool) → List Writing → Rsp D × Bool
  | [], _ => (r, true)
  | f :: fs, ws =>
    let w := ws.headD {}
    let r := w.events.foldl (handleEv dv) (r.emit (.more f.1 f.2))
    if w.ok then r.moreI dv fs ws.tail else (r, false)

/-- mtpresponder.cpp:2891-2991 `sendObjectSegmented` and the ends of the other handlers (e.g. 955-969). `ws`:
what happens during each write, in order; nothing more when the list is exhausted. -/
def sendReplyI (dv : Dev D) (r : Rsp D) (q : List UInt8) (p : Reply) (ws : List Writing) : Res (Rsp D) :=
  match p.frames with
  | [] =>
    match p.response with
    | none => .ok r
    | some (c, ps) => r.replyI dv c ps (ws.headD {})
  | (d, l) :: rest =>
    match r.sendI dv (.data (cCode q) (cTid q) d l) (ws.headD {}) with
    | (r', false) => .ok r'
    | (r', true) =>
      match r'.moreI dv rest ws.tail, p.response with
      | (r', false), _ => .ok r'
      | (r', true), none => .ok r'
      | (r', true), some (c, ps) => r'.replyI dv c ps ((ws.drop (rest.length + 1)).headD {})

/-- The handlers that answer without data from the host (mtpresponder.cpp:563); the others as in
`Rsp.handle`. -/
def handleI (dv : Dev D) (r : Rsp D) (q : List UInt8) (ws : List Writing) : OpKind → Res (Rsp D)
  | .deviceInfo =>
    match dv.query r.dev (cCode q) (cParams q) with
    | (d, p) => { r with dev := d }.sendReplyI dv q p ws
  | .propsSupported =>                                                    -- 1730-1766
    match preCheck 1 (cTid q) with
    | .ok =>
      match dv.query r.dev (cCode q) (cParams q) with
      | (d, p) => { r with dev := d }.sendReplyI dv q p ws
    | _ => r.replyI dv .invalidTransID [] (ws.headD {})
  | .thumb =>                                                             -- 1227-1268
    match preCheck r.session (cTid q) with
    | .ok =>
      match dv.query r.dev (cCode q) (cParams q) with
      | (d, p) =>
        let r := { r with dev := d }
        if p.frames = [] then .ok r else r.sendReplyI dv q p ws
    | _ => .ok r
  | .query ps =>
    match preCheck r.session (cTid q) with
    | .ok =>
      match dv.query r.dev (cCode q) (cParams q) with
      | (d, p) => { r with dev := d }.sendReplyI dv q p ws
    | c => r.replyI dv c ps (ws.headD {})
  | k => r.handle dv q [] k

/-- mtpresponder.cpp:490-577 `commandHandler`. -/
def commandI (dv : Dev D) (r : Rsp D) (ws : List Writing) : Res (Rsp D) :=
  match r.req with
  | none => .ub .nullDeref
  | some q =>
    let r := { r with resp := .ok }
    if r.ready = false ∧ needsStorage (cCode q) = true then
      .ok { (r.setState .waitStorage) with waitBuf := [], waitDone := false }
    else match opKind (cCode q) with
      | some k => r.handleI dv q ws k
      | none => r.replyI dv .operationNotSupported [] (ws.headD {})

/-- mtpresponder.cpp:381-456 `receiveContainer` for a command (a container in one packet), in the states in
which one is accepted. -/
def commandPacketI (dv : Dev D) (r : Rsp D) (b : List UInt8) (ws : List Writing) : Res (Rsp D) :=
  let r := { (r.setState .idle) with req := some b }
  let r := r.setState (if hasDataPhase (cCode b) then .waitData else .waitResp)
  (r.emit .statusBusy).commandI dv ws

end Mtp.Rsp
