import Verif.Model.Factory
/-!
The responder's state machine: mts/protocol/mtpresponder.cpp, mtpresponder.h:130-260.

The storages and the property tables behind the responder are a parameter (`Dev`): one function per
call the responder makes. Extensions (mtpextensionmanager) are not modelled: none handles an operation.
Logging, the idle timer and `m_copiedObjHandle` (never read) are left out. The transporter is present.
Memory management of the C++ objects is reduced to presence or absence.
-/
namespace Mtp

/-- mtpresponder.h:176-183 `ResponderState`. -/
inductive RState where
  | idle | waitData | waitResp | txCancel | suspend | waitStorage
  deriving DecidableEq, Repr

/-- What leaves the responder: packets given to the transporter and signals. `data` is the (first) packet
of a data phase, `more` a continuation packet. -/
inductive Out where
  | data (code tid : Nat) (payload : List UInt8) (last : Bool)
  | more (payload : List UInt8) (last : Bool)
  | response (code : Resp) (tid : Nat) (params : List Nat)
  | event (code tid : Nat) (params : List Nat)
  | reset
  | statusOk
  | statusBusy
  | pending
  | finished
  | session (isOpen : Bool)
  deriving DecidableEq, Repr

def Out.isEvent : Out → Bool
  | .event .. => true
  | _ => false

def Out.isResponse : Out → Bool
  | .response .. => true
  | _ => false

/-- Bytes `i..` of a container as little-endian number (mtpcontainer.cpp:64-82 header accessors); bytes
beyond the packet read as absent (the overrun is the subject of C08-C10). -/
def rd (w : Nat) (b : List UInt8) (i : Nat) : Nat := leVal ((b.drop i).take w)

/-- Header fields (mtpcontainer.cpp:64-82). -/
def cLen (b : List UInt8) : Nat := rd 4 b 0
def cCode (b : List UInt8) : Nat := rd 2 b 6
def cTid (b : List UInt8) : Nat := rd 4 b 8

/-- mtpcontainer.cpp:89-103 `params`: always five entries, zero where the container has none; at most
five sent (C10). -/
def cParams (b : List UInt8) : List Nat :=
  (List.range 5).map fun i => if 12 + 4 * i + 4 ≤ b.length then rd 4 b (12 + 4 * i) else 0

/-- Parameter `i`. -/
def cParam (b : List UInt8) (i : Nat) : Nat := (cParams b).getD i 0

/-- What kind of handler an operation has. `query`: one or no data container and a response, made up by
the storages and tables; `refused`: answered OperationNotSupported by its handler. -/
inductive OpKind where
  | deviceInfo                      -- no preconditions
  | openSession
  | closeSession
  | propsSupported                  -- no session needed
  | thumb
  | query (failParams : List Nat)   -- parameters sent even when the precheck fails
  | copy
  | skip
  | refused
  | sendInfo
  | sendObject
  | sendPropList
  | sendPartial
  | set (checked : Bool)            -- checked: the request phase looks at its parameters
  | truncate
  | beginEdit
  | endEdit
  deriving DecidableEq, Repr

/-- mtpresponder.cpp:242-282 `createCommandHandler`: operation code and handler. -/
def opTable : List (Nat × OpKind) :=
  [(0x1001, .deviceInfo), (0x1002, .openSession), (0x1003, .closeSession), (0x1004, .query []),
   (0x1005, .query []), (0x1006, .query [0]), (0x1007, .query []), (0x1008, .query []),
   (0x1009, .query []), (0x100A, .thumb), (0x100B, .query []), (0x100C, .sendInfo),
   (0x100D, .sendObject), (0x101B, .query []), (0x1012, .refused), (0x1014, .query []),
   (0x1015, .query []), (0x1016, .set true), (0x1017, .refused), (0x1019, .query []),
   (0x101A, .copy), (0x95C1, .query []), (0x95C2, .sendPartial), (0x95C3, .truncate),
   (0x95C4, .beginEdit), (0x95C5, .endEdit), (0x9801, .propsSupported), (0x9802, .query []),
   (0x9803, .query []), (0x9804, .set true), (0x9805, .query []), (0x9806, .set false),
   (0x9807, .refused), (0x9808, .sendPropList), (0x9810, .query []), (0x9811, .set false),
   (0x9820, .skip)]

/-- `m_opCodeTable` lookup, mtpresponder.cpp:561. -/
def opKind (code : Nat) : Option OpKind := (opTable.find? (·.1 = code)).map (·.2)

/-- mtpresponder.cpp:579-636 `hasDataPhase`. -/
def hasDataPhase (code : Nat) : Bool :=
  code ∈ [0x100C, 0x100D, 0x9806, 0x9808, 0x1016, 0x9804, 0x9811, 0x95C2]

/-- mtpresponder.cpp:3075-3097 `needsStorageReady`. -/
def needsStorage (code : Nat) : Bool :=
  code ∉ [0x1001, 0x1002, 0x1003, 0x1004, 0x1005, 0x1014, 0x1015, 0x1016, 0x1017]

/-- mts/platform/deviceinfo/mtpdeviceinfo.cpp:70-105 `m_operationsSupportedTable`. -/
def advertised : List Nat :=
  [0x1001, 0x1002, 0x1003, 0x1004, 0x1005, 0x1006, 0x1007, 0x1008, 0x1009, 0x100B, 0x100C, 0x100D,
   0x101A, 0x1019, 0x9806, 0x9805, 0x9808, 0x101B, 0x1014, 0x1015, 0x1016, 0x9801, 0x9802, 0x9803,
   0x9804, 0x9810, 0x9811, 0x95C1, 0x95C2, 0x95C3, 0x95C4, 0x95C5]

/-- What a query handler sends: the packets of its data phase (payload, marked last) and its response,
absent when a download breaks off (mtpresponder.cpp:2976). -/
structure Reply where
  frames : List (List UInt8 × Bool)
  response : Option (Resp × List Nat)
  deriving DecidableEq

/-- The storages and tables behind the responder. Handles, offsets and sizes are numbers, datasets the raw
container. -/
structure Dev (D : Type) where
  query : D → Nat → List Nat → D × Reply
  copy : D → List Nat → Bool → D × Resp × Nat       -- flag: cancelled by the host
  check : D → Nat → List Nat → Resp                 -- request phase of SetDevicePropValue, SetObjectPropValue
  store : D → Nat → List Nat → List UInt8 → D × Resp × List Nat
  listCheck : D → List Nat → Resp                   -- request phase of SendObjectPropList, but the size
  addInfo : D → List Nat → List UInt8 → D × Resp × List Nat × Nat   -- response parameters, new handle
  addList : D → List Nat → List UInt8 → D × Resp × List Nat × Nat
  write : D → Nat → Option (List UInt8) → Bool → Bool → D × Resp
  truncate : D → Nat → Nat → D × Resp
  setProps : D → Nat → List UInt8 → D
  writePartial : D → Nat → Nat → List UInt8 → Bool → Bool → D × Resp
  delete : D → Nat → D × Resp
  handleOk : D → Nat → Resp
  flush : D → Nat → D
  setEvents : D → Nat → Bool → D
  eventsOff : D → D                                 -- all objects, on session close
  eventsOn : D → Nat → Bool                         -- true for unknown objects

/-- mtpresponder.h:228-240 `MTPSendObjectSequence`, `size` from its object info. -/
structure SendSeq where
  handle : Nat
  size : Nat
  written : Nat
  deriving DecidableEq

/-- mtpresponder.h:192-226 `ObjPropListInfo`; `dataset` is the property list. -/
structure PropListInfo where
  handle : Nat
  size : Nat
  curr : Nat
  params : List Nat
  dataset : List UInt8
  deriving DecidableEq

/-- mtpresponder.h:241-245 `MTPEditObjectSequence`. -/
structure EditSeq where
  handle : Nat
  offset : Nat
  deriving DecidableEq

/-- The responder (mtpresponder.h:160-270) with everything it sent so far (`out`, in order). -/
structure Rsp (D : Type) where
  st : RState := .idle
  prev : RState := .idle
  session : Nat := 0
  req : Option (List UInt8) := none
  resp : Resp := .ok
  dataC : Option (List UInt8) := none
  ready : Bool := false
  waitBuf : List UInt8 := []
  waitDone : Bool := false
  sendSeq : Option SendSeq := none
  propList : Option PropListInfo := none
  edit : Option EditSeq := none
  resend : Option Out := none
  dev : D
  out : List Out := []

variable {D : Type}

namespace Rsp

/-- Adds to the output. -/
def emit (r : Rsp D) (o : Out) : Rsp D := { r with out := r.out ++ [o] }

/-- mtpresponder.cpp:3158-3181 `setResponderState`. -/
def setState (r : Rsp D) (s : RState) : Rsp D :=
  if r.st = s then r
  else
    let r' := { r with st := s }
    if (r.st ≠ .idle) = (s ≠ .idle) then r'
    else if s ≠ .idle then r'.emit .pending
    else r'.emit .finished

/-- mtpresponder.cpp:2632-2645 `deleteStoredRequest`. -/
def deleteStored (r : Rsp D) : Rsp D := { r with dataC := none, req := none }

/-- mtpresponder.cpp:286-347 `sendContainer`. -/
def send (r : Rsp D) (o : Out) : Rsp D × Bool :=
  if r.st = .txCancel ∧ o.isEvent = false then (r, false)
  else if r.st = .suspend then
    (if o.isEvent then r else { r with resend := some o }, false)
  else if o.isResponse then
    ((((r.setState .idle).emit o).emit .statusOk).deleteStored, true)
  else (r.emit o, true)

/-- mtpresponder.cpp:349-363 `sendResponse(code)`; the transaction id passes through a quint16. -/
def reply (r : Rsp D) (code : Resp) : Rsp D :=
  match r.req with
  | none => r
  | some q => (r.send (.response code (u16 (cTid q)) [])).1

/-- mtpresponder.cpp:365-379 `sendResponse(code, param1)`, which dereferences the request unchecked. -/
def reply1 (r : Rsp D) (code : Resp) (p : Nat) : Res (Rsp D) :=
  match r.req with
  | none => .ub .nullDeref
  | some q => .ok (r.send (.response code (u16 (cTid q)) [p])).1

/-- Either of the two, depending on the number of parameters. -/
def replyP (r : Rsp D) (code : Resp) (ps : List Nat) : Res (Rsp D) :=
  match ps with
  | [] => .ok (r.reply code)
  | p :: _ => r.reply1 code p

/-- mtpresponder.cpp:2647-2656 `preCheck`. -/
def preCheck (session tid : Nat) : Resp :=
  if session = 0 then .sessionNotOpen
  else if tid = 0 ∨ tid = 0xFFFFFFFF then .invalidTransID
  else .ok

/-- Data phase and response of a query handler, e.g. mtpresponder.cpp:955-969, 2902-2989: without the
first packet sent there is no response. (A download would then be answered, 2976, but query handlers run
only in state `waitResp`, in which nothing is refused.) -/
def sendReply (r : Rsp D) (q : List UInt8) (p : Reply) : Res (Rsp D) :=
  match p.frames with
  | [] =>
    match p.response with
    | none => .ok r
    | some (c, ps) => r.replyP c ps
  | (d, l) :: rest =>
    match r.send (.data (cCode q) (cTid q) d l) with
    | (r', false) => .ok r'
    | (r', true) =>
      let r' := { r' with out := r'.out ++ rest.map fun f => .more f.1 f.2 }
      match p.response with
      | none => .ok r'
      | some (c, ps) => r'.replyP c ps

/-- Transport events (mtptransporterusb.cpp signals connected at mtpresponder.cpp:158-173). -/
inductive Ev where
  | cancel | suspend | resume | deviceReset | cleanup
  deriving DecidableEq

/-- mtpresponder.cpp:2711-2722 `closeSession` (slot of `cleanup`). -/
def closeSession (r : Rsp D) : Rsp D :=
  { ({ r with session := 0 }.deleteStored.setState .idle) with sendSeq := none, propList := none }

/-- mtpresponder.cpp:2798-2805: the object a cancel removes. -/
def cancelTarget (r : Rsp D) : Nat :=
  match r.propList, r.sendSeq with
  | some p, _ => p.handle
  | none, some s => s.handle
  | none, none => 0

/-- mtpresponder.cpp:2794-2846: a cancelled upload is removed and forgotten. -/
def cancelUpload (dv : Dev D) (r : Rsp D) : Rsp D :=
  let r := if r.cancelTarget = 0 then r else { r with dev := (dv.delete r.dev r.cancelTarget).1 }
  if r.propList.isSome then { r with propList := none } else { r with sendSeq := none }

/-- mtpresponder.cpp:2775-2856 `handleCancelTransaction`. -/
def handleCancel (dv : Dev D) (r : Rsp D) : Rsp D :=
  match r.req with
  | none => r.emit .statusOk
  | some q =>
    let r := r.setState .txCancel
    let r := if cCode q = 0x100D ∨ cCode q = 0x9808 ∨ cCode q = 0x100C then r.cancelUpload dv else r
    r.deleteStored.emit .statusOk

/-- mtpresponder.cpp:2746-2751 `handleSuspend`. -/
def handleSuspend (r : Rsp D) : Rsp D := { r with prev := r.st }.setState .suspend

/-- mtpresponder.cpp:2753-2768 `handleResume`: the kept container goes straight to the transporter. -/
def handleResume (r : Rsp D) : Rsp D :=
  let r := r.setState r.prev
  match r.resend with
  | none => r
  | some o =>
    let r := { r with resend := none }
    if r.st = .txCancel then r else r.emit o

/-- Slot of each transport event; 2858-2862 `handleDeviceReset`. -/
def handleEv (dv : Dev D) (r : Rsp D) : Ev → Rsp D
  | .cancel => r.handleCancel dv
  | .suspend => r.handleSuspend
  | .resume => r.handleResume
  | .deviceReset => r.closeSession.emit .statusOk
  | .cleanup => r.closeSession

/-- mtpresponder.cpp:1501-1507: no response to a cancelled copy. -/
def copyEnd (r : Rsp D) (c : Resp) (h : Nat) : Res (Rsp D) :=
  if r.st = .txCancel then .ok r else r.reply1 c h

/-- mtpresponder.cpp:1476-1508 `copyObjectReq`. While the data is copied transport events are handled
(2993-3005 `processTransportEvents`); here `nested` come before the copying and decide whether it is
cancelled. -/
def copyReq (dv : Dev D) (r : Rsp D) (q : List UInt8) (nested : List Ev) : Res (Rsp D) :=
  match preCheck r.session (cTid q) with
  | .ok =>
    let r := nested.foldl (handleEv dv) r
    match dv.copy r.dev (cParams q) (r.st = .txCancel) with
    | (d, c, h) => { r with dev := d }.copyEnd c h
  | c => r.copyEnd c 0

/-- mtpresponder.cpp:1529-1576 `sendPartialObject64Req`. -/
def partialReq (r : Rsp D) (q : List UInt8) : Rsp D :=
  match preCheck r.session (cTid q) with
  | .ok =>
    match r.edit with
    | none => { r with resp := .generalError }
    | some e =>
      if e.handle ≠ cParam q 0 then { r with resp := .invalidObjectHandle }
      else { r with
             resp := .ok
             edit := some { e with offset := cParam q 2 * 4294967296 + cParam q 1 } }
  | c => { r with resp := c }

/-- mtpresponder.cpp:1615-1652 `truncateObject64Req`. -/
def truncateReq (dv : Dev D) (r : Rsp D) (q : List UInt8) : Rsp D :=
  match preCheck r.session (cTid q) with
  | .ok =>
    match r.edit with
    | none => r.reply .generalError
    | some e =>
      if e.handle ≠ cParam q 0 then r.reply .invalidObjectHandle
      else match dv.truncate r.dev (cParam q 0) (cParam q 2 * 4294967296 + cParam q 1) with
        | (d, c) => { r with dev := d }.reply c
  | c => r.reply c

/-- mtpresponder.cpp:1654-1688 `beginEditObjectReq`. -/
def beginEditReq (dv : Dev D) (r : Rsp D) (q : List UInt8) : Rsp D :=
  match preCheck r.session (cTid q) with
  | .ok =>
    match dv.handleOk r.dev (cParam q 0) with
    | .ok => { r with
               edit := some ⟨cParam q 0, 0⟩
               dev := dv.setEvents r.dev (cParam q 0) false }.reply .ok
    | c => r.reply c
  | c => r.reply c

/-- mtpresponder.cpp:1690-1728 `endEditObjectReq`. -/
def endEditReq (dv : Dev D) (r : Rsp D) (q : List UInt8) : Rsp D :=
  match preCheck r.session (cTid q) with
  | .ok =>
    match r.edit with
    | none => r.reply .generalError
    | some e =>
      if e.handle ≠ cParam q 0 then r.reply .invalidObjectHandle
      else { r with
             edit := none
             dev := dv.setEvents (dv.flush r.dev (cParam q 0)) (cParam q 0) true }.reply .ok
  | c => r.reply c

/-- mtpresponder.cpp:2079-2133 `sendObjectPropListReq`. -/
def propListReq (dv : Dev D) (r : Rsp D) (q : List UInt8) : Rsp D :=
  match preCheck r.session (cTid q) with
  | .ok =>
    match dv.listCheck r.dev (cParams q) with
    | .ok =>
      if cParam q 3 ≠ 0 then { r with resp := .objectTooLarge }
      else { r with resp := .ok, propList := some ⟨0, cParam q 4, 0, cParams q, []⟩ }
    | c => { r with resp := c }
  | c => { r with resp := c }

/-- mtpresponder.cpp:1304-1320 `sendObjectReq`. -/
def sendObjectReq (r : Rsp D) (q : List UInt8) : Rsp D :=
  match preCheck r.session (cTid q) with
  | .ok =>
    if r.sendSeq.isNone ∧ r.propList.isNone then { r with resp := .noValidObjectInfo }
    else { r with resp := .ok }
  | c => { r with resp := c }

/-- mtpresponder.cpp:872-894 `openSessionReq`. -/
def openSessionReq (r : Rsp D) (q : List UInt8) : Res (Rsp D) :=
  if cParam q 0 = 0 then .ok (r.reply .invalidParameter)
  else if r.session ≠ 0 then r.reply1 .sessionAlreadyOpen r.session
  else .ok (({ r with session := cParam q 0 }.reply .ok).emit (.session true))

/-- mtpresponder.cpp:896-919 `closeSessionReq`; the storages stop sending events (storagefactory.cpp:222-230). -/
def closeSessionReq (dv : Dev D) (r : Rsp D) : Rsp D :=
  if r.session = 0 then r.reply .sessionNotOpen
  else ({ r with
          session := 0
          sendSeq := none
          propList := none
          dev := dv.eventsOff r.dev }.emit (.session false)).reply .ok

/-- The handler of a request, mtpresponder.cpp:563. -/
def handle (dv : Dev D) (r : Rsp D) (q : List UInt8) (nested : List Ev) : OpKind → Res (Rsp D)
  | .deviceInfo =>
    match dv.query r.dev (cCode q) (cParams q) with
    | (d, p) => { r with dev := d }.sendReply q p
  | .openSession => r.openSessionReq q
  | .closeSession => .ok (r.closeSessionReq dv)
  | .propsSupported =>                                                    -- 1730-1766
    match preCheck 1 (cTid q) with
    | .ok =>
      match dv.query r.dev (cCode q) (cParams q) with
      | (d, p) => { r with dev := d }.sendReply q p
    | _ => .ok (r.reply .invalidTransID)
  | .thumb =>                                                             -- 1227-1268
    match preCheck r.session (cTid q) with
    | .ok =>
      match dv.query r.dev (cCode q) (cParams q) with
      | (d, p) =>
        let r := { r with dev := d }
        if p.frames = [] then .ok r else r.sendReply q p
    | _ => .ok r
  | .query ps =>
    match preCheck r.session (cTid q) with
    | .ok =>
      match dv.query r.dev (cCode q) (cParams q) with
      | (d, p) => { r with dev := d }.sendReply q p
    | c => r.replyP c ps
  | .copy => r.copyReq dv q nested
  | .skip => .ok (r.reply (preCheck r.session (cTid q)))                  -- 2169-2183
  | .refused => .ok (r.reply .operationNotSupported)                      -- 1335-1340
  | .sendInfo => .ok { r with resp := preCheck r.session (cTid q) }       -- 1291-1302
  | .sendObject => .ok (r.sendObjectReq q)
  | .sendPropList => .ok (r.propListReq dv q)
  | .sendPartial => .ok (r.partialReq q)
  | .set checked =>                                                       -- 1405-1428, 1876-1902, 2056-2068, 2158-2167
    .ok { r with
          resp := match preCheck r.session (cTid q) with
            | .ok => if checked then dv.check r.dev (cCode q) (cParams q) else .ok
            | c => c }
  | .truncate => .ok (r.truncateReq dv q)
  | .beginEdit => .ok (r.beginEditReq dv q)
  | .endEdit => .ok (r.endEditReq dv q)

/-- mtpresponder.cpp:490-577 `commandHandler`. -/
def command (dv : Dev D) (r : Rsp D) (nested : List Ev) : Res (Rsp D) :=
  match r.req with
  | none => .ub .nullDeref
  | some q =>
    let r := { r with resp := .ok }
    if r.ready = false ∧ needsStorage (cCode q) = true then
      .ok { (r.setState .waitStorage) with waitBuf := [], waitDone := false }
    else match opKind (cCode q) with
      | some k => r.handle dv q nested k
      | none => .ok (r.reply .operationNotSupported)

/-- mtpresponder.cpp:2667-2709 `sendObjectCheck`; `n` bytes were just written. `undefined`: go on. -/
def uploadCheck (dv : Dev D) (r : Rsp D) (h n : Nat) (last : Bool) : Rsp D × Resp :=
  match r.propList, r.sendSeq with
  | some p, _ =>
    let r := { r with propList := some { p with curr := p.curr + n } }
    if p.size > p.curr + n then
      if last then ({ r with dev := (dv.truncate r.dev h 0).1 }, .incompleteTransfer)
      else (r, .undefined)
    else (r, .ok)
  | none, some s =>
    let r := { r with sendSeq := some { s with written := u32 (s.written + n) } }
    if s.size > u32 (s.written + n) then
      if last then ({ r with dev := (dv.truncate r.dev h 0).1 }, .incompleteTransfer)
      else (r, .undefined)
    else (r, .ok)
  | none, none => (r, .ok)

/-- The handle `sendObjectData` writes to (mtpresponder.cpp:2268-2272). -/
def uploadHandle (r : Rsp D) : Nat :=
  match r.sendSeq, r.propList with
  | some s, _ => s.handle
  | none, some p => p.handle
  | none, none => 0

/-- mtpresponder.cpp:2292-2351: the verdict on an upload. -/
def uploadEnd (dv : Dev D) (r : Rsp D) (h : Nat) (code : Resp) : Rsp D :=
  let r := { r with sendSeq := none }
  let r := match code, r.propList with
    | .ok, some p => { r with dev := dv.setProps r.dev h p.dataset }
    | _, _ => r
  let r := { r with dev := (dv.write r.dev h none false true).1 }
  { (r.reply code) with propList := none }

/-- mtpresponder.cpp:2252-2356 `sendObjectData`. A first packet shorter than a header makes the length
wrap around; that is treated as an overrun. -/
def uploadData (dv : Dev D) (r : Rsp D) (b : List UInt8) (first last : Bool) : Res (Rsp D) :=
  if r.sendSeq.isNone ∧ r.propList.isNone then .ok (r.uploadEnd dv 0 .noValidObjectInfo)
  else if first ∧ b.length < 12 then .ub .oobRead
  else
    let h := r.uploadHandle
    let d := if first then b.drop 12 else b
    match dv.write r.dev h (some d) first last with
    | (d', .ok) =>
      match { r with dev := d' }.uploadCheck dv h d.length last with
      | (r', .undefined) => .ok r'
      | (r', c) => .ok (r'.uploadEnd dv h c)
    | (d', c) => .ok ({ r with dev := d' }.uploadEnd dv h c)

/-- mtpresponder.cpp:2185-2250 `sendObjectInfoData`; `b` is the data container, `q` the request. The
object's size is the dataset's ObjectCompressedSize. -/
def infoData (dv : Dev D) (r : Rsp D) (q b : List UInt8) : Rsp D :=
  let r := { r with propList := none }
  let size := rd 4 b 20
  if size = 0xFFFFFFFF then
    ({ r with sendSeq := none }.send (.response .objectTooLarge (cTid q) [])).1
  else match dv.addInfo r.dev (cParams q) b with
    | (d, .ok, ps, h) =>
      ({ r with dev := d, sendSeq := some ⟨h, size, 0⟩ }.send (.response .ok (cTid q) ps)).1
    | (d, c, _, _) => ({ r with dev := d, sendSeq := none }.send (.response c (cTid q) [])).1

/-- mtpresponder.cpp:2404-2517 `sendObjectPropListData`. -/
def listData (dv : Dev D) (r : Rsp D) (q b : List UInt8) : Rsp D :=
  match r.propList with
  | none => r.reply .generalError
  | some p =>
    match dv.addList r.dev p.params b with
    | (d, c, ps, h) =>
      ({ r with
         dev := d
         propList := some { p with handle := h, dataset := b } }.send (.response c (cTid q) ps)).1

/-- mtpresponder.cpp:1578-1613 `sendPartialObject64Data`. -/
def partialData (dv : Dev D) (r : Rsp D) (b : List UInt8) (first last : Bool) : Rsp D × Resp :=
  match r.edit with
  | none => (r, .generalError)
  | some e =>
    if first ∧ b.length < 12 then (r, .generalError)
    else
      let d := if first then b.drop 12 else b
      match dv.writePartial r.dev e.handle e.offset d first last with
      | (d', c) =>
        ({ r with
           dev := d'
           edit := some { e with offset := u64 (e.offset + d.length) } }, c)

/-- mtpresponder.cpp:738-748: status kept, response on the last packet. -/
def dataEnd (r : Rsp D) (c : Resp) (last : Bool) : Rsp D :=
  let r := { r with resp := c }
  if last then r.reply c else r

/-- mtpresponder.cpp:649-671: the packets of a data phase but an upload's are concatenated
(mtprxcontainer.cpp:40-72: what exceeds the announced length is dropped). -/
def accumulate (r : Rsp D) (b : List UInt8) (first : Bool) : Rsp D :=
  if first then { r with dataC := some b }
  else match r.dataC with
    | none => r
    | some a => if a.length + b.length ≤ cLen a then { r with dataC := some (a ++ b) } else r

/-- mtpresponder.cpp:676-687: the data container must belong to the request. -/
def dataCheck (r : Rsp D) (q : List UInt8) : Resp :=
  match r.resp, r.dataC with
  | .ok, some a =>
    if cTid a ≠ cTid q then .invalidTransID
    else if cCode a ≠ cCode q then .generalError
    else .ok
  | c, _ => c

/-- mtpresponder.cpp:638-748 `dataHandler`. A last packet without a first one makes the handlers
dereference a null container. -/
def dataPacket (dv : Dev D) (r : Rsp D) (q b : List UInt8) (first last : Bool) : Res (Rsp D) :=
  if cCode q = 0x100D then
    match { r with dataC := none }.resp with
    | .ok => { r with dataC := none }.uploadData dv b first last
    | c => .ok ({ r with dataC := none }.dataEnd c last)
  else if cCode q = 0x95C2 then
    match { r with dataC := none }.resp with
    | .ok =>
      match { r with dataC := none }.partialData dv b first last with
      | (r', c) => .ok (r'.dataEnd c last)
    | c => .ok ({ r with dataC := none }.dataEnd c last)
  else
    let r := r.accumulate b first
    if last = false then .ok r
    else match r.dataCheck q with
      | .ok =>
        match r.dataC with
        | none => if opKind (cCode q) = none then .ok (r.dataEnd .operationNotSupported last) else .ub .nullDeref
        | some a =>
          match opKind (cCode q) with
          | some .sendInfo => .ok (r.infoData dv q a)
          | some .sendPropList => .ok (r.listData dv q a)
          | some (.set _) =>
            match dv.store r.dev (cCode q) (cParams q) a with
            | (d, c, ps) => { r with dev := d }.replyP c ps
          | _ => .ok (r.dataEnd .operationNotSupported last)
      | c => .ok (r.dataEnd c last)

/-- mtpresponder.cpp:381-456 `receiveContainer`. -/
def receive (dv : Dev D) (r : Rsp D) (b : List UInt8) (first last : Bool) (nested : List Ev) : Res (Rsp D) :=
  match r.st with
  | .idle | .txCancel | .suspend =>
    let r := { (r.setState .idle) with req := none }
    if first ∧ last then
      let r := { r with req := some b }
      let r := r.setState (if hasDataPhase (cCode b) then .waitData else .waitResp)
      (r.emit .statusBusy).command dv nested
    else .ok (r.emit .reset)
  | .waitData =>
    match r.req with
    | none => .ok ((r.setState .idle).emit .reset)
    | some q =>
      let r := if first then r.emit .statusBusy else r
      r.dataPacket dv q b first last
  | .waitStorage =>
    if first ∧ r.waitBuf ≠ [] then .ok ((r.setState .idle).emit .reset)
    else .ok { r with waitBuf := r.waitBuf ++ b, waitDone := last }
  | .waitResp => .ok ((r.setState .idle).emit .reset)

/-- mtpresponder.cpp:478-486: data that arrived meanwhile is replayed as one packet. -/
def replay (dv : Dev D) (r : Rsp D) (nested : List Ev) : Res (Rsp D) :=
  if r.waitBuf = [] then .ok { r with waitBuf := [], waitDone := false }
  else match r.receive dv r.waitBuf true r.waitDone nested with
    | .ok r' => .ok { r' with waitBuf := [], waitDone := false }
    | .ub w => .ub w

/-- mtpresponder.cpp:458-488 `onStorageReady` (activation of the transporter left out). -/
def storageReady (dv : Dev D) (r : Rsp D) (nested : List Ev) : Res (Rsp D) :=
  let r := { r with ready := true }
  if r.st = .waitStorage then
    match r.req with
    | none => .ub .nullDeref
    | some q =>
      match (r.setState (if hasDataPhase (cCode q) then .waitData else .waitResp)).command dv nested with
      | .ok r' => r'.replay dv nested
      | .ub w => .ub w
  else .ok r

/-- Event codes, mts/common/mtptypes.h. -/
def EV_ADDED : Nat := 0x4002
def EV_REMOVED : Nat := 0x4003
def EV_INFO : Nat := 0x4007
def EV_PROP : Nat := 0xC801

/-- mtpresponder.cpp:3019-3043: whether the host listens to this event. -/
def listening (dv : Dev D) (d : D) (ev : Nat) (ps : List Nat) : Bool :=
  let h := if ev = EV_ADDED ∨ ev = EV_REMOVED ∨ ev = EV_INFO ∨ ev = EV_PROP then ps.getD 0 0 else 0
  if h = 0 ∨ h = 0xFFFFFFFF then true else dv.eventsOn d h

/-- mtpresponder.cpp:3017-3073 `dispatchEvent`; MTP_NO_TRANSACTION_ID is 0xFFFFFFFF. -/
def notify (dv : Dev D) (r : Rsp D) (ev : Nat) (ps : List Nat) : Rsp D :=
  if ev ≠ EV_ADDED ∧ listening dv r.dev ev ps = false then r
  else (r.send (.event ev 0xFFFFFFFF ps)).1

/-- Everything that happens to the responder. `env`: the storages change on their own. -/
inductive In (D : Type) where
  | packet (b : List UInt8) (first last : Bool) (nested : List Ev)
  | ready (nested : List Ev)
  | ev (e : Ev)
  | notify (code : Nat) (params : List Nat)
  | env (d : D)

/-- One step. -/
def step (dv : Dev D) (r : Rsp D) : In D → Res (Rsp D)
  | .packet b f l n => r.receive dv b f l n
  | .ready n => r.storageReady dv n
  | .ev e => .ok (r.handleEv dv e)
  | .notify c ps => .ok (r.notify dv c ps)
  | .env d => .ok { r with dev := d }

/-- A history. -/
def run (dv : Dev D) (r : Rsp D) : List (In D) → Res (Rsp D)
  | [] => .ok r
  | i :: is => r.step dv i >>= fun r' => r'.run dv is

end Rsp
end Mtp
