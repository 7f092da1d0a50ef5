import Verif.Model.Basic
/-!
USB transport, main-thread side (mts/transport/usb/mtptransporterusb.cpp) and writer threads
(mts/transport/usb/threadio.cpp).
-/
namespace Mtp

/-! ### Splitting the byte stream into containers -/

/-- One `dataReceived` signal. -/
structure Pkt where
  data : List UInt8
  first : Bool
  last : Bool
  deriving DecidableEq

/-- Outcome of `processReceivedData`. -/
inductive SplitOut where
  | running                                  -- not finished within the given number of rounds
  | short                                    -- reads the length field beyond the received bytes
  | done (pkts : List Pkt) (readLen : Nat)   -- signals emitted, new m_containerReadLen
  deriving DecidableEq

/-- mtptransporterusb.cpp:545-557: the length expected for a container starting with `data`;
`objSize` is what `fetchObjectSize` reports (asked only for the marker 0xFFFFFFFF). -/
def announced (objSize : Nat) (data : List UInt8) : Nat :=
  let n := leVal (data.take 4)
  if n = 0xFFFFFFFF ∧ objSize > 0xFFFFFFFF - 12 then u64 (objSize + 12) else n

/-- mtptransporterusb.cpp:530-582 `processReceivedData`: at most `fuel` rounds of the loop on the
piece `data` with `m_containerReadLen = readLen`; no reset happens during the loop. -/
def splitData (objSize : Nat) : Nat → Nat → List UInt8 → SplitOut
  | 0, _, _ => .running
  | fuel+1, readLen, data =>
    if data.length = 0 then .done [] readLen
    else if readLen = 0 ∧ data.length < 4 then .short
    else
      let first := readLen = 0
      let len := if readLen = 0 then announced objSize data else readLen
      let chunk := if data.length < len then data.length else len
      let left := len - chunk
      let pkt : Pkt := { data := data.take chunk, first := first, last := left = 0 }
      match splitData objSize fuel left (data.drop chunk) with
      | .done pkts r => .done (pkt :: pkts) r
      | o => o

/-- Successive pieces (one call of `processReceivedData` each); every call is given as many rounds
as it has bytes, plus one. -/
def splitPieces (objSize : Nat) : Nat → List (List UInt8) → SplitOut
  | readLen, [] => .done [] readLen
  | readLen, p :: ps =>
    match splitData objSize (p.length + 1) readLen p with
    | .done pkts r =>
      match splitPieces objSize r ps with
      | .done pkts' r' => .done (pkts ++ pkts') r'
      | o => o
    | o => o

/-! ### Bulk writer -/

/-- Result of one `write()` call on the bulk endpoint. -/
inductive WriteRes where
  | ok (k : Nat)      -- k bytes accepted (at most the number offered)
  | eio | eintr | eagain
  | fatal             -- ESHUTDOWN or any other error
  | exit              -- the thread is told to exit before this write
  deriving DecidableEq

/-- What happened: data accepted by the kernel per successful write, result, `writeMax` afterwards. -/
structure BulkOut where
  writes : List (List UInt8)
  result : Bool
  writeMax : Nat
  deriving DecidableEq

/-- threadio.cpp:514-551: the loop; `zp` is `zeropacket`. `none`: still writing when the list of
results is exhausted. -/
def bulkLoop (writeMax : Nat) (zp : Bool) (data : List UInt8) : List WriteRes → Option BulkOut
  | [] => if data = [] ∧ zp = false then some { writes := [], result := true, writeMax := writeMax }
          else none
  | w :: ws =>
    if data = [] ∧ zp = false then some { writes := [], result := true, writeMax := writeMax }
    else
      let now := if data.length < writeMax then data.length else writeMax
      match w with
      | .exit => some { writes := [], result := data.isEmpty, writeMax := writeMax }
      | .eio =>
        if writeMax > 512 then bulkLoop (writeMax / 2) zp data ws
        else some { writes := [], result := data.isEmpty, writeMax := writeMax }
      | .eintr | .eagain => bulkLoop writeMax zp data ws
      | .fatal => some { writes := [], result := data.isEmpty, writeMax := writeMax }
      | .ok k =>
        let k := min k now
        let zp' := if data = [] then false else zp
        (bulkLoop writeMax zp' (data.drop k) ws).map fun o =>
          { o with writes := data.take k :: o.writes }

/-- threadio.cpp:494-555 `BulkWriterThread::execute` after `setData`. -/
def bulkWrite (writeMax : Nat) (data : List UInt8) (terminate : Bool) (ws : List WriteRes) :
    Option BulkOut :=
  bulkLoop writeMax (terminate && decide (data.length % 512 = 0)) data ws

/-! ### Event queue -/

/-- threadio.cpp:61 `MAX_EVENTS_STORED`. -/
def MAX_EVENTS : Nat := 512

/-- InterruptWriterThread: queue, event being written (`dataptr`), and history: events given to
`addData`, events the kernel took. -/
structure EvQueue (E : Type) where
  queue : List E
  cur : Option E
  added : List E
  sent : List E

inductive EvOp (E : Type) where
  | add (e : E)         -- addData
  | wake (ok : Bool)    -- sendOne wakes the thread; the write succeeds or is to be retried
  | flush               -- flushData / reset

/-- threadio.cpp:613-648 `addData`. -/
def evAdd {E : Type} (q : List E) (e : E) : List E :=
  q.drop (q.length + 1 - MAX_EVENTS) ++ [e]

/-- `add`: threadio.cpp:613-648; `wake`: 650-733; `flush`: 603-611. -/
def EvQueue.step {E : Type} (s : EvQueue E) : EvOp E → EvQueue E
  | .add e => { s with queue := evAdd s.queue e, added := s.added ++ [e] }
  | .flush => { s with queue := [] }
  | .wake ok =>
    match s.cur with
    | some e => if ok then { s with cur := none, sent := s.sent ++ [e] } else s
    | none =>
      match s.queue with
      | [] => s
      | e :: q =>
        if ok then { s with queue := q, sent := s.sent ++ [e] }
        else { s with queue := q, cur := some e }

/-! ### Event gating -/

inductive EvState where
  | idle | busy | retry | disabled
  deriving DecidableEq

/-- The members of MTPTransporterUSB that control event sending; `bulk` is true while the bulk writer
thread runs; `hasData` is `m_intrWrite.hasData()`. -/
structure Gate where
  writerBusy : Bool
  bulk : Bool
  responderBusy : Bool
  inSession : Bool
  ev : EvState
  failed : Nat
  hasData : Bool
  deriving DecidableEq

inductive GateOp where
  | sendEvent                    -- the responder has an event for the host
  | sendData                     -- sendData called
  | bulkStart                    -- sendData passed its waiting loop, the writer thread starts
  | bulkDone                     -- sendData finishes
  | pending | finished           -- commandPending / commandIdle
  | session (isOpen : Bool)      -- sessionOpenChanged
  | timeout                      -- eventTimeout
  | completed (r : Nat) (more : Bool)   -- eventCompleted: 0 success, 1 failure, 2 retry; queue state
  deriving DecidableEq

/-- mtptransporterusb.cpp:351-386 `sendQueuedEvent`; the flag tells whether a write was started. -/
def sendQueued (g : Gate) : Gate × Bool :=
  if g.writerBusy then (g, false)
  else if g.responderBusy then (g, false)
  else if ¬ g.inSession then (g, false)
  else if g.ev = .disabled then (g, false)
  else if g.ev = .busy then (g, false)
  else if g.ev = .idle ∧ ¬ g.hasData then (g, false)
  else if g.failed ≥ 3 then ({ g with ev := .disabled }, false)
  else ({ g with ev := .busy }, true)

/-- One step; the flag tells whether an event write was started. -/
def Gate.step (g : Gate) : GateOp → Gate × Bool
  -- mtptransporterusb.cpp:388-415
  | .sendEvent =>
    if ¬ g.inSession then (g, false)
    else if g.failed ≥ 3 then (g, false)
    else sendQueued { g with hasData := true }
  -- 264-331
  | .sendData => ({ g with writerBusy := true }, false)
  | .bulkStart => if g.writerBusy ∧ g.ev ≠ .busy then ({ g with bulk := true }, false) else (g, false)
  | .bulkDone =>
    if g.bulk then sendQueued { g with bulk := false, writerBusy := false } else (g, false)
  -- 99-114
  | .pending => ({ g with responderBusy := true }, false)
  | .finished =>
    if g.responderBusy then sendQueued { g with responderBusy := false } else (g, false)
  -- 333-349
  | .session o =>
    if g.inSession = o then (g, false)
    else
      ({ g with
        inSession := o
        failed := if o then 0 else g.failed
        ev := if g.ev = .disabled then .idle else g.ev }, false)
  -- 417-444
  | .timeout =>
    if g.writerBusy then (g, false)
    else
      ({ g with
        failed := g.failed + 1
        hasData := if g.failed + 1 = 3 then false else g.hasData }, false)
  -- 445-484
  | .completed r more =>
    if g.ev ≠ .busy then (g, false)
    else if r = 0 then sendQueued { g with failed := 0, ev := .idle, hasData := more }
    else if r = 1 then ({ g with ev := .idle, hasData := more }, false)
    else sendQueued { g with ev := .retry, hasData := more }

/-- mtptransporterusb.cpp:50-66. -/
def Gate.init : Gate :=
  { writerBusy := false, bulk := false, responderBusy := true, inSession := false, ev := .idle,
    failed := 0, hasData := false }

end Mtp
