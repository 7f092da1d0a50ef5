import Verif.Model.Basic
/-!
The receive buffer shared by the USB reader thread and the main thread
(mts/transport/usb/threadio.cpp: BulkReaderThread, threadio.h:72-145).
-/
namespace Mtp

/-- threadio.cpp:50 `MAX_DATA_IN_SIZE`. -/
def MAX_IN : Nat := 16384
/-- threadio.cpp:65 `READER_BUFFER_SIZE`. -/
def RBUF : Nat := 262144

/-- State shared by the two threads, the reader's pending `read()` (offset chosen, bytes the kernel has
stored so far for this call), the main thread's current piece (`data`, `dataLen` of
`processReceivedData`), and two history variables: the bytes of all completed reads accepted since
the last reset and the bytes the main thread has consumed. -/
structure Ring where
  buf : List UInt8
  start : Nat
  size1 : Nat
  size2 : Nat
  reading : Option (Nat × List UInt8)
  view : Option (Nat × Nat)
  accepted : List UInt8
  consumed : List UInt8

/-- Atomic steps (each is one critical section or one kernel copy). -/
inductive RStep where
  | pick                      -- reader: choose an offset under the lock
  | kernel (d : List UInt8)   -- the kernel stores d at the offset of the pending read
  | mark                      -- the read returned: publish the data under the lock
  | fail                      -- the read failed (EINTR, EAGAIN, ...)
  | get                       -- main: getData
  | release (n : Nat)         -- main: n bytes of the piece were processed, releaseData(n)
  | reset                     -- main: resetData (stopRead, reset); the current piece is abandoned

namespace Ring

/-- threadio.cpp:326-334 `_getOffset_locked` (`none` is -1; signed `int` subtraction). -/
def offset (r : Ring) : Option Nat :=
  if r.start + r.size1 + MAX_IN ≤ RBUF then some (r.start + r.size1)
  else if r.size2 + MAX_IN ≤ r.start then some r.size2
  else none

/-- threadio.cpp:427-434, 453-460: switch to the secondary area. -/
def switch (r : Ring) : Ring :=
  if r.size1 = 0 ∧ r.size2 > 0 then { r with start := 0, size1 := r.size2, size2 := 0 } else r

/-- One step. -/
def step (r : Ring) : RStep → Res Ring
  -- threadio.cpp:361-377: waits (no change) while there is no room
  | .pick =>
    match r.reading with
    | some _ => .ok r
    | none => .ok { r with reading := r.offset.map (·, []) }
  -- threadio.cpp:384: read(fd, m_buffer + offset, MAX_DATA_IN_SIZE) by the kernel
  | .kernel d =>
    match r.reading with
    | none => .ok r
    | some (off, _) =>
      if d.length > MAX_IN then .ok r
      else if off + d.length ≤ r.buf.length then
        .ok { r with
          buf := r.buf.take off ++ d ++ r.buf.drop (off + d.length)
          reading := some (off, d) }
      else .ub .oobWrite
  -- threadio.cpp:336-352 `_markNewData`; a bad offset ends the thread and the data is dropped
  | .mark =>
    match r.reading with
    | none => .ok r
    | some (off, d) =>
      let r := { r with reading := none }
      if off = r.start + r.size1 then
        .ok { r with size1 := r.size1 + d.length, accepted := r.accepted ++ d }
      else if off = r.size2 then
        .ok { r with size2 := r.size2 + d.length, accepted := r.accepted ++ d }
      else .ok r
  -- threadio.cpp:391-407
  | .fail => .ok { r with reading := none }
  -- threadio.cpp:421-443 `getData`; called only when the previous piece was used up
  | .get =>
    match r.view with
    | some _ => .ok r
    | none =>
      let r := r.switch
      .ok { r with view := if r.size1 > 0 then some (r.start, r.size1) else none }
  -- mtptransporterusb.cpp:568-580 and threadio.cpp:447-463 `releaseData`
  | .release n =>
    match r.view with
    | none => .ok r
    | some (p, len) =>
      if n > len then .ok r
      else if p + n ≤ r.buf.length then
        let r := { r with
          consumed := r.consumed ++ (r.buf.drop p).take n
          view := if len - n = 0 then none else some (p + n, len - n)
          start := r.start + n
          size1 := r.size1 - n }
        .ok r.switch
      else .ub .oobRead
  -- threadio.cpp:317-322 `resetData` with mtptransporterusb.cpp:214-231, 644-652, 573-575
  | .reset =>
    .ok { r with start := 0, size1 := 0, size2 := 0, view := none, accepted := [], consumed := [] }

/-- Runs a schedule. -/
def run (r : Ring) : List RStep → Res Ring
  | [] => .ok r
  | s :: ss => match r.step s with
    | .ok r' => r'.run ss
    | .ub w => .ub w

/-- threadio.cpp:306-322: the buffer after construction (`new char[]`, arbitrary contents). -/
def init (buf : List UInt8) : Ring :=
  { buf := buf, start := 0, size1 := 0, size2 := 0, reading := none, view := none,
    accepted := [], consumed := [] }

end Ring
end Mtp
