import Verif.Model.Basic
/-!
Outgoing and incoming MTP containers: mts/protocol/mtpcontainer.cpp, mtptxcontainer.cpp,
mtprxcontainer.cpp.
-/
namespace Mtp

/-- mts/common/mtptypes.h:221 `MTP_HEADER_SIZE`. -/
def HDR : Nat := 12

/-- A UTF-16 string (`QString`): its code units. -/
abbrev QStr := List UInt16

/-- Members of `MTPTxContainer` (mts/protocol/mtpcontainer.h:120-142, mtptxcontainer.h):
`mem` is the block at `m_buffer`. -/
structure Tx where
  mem : Mem
  off : Nat
  cap : Nat
  computeLen : Bool
  extraLarge : Bool
  deriving DecidableEq, Repr

namespace Tx

/-- mtptxcontainer.cpp:35-52 constructor. `malloc(MTP_HEADER_SIZE + bufferEstimate)` is computed
in `size_t`, the stored capacity is a `quint32`. -/
def new (type code tid estimate : Nat) : Res Tx := do
  let m := Mem.alloc (HDR + u32 estimate)
  let m ← Mem.store m 0 (leBytes 4 0)
  let m ← Mem.store m 4 (leBytes 2 type)
  let m ← Mem.store m 6 (leBytes 2 code)
  let m ← Mem.store m 8 (leBytes 4 tid)
  return { mem := m, off := HDR, cap := u32 (HDR + u32 estimate),
           computeLen := true, extraLarge := false }

/-- mtptxcontainer.cpp:62-66 `setContainerLength`. -/
def setContainerLength (t : Tx) (n : Nat) : Res Tx := do
  let m ← Mem.store t.mem 0 (leBytes 4 n)
  return { t with mem := m, computeLen := false }

/-- mtptxcontainer.cpp:68-71 `resetContainerLength`. -/
def resetContainerLength (t : Tx) : Tx := { t with computeLen := true }

/-- mtpcontainer.cpp:114-117 `setExtraLargeContainer`. -/
def setExtraLarge (t : Tx) (b : Bool) : Tx := { t with extraLarge := b }

/-- mtptxcontainer.cpp:450-459 `expandBuffer`; 512 is `EXPANSION_STEP_SIZE`
(mtpcontainer.h:125); all in `quint32`. -/
def expandBuffer (t : Tx) (requiredSpace : Nat) : Tx :=
  let req := u32 (requiredSpace + 512)
  let c := u32 (t.cap + req)
  { t with mem := Mem.realloc t.mem c, cap := c }

/-- mtptxcontainer.cpp:378-405 `serialize` (little-endian branch). `src` holds the bytes of the
source object, `es * n` of which are copied (product in `quint32`). -/
def serialize (t : Tx) (src : List UInt8) (es n : Nat) : Res Tx := do
  let sz := u32 (es * n)
  let t := if u32 (t.off + sz) > t.cap then t.expandBuffer (u32 (t.off + sz)) else t
  let m ← Mem.store t.mem t.off (src.take sz)
  return { t with mem := m, off := u32 (t.off + sz) }

/-- mtptxcontainer.cpp:92-96,105-109,118-122,131-135,144-148,158-162,172-176,186-190:
`operator<<` of an integer of `w` bytes (signed types are cast to the unsigned type of the same
width first, so `v` is the two's-complement bit pattern); 200-204 for the 16-byte `MtpInt128`
(sent as 16 elements of one byte). -/
def putInt (t : Tx) (w v : Nat) : Res Tx :=
  if w = 16 then t.serialize (leBytes 16 v) 1 16 else t.serialize (leBytes w v) w 1

/-- mtptxcontainer.cpp:86-90 `operator<<(bool)`. -/
def putBool (t : Tx) (b : Bool) : Res Tx := t.putInt 1 (if b then 1 else 0)

/-- Element bytes of a vector in memory (`QVector<T>::data()`, contiguous). -/
def vecBytes (w : Nat) (vs : List Nat) : List UInt8 := vs.flatMap (leBytes w)

/-- mtptxcontainer.cpp:97-103,110-116,123-129,136-142,150-156,164-170,178-184,192-198:
`operator<<(QVector<..>)` for elements of `w ∈ {1,2,4,8}` bytes. -/
def putArr (t : Tx) (w : Nat) (vs : List Nat) : Res Tx := do
  let len := u32 vs.length
  let t ← t.putInt 4 len
  t.serialize (vecBytes w vs) w len

/-- mtptxcontainer.cpp:206-218 `operator<<(QVector<MtpInt128>)`, which grows the buffer itself. -/
def putArr128 (t : Tx) (vs : List Nat) : Res Tx := do
  let len := u32 vs.length
  let reqSize := u32 (4 + len * 16)
  let t := if t.cap < u32 (t.off + reqSize) then t.expandBuffer reqSize else t
  let t ← t.putInt 4 len
  let n := u32 (reqSize + 4294967296 - 4)
  let m ← Mem.store t.mem t.off ((vecBytes 16 vs).take n)
  return { t with mem := m, off := u32 (t.off + n) }

/-- The C string `str.utf16()` sees: units before the first NUL (mtptxcontainer.cpp:235-237). -/
def untilNul : QStr → QStr
  | [] => []
  | c :: cs => if c = 0 then [] else c :: untilNul cs

/-- mtptxcontainer.cpp:220-250 `operator<<(QString)`. The cut-off loop (231-240) ends in its first
round because a string truncated to 254 units never measures more than 254. `str.utf16()` is
NUL terminated, so `stringChars = len + 1` units are copied including the terminator. -/
def putStr (t : Tx) (d : QStr) : Res Tx := do
  let str := d.take 254
  let len := (untilNul str).length
  let stringChars := u8 (if len > 0 then len + 1 else 0)
  let t ← t.serialize (leBytes 1 stringChars) 1 1
  if stringChars ≠ 0 then
    t.serialize (vecBytes 2 ((str ++ [0]).map UInt16.toNat)) 2 stringChars
  else return t

/-- mtptxcontainer.cpp:73-84 `buffer()`, with the `bufferSize()` bytes (mtpcontainer.cpp:54-57)
its callers hand to the transport. -/
def buffer (t : Tx) : Res (List UInt8 × Tx) := do
  let m ← if t.computeLen then
      (if t.extraLarge then Mem.store t.mem 0 (leBytes 4 0xFFFFFFFF)
       else Mem.store t.mem 0 (leBytes 4 t.off))
    else Res.ok t.mem
  let bs ← Mem.load m 0 t.off
  return (bs, { t with mem := m })

/-- mtpcontainer.cpp:105-112 `seek`. `m_offset + pos` is `quint32` arithmetic. -/
def seekOff (off cap : Nat) (pos : Int) : Nat :=
  let np := ((Int.ofNat off + pos) % 4294967296).toNat
  if pos > 0 ∧ np ≤ cap then np
  else if pos < 0 ∧ np > HDR then np
  else off

end Tx

/-- A datum written to / read from a container. -/
inductive Val where
  | int (w v : Nat)            -- w-byte integer (1,2,4,8,16)
  | arr (w : Nat) (vs : List Nat)
  | str (s : QStr)
  deriving DecidableEq, Repr

/-- The shape of a datum, i.e. which `operator>>` is called. -/
inductive Ty where
  | int (w : Nat)
  | arr (w : Nat)
  | str
  deriving DecidableEq, Repr

def Val.ty : Val → Ty
  | .int w _ => .int w
  | .arr w _ => .arr w
  | .str _ => .str

/-- Overload resolution of `operator<<` (mtptxcontainer.h). -/
def Tx.put (t : Tx) : Val → Res Tx
  | .int w v => t.putInt w v
  | .arr w vs => if w = 16 then t.putArr128 vs else t.putArr w vs
  | .str s => t.putStr s

/-- A chain `c << a << b << ...`. -/
def Tx.puts (t : Tx) : List Val → Res Tx
  | [] => .ok t
  | v :: vs => t.put v >>= fun t' => t'.puts vs

/-- Members of `MTPRxContainer` (mts/protocol/mtpcontainer.h:120-142). -/
structure Rx where
  mem : Mem
  off : Nat
  cap : Nat
  expected : Nat
  accumulated : Nat
  extraLarge : Bool
  deriving DecidableEq, Repr

namespace Rx

/-- mtprxcontainer.cpp:37-51 constructor. `buf` is the first packet; fewer than four bytes make
the header read go outside the packet. -/
def new (buf : List UInt8) : Res Rx := do
  if buf.length < 4 then Res.ub .oobRead else
  let expected := leVal (buf.take 4)
  let m ← Mem.store (Mem.alloc expected) 0 buf
  return { mem := m, off := HDR, cap := expected, expected := expected,
           accumulated := u32 buf.length, extraLarge := expected == 0xFFFFFFFF }

/-- mtprxcontainer.cpp:61-72 `append` (the caller never passes a null buffer). -/
def append (r : Rx) (buf : List UInt8) : Res Rx :=
  if u32 (r.accumulated + buf.length) ≤ r.expected then do
    let m ← Mem.store r.mem r.accumulated buf
    return { r with mem := m, accumulated := u32 (r.accumulated + buf.length) }
  else .ok r

def appends (r : Rx) : List (List UInt8) → Res Rx
  | [] => .ok r
  | p :: ps => r.append p >>= fun r' => r'.appends ps

/-- mtprxcontainer.cpp:356-379 `deserialize` (little-endian branch). -/
def deserialize (r : Rx) (es n : Nat) : Res (List UInt8 × Rx) := do
  let sz := u32 (n * es)
  let bs ← Mem.load r.mem r.off sz
  return (bs, { r with off := u32 (r.off + sz) })

/-- mtprxcontainer.cpp:82-85,96-99,110-113,124-127,138-142,153-157,168-172,183-187,198-202. -/
def getInt (r : Rx) (w : Nat) : Res (Nat × Rx) := do
  let (bs, r) ← if w = 16 then r.deserialize 1 16 else r.deserialize w 1
  return (leVal bs, r)

/-- Splits the contiguous bytes of a vector into elements of `w` bytes. -/
def chunk (w : Nat) : Nat → List UInt8 → List Nat
  | 0, _ => []
  | n+1, bs => leVal (bs.take w) :: chunk w n (bs.drop w)

/-- mtprxcontainer.cpp:87-94,101-108,115-122,129-136,144-151,159-166,174-181,189-196; the
128-bit variant 204-214 copies `sz * 16` bytes with the product in `size_t`. `d.resize(sz)` on
an oversized count is not modelled (allocation failure). -/
def getArr (r : Rx) (w : Nat) : Res (List Nat × Rx) := do
  let (sz, r) ← r.getInt 4
  if w = 16 then
    let bs ← Mem.load r.mem r.off (sz * 16)
    return (chunk 16 sz bs, { r with off := u32 (r.off + sz * 16) })
  else
    let (bs, r) ← r.deserialize w sz
    return (chunk w sz bs, r)

/-- `QString::fromUtf16(p, n)` (Qt 5): a leading byte-order mark is consumed; a swapped mark makes
the rest byte-swapped. Called at mtprxcontainer.cpp:224. -/
def fromUtf16 : QStr → QStr
  | [] => []
  | c :: cs =>
    if c = 0xFEFF then cs
    else if c = 0xFFFE then List.map (fun (u : UInt16) => (u >>> 8) ||| (u <<< 8)) cs
    else c :: cs

/-- mtprxcontainer.cpp:216-230 `operator>>(QString)`. -/
def getStr (r : Rx) : Res (QStr × Rx) := do
  let (nb, r) ← r.deserialize 1 1
  let numChars := leVal nb
  if numChars > 0 then
    let (bs, r) ← r.deserialize 2 numChars
    let units := (chunk 2 numChars bs).map UInt16.ofNat
    return (fromUtf16 (units.take (numChars - 1)), r)
  else return ([], r)

/-- Overload resolution of `operator>>`. -/
def get (r : Rx) : Ty → Res (Val × Rx)
  | .int w => r.getInt w >>= fun p => pure (.int w p.1, p.2)
  | .arr w => r.getArr w >>= fun p => pure (.arr w p.1, p.2)
  | .str => r.getStr >>= fun p => pure (.str p.1, p.2)

/-- A chain `c >> a >> b >> ...`. -/
def gets (r : Rx) : List Ty → Res (List Val × Rx)
  | [] => .ok ([], r)
  | t :: ts => r.get t >>= fun p => p.2.gets ts >>= fun q => pure (p.1 :: q.1, q.2)

/-- mtpcontainer.cpp:64-82 header accessors. -/
def containerType (r : Rx) : Res Nat := Mem.load r.mem 4 2 >>= fun b => pure (leVal b)
def code (r : Rx) : Res Nat := Mem.load r.mem 6 2 >>= fun b => pure (leVal b)
def transactionId (r : Rx) : Res Nat := Mem.load r.mem 8 4 >>= fun b => pure (leVal b)

/-- Body of the loop in `params` (mtpcontainer.cpp:98-100): reads the parameter from the payload
and stores it in slot `i`; the vector has five slots, so `params[i]` with `i ≥ 5` is a store
outside it. -/
def paramLoop (m : Mem) : Nat → Nat → List Nat → Res (List Nat)
  | 0, _, ps => .ok ps
  | k+1, i, ps =>
    Mem.load m (HDR + i * 4) 4 >>= fun b =>
    if i < ps.length then paramLoop m k (i+1) (ps.set i (leVal b)) else .ub .oobWrite

/-- mtpcontainer.cpp:89-103 `params`. `m_bufferCapacity - MTP_HEADER_SIZE` is `size_t` arithmetic;
the quotient is stored in a `quint32`. -/
def params (r : Rx) : Res (List Nat) := do
  let ty ← r.containerType
  if ty = 1 then
    let num := u32 (u64 (r.cap + 18446744073709551616 - 12) / 4)
    paramLoop r.mem num 0 (List.replicate 5 0)
  else return List.replicate 5 0

end Rx

end Mtp
