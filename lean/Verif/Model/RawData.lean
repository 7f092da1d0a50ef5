import Verif.Model.Codec
import Verif.Model.Download
/-!
Data phases whose payload is copied into the container instead of being serialised value by value:
the first packet of a download and thumbnails.
-/
namespace Mtp

/-- Conversion of a `quint32` argument to the `qint32` parameter of `seek` (mtpcontainer.h,
`void seek(qint32 pos)`). -/
def i32 (n : Nat) : Int := if u32 n < 2147483648 then Int.ofNat (u32 n) else Int.ofNat (u32 n) - 4294967296

/-- mtpcontainer.cpp:105-112 `seek`. -/
def Tx.seek (t : Tx) (pos : Int) : Tx := { t with off := Tx.seekOff t.off t.cap pos }

/-- Writing through the pointer returned by `payload()` (mtpcontainer.cpp:83-86): `memcpy` at
mtpresponder.cpp:773 and 1255, `readData` into the container at 2917-2921. -/
def Tx.fill (t : Tx) (bs : List UInt8) : Res Tx := do
  let m ← Mem.store t.mem HDR bs
  return { t with mem := m }

/-- mtpresponder.cpp:2911-2926 (length given) and 1250-1257 (length computed): a container created for
`bs.length` payload bytes, whose payload is copied in and whose offset is then moved behind it. -/
def transmitRaw (type code tid : Nat) (len : Option Nat) (bs : List UInt8) : Res (List UInt8) := do
  let t ← Tx.new type code tid bs.length
  let t ← match len with
    | some n => t.setContainerLength (u32 n)
    | none => .ok t
  let t ← t.fill bs
  let t := t.seek (i32 bs.length)
  let (out, _) ← t.buffer
  return out

/-- mtpresponder.cpp:2911-2926 and 2949-2951: the bytes of one packet of a download. -/
def Frame.wire (op tid : Nat) (f : Frame) : Res (List UInt8) :=
  match f.header with
  | some n => transmitRaw 2 op tid (some n) f.payload
  | none => .ok f.payload

/-- The bytes of all packets, in order. -/
def wires (op tid : Nat) : List Frame → Res (List UInt8)
  | [] => .ok []
  | f :: fs => do
    let a ← f.wire op tid
    let b ← wires op tid fs
    return a ++ b

end Mtp
