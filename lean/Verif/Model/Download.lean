import Verif.Model.FileIO
/-!
GetObject, GetPartialObject and GetPartialObject64 (mts/protocol/mtpresponder.cpp:1162-1225, 1322-1332,
1510-1527 and 2891-2991).
-/
namespace Mtp

/-- mtpresponder.cpp:72 `BUFFER_MAX_LEN`. -/
def FRAME_MAX : Nat := 16384
/-- mtptypes.h:227 `MTP_MAX_CONTENT_SIZE` = 0xFFFFFFFF - 12. -/
def MAX_CONTENT : Nat := 4294967283

/-- One packet given to the transport: the container length announced by its header (first packet only,
12 bytes), the object's bytes in it, and whether it is marked as the last one. -/
structure Frame where
  header : Option Nat
  payload : List UInt8
  last : Bool
  deriving DecidableEq

/-- What a download sends: packets, and the response (code, number of bytes) unless the command is
abandoned. -/
structure Download where
  frames : List Frame
  response : Option (Resp × Nat)
  deriving DecidableEq

/-- mtpresponder.cpp:2937-2964: continuation packets; `fuel` bounds their number. `snd i` is the
transport's answer to packet `i`. The flag tells whether everything was sent. -/
def sendRest (s : FStore) (io : Nat → FileIO) (snd : Nat → Bool) (h : Nat) :
    Nat → Nat → Nat → Nat → List Frame × Bool
  | 0, _, _, _ => ([], false)
  | fuel+1, i, off, remaining =>
    if remaining = 0 then ([], true)
    else
      let len := if remaining < FRAME_MAX then remaining else FRAME_MAX
      match s.readData (io i) h len off with
      | (.ok, d) =>
        if snd i then
          match sendRest s io snd h fuel (i + 1) (off + len) (remaining - len) with
          | (fs, done) => ({ header := none, payload := d, last := len = remaining } :: fs, done)
        else ([], false)
      | _ => ([], false)

/-- mtpresponder.cpp:2891-2991 `sendObjectSegmented` for the range from `off` to `tail`. -/
def sendSegmented (s : FStore) (io : Nat → FileIO) (snd : Nat → Bool) (h off tail : Nat) : Download :=
  let remaining := tail - off
  let len := if remaining < FRAME_MAX - 12 then remaining else FRAME_MAX - 12
  let announce := if remaining > MAX_CONTENT then 0xFFFFFFFF else u32 (12 + remaining)
  match s.readData (io 0) h len off with
  | (.ok, d) =>
    if snd 0 then
      let f : Frame := { header := some announce, payload := d, last := len = remaining }
      match sendRest s io snd h (remaining / FRAME_MAX + 2) 1 (off + len) (remaining - len) with
      | (fs, true) => { frames := f :: fs, response := some (.ok, remaining) }
      | (fs, false) => { frames := f :: fs, response := none }
    else { frames := [], response := some (.ok, 0) }
  | (r, _) => { frames := [], response := some (r, 0) }

/-- mtpresponder.cpp:1163-1213 `getObjectCommon` within a session. `off` and `size` are quint64. -/
def getObjectCommon (s : FStore) (io : Nat → FileIO) (snd : Nat → Bool) (h off size : Nat) : Download :=
  match s.items.get h with
  | none => { frames := [], response := some (.invalidObjectHandle, 0) }
  | some it =>
    if it.isDir then { frames := [], response := some (.invalidObjectHandle, 0) }
    else if off > it.size then { frames := [], response := some (.invalidParameter, 0) }
    else if u64 (off + size) < off then { frames := [], response := some (.invalidParameter, 0) }
    else sendSegmented s io snd h (min off it.size) (min (u64 (off + size)) it.size)

/-- mtpresponder.cpp:1215-1225 `getObjectReq`. -/
def getObject (s : FStore) (io : Nat → FileIO) (snd : Nat → Bool) (h : Nat) : Download :=
  getObjectCommon s io snd h 0 MAX_CONTENT

/-- mtpresponder.cpp:1322-1332 `getPartialObjectReq` (32-bit parameters). -/
def getPartialObject (s : FStore) (io : Nat → FileIO) (snd : Nat → Bool) (h off size : Nat) : Download :=
  getObjectCommon s io snd h (u32 off) (u32 size)

/-- mtpresponder.cpp:1510-1527 `getPartialObject64Req`. -/
def getPartialObject64 (s : FStore) (io : Nat → FileIO) (snd : Nat → Bool) (h offLo offHi size : Nat) :
    Download :=
  getObjectCommon s io snd h (u32 offHi * 4294967296 + u32 offLo) (u32 size)

end Mtp
