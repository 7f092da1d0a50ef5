import Verif.Model.Factory
/-!
Reading and writing object contents (mts/platform/storage/fsstorageplugin/fsstorageplugin.cpp:1956-2230)
and copying them (mts/platform/storage/storageplugin.cpp:43-84).

The file system is a map from paths to contents. How the operating system answers is a parameter of
every call (`FileIO`); where the lists of answers end, it satisfies requests completely. Files do not
change under a running call. Time stamps and file ownership are not modelled.
-/
namespace Mtp

/-- Answers of the operating system during one call: result of open(); results of successive reads and
writes (`none`: error, `some k`: at most k bytes are transferred); how many trailing bytes of the data
the final flush of the QFile buffer fails to store (fsstorageplugin.cpp:2056, result ignored). -/
structure FileIO where
  openOk : Bool := true
  reads : List (Option Nat) := []
  writes : List (Option Nat) := []
  lost : Nat := 0

/-- What the functions use of a StorageItem (storageitem.h): path, whether its format is Association,
`mtpObjectCompressedSize`. -/
structure FItem where
  path : String
  isDir : Bool
  size : Nat
  deriving DecidableEq

/-- File-system plugin state: files, `m_objectHandlesMap`, `m_dataFile` with its position and
`m_writeObjectHandle`. -/
structure FStore where
  files : AMap String (List UInt8)
  items : AMap Nat FItem
  dataFile : Option (String × Nat)
  writing : Nat
  deriving DecidableEq

/-- QFile::write at position `pos`: a gap beyond the end is zero filled. -/
def writeAt (c : List UInt8) (pos : Nat) (d : List UInt8) : List UInt8 :=
  (c ++ List.replicate (pos - c.length) 0).take pos ++ d ++ c.drop (pos + d.length)

/-- QFile::resize. -/
def resizeTo (c : List UInt8) (n : Nat) : List UInt8 :=
  c.take n ++ List.replicate (n - c.length) 0

/-- fsstorageplugin.cpp:1983-1995: the read loop; `rest` is the file from the current position. -/
def readLoop (rest : List UInt8) (len : Nat) : List (Option Nat) → Option (List UInt8)
  | [] => if len ≤ rest.length then some (rest.take len) else none
  | r :: rs =>
    if len = 0 then some []
    else match r with
      | none => none
      | some k =>
        let n := min k (min len rest.length)
        if n = 0 then none
        else (readLoop (rest.drop n) (len - n) rs).map (rest.take n ++ ·)

/-- fsstorageplugin.cpp:1959-2003 `readData`; the buffer is not null. Offset and length are quint64 and
quint32; their sum is computed in 64 bits. -/
def FStore.readData (s : FStore) (io : FileIO) (h len off : Nat) : Resp × List UInt8 :=
  match s.items.get h with
  | none => (.invalidObjectHandle, [])
  | some it =>
    match io.openOk, s.files.get it.path with
    | true, some c =>
      if c.length < u64 (off + len) then (.generalError, [])
      else if off ≥ 2 ^ 63 then (.generalError, [])        -- seek to a negative qint64
      else match readLoop (c.drop off) len io.reads with
        | some d => (.ok, d)
        | none => (.generalError, [])
    | _, _ => (.accessDenied, [])

/-- fsstorageplugin.cpp:2098-2121 and 2186-2195: the write loop on the file at `path`; result: position
reached, success. Writing to a file that was unlinked in the meantime has no visible effect. -/
def FStore.writeLoop (s : FStore) (path : String) (pos : Nat) (d : List UInt8) :
    List (Option Nat) → FStore × Nat × Bool
  | [] =>
    if d = [] then (s, pos, true)
    else match s.files.get path with
      | none => (s, pos + d.length, true)
      | some c => ({ s with files := s.files.insert path (writeAt c pos d) }, pos + d.length, true)
  | w :: ws =>
    if d = [] then (s, pos, true)
    else match w with
      | none => (s, pos, false)
      | some k =>
        let n := min k d.length
        match s.files.get path with
        | none => s.writeLoop path (pos + n) (d.drop n) ws
        | some c =>
          if n = 0 then s.writeLoop path pos d ws
          else FStore.writeLoop { s with files := s.files.insert path (writeAt c pos (d.take n)) } path
            (pos + n) (d.drop n) ws

/-- Opens for reading and writing, creating the file if needed (QIODevice::ReadWrite). -/
def FStore.openRW (s : FStore) (path : String) : FStore :=
  { s with
    files := if (s.files.get path).isSome then s.files else s.files.insert path []
    dataFile := some (path, 0) }

/-- fsstorageplugin.cpp:2052-2062: flush, resize to the current position, close. -/
def FStore.closeCut (s : FStore) (lost : Nat) : FStore :=
  match s.dataFile with
  | none => s
  | some (path, pos) =>
    { s with
      dataFile := none
      files := match s.files.get path with
        | none => s.files
        | some c => s.files.insert path (resizeTo (c.take (pos - lost)) pos) }

/-- fsstorageplugin.cpp:2035-2125 `writeData`; `none` is a null buffer. -/
def FStore.writeData (s : FStore) (io : FileIO) (h : Nat) (buf : Option (List UInt8))
    (first last : Bool) : FStore × Resp :=
  match s.items.get h with
  | none => (s, .invalidObjectHandle)
  | some it =>
    match last, buf with
    | true, none => ({ s with writing := 0 }.closeCut io.lost, .ok)
    | _, _ =>
      let d := buf.getD []
      let s := { s with writing := h }
      if first ∧ io.openOk = false then ({ s with dataFile := none }, .generalError)
      else
        let s := if first then s.openRW it.path else s
        match s.dataFile with
        | none => (s, .ok)
        | some (path, pos) =>
          if d.length ≥ 2 ^ 31 then (s, .generalError)    -- qint32 bytesRemaining < 0: write fails
          else
            let (s', pos', ok) := s.writeLoop path pos d io.writes
            ({ s' with dataFile := some (path, pos') }, if ok then .ok else .generalError)

/-- fsstorageplugin.cpp:2008-2030 `truncateItem`. -/
def FStore.truncateItem (s : FStore) (io : FileIO) (h size : Nat) : FStore × Resp :=
  match s.items.get h with
  | none => (s, .invalidObjectHandle)
  | some it =>
    if it.isDir then (s, .generalError)
    else match io.openOk, s.files.get it.path with
      | true, some c =>
        ({ s with
          files := s.files.insert it.path (resizeTo c size)
          items := s.items.insert h { it with size := size } }, .ok)
      | _, _ => (s, .generalError)

/-- fsstorageplugin.cpp:2199-2226: end of a partial write. -/
def FStore.closePartial (s : FStore) (h : Nat) (it : FItem) : FStore :=
  match s.dataFile with
  | none => { s with writing := 0 }
  | some _ =>
    { s with
      dataFile := none
      writing := 0
      items := s.items.insert h { it with size := ((s.files.get it.path).getD []).length } }

/-- fsstorageplugin.cpp:2130-2230 `writePartialData`; the data pointer is not null. An unknown handle
while a file is open dereferences a null pointer (2201). -/
def FStore.writePartial (s : FStore) (io : FileIO) (h off : Nat) (d : List UInt8) (first last : Bool) :
    Res (FStore × Resp) :=
  match s.items.get h with
  | none =>
    match s.dataFile with
    | some _ => .ub .nullDeref
    | none => .ok ({ s with writing := 0 }, .invalidObjectHandle)
  | some it =>
    if first ∧ io.openOk = false then
      .ok ({ s with writing := 0, dataFile := none }, .generalError)
    else
      let s := if first then { s with writing := h }.openRW it.path else s
      match s.dataFile with
      | none => .ok (if last then { s with writing := 0 } else s, .ok)
      | some (path, _) =>
        if s.writing ≠ h ∨ off ≥ 2 ^ 63 then .ok (s.closePartial h it, .generalError)
        else
          let (s', pos', ok) := s.writeLoop path off d io.writes
          let s' := { s' with dataFile := some (path, pos') }
          if ok then .ok (if last then s'.closePartial h it else s', .ok)
          else .ok (s'.closePartial h it, .generalError)

/-- storageplugin.cpp:41 `MAX_READ_LEN`. -/
def COPY_CHUNK : Nat := 65536

/-- storageplugin.cpp:62-81, one round of the copy loop, source and destination on one storage: `len`
bytes at `off`, `final` if these are the last ones. `rio` and `wio` answer the read and the write (and
the final close), `cancel` tells whether the host cancels during this chunk. The flag of the result: the
copy was cancelled (and the destination deleted). -/
def FStore.copyChunk (s : FStore) (rio wio : FileIO) (cancel : Bool) (src dst off len : Nat)
    (final : Bool) : FStore × Resp × Bool :=
  match s.readData rio src len off with
  | (r, d) =>
    if cancel then (s, .generalError, true)
    else if r ≠ .ok then (s, r, false)
    else match s.writeData wio dst (some d) (off = 0) false with
      | (s1, r1) =>
        if final then
          match s1.writeData wio dst none false true with
          | (s2, r2) => (s2, r2, false)
        else (s1, r1, false)

/-- storageplugin.cpp:62-81: the copy loop; `n` bounds the number of rounds. -/
def FStore.copyLoop (s : FStore) (rio wio : Nat → FileIO) (cancel : Nat → Bool) (src dst : Nat) :
    Nat → Nat → Nat → FStore × Resp × Bool
  | 0, _, _ => (s, .ok, false)
  | n+1, off, remaining =>
    if remaining = 0 then (s, .ok, false)
    else
      let len := if remaining ≥ COPY_CHUNK then COPY_CHUNK else remaining
      let i := off / COPY_CHUNK
      match s.copyChunk (rio i) (wio i) (cancel i) src dst off len (remaining - len = 0) with
      | (s', r, b) =>
        if r ≠ .ok then (s', r, b)
        else s'.copyLoop rio wio cancel src dst n (u32 (off + len)) (remaining - len)

/-- storageplugin.cpp:43-84 `copyData`; deletion of the destination on cancel is left to the caller. -/
def FStore.copyData (s : FStore) (rio wio : Nat → FileIO) (cancel : Nat → Bool) (src dst : Nat) :
    FStore × Resp × Bool :=
  match s.items.get src, s.items.get dst with
  | some si, some _ =>
    s.copyLoop rio wio cancel src dst (u32 si.size / COPY_CHUNK + 1) 0 (u32 si.size)
  | _, _ => (s, .invalidObjectHandle, false)

end Mtp
