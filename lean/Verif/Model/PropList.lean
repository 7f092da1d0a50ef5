import Verif.Model.PropPod
/-!
GetObjectPropList: mts/protocol/mtpresponder.cpp:1906-2054 and 2864-2889, over the property tables (Model/PropPod) and the storage
factory with its property cache (Model/Factory).
-/
namespace Mtp

/-- What the request uses: the device information, the storage factory (a property without a value is an invalid `QVariant`,
`none`), the formats of the objects and the answer of `getObjectHandles` for all storages, a format and a parent. -/
structure PropServer where
  caps : DevCaps
  fac : Fac (Option Val)
  format : Nat → Nat
  handles : Nat → Nat → Resp × List Nat

/-- mtpresponder.cpp:2005-2010: one turn of the loop over the supported properties. -/
def wantedStep (c : DevCaps) (cat : Cat) (acc : Resp × List Nat) (p : Nat) : Res (Resp × List Nat) :=
  if acc.1 = .ok then
    match objectPropDesc c cat p with
    | (r, some d) => if d.code ≠ 0xDC86 then .ok (r, acc.2 ++ [p]) else .ok (r, acc.2)
    | (_, none) => .ub .nullDeref
  else .ok acc

/-- mtpresponder.cpp:1999-2016: the codes asked for about one object, with the response of the table lookup. A description that
is missing in the 0xFFFF case would be dereferenced (`nullDeref`). -/
def wantedCodes (c : DevCaps) (cat : Cat) (prop : Nat) : Res (Resp × List Nat) :=
  if prop = 0xFFFF then
    (propsSupported c cat).foldlM (wantedStep c cat) (.ok, [])
  else .ok ((objectPropDesc c cat prop).1, [prop])

/-- mtpresponder.cpp:2864-2889 `serializePropList`: number of elements written. The description travels with the value; here it
is looked up by the code. -/
def serializePropList (c : DevCaps) (cat : Cat) (h : Nat) : List (Nat × Option Val) → Tx → Res (Tx × Nat)
  | [], t => .ok (t, 0)
  | (_, none) :: r, t => serializePropList c cat h r t
  | (p, some v) :: r, t =>
    match (objectPropDesc c cat p).2 with
    | none => .ub .nullDeref
    | some d => do
      let t ← t.putInt 4 h
      let t ← t.putInt 2 d.code
      let t ← t.putInt 2 d.dtype
      let t ← t.putVariant d.dtype v
      let (t, n) ← serializePropList c cat h r t
      return (t, n + 1)

/-- mtpresponder.cpp:1984-2024: the loop over the objects. Returns the factory, the response, the container and the number of
elements (`quint32`). -/
def propListLoop (c : DevCaps) (format : Nat → Nat) (prop : Nat) :
    List Nat → Fac (Option Val) → Tx → Nat → Res (Fac (Option Val) × Resp × Tx × Nat)
  | [], s, t, n => .ok (s, .ok, t, n)
  | h :: hs, s, t, n =>
    if ¬ s.store.has h then .ok (s, .invalidObjectHandle, t, n)       -- getObjectInfo fails
    else do
      let cat := c.category (u16 (format h))
      let (r, codes) ← wantedCodes c cat prop
      if r ≠ .ok then return (s, r, t, n)
      let (s', r, vals) := s.read h codes
      if r ≠ .ok then return (s', r, t, n)
      let (t, m) ← serializePropList c cat h vals t
      propListLoop c format prop hs s' t (u32 (n + m))

/-- An empty dataset (mtpresponder.cpp:1930-1937, 2036-2044). -/
def emptyPropList (tid : Nat) : Res (List UInt8) := do
  let t ← Tx.new 2 0x9805 tid 4
  let t ← t.putInt 4 0
  let (bytes, _) ← t.buffer
  return bytes

/-- mtpresponder.cpp:1906-2054 `getObjectPropListReq` after the transaction check: the data sent, if any, and the response.
16384 is BUFFER_MAX_LEN. The mapping of InvalidObjectFormatCode (2046-2048) is left out: `handles` never answers it. -/
def getObjectPropList (sv : PropServer) (tid p0 p1 p2 p4 : Nat) : Res (Fac (Option Val) × Option (List UInt8) × Resp) :=
  let h := p0
  let fmt := u16 p1
  let prop := u16 p2
  let depth := p4
  if h = 0 ∧ depth = 0 then do
    let b ← emptyPropList tid
    return (sv.fac, some b, .ok)
  else if 1 < depth ∧ depth < 0xFFFFFFFF then .ok (sv.fac, none, .byDepthUnsupported)
  else if prop = 0 then .ok (sv.fac, none, .byGroupUnsupported)
  else if fmt ≠ 0 ∧ sv.caps.category fmt = .unsupported then .ok (sv.fac, none, .invalidCodeFormat)
  else
    let (r, hs) :=
      if depth = 0 then (Resp.ok, [h])
      else sv.handles fmt (if h = 0 then 0xFFFFFFFF else if h = 0xFFFFFFFF then 0 else h)
    if r = .ok then do
      let t ← Tx.new 2 0x9805 tid (16384 - 12)
      let t ← t.putInt 4 (u32 hs.length)
      let (s, r, t, n) ← propListLoop sv.caps sv.format prop hs sv.fac t 0
      if r = .ok then
        let m ← Mem.store t.mem 12 (leBytes 4 n)       -- putl32(payload(), numElements)
        let (bytes, _) ← Tx.buffer { t with mem := m }
        return (s, some bytes, .ok)
      else return (s, none, r)
    else do
      let b ← emptyPropList tid
      return (sv.fac, some b, r)

end Mtp
