import Verif.Model.PropList
/-!
Reading and changing single properties and lists of properties: mts/protocol/mtpresponder.cpp:1812-1904, 2079-2133, 2292-2345,
2358-2519, 2564-2604, with storagefactory.cpp:633-646 and fsstorageplugin.cpp:2816-2863 behind them.
-/
namespace Mtp

/-- What the storage decides about a new file name: which names are well formed and which are in use beside an object
(fsstorageplugin.cpp:3146-3159), and whether the file system carries out the rename. -/
structure NameEnv where
  wellFormed : QStr → Bool
  taken : Store (Option Val) → Nat → QStr → Bool
  renames : Store (Option Val) → Nat → QStr → Bool

/-- `value.value<QString>()`; an invalid variant gives the empty string. -/
def asName (v : Option Val) : QStr :=
  match v with
  | none => []
  | some v =>
    match convert .str v with
    | .str s => s
    | _ => []

/-- fsstorageplugin.cpp:2816-2863 `setObjectPropertyValue`: only the file name is acted on; a refused rename is no error. The root
(handle 0) has no parent, and the check of the name dereferences it. -/
def storageSet (env : NameEnv) (h : Nat) : Store (Option Val) → List (Nat × Option Val) → Res (Store (Option Val) × Resp)
  | st, [] => .ok (st, .ok)
  | st, (p, v) :: r =>
    if p = 0xDC07 then
      if env.wellFormed (asName v) = false then .ok (st, .invalidObjectPropValue)
      else if h = 0 then .ub .nullDeref
      else if env.taken st h (asName v) then .ok (st, .invalidObjectPropValue)
      else if env.renames st h (asName v) then
        storageSet env h (st.setVals h (Fac.over (st.val h) [(0xDC07, some (.str (asName v)))])) r
      else storageSet env h st r
    else storageSet env h st r

/-- storagefactory.cpp:633-646 `setObjectPropertyValue`. -/
def facSet (env : NameEnv) (s : Fac (Option Val)) (h : Nat) (l : List (Nat × Option Val)) : Res (Fac (Option Val) × Resp) :=
  if s.store.has h then
    storageSet env h s.store l >>= fun q =>
      if q.2 = .ok then .ok ({ s with store := q.1, cache := s.cache.addList h l }, .ok)
      else .ok ({ s with store := q.1 }, q.2)
  else .ok (s, .invalidObjectHandle)

/-- The description of a property of an object (mtpresponder.cpp:1826-1835, 1885-1897, 2376-2388, 2578-2586). -/
def propDescOf (c : DevCaps) (format : Nat → Nat) (s : Fac (Option Val)) (h p : Nat) : Resp × Option ObjPropDesc :=
  if s.store.has h then objectPropDesc c (c.category (u16 (format h))) (u16 p) else (.invalidObjectHandle, none)

/-- mtpresponder.cpp:1812-1871 `getObjPropValueReq` after the transaction check: the factory, the data sent and the response. The
branch for ObjectProp_Not_Supported (1844-1850) is left out: the factory never answers it. 16 is `sizeof(QVariant)`. -/
def getObjPropValue (sv : PropServer) (tid p0 p1 : Nat) : Res (Fac (Option Val) × Option (List UInt8) × Resp) :=
  match propDescOf sv.caps sv.format sv.fac p0 p1 with
  | (.ok, some d) =>
    let q := sv.fac.read p0 [d.code]
    if q.2.1 = .ok then do
      let t ← Tx.new 2 0x9803 tid 16
      let t ← t.putVariant d.dtype (match q.2.2 with
        | [(_, some v)] => v
        | _ => .arr 0 [])
      let (bytes, _) ← t.buffer
      return (q.1, some bytes, .ok)
    else .ok (q.1, none, q.2.1)
  | (r, _) => .ok (sv.fac, none, r)

/-- mtpresponder.cpp:1873-1904 `setObjPropValueReq` after the transaction check. -/
def setObjPropValueReq (sv : PropServer) (p0 p1 : Nat) : Resp :=
  match propDescOf sv.caps sv.format sv.fac p0 p1 with
  | (.ok, some d) => if d.getSet then .ok else .accessDenied
  | (r, _) => r

/-- mtpresponder.cpp:2564-2604 `setObjPropValueData`; `resp` is the outcome of the request phase and `rx` the data. -/
def setObjPropValueData (env : NameEnv) (sv : PropServer) (resp : Resp) (p0 p1 : Nat) (rx : Rx) :
    Res (Fac (Option Val) × Resp) :=
  if resp = .ok then
    match propDescOf sv.caps sv.format sv.fac p0 p1 with
    | (.ok, some d) => rx.getVariant d.dtype >>= fun q => facSet env sv.fac p0 [(d.code, q.1)]
    | (r, _) => .ok (sv.fac, r)
  else .ok (sv.fac, resp)

/-- mtpresponder.cpp:2376-2400: one element of the list. -/
def setElem (env : NameEnv) (c : DevCaps) (format : Nat → Nat) (s : Fac (Option Val)) (rx : Rx) :
    Res (Fac (Option Val) × Resp × Rx) := do
  let (h, rx) ← rx.getInt 4
  if s.store.has h then
    let (p, rx) ← rx.getInt 2
    match propDescOf c format s h p with
    | (.ok, some d) =>
      if d.getSet then
        let (dt, rx) ← rx.getInt 2
        let (v, rx) ← rx.getVariant dt
        let (s, r) ← facSet env s h [(d.code, v)]
        return (s, r, rx)
      else return (s, .accessDenied, rx)
    | (r, _) => return (s, r, rx)
  else return (s, .invalidObjectHandle, rx)

/-- mtpresponder.cpp:2374-2403: the loop, `n` elements to go, `i` done. The result carries `i` at the end. -/
def setElems (env : NameEnv) (c : DevCaps) (format : Nat → Nat) :
    Nat → Nat → Fac (Option Val) → Rx → Res (Fac (Option Val) × Resp × Nat)
  | 0, i, s, _ => .ok (s, .ok, i)
  | n + 1, i, s, rx =>
    setElem env c format s rx >>= fun q =>
      if q.2.1 = .ok then setElems env c format n (i + 1) q.1 q.2.2 else .ok (q.1, q.2.1, i + 1)

/-- mtpresponder.cpp:2358-2410 `setObjectPropListData`: factory, response and its parameters. The outcome of the request phase
(2056-2068) is only that of the transaction check. -/
def setObjectPropListData (env : NameEnv) (sv : PropServer) (rx : Rx) : Res (Fac (Option Val) × Resp × List Nat) := do
  let (n, rx) ← rx.getInt 4
  let (s, r, i) ← setElems env sv.caps sv.format n 0 sv.fac rx
  if r = .ok then return (s, .ok, []) else return (s, r, [i - 1])

/-- `ObjPropListInfo` after the request phase (mtpresponder.cpp:2114-2127). -/
structure NewObj where
  storage : Nat
  parent : Nat
  size : Nat
  format : Nat

/-- mtpresponder.cpp:2079-2133 `sendObjectPropListReq` after the transaction check; `storageOk` and `handleOk` are the answers of
`checkStorage` and `checkHandle`. -/
def sendObjectPropListReq (storageOk handleOk : Nat → Resp) (p0 p1 p2 p3 p4 : Nat) : Resp × Option NewObj :=
  let r := if p0 ≠ 0 then storageOk p0 else .ok
  if r ≠ .ok then (r, none)
  else
    let r := if p1 ≠ 0 ∧ p1 ≠ 0xFFFFFFFF then handleOk p1 else .ok
    if r ≠ .ok then (r, none)
    else if p3 ≠ 0 then (.objectTooLarge, none)
    else (.ok, some ⟨p0, p1, p4, u16 p2⟩)

/-- An element of the list kept for the end of the upload: code and value. -/
abbrev Kept := Nat × Option Val

/-- mtpresponder.cpp:2441-2482: one element: its code and value, or nothing if it is refused. -/
def scanElem (c : DevCaps) (cat : Cat) (rx : Rx) : Res (Option Kept × Rx) := do
  let (h, rx) ← rx.getInt 4
  if h ≠ 0 then return (none, rx)
  else
    let (p, rx) ← rx.getInt 2
    if (objectPropDesc c cat p).1 ≠ .ok then return (none, rx)
    else
      let (dt, rx) ← rx.getInt 2
      let (v, rx) ← rx.getVariant dt
      return (some (p, v), rx)

/-- mtpresponder.cpp:2438-2482: the scan. The result is the index of the element refused, or the list with the name and the index
of the last file name in it. -/
def scanElems (c : DevCaps) (cat : Cat) :
    Nat → Nat → Rx → Option (QStr × Nat) → Res (Nat ⊕ (List Kept × Option (QStr × Nat)))
  | 0, _, _, last => .ok (.inr ([], last))
  | n + 1, i, rx, last =>
    scanElem c cat rx >>= fun q =>
      match q.1 with
      | none => .ok (.inl i)
      | some k =>
        scanElems c cat n (i + 1) q.2 (if k.1 = 0xDC07 then some (asName k.2, i) else last) >>= fun w =>
          match w with
          | .inl j => .ok (.inl j)
          | .inr (ks, l) => .ok (.inr (k :: ks, l))

/-- What `addItem` makes of a storage, parent, format, size and name: the response and the storage, parent and handle of the new
object (storagefactory.cpp:256-272; the arguments are references). -/
abbrev AddItem := Nat → Nat → Nat → Nat → QStr → Resp × Nat × Nat × Nat

/-- Outcome of the data phase of SendObjectPropList: response, parameters, and the object announced, if any, as storage, parent,
format, size, name, handle with the list kept for later. -/
structure Announced where
  resp : Resp
  params : List Nat
  made : Option (Nat × Nat × Nat × Nat × QStr × Nat × List Kept)

/-- mtpresponder.cpp:2412-2519 `sendObjectPropListData` (the request phase was fine). -/
def sendObjectPropListData (c : DevCaps) (add : AddItem) (o : NewObj) (rx : Rx) : Res Announced := do
  let (n, rx) ← rx.getInt 4
  let w ← scanElems c (c.category o.format) n 0 rx none
  match w with
  | .inl i => return ⟨.invalidDataset, [0, 0, 0, i], none⟩
  | .inr (_, none) => return ⟨.invalidDataset, [], none⟩
  | .inr (ks, some (name, i)) =>
    if name = [] then return ⟨.invalidDataset, [0, 0, 0, i], none⟩
    else
      match add o.storage o.parent o.format o.size name with
      | (.ok, st, par, h) => return ⟨.ok, [st, par, h], some (o.storage, o.parent, o.format, o.size, name, h, ks)⟩
      | (r, _, _, _) => return ⟨r, [0, 0, 0, i], none⟩

/-- mtpresponder.cpp:2304-2342: which elements are set when the upload is complete; `fileName` is the name of the object then, if
it still exists. -/
def keptSets (c : DevCaps) (cat : Cat) (fileName : Option QStr) (ks : List Kept) : List (Nat × Option Val) :=
  ks.filterMap fun k =>
    if k.1 = 0xDC07 then none
    else if k.1 = 0xDC44 ∧ fileName = some (asName k.2) then none
    else
      match objectPropDesc c cat k.1 with
      | (.ok, some d) => some (d.code, k.2)
      | _ => none

/-- mtpresponder.cpp:2299-2343: the end of an upload announced with a property list. -/
def applyKept (env : NameEnv) (c : DevCaps) (format : Nat) (s : Fac (Option Val)) (h : Nat) (ks : List Kept) :
    Res (Fac (Option Val)) :=
  let fileName := if s.store.has h then some (asName (s.store.val h 0xDC07)) else none
  facSet env s h (keptSets c (c.category format) fileName ks) >>= fun q => .ok q.1

end Mtp
