import Verif.Model.Cache
/-!
Property access through the storage factory (mts/platform/storage/storagefactory.cpp:565-669) and
routing of requests to storages (242-560).
-/
namespace Mtp

/-- Response codes used by the factory (mts/common/mtptypes.h). -/
inductive Resp where
  | ok | generalError | invalidStorageID | invalidObjectHandle | invalidParentObject
  | objectWriteProtected | partialDeletion | accessDenied | storeFull | invalidDataset
  | invalidObjectPropValue | invalidObjRef
  | incompleteTransfer | noValidObjectInfo | undefined | invalidParameter | sessionNotOpen
  | operationNotSupported | sessionAlreadyOpen | invalidTransID | transactionCancelled | objectTooLarge
  | invalidObjectPropFormat | invalidObjectPropCode | invalidCodeFormat | byDepthUnsupported
  | byGroupUnsupported | devicePropNotSupported
  deriving DecidableEq, Repr

/-- What the factory can ask the storages about objects: existence, parent (`mtpParentObject`),
children and the value of each property at this moment. -/
structure Store (V : Type) where
  has : Nat → Bool
  parent : Nat → Nat
  kids : Nat → List Nat
  val : Nat → Nat → V

/-- Change notifications of a storage, delivered through the event loop (queued connection,
storagefactory.cpp:173-175). -/
inductive SEvent where
  | propChanged (h p : Nat)
  | infoChanged (h : Nat)
  | removed (h : Nat)
  deriving DecidableEq

/-- The factory with the storages behind it. -/
structure Fac (V : Type) where
  store : Store V
  cache : Cache V
  mass : List Nat          -- m_massQueriedAssociations
  queue : List SEvent      -- posted, not yet delivered
  next : Nat               -- handle the next new object gets

/-- MTP_OBJ_PROP_Parent_Obj, mtptypes.h. -/
def PARENT : Nat := 0xDC0B
/-- MTP_OBJ_PROP_StorageID. -/
def STORAGEID : Nat := 0xDC01

variable {V : Type}

namespace Fac

/-- storagefactory.cpp:567-580: the cached part of a request (single property or list); `codes` is
the request, entries not cached carry no value yet. -/
def splitReq (c : Cache V) (h : Nat) : List Nat → List (Nat × V) × List Nat
  | [] => ([], [])
  | p :: r =>
    let (f, n) := splitReq c h r
    match c.get h p with
    | some v => ((p, v) :: f, n)
    | none => (f, p :: n)

/-- storagefactory.cpp:590-603: query the object itself. -/
def readOne (s : Fac V) (h : Nat) (found : List (Nat × V)) (missing : List Nat) :
    Fac V × List (Nat × V) :=
  let vals := missing.map (fun p => (p, s.store.val h p))
  ({ s with cache := s.cache.addList h vals }, found ++ vals)

/-- storagefactory.cpp:617-631: feed the cache with the values of all children of `par`. -/
def feed (s : Fac V) (par : Nat) (missing : List Nat) : Cache V :=
  (s.store.kids par).foldl
    (fun c k => missing.foldl (fun c p => c.add k p (s.store.val k p)) c) s.cache

/-- storagefactory.cpp:565-640 `getObjectPropertyValue`. The mass query of the parent re-enters the
function; the second pass cannot take that branch again (`m_massQueriedAssociations` now contains the
parent). A parent that does not exist makes the mass query fail (fsstorageplugin.cpp:2790-2792). -/
def read (s : Fac V) (h : Nat) (codes : List Nat) : Fac V × Resp × List (Nat × V) :=
  let (found, missing) := splitReq s.cache h codes
  if missing = [] then (s, .ok, found)
  else if ¬ s.store.has h then (s, .invalidObjectHandle, found)
  else
    let par := s.store.parent h
    if par ∈ s.mass ∨ h = 0 then
      let (s', l) := s.readOne h found missing
      (s', .ok, l)
    else if ¬ s.store.has par then (s, .invalidObjectHandle, found)
    else
      let s := { s with cache := s.feed par missing, mass := par :: s.mass }
      -- the request is now found ++ missing, in this order
      let (found2, missing2) := splitReq s.cache h (found.map (·.1) ++ missing)
      if missing2 = [] then (s, .ok, found2)
      else
        let (s', l) := s.readOne h found2 missing2
        (s', .ok, l)

/-- storagefactory.cpp:651-669 `onStorageEvent`. -/
def deliver (s : Fac V) : Fac V :=
  match s.queue with
  | [] => s
  | .propChanged h p :: q => { s with queue := q, cache := s.cache.remove h p }
  | .infoChanged h :: q => { s with queue := q, cache := s.cache.remove h }
  | .removed h :: q =>
    { s with queue := q, mass := s.mass.filter (· ≠ h), cache := s.cache.remove h }

/-- A storage with some values of `h` replaced. -/
def _root_.Mtp.Store.setVals (st : Store V) (h : Nat) (f : Nat → V) : Store V :=
  { st with val := fun h' p => if h' = h then f p else st.val h' p }

/-- Overwrites the properties in `l` (later entries win). -/
def over (f : Nat → V) (l : List (Nat × V)) : Nat → V :=
  l.foldl (fun f e => fun p => if p = e.1 then e.2 else f p) f

/-- What can happen around the factory. -/
inductive Op (V : Type) where
  | read (h : Nat) (codes : List Nat)
  | set (h : Nat) (l : List (Nat × V)) (applied : Bool)  -- host sets; storage takes the values or not
  | deliver                                              -- the event loop delivers one event
  | devProp (h p : Nat) (v : V)                          -- the device changes a property, announces it
  | devInfo (h : Nat) (f : Nat → V)                      -- ... any properties of an object
  | devRemove (h : Nat)                                  -- ... an object disappears
  | delete (h : Nat) (sub : List Nat)                    -- host deletes `h` with its descendants
  | move (h par : Nat) (newStorage : Option V) (parVal : V)   -- host moves, maybe to another storage
  | add (par : Nat) (f : Nat → V)                        -- a new object appears
  | flush (h : Nat)                                      -- EndEdit

/-- One step. `set`: 633-646 (the storage answers OK also if it did not take a value, see
fsstorageplugin.cpp:2800-2863); `delete`: 279-297; `move`: 424-446; `flush`: 648-651. -/
def step (s : Fac V) : Op V → Fac V
  | .read h codes => (s.read h codes).1
  | .set h l applied =>
    if s.store.has h then
      { s with
        store := if applied then s.store.setVals h (over (s.store.val h) l) else s.store
        cache := s.cache.addList h l }
    else s
  | .deliver => s.deliver
  | .devProp h p v =>
    if s.store.has h then
      { s with
        store := s.store.setVals h (over (s.store.val h) [(p, v)])
        queue := s.queue ++ [.propChanged h p] }
    else s
  | .devInfo h f =>
    if s.store.has h then
      { s with store := s.store.setVals h f, queue := s.queue ++ [.infoChanged h] }
    else s
  | .devRemove h =>
    { s with
      store := { s.store with has := fun x => if x = h then false else s.store.has x }
      queue := s.queue ++ [.removed h] }
  | .delete h sub =>
    { s with
      store := { s.store with has := fun x => if x = h ∨ x ∈ sub then false else s.store.has x }
      cache := s.cache.remove h }
  | .move h par newStorage parVal =>
    if s.store.has h then
      let f := over (s.store.val h) [(PARENT, parVal)]
      let f := match newStorage with
        | some v => over f [(STORAGEID, v)]
        | none => f
      let st := s.store.setVals h f
      { s with
        store := { st with
          parent := fun x => if x = h then par else s.store.parent x
          kids := fun x => if x = par then h :: (s.store.kids x).filter (· ≠ h)
            else (s.store.kids x).filter (· ≠ h) }
        cache := s.cache.remove h PARENT }
    else s
  | .add par f =>
    let h := s.next
    let st := s.store.setVals h f
    { s with
      next := s.next + 1
      store := { st with
        has := fun x => if x = h then true else s.store.has x
        parent := fun x => if x = h then par else s.store.parent x
        kids := fun x => if x = par then h :: s.store.kids x else s.store.kids x } }
  | .flush h => { s with cache := s.cache.remove h }

/-- The factory at start: no cached values, nothing queued. -/
def init (st : Store V) (next : Nat) : Fac V :=
  { store := st, cache := [], mass := [], queue := [], next := next }

end Fac

/-! ### Routing -/

/-- A storage plugin as the factory sees it: does it contain a handle, and what does a request about
an object do. -/
structure Plugin (S Q R : Type) where
  has : S → Nat → Bool
  exec : S → Nat → Q → S × R

variable {S Q R : Type}

/-- storagefactory.cpp:242-251 `storageOfHandle` followed by the call, the common shape of
getReferences, setReferences, getPath, get/setEventsEnabled, getObjectInfo, writeData,
writePartialData, truncateItem, readData (372-560): the first storage (in hash order) that contains
the handle executes the request. `bad` is the InvalidObjectHandle result. -/
def routeHandle (pl : Plugin S Q R) (bad : R) (h : Nat) (q : Q) :
    List (Nat × S) → List (Nat × S) × R
  | [] => ([], bad)
  | (i, s) :: r =>
    if pl.has s h then
      let (s', x) := pl.exec s h q
      ((i, s') :: r, x)
    else
      let (r', x) := routeHandle pl bad h q r
      ((i, s) :: r', x)

/-- storagefactory.cpp:256-274, 317-325, 358-365: requests naming a storage id;
`bad` is the refusal. -/
def routeStorage (f : S → S × R) (bad : R) (id : Nat) :
    List (Nat × S) → List (Nat × S) × R
  | [] => ([], bad)
  | (i, s) :: r =>
    if i = id then
      let (s', x) := f s
      ((i, s') :: r, x)
    else
      let (r', x) := routeStorage f bad id r
      ((i, s) :: r', x)

end Mtp
