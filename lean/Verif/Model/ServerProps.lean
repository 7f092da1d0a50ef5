import Verif.Model.Server
/-!
The server of Verif.Model.Server with the object properties: their values (fsstorageplugin.cpp:2605-2863), the factory's cache of
them (storagefactory.cpp:277-294, 427-447, 565-666, Verif.Model.Factory) and the requests for them (mtpresponder.cpp:1730-2054,
2299-2343, 2358-2604, Verif.Model.PropPod, PropList, PropSet).
-/
namespace Mtp

/-- The server with the factory's property cache: `mass` is `m_massQueriedAssociations`. -/
structure PServer where
  srv : Server
  cache : Cache (Option Val)
  mass : List Nat

/-- fsstorageplugin.cpp:2605-2772 `getObjectPropertyValueFromStorage`: the value of property `p` of an object with information `o`
and persistent id `id`. Simplified: there is no thumbnail (0xDC86). -/
def ObjInfo.prop (o : ObjInfo) (id p : Nat) : Option Val :=
  if p = 0xDC06 then some (.int 4 0)
  else if p = 0xDC05 then some (.int 2 o.assocType)
  else if p = 0xDC0B then some (.int 4 o.parent)
  else if p = 0xDC04 then some (.int 8 o.size)
  else if p = 0xDC01 then some (.int 4 o.storageId)
  else if p = 0xDC02 then some (.int 2 o.format)
  else if p = 0xDC03 then some (.int 2 o.protection)
  else if p = 0xDC0C then some (.arr 2 [])
  else if p = 0xDC09 then some (.str o.modDate)
  else if p = 0xDC08 ∨ p = 0xDC4E then some (.str o.captureDate)
  else if p = 0xDC07 then some (.str o.fileName)
  else if p = 0xDC81 then some (.int 2 0x3808)
  else if p = 0xDC82 then some (.int 4 49152)
  else if p = 0xDC83 ∨ p = 0xDC84 then some (.int 4 100)
  else if p = 0xDE9B then some (.int 4 0x574D5633)
  else if p = 0xDC50 ∨ p = 0xDC0D ∨ p = 0xDC4F then some (.int 1 0)
  else if p = 0xDC41 then some (.int 16 id)
  else if p = 0xDC86 then some (.arr 1 [])
  else none

/-- The value of property `p` of object `h`. -/
def Server.prop (s : Server) (h p : Nat) : Option Val :=
  match s.infoOf h with
  | (.ok, o) => o.prop (((s.tree.get h).map (·.puoid)).getD 0) p
  | _ => none

namespace PServer

/-- The factory in front of the storage. -/
def fac (d : PServer) : Fac (Option Val) :=
  { store :=
      { has := d.srv.tree.has
        parent := fun h => (d.srv.infoOf h).2.parent
        kids := fun h => ((d.srv.tree.get h).map (·.kids)).getD []
        val := d.srv.prop }
    cache := d.cache
    mass := d.mass
    queue := []
    next := d.srv.tree.asked + 1 }

/-- What the requests about properties use. -/
def view (d : PServer) : PropServer :=
  { caps := d.srv.caps
    fac := d.fac
    format := fun h => (d.srv.infoOf h).2.format
    handles := fun fmt par => factoryHandles [(d.srv.sid, d.srv.tree)] ALL fmt par }

/-- What such a request leaves in the cache. -/
def took (d : PServer) (f : Fac (Option Val)) : PServer := { d with cache := f.cache, mass := f.mass }

/-- Its answer. -/
def answer (d : PServer) (x : Res (Fac (Option Val) × Option (List UInt8) × Resp)) : PServer × Reply :=
  match x with
  | .ok (f, b, r) => (d.took f, Server.oneFrame (.ok (b, r)))
  | .ub _ => (d, ⟨[], some (.generalError, [])⟩)

/-- storagefactory.cpp:277-294 `deleteItem`. -/
def delete (d : PServer) (h fmt : Nat) : PServer × Resp :=
  ({ d with srv := (d.srv.delete h fmt).1, cache := d.cache.remove h }, (d.srv.delete h fmt).2)

/-- storagefactory.cpp:427-447 `moveObject`. -/
def move (d : PServer) (h sid p : Nat) : PServer × Resp :=
  ({ d with srv := (d.srv.move h sid p).1
            cache := if (d.srv.move h sid p).2 = .ok then d.cache.remove h PARENT else d.cache }, (d.srv.move h sid p).2)

/-- The requests without data from the host. -/
def query (d : PServer) (code : Nat) (ps : List Nat) : PServer × Reply :=
  let p := fun i => ps.getD i 0
  if code = 0x9803 then d.answer (getObjPropValue d.view 0 (p 0) (p 1))
  else if code = 0x9805 then d.answer (getObjectPropList d.view 0 (p 0) (p 1) (p 2) (p 4))
  else if code = 0x100B then ((d.delete (p 0) (p 1 % 65536)).1, ⟨[], some ((d.delete (p 0) (p 1 % 65536)).2, [])⟩)
  else if code = 0x1019 then ((d.move (p 0) (p 1) (p 2)).1, ⟨[], some ((d.move (p 0) (p 1) (p 2)).2, [])⟩)
  else ({ d with srv := (Server.query d.srv code ps).1 }, (Server.query d.srv code ps).2)

/-- storagefactory.cpp:633-646, fsstorageplugin.cpp:2816-2863 `setObjectPropertyValue` for one property: the file name is acted on;
an accepted value is cached, whatever it is. -/
def set (d : PServer) (h p : Nat) (v : Option Val) : PServer × Resp :=
  if d.srv.tree.has h = false then (d, .invalidObjectHandle)
  else if p = 0xDC07 then
    ({ d with srv := (d.srv.rename h (asName v)).1
              cache := if (d.srv.rename h (asName v)).2 = .ok then d.cache.addList h [(p, v)] else d.cache },
      (d.srv.rename h (asName v)).2)
  else ({ d with cache := d.cache.addList h [(p, v)] }, .ok)

/-- mtpresponder.cpp:2566-2604 `setObjPropValueData`. A value that ends too early: as for `Server.addInfo`. -/
def setValue (d : PServer) (h p : Nat) (b : List UInt8) : PServer × Resp :=
  match propDescOf d.srv.caps d.view.format d.fac h p with
  | (.ok, some t) =>
    match collect b [] >>= fun rx => rx.getVariant t.dtype with
    | .ok (v, _) => d.set h t.code v
    | .ub _ => (d, .generalError)
  | (r, _) => (d, r)

/-- mtpresponder.cpp:2376-2400: one element of the list. -/
def setElem (d : PServer) (rx : Rx) : Res (PServer × Resp × Rx) := do
  let (h, rx) ← rx.getInt 4
  if d.srv.tree.has h then
    let (p, rx) ← rx.getInt 2
    match propDescOf d.srv.caps d.view.format d.fac h p with
    | (.ok, some t) =>
      if t.getSet then
        let (dt, rx) ← rx.getInt 2
        let (v, rx) ← rx.getVariant dt
        return ((d.set h t.code v).1, (d.set h t.code v).2, rx)
      else return (d, .accessDenied, rx)
    | (r, _) => return (d, r, rx)
  else return (d, .invalidObjectHandle, rx)

/-- mtpresponder.cpp:2374-2403: the loop, `n` elements to go, `i` done. A list that ends too early stops here (see `Server.addInfo`). -/
def setElems : Nat → Nat → PServer → Rx → PServer × Resp × Nat
  | 0, i, d, _ => (d, .ok, i)
  | n + 1, i, d, rx =>
    match d.setElem rx with
    | .ok (d, .ok, rx) => setElems n (i + 1) d rx
    | .ok (d, r, _) => (d, r, i + 1)
    | .ub _ => (d, .generalError, i + 1)

/-- mtpresponder.cpp:2358-2410 `setObjectPropListData`. -/
def setList (d : PServer) (b : List UInt8) : PServer × Resp × List Nat :=
  match collect b [] >>= fun rx => rx.getInt 4 with
  | .ub _ => (d, .generalError, [])
  | .ok (n, rx) =>
    match setElems n 0 d rx with
    | (d, .ok, _) => (d, .ok, [])
    | (d, r, i) => (d, r, [i - 1])

/-- The requests with data from the host. The verdict of the request phase of SetObjectPropValue (`check` below) is asked for again
here: nothing happens to the object in between. -/
def store (d : PServer) (code : Nat) (ps : List Nat) (b : List UInt8) : PServer × Resp × List Nat :=
  if code = 0x9804 then
    match setObjPropValueReq d.view (ps.getD 0 0) (ps.getD 1 0) with
    | .ok => ((d.setValue (ps.getD 0 0) (ps.getD 1 0) b).1, (d.setValue (ps.getD 0 0) (ps.getD 1 0) b).2, [])
    | r => (d, r, [])
  else if code = 0x9806 then d.setList b
  else (d, .operationNotSupported, [])

/-- mtpresponder.cpp:2299-2343: the end of an upload announced with the property list `b`: everything in it but the file name is
cached (the storage ignores it). Simplified: the object has the format announced. -/
def setProps (d : PServer) (h : Nat) (b : List UInt8) : PServer :=
  match Server.decodeList d.srv.caps (d.srv.infoOf h).2.format b with
  | some (.inr (ks, _)) =>
    if d.srv.tree.has h then
      { d with cache := d.cache.addList h (keptSets d.srv.caps (d.srv.caps.category (d.srv.infoOf h).2.format)
        (some (d.srv.infoOf h).2.fileName) ks) }
    else d
  | _ => d

/-- storagefactory.cpp:400-425 `copyObject`: what is cached about a copy that is deleted again is dropped (:291). -/
def copy (d : PServer) (ps : List Nat) (cancelled : Bool) : PServer × Resp × Nat :=
  ({ d with srv := (d.srv.copy ps cancelled).1
            cache := if (d.srv.copy ps cancelled).2.1 = .storeFull then d.cache.remove (d.srv.copy ps cancelled).2.2 else d.cache },
    (d.srv.copy ps cancelled).2)

/-- The storage with its properties behind the responder; `flush` is storagefactory.cpp:648-651. -/
def dev : Dev PServer where
  query := query
  copy := copy
  check d code ps :=
    if code = 0x9804 then setObjPropValueReq d.view (ps.getD 0 0) (ps.getD 1 0) else .operationNotSupported
  store := store
  listCheck d ps := d.srv.listCheck ps
  addInfo d ps b := ({ d with srv := (d.srv.addInfo ps b).1 }, (d.srv.addInfo ps b).2)
  addList d ps b := ({ d with srv := (d.srv.addList ps b).1 }, (d.srv.addList ps b).2)
  write d h b f l := ({ d with srv := (d.srv.write h b f l).1 }, (d.srv.write h b f l).2)
  truncate d h n := ({ d with srv := (d.srv.truncate h n).1 }, (d.srv.truncate h n).2)
  setProps := setProps
  writePartial d h o b f l := ({ d with srv := (d.srv.writePartial h o b f l).1 }, (d.srv.writePartial h o b f l).2)
  delete d h := d.delete h 0
  handleOk d h := if d.srv.tree.has h then .ok else .invalidObjectHandle
  flush d h := { d with cache := d.cache.remove h }
  setEvents d _ _ := d
  eventsOff d := d
  eventsOn _ _ := true

end PServer
end Mtp
