import Verif.Model.ServerProps
import Verif.Model.DevProps
/-!
The whole device: the server of Verif.Model.ServerProps with object references (fsstorageplugin.cpp:2378-2428), the device's
properties and description (Verif.Model.DevProps, Datasets), its storage's description and the descriptions of object properties
(Verif.Model.PropPod) behind the responder.
-/
namespace Mtp

/-- The server `ps` with: `refs`, `m_objectReferencesMap` (fsstorageplugin.h); `props` and `info`, the members of `MtpDeviceInfo`;
`store`, what the storage says about itself; `stat`, what `statvfs` would say about its file system now. -/
structure Device where
  ps : PServer
  refs : AMap Nat (List Nat)
  props : DevState
  info : InfoState
  store : StoreDesc
  stat : Option StatVfs

namespace Device

/-- The storage with its references. -/
def refTree (d : Device) : RefTree := ⟨d.ps.srv.tree, d.refs⟩

/-- The answer to GetObjectReferences (mtpresponder.cpp:2132-2162, storagefactory.cpp:374-382). -/
def answerRefs (d : Device) (h : Nat) : Device × Reply :=
  match getObjReferences d.refTree 0 h with
  | .ok (s, b, r) => ({ d with refs := s.refs }, Server.oneFrame (.ok (b, r)))
  | .ub _ => (d, ⟨[], some (.generalError, [])⟩)

/-- The requests without data from the host. -/
def query (d : Device) (code : Nat) (ps : List Nat) : Device × Reply :=
  let p := fun i => ps.getD i 0
  let c := d.ps.srv.caps
  if code = 0x1001 then (d, Server.oneFrame ((getDeviceInfo d.info 0).bind fun b => .ok (some b, .ok)))
  else if code = 0x1004 then
    (d, Server.oneFrame ((getStorageIDs [(d.ps.srv.sid, d.store)] 0).bind fun b => .ok (some b, .ok)))
  else if code = 0x1005 then (d, Server.oneFrame (getStorageInfo [(d.ps.srv.sid, d.store)] (fun _ => d.stat) 0 (p 0)))
  else if code = 0x1014 then (d, Server.oneFrame (getDevicePropDesc d.props 0 (p 0)))
  else if code = 0x1015 then (d, Server.oneFrame (getDevicePropValue d.props 0 (p 0)))
  else if code = 0x9801 then (d, Server.oneFrame (getObjPropsSupported c 0 (p 0)))
  else if code = 0x9802 then (d, Server.oneFrame (getObjPropDesc c 0 (p 0) (p 1)))
  else if code = 0x9810 then d.answerRefs (p 0)
  else ({ d with ps := (d.ps.query code ps).1 }, (d.ps.query code ps).2)

/-- mtpresponder.cpp:2521-2562 `setDevicePropValueData` for an accepted request. A value that ends too early: as for
`Server.addInfo`. -/
def setDevProp (d : Device) (p : Nat) (b : List UInt8) : Device × Resp × List Nat :=
  match collect b [] >>= fun rx => setDevicePropValueData d.props .ok p rx with
  | .ok (s, r) => ({ d with props := s }, r, [])
  | .ub _ => (d, .generalError, [])

/-- mtpresponder.cpp:2606-2621 `setObjReferencesData` (storagefactory.cpp:387-395). A list that ends too early: as for
`Server.addInfo`. -/
def setReferences (d : Device) (h : Nat) (b : List UInt8) : Device × Resp × List Nat :=
  match collect b [] >>= fun rx => setObjReferencesData d.refTree h rx with
  | .ok (s, r) => ({ d with refs := s.refs }, r, [])
  | .ub _ => (d, .generalError, [])

/-- The requests with data from the host. -/
def storeData (d : Device) (code : Nat) (ps : List Nat) (b : List UInt8) : Device × Resp × List Nat :=
  if code = 0x1016 then d.setDevProp (ps.getD 0 0) b
  else if code = 0x9811 then d.setReferences (ps.getD 0 0) b
  else ({ d with ps := (d.ps.store code ps b).1 }, (d.ps.store code ps b).2)

/-- The device behind the responder; the request phase of SetDevicePropValue is mtpresponder.cpp:1405-1428. -/
def dev : Dev Device where
  query := query
  copy d ps b := ({ d with ps := (PServer.dev.copy d.ps ps b).1 }, (PServer.dev.copy d.ps ps b).2)
  check d code ps :=
    if code = 0x1016 then setDevicePropValueReq d.props (ps.getD 0 0) else PServer.dev.check d.ps code ps
  store := storeData
  listCheck d ps := PServer.dev.listCheck d.ps ps
  addInfo d ps b := ({ d with ps := (PServer.dev.addInfo d.ps ps b).1 }, (PServer.dev.addInfo d.ps ps b).2)
  addList d ps b := ({ d with ps := (PServer.dev.addList d.ps ps b).1 }, (PServer.dev.addList d.ps ps b).2)
  write d h b f l := ({ d with ps := (PServer.dev.write d.ps h b f l).1 }, (PServer.dev.write d.ps h b f l).2)
  truncate d h n := ({ d with ps := (PServer.dev.truncate d.ps h n).1 }, (PServer.dev.truncate d.ps h n).2)
  setProps d h b := { d with ps := PServer.dev.setProps d.ps h b }
  writePartial d h o b f l :=
    ({ d with ps := (PServer.dev.writePartial d.ps h o b f l).1 }, (PServer.dev.writePartial d.ps h o b f l).2)
  delete d h := ({ d with ps := (PServer.dev.delete d.ps h).1 }, (PServer.dev.delete d.ps h).2)
  handleOk d h := PServer.dev.handleOk d.ps h
  flush d h := { d with ps := PServer.dev.flush d.ps h }
  setEvents d h b := { d with ps := PServer.dev.setEvents d.ps h b }
  eventsOff d := { d with ps := PServer.dev.eventsOff d.ps }
  eventsOn d h := PServer.dev.eventsOn d.ps h

end Device
end Mtp
