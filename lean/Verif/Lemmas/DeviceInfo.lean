import Verif.Lemmas.Device
import Verif.Lemmas.ServerConf
import Verif.Props.PropPod
/-! Requests without data that leave the device as it is, in or out of a session. -/
namespace Mtp
open Spec
namespace Device

/-- A response without parameters to the command at hand. -/
theorem reply_between (r : Rsp Device) (q : List UInt8) (hq : r.req = some q) (hst : r.st = .waitResp) (c : Resp) :
    ∃ r', r.replyP c [] = .ok r' ∧ Quiescent r' ∧ r'.session = r.session ∧ r'.ready = r.ready ∧ r'.dev = r.dev ∧
      responses r'.out = responses r.out ++ [.response c (u16 (cTid q)) []] ∧ dataOf r'.out = dataOf r.out := by
  refine ⟨(r.send (.response c (u16 (cTid q)) [])).1, ?_, ?_⟩
  · unfold Rsp.replyP
    simp only [Rsp.reply, hq]
  · rw [Rsp.send_response _ _ _ _ (by rw [hst]; simp)]
    refine ⟨⟨by simp, rfl⟩, by simp, by simp, by simp, ?_, ?_⟩
    · simp only [Rsp.deleteStored_out, Rsp.emit_out, responses_append, Rsp.responses_setState]
      simp [responses, Out.isResponse]
    · simp only [Rsp.deleteStored_out, Rsp.emit_out, Server.dataOf_append, Server.dataOf_setState]
      simp [dataOf]

/-- Whether the responder hands the command to the device at once. -/
def Served (r : Rsp Device) (q : List UInt8) : Prop :=
  opKind (cCode q) = some .deviceInfo ∨
  (opKind (cCode q) = some .propsSupported ∧ cTid q ≠ 0 ∧ cTid q ≠ 0xFFFFFFFF) ∨
  (∃ l, opKind (cCode q) = some (.query l)) ∧ r.session ≠ 0 ∧ cTid q ≠ 0 ∧ cTid q ≠ 0xFFFFFFFF

/-- A command answered by the device with one packet of data or none. -/
theorem served (r : Rsp Device) (hb : Quiescent r) (q : List UInt8) (hr : r.ready = true ∨ needsStorage (cCode q) = false)
    (hs : Served r q) (hd : hasDataPhase (cCode q) = false) (c : Resp) (b : Option (List UInt8))
    (he : dev.query r.dev (cCode q) (cParams q) = (r.dev, Server.oneFrame (.ok (b, c)))) :
    ∃ r', Replied r r' q c ((b.map (·.drop 12)).getD []) := by
  have h0 : r.run dev (ask q) = (r.accept q).sendReply q (Server.oneFrame (.ok (b, c))) := by
    have h1 : ∀ k, opKind (cCode q) = some k → r.run dev (ask q) = (r.accept q).handle dev q [] k := by
      intro k hk
      unfold ask
      simp only [Rsp.run, Rsp.step]
      rw [Rsp.receive_idle dev r q [] hb.idle, Rsp.command_accept dev r q [] hr, hk]
      show ((r.accept q).handle dev q [] k >>= fun x => Res.ok x) = _
      cases (r.accept q).handle dev q [] k <;> rfl
    have h2 : dev.query (r.accept q).dev (cCode q) (cParams q) = ((r.accept q).dev, Server.oneFrame (.ok (b, c))) := by
      rw [Rsp.accept_dev]; exact he
    have h3 : ({ (r.accept q) with dev := (dev.query (r.accept q).dev (cCode q) (cParams q)).1 } : Rsp Device).sendReply q
        (dev.query (r.accept q).dev (cCode q) (cParams q)).2 = (r.accept q).sendReply q (Server.oneFrame (.ok (b, c))) := by
      rw [h2]
    rcases hs with hk | ⟨hk, ht⟩ | ⟨⟨l, hk⟩, hss, ht⟩
    · rw [h1 _ hk]
      exact h3
    · rw [h1 _ hk]
      simp only [Rsp.handle]
      rw [Rsp.preCheck_ok (by decide) ht]
      exact h3
    · rw [h1 _ hk]
      simp only [Rsp.handle]
      rw [show Rsp.preCheck (r.accept q).session (cTid q) = .ok by rw [Rsp.accept_session, Rsp.preCheck_ok hss ht]]
      exact h3
  have hst : (r.accept q).st = .waitResp := by rw [Rsp.accept_st, hd]; rfl
  have ht : u16 (cTid q) % 2 ^ 16 = cTid q % 2 ^ 16 := by unfold u16; omega
  cases b with
  | none =>
    obtain ⟨r', a1, a2, a3, a4, a5, a6, a7⟩ := reply_between (r.accept q) q (Rsp.accept_req ..) hst c
    refine ⟨r', h0.trans a1, ⟨u16 (cTid q), ht, by rw [a6, Rsp.responses_accept]⟩, ?_, a2,
      a3.trans (Rsp.accept_session ..), a4.trans (Rsp.accept_ready ..), a5.trans (Rsp.accept_dev ..)⟩
    rw [a7, Server.dataOf_accept]
    simp
  | some b =>
    have hsnd : (r.accept q).send (.data (cCode q) (cTid q) (b.drop 12) true) =
        ((r.accept q).emit (.data (cCode q) (cTid q) (b.drop 12) true), true) := by
      unfold Rsp.send
      rw [if_neg (by rw [hst]; simp), if_neg (by rw [hst]; simp), if_neg (by simp [Out.isResponse])]
    obtain ⟨r', a1, a2, a3, a4, a5, a6, a7⟩ := reply_between
      ((r.accept q).emit (.data (cCode q) (cTid q) (b.drop 12) true)) q (Rsp.accept_req ..) hst c
    refine ⟨r', ?_, ⟨u16 (cTid q), ht, ?_⟩, ?_, a2, a3.trans (Rsp.accept_session ..), a4.trans (Rsp.accept_ready ..),
      a5.trans (Rsp.accept_dev ..)⟩
    · rw [h0, ← a1]
      unfold Rsp.sendReply Server.oneFrame
      simp only [hsnd, List.map_nil, List.append_nil]
    · rw [a6, Rsp.emit_out, responses_append, Rsp.responses_accept]
      simp [responses, Out.isResponse]
    · rw [a7, Rsp.emit_out, Server.dataOf_append, Server.dataOf_accept]
      simp [dataOf]

/-- A query outside a session. -/
theorem sessionless (r : Rsp Device) (hb : Quiescent r) (q : List UInt8) (hr : r.ready = true ∨ needsStorage (cCode q) = false)
    (hs : r.session = 0) (hk : opKind (cCode q) = some (.query [])) (hd : hasDataPhase (cCode q) = false) :
    ∃ r', Replied r r' q .sessionNotOpen [] := by
  have h0 : r.run dev (ask q) = (r.accept q).replyP .sessionNotOpen [] := by
    have h1 : r.run dev (ask q) = (r.accept q).handle dev q [] (.query []) := by
      unfold ask
      simp only [Rsp.run, Rsp.step]
      rw [Rsp.receive_idle dev r q [] hb.idle, Rsp.command_accept dev r q [] hr, hk]
      show ((r.accept q).handle dev q [] (.query []) >>= fun x => Res.ok x) = _
      cases (r.accept q).handle dev q [] (.query []) <;> rfl
    rw [h1]
    simp only [Rsp.handle]
    rw [show Rsp.preCheck (r.accept q).session (cTid q) = .sessionNotOpen by
      rw [Rsp.accept_session, hs]; unfold Rsp.preCheck; rw [if_pos rfl]]
  have hst : (r.accept q).st = .waitResp := by rw [Rsp.accept_st, hd]; rfl
  have ht : u16 (cTid q) % 2 ^ 16 = cTid q % 2 ^ 16 := by unfold u16; omega
  obtain ⟨r', a1, a2, a3, a4, a5, a6, a7⟩ := reply_between (r.accept q) q (Rsp.accept_req ..) hst .sessionNotOpen
  refine ⟨r', h0.trans a1, ⟨u16 (cTid q), ht, by rw [a6, Rsp.responses_accept]⟩, ?_, a2,
    a3.trans (Rsp.accept_session ..), a4.trans (Rsp.accept_ready ..), a5.trans (Rsp.accept_dev ..)⟩
  rw [a7, Server.dataOf_accept]
  simp

/-- What never changes about a device. -/
structure Same (d d' : Device) : Prop where
  setup : Server.SameSetup d.ps.srv d'.ps.srv
  info : d'.info = d.info
  store : d'.store = d.store

theorem closed_same {ok : Nat → Prop} : Rsp.Closed dev ok Same := by
  have c1 : Rsp.Closed dev ok _ := closed_server PServer.closed_setup
  have c2 : Rsp.Closed dev ok _ := closed_rest
  have two : ∀ {d d' : Device}, Server.SameSetup d.ps.srv d'.ps.srv →
      (d'.info = d.info ∧ d'.store = d.store ∧ (¬ ok 0x1016 → d'.props = d.props) ∧ d'.stat = d.stat) → Same d d' :=
    fun h1 h2 => ⟨h1, h2.1, h2.2.1⟩
  exact
  { refl := fun d => two (c1.refl d) (c2.refl d)
    trans := fun a b c h1 h2 => ⟨h1.setup.trans h2.setup, h2.info.trans h1.info, h2.store.trans h1.store⟩
    query := fun d c ps h => two (c1.query d c ps h) (c2.query d c ps h)
    copy := fun h d ps b => two (c1.copy h d ps b) (c2.copy h d ps b)
    store := fun d c ps b h => two (c1.store d c ps b h) (c2.store d c ps b h)
    addInfo := fun h d ps b => two (c1.addInfo h d ps b) (c2.addInfo h d ps b)
    addList := fun h d ps b => two (c1.addList h d ps b) (c2.addList h d ps b)
    write := fun h d x b f l => two (c1.write h d x b f l) (c2.write h d x b f l)
    cut := fun h d x n => two (c1.cut h d x n) (c2.cut h d x n)
    setProps := fun h h' d x b => two (c1.setProps h h' d x b) (c2.setProps h h' d x b)
    writePartial := fun h d x o b f l => two (c1.writePartial h d x o b f l) (c2.writePartial h d x o b f l)
    delete := fun h d x => two (c1.delete h d x) (c2.delete h d x)
    flush := fun h d x => two (c1.flush h d x) (c2.flush h d x)
    setEvents := fun h d x b => two (c1.setEvents h d x b) (c2.setEvents h d x b)
    eventsOff := fun h d => two (c1.eventsOff h d) (c2.eventsOff h d) }

theorem lived_same {r r' : Rsp Device} (hr : r.req = none) (t : Elapsed [] r r') : Same r.dev r'.dev := by
  have cl : Rsp.Closed dev (· ∉ []) Same := closed_same
  exact (lived_along cl (fun d _ _ => ⟨Server.SameSetup.refl _, rfl, rfl⟩) (fun d _ => ⟨Server.SameSetup.refl _, rfl, rfl⟩)
    (along_open cl (by simp) hr) t).dev

/-! ### Requests -/

/-- Data a reader accepts starts with its container's header. -/
theorem read_dataset {code tid : Nat} {tys : List Ty} {bytes : List UInt8} {vs : List Val} (h : readDataset code tid tys bytes = some vs) :
    ∃ p, payload code tid bytes = some p := by
  cases hp : payload code tid bytes with
  | some p => exact ⟨p, rfl⟩
  | none => unfold readDataset at h; rw [hp] at h; cases h

theorem read_info {tid : Nat} {bytes : List UInt8} {i : DeviceInfo} (h : readDeviceInfo tid bytes = some i) :
    ∃ p, payload 0x1001 tid bytes = some p := by
  unfold readDeviceInfo at h
  cases hp : readDataset 0x1001 tid [.int 2, .int 4, .int 2, .str, .int 2, .arr 2, .arr 2, .arr 2, .arr 2, .arr 2,
    .str, .str, .str, .str] bytes with
  | some vs => exact read_dataset hp
  | none => rw [hp] at h; cases h

theorem read_storage {tid : Nat} {bytes : List UInt8} {i : StorageInfo} (h : readStorageInfo tid bytes = some i) :
    ∃ p, payload 0x1005 tid bytes = some p := by
  unfold readStorageInfo at h
  cases hp : readDataset 0x1005 tid [.int 2, .int 2, .int 2, .int 8, .int 8, .int 4, .str, .str] bytes with
  | some vs => exact read_dataset hp
  | none => rw [hp] at h; cases h

theorem read_handles {code tid : Nat} {bytes : List UInt8} {l : List Nat} (h : readHandles code tid bytes = some l) :
    ∃ p, payload code tid bytes = some p := by
  unfold readHandles at h
  cases hp : readDataset code tid [.arr 4] bytes with
  | some vs => exact read_dataset hp
  | none => rw [hp] at h; cases h

theorem read_codes {code tid : Nat} {bytes : List UInt8} {l : List Nat} (h : readCodes code tid bytes = some l) :
    ∃ p, payload code tid bytes = some p := by
  cases hp : payload code tid bytes with
  | some p => exact ⟨p, rfl⟩
  | none => unfold readCodes at h; rw [hp] at h; cases h

theorem read_desc {code tid : Nat} {bytes : List UInt8} {l : ObjPropDesc} (h : readDesc code tid bytes = some l) :
    ∃ p, payload code tid bytes = some p := by
  cases hp : payload code tid bytes with
  | some p => exact ⟨p, rfl⟩
  | none => unfold readDesc at h; rw [hp] at h; cases h

theorem query_info (d : Device) (ps : List Nat) {bytes : List UInt8} (h : getDeviceInfo d.info 0 = .ok bytes) :
    dev.query d 0x1001 ps = (d, Server.oneFrame (.ok (some bytes, .ok))) := by
  show d.query 0x1001 ps = _
  unfold query
  simp only
  rw [if_pos trivial, h]
  rfl

theorem query_ids (d : Device) (ps : List Nat) {bytes : List UInt8} (h : getStorageIDs [(d.ps.srv.sid, d.store)] 0 = .ok bytes) :
    dev.query d 0x1004 ps = (d, Server.oneFrame (.ok (some bytes, .ok))) := by
  show d.query 0x1004 ps = _
  unfold query
  simp only
  rw [if_neg (by decide), if_pos trivial, h]
  rfl

theorem query_storage (d : Device) (ps : List Nat) :
    dev.query d 0x1005 ps = (d, Server.oneFrame (getStorageInfo [(d.ps.srv.sid, d.store)] (fun _ => d.stat) 0 (ps.getD 0 0))) := by
  show d.query 0x1005 ps = _
  unfold query
  simp only
  rw [if_neg (by decide), if_neg (by decide), if_pos trivial]

theorem query_supported (d : Device) (ps : List Nat) :
    dev.query d 0x9801 ps = (d, Server.oneFrame (getObjPropsSupported d.ps.srv.caps 0 (ps.getD 0 0))) := rfl

theorem query_desc (d : Device) (ps : List Nat) :
    dev.query d 0x9802 ps = (d, Server.oneFrame (getObjPropDesc d.ps.srv.caps 0 (ps.getD 0 0) (ps.getD 1 0))) := rfl

end Device
end Mtp
