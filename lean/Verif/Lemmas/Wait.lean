import Verif.Lemmas.DataPhase
/-! The handlers look neither at the storages' readiness nor at the data held back until then. -/
namespace Mtp
namespace Rsp
variable {D : Type}

/-- Other data held back, other readiness. -/
def hold (r : Rsp D) (w : List UInt8) (d a : Bool) : Rsp D := { r with waitBuf := w, waitDone := d, ready := a }

/-- The same of a result. -/
def holdR (x : Res (Rsp D)) (w : List UInt8) (d a : Bool) : Res (Rsp D) :=
  match x with
  | .ok r => .ok (r.hold w d a)
  | .ub e => .ub e

section
variable (w : List UInt8) (d a : Bool)

theorem hold_emit (r : Rsp D) (o : Out) : (r.hold w d a).emit o = (r.emit o).hold w d a := rfl
theorem hold_deleteStored (r : Rsp D) : (r.hold w d a).deleteStored = r.deleteStored.hold w d a := rfl
theorem hold_setState (r : Rsp D) (s : RState) : (r.hold w d a).setState s = (r.setState s).hold w d a := by
  unfold setState
  have : (r.hold w d a).st = r.st := rfl
  rw [this]
  split
  · rfl
  · simp only
    split
    · rfl
    · split <;> rfl
theorem hold_send (r : Rsp D) (o : Out) :
    (r.hold w d a).send o = ((r.send o).1.hold w d a, (r.send o).2) := by
  unfold send
  have : (r.hold w d a).st = r.st := rfl
  rw [this]
  split
  · rfl
  · split
    · split <;> rfl
    · split
      · rw [hold_setState]; rfl
      · rfl
theorem hold_send1 (r : Rsp D) (o : Out) : ((r.hold w d a).send o).1 = (r.send o).1.hold w d a := by
  rw [hold_send]
theorem hold_reply (r : Rsp D) (c : Resp) : (r.hold w d a).reply c = (r.reply c).hold w d a := by
  unfold reply
  have : (r.hold w d a).req = r.req := rfl
  rw [this]
  split
  · rfl
  · rw [hold_send]
theorem hold_reply1 (r : Rsp D) (c : Resp) (p : Nat) : (r.hold w d a).reply1 c p = holdR (r.reply1 c p) w d a := by
  unfold reply1
  have : (r.hold w d a).req = r.req := rfl
  rw [this]
  split
  · rfl
  · rw [hold_send]; rfl
theorem hold_replyP (r : Rsp D) (c : Resp) (ps : List Nat) :
    (r.hold w d a).replyP c ps = holdR (r.replyP c ps) w d a := by
  unfold replyP
  split
  · rw [hold_reply]; rfl
  · rw [hold_reply1]
theorem hold_sendReply (r : Rsp D) (q : List UInt8) (p : Reply) :
    (r.hold w d a).sendReply q p = holdR (r.sendReply q p) w d a := by
  unfold sendReply
  split
  · split
    · rfl
    · rw [hold_replyP]
  · rw [hold_send]
    rcases hs : r.send (.data (cCode q) (cTid q) _ _) with ⟨r', b⟩
    cases b
    · rfl
    · simp only
      split
      · rfl
      · next rest _ _ c ps _ =>
        have := hold_replyP w d a { r' with out := r'.out ++ rest.map fun f => .more f.1 f.2 } c ps
        exact this
theorem hold_closeSession (r : Rsp D) : (r.hold w d a).closeSession = r.closeSession.hold w d a := by
  unfold closeSession
  have := hold_setState w d a { r with session := 0 }.deleteStored .idle
  have h2 : ({ (r.hold w d a) with session := 0 } : Rsp D).deleteStored =
    ({ r with session := 0 } : Rsp D).deleteStored.hold w d a := rfl
  rw [h2, this]; rfl
theorem hold_cancelUpload (dv : Dev D) (r : Rsp D) :
    (r.hold w d a).cancelUpload dv = (r.cancelUpload dv).hold w d a := by
  unfold cancelUpload
  have : (r.hold w d a).cancelTarget = r.cancelTarget := rfl
  rw [this]
  by_cases h : r.cancelTarget = 0
  · simp only [h, if_true]
    by_cases h' : r.propList.isSome
    · have : (r.hold w d a).propList.isSome := h'
      rw [if_pos this, if_pos h']; rfl
    · have : ¬ (r.hold w d a).propList.isSome := h'
      rw [if_neg this, if_neg h']; rfl
  · simp only [h, if_false]
    by_cases h' : r.propList.isSome
    · rw [if_pos (by exact h'), if_pos (by exact h')]; rfl
    · rw [if_neg (by exact h'), if_neg (by exact h')]; rfl
theorem hold_handleEv (dv : Dev D) (r : Rsp D) (e : Ev) :
    (r.hold w d a).handleEv dv e = (r.handleEv dv e).hold w d a := by
  cases e
  · simp only [handleEv, handleCancel]
    have : (r.hold w d a).req = r.req := rfl
    rw [this]
    split
    · rfl
    · rw [hold_setState]
      split
      · rw [hold_cancelUpload]; rfl
      · rfl
  · simp only [handleEv, handleSuspend]
    exact hold_setState w d a { r with prev := r.st } .suspend
  · simp only [handleEv, handleResume]
    have : (r.hold w d a).prev = r.prev := rfl
    rw [this, hold_setState]
    have : ((r.setState r.prev).hold w d a).resend = (r.setState r.prev).resend := rfl
    rw [this]
    split
    · rfl
    · next o ho =>
      show (if (r.setState r.prev).st = .txCancel then _ else _) =
        (if (r.setState r.prev).st = .txCancel then _ else _ : Rsp D).hold w d a
      split <;> rfl
  · simp only [handleEv]; rw [hold_closeSession]; rfl
  · simp only [handleEv]; rw [hold_closeSession]
theorem hold_nested (dv : Dev D) (n : List Ev) : ∀ r : Rsp D,
    n.foldl (handleEv dv) (r.hold w d a) = (n.foldl (handleEv dv) r).hold w d a := by
  induction n with
  | nil => intro r; rfl
  | cons e n ih => intro r; simp only [List.foldl_cons]; rw [hold_handleEv, ih]
theorem hold_copyEnd (r : Rsp D) (c : Resp) (h : Nat) :
    (r.hold w d a).copyEnd c h = holdR (r.copyEnd c h) w d a := by
  unfold copyEnd
  by_cases hs : r.st = .txCancel
  · rw [if_pos (by exact hs), if_pos hs]; rfl
  · rw [if_neg (by exact hs), if_neg hs]; exact hold_reply1 w d a r c h
theorem hold_copyReq (dv : Dev D) (r : Rsp D) (q : List UInt8) (n : List Ev) :
    (r.hold w d a).copyReq dv q n = holdR (r.copyReq dv q n) w d a := by
  unfold copyReq
  have : (r.hold w d a).session = r.session := rfl
  rw [this]
  split
  · rw [hold_nested]
    generalize n.foldl (handleEv dv) r = r1
    have h1 : (r1.hold w d a).dev = r1.dev := rfl
    have h2 : (r1.hold w d a).st = r1.st := rfl
    simp only
    rw [h1, h2]
    exact hold_copyEnd w d a { r1 with dev := (dv.copy r1.dev (cParams q) (r1.st = .txCancel)).1 } _ _
  · exact hold_copyEnd w d a r _ 0

/-- The handlers. -/
theorem hold_handle (dv : Dev D) (r : Rsp D) (q : List UInt8) (n : List Ev) (k : OpKind) :
    (r.hold w d a).handle dv q n k = holdR (r.handle dv q n k) w d a := by
  have e1 : (r.hold w d a).session = r.session := rfl
  have e2 : (r.hold w d a).dev = r.dev := rfl
  have e3 : (r.hold w d a).edit = r.edit := rfl
  cases k
  case deviceInfo =>
    simp only [handle]; rw [e2]
    exact hold_sendReply w d a { r with dev := (dv.query r.dev (cCode q) (cParams q)).1 } q
      (dv.query r.dev (cCode q) (cParams q)).2
  case openSession =>
    simp only [handle, openSessionReq]; rw [e1]
    split
    · rw [hold_reply]; rfl
    · split
      · rw [hold_reply1]
      · have := hold_reply w d a { r with session := cParam q 0 } .ok
        have h2 : ({ (r.hold w d a) with session := cParam q 0 } : Rsp D) =
          ({ r with session := cParam q 0 } : Rsp D).hold w d a := rfl
        rw [h2, this]; rfl
  case closeSession =>
    simp only [handle, closeSessionReq]; rw [e1]
    split
    · rw [hold_reply]; rfl
    · have := hold_reply w d a (({ r with
          session := 0
          sendSeq := none
          propList := none
          dev := dv.eventsOff r.dev }  : Rsp D).emit (.session false)) .ok
      exact congrArg Res.ok this
  case propsSupported =>
    simp only [handle]
    split
    · rw [e2]
      exact hold_sendReply w d a { r with dev := (dv.query r.dev (cCode q) (cParams q)).1 } q
        (dv.query r.dev (cCode q) (cParams q)).2
    · rw [hold_reply]; rfl
  case thumb =>
    simp only [handle]; rw [e1]
    split
    · rw [e2]
      split
      · rfl
      · exact hold_sendReply w d a { r with dev := (dv.query r.dev (cCode q) (cParams q)).1 } q
          (dv.query r.dev (cCode q) (cParams q)).2
    · rfl
  case query ps =>
    simp only [handle]; rw [e1]
    split
    · rw [e2]
      exact hold_sendReply w d a { r with dev := (dv.query r.dev (cCode q) (cParams q)).1 } q
        (dv.query r.dev (cCode q) (cParams q)).2
    · rw [hold_replyP]
  case copy => exact hold_copyReq w d a dv r q n
  case skip => simp only [handle]; rw [e1, hold_reply]; rfl
  case refused => simp only [handle]; rw [hold_reply]; rfl
  case sendInfo => rfl
  case sendObject =>
    simp only [handle, sendObjectReq]; rw [e1]
    split
    · by_cases h : r.sendSeq.isNone = true ∧ r.propList.isNone = true
      · rw [if_pos (by exact h), if_pos h]; rfl
      · rw [if_neg (by exact h), if_neg h]; rfl
    · rfl
  case sendPropList =>
    simp only [handle, propListReq]; rw [e1]
    split
    · rw [e2]
      split
      · split <;> rfl
      · rfl
    · rfl
  case sendPartial =>
    simp only [handle, partialReq]; rw [e1]
    split
    · rw [e3]
      split
      · rfl
      · split <;> rfl
    · rfl
  case set c => rfl
  case truncate =>
    simp only [handle, truncateReq]; rw [e1]
    split
    · rw [e3]
      split
      · rw [hold_reply]; rfl
      · split
        · rw [hold_reply]; rfl
        · rw [e2]
          exact congrArg Res.ok (hold_reply w d a
            { r with dev := (dv.truncate r.dev (cParam q 0) (cParam q 2 * 4294967296 + cParam q 1)).1 } _)
    · rw [hold_reply]; rfl
  case beginEdit =>
    simp only [handle, beginEditReq]; rw [e1]
    split
    · rw [e2]
      split
      · exact congrArg Res.ok (hold_reply w d a { r with
               edit := some ⟨cParam q 0, 0⟩
               dev := dv.setEvents r.dev (cParam q 0) false } .ok)
      · rw [hold_reply]; rfl
    · rw [hold_reply]; rfl
  case endEdit =>
    simp only [handle, endEditReq]; rw [e1]
    split
    · rw [e3]
      split
      · rw [hold_reply]; rfl
      · split
        · rw [hold_reply]; rfl
        · exact congrArg Res.ok (hold_reply w d a { r with
             edit := none
             dev := dv.setEvents (dv.flush r.dev (cParam q 0)) (cParam q 0) true } .ok)
    · rw [hold_reply]; rfl

/-- A command that is not held back. -/
theorem hold_command (dv : Dev D) (r : Rsp D) (q : List UInt8) (hq : r.req = some q) (n : List Ev)
    (h1 : r.ready = true ∨ needsStorage (cCode q) = false) (h2 : a = true ∨ needsStorage (cCode q) = false) :
    (r.hold w d a).command dv n = holdR (r.command dv n) w d a := by
  unfold Rsp.command
  have e : (r.hold w d a).req = r.req := rfl
  rw [e]
  split
  · rfl
  · next q' hq' =>
    have : q' = q := by rw [hq] at hq'; exact (Option.some.inj hq').symm
    subst this
    simp only
    have n1 : ¬ (r.ready = false ∧ needsStorage (cCode q') = true) := by
      rintro ⟨x, y⟩; rcases h1 with h | h <;> simp_all
    have n2 : ¬ (a = false ∧ needsStorage (cCode q') = true) := by
      rintro ⟨x, y⟩; rcases h2 with h | h <;> simp_all
    rw [if_neg (by exact n2), if_neg n1]
    split
    · exact hold_handle w d a dv { r with resp := .ok } q' n _
    · exact congrArg Res.ok (hold_reply w d a { r with resp := .ok } _)

theorem hold_uploadEnd (dv : Dev D) (r : Rsp D) (h : Nat) (c : Resp) :
    (r.hold w d a).uploadEnd dv h c = (r.uploadEnd dv h c).hold w d a := by
  unfold uploadEnd
  simp only
  have e : (r.hold w d a).propList = r.propList := rfl
  rw [e]
  split
  · next p hp =>
    have := hold_reply w d a ({ r with
      sendSeq := none, dev := (dv.write (dv.setProps r.dev h p.dataset) h none false true).1 } : Rsp D) .ok
    exact congrArg (fun x : Rsp D => { x with propList := none }) this
  · exact congrArg (fun x : Rsp D => { x with propList := none }) (hold_reply w d a ({ r with
      sendSeq := none, dev := (dv.write r.dev h none false true).1 } : Rsp D) _)

theorem hold_uploadCheck (dv : Dev D) (r : Rsp D) (h n : Nat) (l : Bool) :
    (r.hold w d a).uploadCheck dv h n l = ((r.uploadCheck dv h n l).1.hold w d a, (r.uploadCheck dv h n l).2) := by
  unfold uploadCheck
  have e : (r.hold w d a).propList = r.propList := rfl
  have e' : (r.hold w d a).sendSeq = r.sendSeq := rfl
  rw [e, e']
  split
  · simp only; split
    · split <;> rfl
    · rfl
  · simp only; split
    · split <;> rfl
    · rfl
  · rfl

theorem hold_uploadData (dv : Dev D) (r : Rsp D) (b : List UInt8) (f l : Bool) :
    (r.hold w d a).uploadData dv b f l = holdR (r.uploadData dv b f l) w d a := by
  unfold uploadData
  by_cases h1 : r.sendSeq.isNone = true ∧ r.propList.isNone = true
  · rw [if_pos (by exact h1), if_pos h1, hold_uploadEnd]; rfl
  rw [if_neg (by exact h1), if_neg h1]
  split
  · rfl
  simp only
  have e : (r.hold w d a).uploadHandle = r.uploadHandle := rfl
  have e' : (r.hold w d a).dev = r.dev := rfl
  rw [e, e']
  generalize (if f = true then b.drop 12 else b) = p
  cases hx : dv.write r.dev r.uploadHandle (some p) f l with
  | mk d' c =>
    by_cases hc : c = .ok
    · subst hc
      simp only
      have := hold_uploadCheck w d a dv { r with dev := d' } r.uploadHandle p.length l
      have h2 : ({ (r.hold w d a) with dev := d' } : Rsp D) = ({ r with dev := d' } : Rsp D).hold w d a := rfl
      rw [h2, this]
      cases hy : ({ r with dev := d' } : Rsp D).uploadCheck dv r.uploadHandle p.length l with
      | mk r' c' =>
        by_cases hc' : c' = .undefined
        · subst hc'; rfl
        · simp only
          exact congrArg Res.ok (hold_uploadEnd w d a dv r' _ c')
    · simp only
      exact congrArg Res.ok (hold_uploadEnd w d a dv { r with dev := d' } _ c)

theorem hold_infoData (dv : Dev D) (r : Rsp D) (q b : List UInt8) :
    (r.hold w d a).infoData dv q b = (r.infoData dv q b).hold w d a := by
  unfold infoData
  simp only
  split
  · exact hold_send1 w d a { r with propList := none, sendSeq := none } _
  · have e' : (r.hold w d a).dev = r.dev := rfl
    rw [e']
    rcases dv.addInfo r.dev (cParams q) b with ⟨d', c, ps, h⟩
    by_cases hc : c = .ok
    · subst hc
      exact hold_send1 w d a { r with propList := none, dev := d', sendSeq := some ⟨h, rd 4 b 20, 0⟩ } _
    · simp only
      exact hold_send1 w d a { r with propList := none, dev := d', sendSeq := none } _

theorem hold_listData (dv : Dev D) (r : Rsp D) (q b : List UInt8) :
    (r.hold w d a).listData dv q b = (r.listData dv q b).hold w d a := by
  unfold listData
  have e : (r.hold w d a).propList = r.propList := rfl
  rw [e]
  split
  · exact hold_reply ..
  · next p hp =>
    have e' : (r.hold w d a).dev = r.dev := rfl
    rw [e']
    rcases dv.addList r.dev p.params b with ⟨d', c, ps, h⟩
    exact hold_send1 w d a { r with dev := d', propList := some { p with handle := h, dataset := b } } _

theorem hold_partialData (dv : Dev D) (r : Rsp D) (b : List UInt8) (f l : Bool) :
    (r.hold w d a).partialData dv b f l = ((r.partialData dv b f l).1.hold w d a, (r.partialData dv b f l).2) := by
  unfold partialData
  have e : (r.hold w d a).edit = r.edit := rfl
  rw [e]
  split
  · rfl
  · split <;> rfl

theorem hold_dataEnd (r : Rsp D) (c : Resp) (l : Bool) :
    (r.hold w d a).dataEnd c l = (r.dataEnd c l).hold w d a := by
  unfold dataEnd
  simp only
  split
  · exact hold_reply w d a { r with resp := c } c
  · rfl

theorem hold_accumulate (r : Rsp D) (b : List UInt8) (f : Bool) :
    (r.hold w d a).accumulate b f = (r.accumulate b f).hold w d a := by
  unfold accumulate
  have e : (r.hold w d a).dataC = r.dataC := rfl
  rw [e]
  split
  · rfl
  · split
    · rfl
    · split <;> rfl

/-- A packet of a data phase. -/
theorem hold_dataPacket (dv : Dev D) (r : Rsp D) (q b : List UInt8) (f l : Bool) :
    (r.hold w d a).dataPacket dv q b f l = holdR (r.dataPacket dv q b f l) w d a := by
  unfold dataPacket
  have e : ({ (r.hold w d a) with dataC := none } : Rsp D) = ({ r with dataC := none } : Rsp D).hold w d a := rfl
  have er : (({ r with dataC := none } : Rsp D).hold w d a).resp = ({ r with dataC := none } : Rsp D).resp := rfl
  split
  · rw [e, er]
    split
    · exact hold_uploadData ..
    · exact congrArg Res.ok (hold_dataEnd ..)
  · split
    · rw [e, er]
      split
      · rw [hold_partialData]
        exact congrArg Res.ok (hold_dataEnd ..)
      · exact congrArg Res.ok (hold_dataEnd ..)
    · simp only
      rw [hold_accumulate]
      generalize r.accumulate b f = r1
      have e2 : (r1.hold w d a).dataCheck q = r1.dataCheck q := rfl
      have e3 : (r1.hold w d a).dataC = r1.dataC := rfl
      have e4 : (r1.hold w d a).dev = r1.dev := rfl
      rw [e2, e3, e4]
      split
      · rfl
      · split
        · split
          · split
            · exact congrArg Res.ok (hold_dataEnd ..)
            · rfl
          · split
            · exact congrArg Res.ok (hold_infoData ..)
            · exact congrArg Res.ok (hold_listData ..)
            · exact hold_replyP w d a { r1 with dev := (dv.store r1.dev (cCode q) (cParams q) _).1 } _ _
            · exact congrArg Res.ok (hold_dataEnd ..)
        · exact congrArg Res.ok (hold_dataEnd ..)
end
end Rsp
end Mtp

namespace Mtp
namespace Rsp
variable {D : Type}

/-- The request phase of an operation with data leaves the responder waiting for it. -/
theorem handle_waits (dv : Dev D) (r : Rsp D) (q : List UInt8) (n : List Ev)
    (k : OpKind) (hk : dataKind k = true) : ∃ r', r.handle dv q n k = .ok r' ∧ r'.st = r.st ∧ r'.req = r.req := by
  cases k <;> simp [dataKind] at hk
  · exact ⟨_, rfl, rfl, rfl⟩
  · refine ⟨_, rfl, ?_⟩
    unfold sendObjectReq
    split
    · split <;> exact ⟨rfl, rfl⟩
    · exact ⟨rfl, rfl⟩
  · refine ⟨_, rfl, ?_⟩
    unfold propListReq
    split
    · split
      · split <;> exact ⟨rfl, rfl⟩
      · exact ⟨rfl, rfl⟩
    · exact ⟨rfl, rfl⟩
  · refine ⟨_, rfl, ?_⟩
    unfold partialReq
    split
    · split
      · exact ⟨rfl, rfl⟩
      · split <;> exact ⟨rfl, rfl⟩
    · exact ⟨rfl, rfl⟩
  · exact ⟨_, rfl, rfl, rfl⟩

/-- Between two busy states nothing is announced. -/
theorem setState_busy (r : Rsp D) (s : RState) (h : r.st ≠ .idle) (hs : s ≠ .idle) :
    r.setState s = { r with st := s } := by
  unfold setState
  by_cases e : r.st = s
  · rw [if_pos e, ← e]
  · rw [if_neg e]
    simp [h, hs]

theorem receive_data (dv : Dev D) (r : Rsp D) (q b : List UInt8) (f l : Bool) (n : List Ev)
    (hst : r.st = .waitData) (hq : r.req = some q) :
    r.receive dv b f l n = (if f then r.emit .statusBusy else r).dataPacket dv q b f l := by
  unfold Rsp.receive
  rw [hst]
  simp only
  split
  · next hn => rw [hq] at hn; simp at hn
  · next q' hq' =>
    have : q' = q := by rw [hq] at hq'; exact (Option.some.inj hq').symm
    subst this
    rfl

end Rsp
end Mtp
