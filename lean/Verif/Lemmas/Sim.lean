import Verif.Lemmas.Closed
import Verif.Spec.Through
/-!
The responder is the same whatever is behind it: if the storages behind one responder look, through `f`, like those behind another
for the calls the responder makes, the two responders do the same.
-/
namespace Mtp
namespace Rsp
variable {D E : Type}

/-- Results. -/
def viaRes (f : D → E) (x : Res (Rsp D)) : Res (Rsp E) :=
  match x with
  | .ok r => .ok (r.via f)
  | .ub w => .ub w

variable {f : D → E}

@[simp] theorem viaRes_ok (r : Rsp D) : viaRes f (.ok r) = .ok (r.via f) := rfl
@[simp] theorem viaRes_ub (w : UB) : viaRes f (.ub w : Res (Rsp D)) = .ub w := rfl

@[simp] theorem via_st (r : Rsp D) : (r.via f).st = r.st := rfl
@[simp] theorem via_prev (r : Rsp D) : (r.via f).prev = r.prev := rfl
@[simp] theorem via_session (r : Rsp D) : (r.via f).session = r.session := rfl
@[simp] theorem via_req (r : Rsp D) : (r.via f).req = r.req := rfl
@[simp] theorem via_resp (r : Rsp D) : (r.via f).resp = r.resp := rfl
@[simp] theorem via_dataC (r : Rsp D) : (r.via f).dataC = r.dataC := rfl
@[simp] theorem via_ready (r : Rsp D) : (r.via f).ready = r.ready := rfl
@[simp] theorem via_waitBuf (r : Rsp D) : (r.via f).waitBuf = r.waitBuf := rfl
@[simp] theorem via_waitDone (r : Rsp D) : (r.via f).waitDone = r.waitDone := rfl
@[simp] theorem via_sendSeq (r : Rsp D) : (r.via f).sendSeq = r.sendSeq := rfl
@[simp] theorem via_propList (r : Rsp D) : (r.via f).propList = r.propList := rfl
@[simp] theorem via_edit (r : Rsp D) : (r.via f).edit = r.edit := rfl
@[simp] theorem via_resend (r : Rsp D) : (r.via f).resend = r.resend := rfl
@[simp] theorem via_dev (r : Rsp D) : (r.via f).dev = f r.dev := rfl
@[simp] theorem via_out (r : Rsp D) : (r.via f).out = r.out := rfl

theorem via_emit (r : Rsp D) (o : Out) : (r.via f).emit o = (r.emit o).via f := rfl

theorem via_setState (r : Rsp D) (s : RState) : (r.via f).setState s = (r.setState s).via f := by
  unfold setState
  rw [via_st]
  by_cases h : r.st = s
  · simp only [if_pos h]
  · simp only [if_neg h]
    by_cases h1 : (r.st ≠ .idle) = (s ≠ .idle)
    · simp only [if_pos h1]; rfl
    · simp only [if_neg h1]
      by_cases h2 : s ≠ .idle
      · simp only [if_pos h2]; rfl
      · simp only [if_neg h2]; rfl

theorem via_deleteStored (r : Rsp D) : (r.via f).deleteStored = r.deleteStored.via f := rfl

theorem via_send (r : Rsp D) (o : Out) : (r.via f).send o = ((r.send o).1.via f, (r.send o).2) := by
  unfold send
  rw [via_st]
  by_cases h : r.st = .txCancel ∧ o.isEvent = false
  · simp only [if_pos h]
  · simp only [if_neg h]
    by_cases h1 : r.st = .suspend
    · simp only [if_pos h1]
      cases o.isEvent <;> rfl
    · simp only [if_neg h1]
      by_cases h2 : o.isResponse = true
      · simp only [if_pos h2, via_setState]; rfl
      · simp only [if_neg h2]; rfl

theorem via_reply (r : Rsp D) (c : Resp) : (r.via f).reply c = (r.reply c).via f := by
  unfold reply
  rw [via_req]
  cases r.req with
  | none => rfl
  | some q => simp only [via_send]

theorem via_reply1 (r : Rsp D) (c : Resp) (p : Nat) : (r.via f).reply1 c p = viaRes f (r.reply1 c p) := by
  unfold reply1
  rw [via_req]
  cases r.req with
  | none => rfl
  | some q => simp only [via_send, viaRes_ok]

theorem via_replyP (r : Rsp D) (c : Resp) (ps : List Nat) : (r.via f).replyP c ps = viaRes f (r.replyP c ps) := by
  cases ps with
  | nil => simp only [replyP, via_reply, viaRes_ok]
  | cons p ps => exact via_reply1 r c p

theorem via_sendReply (r : Rsp D) (q : List UInt8) (p : Reply) :
    (r.via f).sendReply q p = viaRes f (r.sendReply q p) := by
  obtain ⟨fr, rs⟩ := p
  cases fr with
  | nil =>
    cases rs with
    | none => rfl
    | some x => exact via_replyP r _ _
  | cons x rest =>
    obtain ⟨d, l⟩ := x
    simp only [sendReply, via_send]
    cases hs : (r.send (.data (cCode q) (cTid q) d l)).2 with
    | false =>
      have e : r.send (.data (cCode q) (cTid q) d l) = ((r.send (.data (cCode q) (cTid q) d l)).1, false) := Prod.ext rfl hs
      rw [e]; rfl
    | true =>
      have e : r.send (.data (cCode q) (cTid q) d l) = ((r.send (.data (cCode q) (cTid q) d l)).1, true) := Prod.ext rfl hs
      rw [e]
      cases rs with
      | none => rfl
      | some x => exact via_replyP ({ (r.send (.data (cCode q) (cTid q) d l)).1 with
            out := (r.send (.data (cCode q) (cTid q) d l)).1.out ++ rest.map fun f => .more f.1 f.2 }) _ _

theorem via_closeSession (r : Rsp D) : (r.via f).closeSession = r.closeSession.via f := by
  unfold closeSession
  have e : ({ r.via f with session := 0 } : Rsp E).deleteStored = ({ r with session := 0 } : Rsp D).deleteStored.via f := rfl
  rw [e, via_setState]; rfl

theorem via_handleSuspend (r : Rsp D) : (r.via f).handleSuspend = r.handleSuspend.via f := by
  unfold handleSuspend
  exact via_setState { r with prev := r.st } _

theorem via_handleResume (r : Rsp D) : (r.via f).handleResume = r.handleResume.via f := by
  unfold handleResume
  simp only [via_setState]
  rw [via_prev, via_resend]
  cases (r.setState r.prev).resend with
  | none => rfl
  | some o =>
    rw [via_st]
    by_cases h : (r.setState r.prev).st = .txCancel
    · simp only [if_pos h]; rfl
    · simp only [if_neg h]; rfl

theorem via_copyEnd (r : Rsp D) (c : Resp) (h : Nat) : (r.via f).copyEnd c h = viaRes f (r.copyEnd c h) := by
  unfold copyEnd
  rw [via_st]
  by_cases h : r.st = .txCancel
  · simp only [if_pos h]; rfl
  · simp only [if_neg h, via_reply1]

theorem via_dataEnd (r : Rsp D) (c : Resp) (l : Bool) : (r.via f).dataEnd c l = (r.dataEnd c l).via f := by
  unfold dataEnd
  cases l with
  | false => rfl
  | true => exact via_reply { r with resp := c } c

theorem via_accumulate (r : Rsp D) (b : List UInt8) (x : Bool) : (r.via f).accumulate b x = (r.accumulate b x).via f := by
  unfold accumulate
  cases x with
  | true => rfl
  | false =>
    simp only [Bool.false_eq_true, if_false]
    rw [via_dataC]
    cases r.dataC with
    | none => rfl
    | some a =>
      by_cases h : a.length + b.length ≤ cLen a
      · simp only [if_pos h]; rfl
      · simp only [if_neg h]

theorem via_uploadHandle (r : Rsp D) : (r.via f).uploadHandle = r.uploadHandle := rfl
theorem via_cancelTarget (r : Rsp D) : (r.via f).cancelTarget = r.cancelTarget := rfl
theorem via_dataCheck (r : Rsp D) (q : List UInt8) : (r.via f).dataCheck q = r.dataCheck q := rfl

theorem via_partialReq (r : Rsp D) (q : List UInt8) : (r.via f).partialReq q = (r.partialReq q).via f := by
  unfold partialReq
  rw [via_session, via_edit]
  cases preCheck r.session (cTid q) <;> try rfl
  cases r.edit with
  | none => rfl
  | some e =>
    by_cases h : e.handle ≠ cParam q 0
    · simp only [if_pos h]; rfl
    · simp only [if_neg h]; rfl

theorem via_sendObjectReq (r : Rsp D) (q : List UInt8) : (r.via f).sendObjectReq q = (r.sendObjectReq q).via f := by
  unfold sendObjectReq
  rw [via_session, via_sendSeq, via_propList]
  cases preCheck r.session (cTid q) <;> try rfl
  by_cases h : r.sendSeq.isNone = true ∧ r.propList.isNone = true
  · simp only [if_pos h]; rfl
  · simp only [if_neg h]; rfl

theorem via_openSessionReq (r : Rsp D) (q : List UInt8) : (r.via f).openSessionReq q = viaRes f (r.openSessionReq q) := by
  unfold openSessionReq
  rw [via_session]
  by_cases h : cParam q 0 = 0
  · simp only [if_pos h, via_reply, viaRes_ok]
  · simp only [if_neg h]
    by_cases h1 : r.session ≠ 0
    · simp only [if_pos h1, via_reply1]
    · simp only [if_neg h1, viaRes_ok]
      exact congrArg Res.ok (congrArg (fun x : Rsp E => x.emit (.session true)) (via_reply { r with session := cParam q 0 } .ok))

/-- Responses and the like change neither what is behind the responder nor what is announced, except that they can forget it. -/
structure Keeps (r r' : Rsp D) : Prop where
  dev : r'.dev = r.dev
  req : r'.req = r.req ∨ r'.req = none
  seq : r'.sendSeq = r.sendSeq ∨ r'.sendSeq = none
  list : r'.propList = r.propList ∨ r'.propList = none
  edit : r'.edit = r.edit

theorem Keeps.rfl {r : Rsp D} : Keeps r r := ⟨Eq.refl _, Or.inl (Eq.refl _), Or.inl (Eq.refl _), Or.inl (Eq.refl _), Eq.refl _⟩

theorem Keeps.trans {a b c : Rsp D} (h : Keeps a b) (k : Keeps b c) : Keeps a c :=
  ⟨k.dev.trans h.dev, k.req.elim (fun e => e ▸ h.req) Or.inr, k.seq.elim (fun e => e ▸ h.seq) Or.inr,
    k.list.elim (fun e => e ▸ h.list) Or.inr, k.edit.trans h.edit⟩

theorem Keeps.bnd {P : D → Prop} {r r' : Rsp D} (k : Keeps r r') (b : P r'.dev) : P r.dev := by rw [← k.dev]; exact b

theorem keeps_emit (r : Rsp D) (o : Out) : Keeps r (r.emit o) :=
  ⟨rfl, Or.inl rfl, Or.inl rfl, Or.inl rfl, rfl⟩

theorem keeps_setState (r : Rsp D) (s : RState) : Keeps r (r.setState s) := by
  unfold setState
  split
  · exact .rfl
  · simp only
    split
    · exact ⟨rfl, Or.inl rfl, Or.inl rfl, Or.inl rfl, rfl⟩
    · split <;> exact ⟨rfl, Or.inl rfl, Or.inl rfl, Or.inl rfl, rfl⟩

theorem keeps_send (r : Rsp D) (o : Out) : Keeps r (r.send o).1 := by
  unfold send
  split
  · exact .rfl
  · split
    · split
      · exact .rfl
      · exact ⟨rfl, Or.inl rfl, Or.inl rfl, Or.inl rfl, rfl⟩
    · split
      · exact (((keeps_setState r .idle).trans (keeps_emit _ o)).trans (keeps_emit _ .statusOk)).trans
          ⟨rfl, Or.inr rfl, Or.inl rfl, Or.inl rfl, rfl⟩
      · exact keeps_emit ..

theorem keeps_reply (r : Rsp D) (c : Resp) : Keeps r (r.reply c) := by
  unfold reply
  split
  · exact .rfl
  · exact keeps_send ..

theorem keeps_reply1 {r r' : Rsp D} {c : Resp} {p : Nat} (h : r.reply1 c p = .ok r') : Keeps r r' := by
  unfold reply1 at h
  split at h
  · cases h
  · cases h; exact keeps_send ..

theorem keeps_replyP {r r' : Rsp D} {c : Resp} {ps : List Nat} (h : r.replyP c ps = .ok r') : Keeps r r' := by
  unfold replyP at h
  split at h
  · cases h; exact keeps_reply ..
  · exact keeps_reply1 h

theorem keeps_sendReply {r r' : Rsp D} {q : List UInt8} {p : Reply} (h : r.sendReply q p = .ok r') : Keeps r r' := by
  unfold sendReply at h
  split at h
  · split at h
    · cases h; exact .rfl
    · exact keeps_replyP h
  · next dd l rest hf =>
    have hs := keeps_send r (.data (cCode q) (cTid q) dd l)
    split at h
    · next r2 e => cases h; rw [e] at hs; exact hs
    · next r2 e =>
      rw [e] at hs
      have hm : Keeps r { r2 with out := r2.out ++ rest.map fun f => .more f.1 f.2 } :=
        hs.trans ⟨rfl, Or.inl rfl, Or.inl rfl, Or.inl rfl, rfl⟩
      simp only at h
      split at h
      · cases h; exact hm
      · exact hm.trans (keeps_replyP h)

theorem keeps_closeSession (r : Rsp D) : Keeps r r.closeSession := by
  unfold closeSession
  have h1 : Keeps r ({ r with session := 0 }.deleteStored) := ⟨rfl, Or.inr rfl, Or.inl rfl, Or.inl rfl, rfl⟩
  exact (h1.trans (keeps_setState _ .idle)).trans ⟨rfl, Or.inl rfl, Or.inr rfl, Or.inr rfl, rfl⟩

theorem keeps_resume (r : Rsp D) : Keeps r r.handleResume := by
  unfold handleResume
  simp only
  have h1 := keeps_setState r r.prev
  split
  · exact h1
  · split
    · exact h1.trans ⟨rfl, Or.inl rfl, Or.inl rfl, Or.inl rfl, rfl⟩
    · exact h1.trans ⟨rfl, Or.inl rfl, Or.inl rfl, Or.inl rfl, rfl⟩

theorem keeps_dataEnd (r : Rsp D) (c : Resp) (l : Bool) : Keeps r (r.dataEnd c l) := by
  unfold dataEnd
  simp only
  have h1 : Keeps r { r with resp := c } := ⟨rfl, Or.inl rfl, Or.inl rfl, Or.inl rfl, rfl⟩
  split
  · exact h1.trans (keeps_reply ..)
  · exact h1

theorem keeps_accumulate (r : Rsp D) (b : List UInt8) (x : Bool) : Keeps r (r.accumulate b x) := by
  unfold accumulate
  split
  · exact ⟨rfl, Or.inl rfl, Or.inl rfl, Or.inl rfl, rfl⟩
  · split
    · exact .rfl
    · split
      · exact ⟨rfl, Or.inl rfl, Or.inl rfl, Or.inl rfl, rfl⟩
      · exact .rfl

theorem keeps_copyEnd {r r' : Rsp D} {c : Resp} {x : Nat} (h : r.copyEnd c x = .ok r') : Keeps r r' := by
  unfold copyEnd at h
  split at h
  · cases h; exact .rfl
  · exact keeps_reply1 h

/-- `dv` seen through `f` is like `ev`, as long as `I` holds, for requests (operation and parameters) in `okq` and objects in `H`.
`I` is kept, at least if `B` holds afterwards. -/
structure Sim (dv : Dev D) (ev : Dev E) (f : D → E) (I B : D → Prop) (okq : Nat → List Nat → Prop) (H : Nat → Prop) : Prop where
  query : ∀ d c ps, I d → okq c ps → ev.query (f d) c ps = (f (dv.query d c ps).1, (dv.query d c ps).2) ∧
    (B (dv.query d c ps).1 → I (dv.query d c ps).1)
  copy : ∀ d ps x, I d → okq 0x101A ps → ev.copy (f d) ps x = (f (dv.copy d ps x).1, (dv.copy d ps x).2) ∧
    (B (dv.copy d ps x).1 → I (dv.copy d ps x).1)
  check : ∀ d c ps, I d → okq c ps → ev.check (f d) c ps = dv.check d c ps
  store : ∀ d c ps b, I d → okq c ps → ev.store (f d) c ps b = (f (dv.store d c ps b).1, (dv.store d c ps b).2) ∧
    (B (dv.store d c ps b).1 → I (dv.store d c ps b).1)
  listCheck : ∀ d ps, I d → okq 0x9808 ps → ev.listCheck (f d) ps = dv.listCheck d ps
  addInfo : ∀ d ps b, I d → okq 0x100C ps → ev.addInfo (f d) ps b = (f (dv.addInfo d ps b).1, (dv.addInfo d ps b).2) ∧
    (B (dv.addInfo d ps b).1 → I (dv.addInfo d ps b).1 ∧ ((dv.addInfo d ps b).2.1 = .ok → H (dv.addInfo d ps b).2.2.2))
  addList : ∀ d ps b, I d → okq 0x9808 ps → ev.addList (f d) ps b = (f (dv.addList d ps b).1, (dv.addList d ps b).2) ∧
    (B (dv.addList d ps b).1 → I (dv.addList d ps b).1 ∧ (H (dv.addList d ps b).2.2.2 ∨ (dv.addList d ps b).2.2.2 = 0))
  write : ∀ d h b x l, I d → H h → ev.write (f d) h b x l = (f (dv.write d h b x l).1, (dv.write d h b x l).2) ∧
    I (dv.write d h b x l).1
  cut : ∀ d h n, I d → H h → ev.truncate (f d) h n = (f (dv.truncate d h n).1, (dv.truncate d h n).2) ∧ I (dv.truncate d h n).1
  setProps : ∀ d h b, I d → H h → ev.setProps (f d) h b = f (dv.setProps d h b) ∧ I (dv.setProps d h b)
  writePartial : ∀ d h o b x l, I d → H h →
    ev.writePartial (f d) h o b x l = (f (dv.writePartial d h o b x l).1, (dv.writePartial d h o b x l).2) ∧
    I (dv.writePartial d h o b x l).1
  delete : ∀ d h, I d → H h → ev.delete (f d) h = (f (dv.delete d h).1, (dv.delete d h).2) ∧ I (dv.delete d h).1
  handleOk : ∀ d ps, I d → okq 0x95C4 ps → ev.handleOk (f d) (ps.getD 0 0) = dv.handleOk d (ps.getD 0 0) ∧ H (ps.getD 0 0)
  flush : ∀ d h, I d → H h → ev.flush (f d) h = f (dv.flush d h) ∧ I (dv.flush d h)
  setEvents : ∀ d h b, I d → H h → ev.setEvents (f d) h b = f (dv.setEvents d h b) ∧ I (dv.setEvents d h b)
  eventsOff : ∀ d, I d → ev.eventsOff (f d) = f (dv.eventsOff d) ∧ I (dv.eventsOff d)
  eventsOn : ∀ d h, I d → ev.eventsOn (f d) h = dv.eventsOn d h

/-- Everything announced or asked for concerns only these objects. -/
structure Good (I : D → Prop) (okq : Nat → List Nat → Prop) (H : Nat → Prop) (r : Rsp D) : Prop where
  dev : I r.dev
  req : ∀ q, r.req = some q → okq (cCode q) (cParams q)
  seq : ∀ s, r.sendSeq = some s → H s.handle
  list : ∀ p, r.propList = some p → (H p.handle ∨ p.handle = 0) ∧ okq 0x9808 p.params
  edit : ∀ e, r.edit = some e → H e.handle

variable {dv : Dev D} {ev : Dev E} {I B : D → Prop} {okq : Nat → List Nat → Prop} {H : Nat → Prop}

theorem Good.of {r r' : Rsp D} (g : Good I okq H r) (k : Keeps r r') : Good I okq H r' :=
  ⟨k.dev ▸ g.dev, (fun q e => k.req.elim (fun x => g.req q (x ▸ e)) (fun x => by rw [x] at e; cases e)),
    (fun q e => k.seq.elim (fun x => g.seq q (x ▸ e)) (fun x => by rw [x] at e; cases e)),
    (fun q e => k.list.elim (fun x => g.list q (x ▸ e)) (fun x => by rw [x] at e; cases e)),
    (fun q e => g.edit q (k.edit ▸ e))⟩

theorem Good.to {r : Rsp D} (g : Good I okq H r) {d : D} (h : I d) : Good I okq H { r with dev := d } :=
  ⟨h, g.req, g.seq, g.list, g.edit⟩

/-- The two responders did the same, and `Good` is kept if `B` holds. -/
def Match (f : D → E) (I B : D → Prop) (okq : Nat → List Nat → Prop) (H : Nat → Prop) (x : Res (Rsp E)) (y : Res (Rsp D)) : Prop :=
  x = viaRes f y ∧ ∀ r', y = .ok r' → B r'.dev → Good I okq H r'

theorem Match.good {x : Rsp E} {y : Rsp D} (h : x = y.via f) (g : Good I okq H y) : Match f I B okq H (.ok x) (.ok y) :=
  ⟨congrArg _ h, fun r' e _ => by cases e; exact g⟩

theorem Match.weak {x : Rsp E} {y : Rsp D} (h : x = y.via f) (g : B y.dev → Good I okq H y) : Match f I B okq H (.ok x) (.ok y) :=
  ⟨congrArg _ h, fun r' e b => by cases e; exact g b⟩

/-- A responder after a call on the storages. -/
theorem via_with (r : Rsp D) (d : D) : ({ r.via f with dev := f d } : Rsp E) = ({ r with dev := d } : Rsp D).via f := rfl

variable (S : Sim dv ev f I B okq H)
include S

theorem sim_cancelUpload {r : Rsp D} (g : Good I okq H r) :
    (r.via f).cancelUpload ev = (r.cancelUpload dv).via f ∧ Good I okq H (r.cancelUpload dv) := by
  have fin : ∀ r1 : Rsp D, Good I okq H r1 →
      (if r1.propList.isSome = true then ({ r1.via f with propList := none } : Rsp E) else { r1.via f with sendSeq := none }) =
        (if r1.propList.isSome = true then ({ r1 with propList := none } : Rsp D) else { r1 with sendSeq := none }).via f ∧
      Good I okq H (if r1.propList.isSome = true then ({ r1 with propList := none } : Rsp D) else { r1 with sendSeq := none }) := by
    intro r1 g1
    by_cases h : r1.propList.isSome = true
    · rw [if_pos h, if_pos h]
      exact ⟨rfl, g1.of ⟨rfl, Or.inl rfl, Or.inl rfl, Or.inr rfl, rfl⟩⟩
    · rw [if_neg h, if_neg h]
      exact ⟨rfl, g1.of ⟨rfl, Or.inl rfl, Or.inr rfl, Or.inl rfl, rfl⟩⟩
  unfold cancelUpload
  by_cases h : r.cancelTarget = 0
  · rw [if_pos (show (r.via f).cancelTarget = 0 from h), if_pos h]
    exact fin r g
  · rw [if_neg (show ¬ (r.via f).cancelTarget = 0 from h), if_neg h]
    have hh : H r.cancelTarget := by
      unfold cancelTarget at h ⊢
      cases hp : r.propList with
      | some p =>
        simp only [hp] at h ⊢
        exact (g.list p hp).1.resolve_right h
      | none =>
        simp only [hp] at h ⊢
        cases hs : r.sendSeq with
        | none => simp [hs] at h
        | some s => simp only [hs] at h ⊢; exact g.seq s hs
    obtain ⟨e, i⟩ := S.delete r.dev r.cancelTarget g.dev hh
    rw [via_dev, via_cancelTarget, e]
    exact fin { r with dev := (dv.delete r.dev r.cancelTarget).1 } (g.to i)

theorem sim_ev {r : Rsp D} (g : Good I okq H r) (e : Ev) :
    (r.via f).handleEv ev e = (r.handleEv dv e).via f ∧ Good I okq H (r.handleEv dv e) := by
  cases e with
  | deviceReset =>
    refine ⟨?_, g.of ((keeps_closeSession r).trans (keeps_emit _ _))⟩
    simp only [handleEv, via_closeSession, via_emit]
  | cleanup => exact ⟨via_closeSession r, g.of (keeps_closeSession r)⟩
  | suspend =>
    refine ⟨via_handleSuspend r, g.of ?_⟩
    have : Keeps r { r with prev := r.st } := ⟨rfl, Or.inl rfl, Or.inl rfl, Or.inl rfl, rfl⟩
    exact this.trans (keeps_setState _ _)
  | resume => exact ⟨via_handleResume r, g.of (keeps_resume r)⟩
  | cancel =>
    simp only [handleEv, handleCancel]
    rw [via_req]
    cases r.req with
    | none => exact ⟨rfl, g.of (keeps_emit _ _)⟩
    | some q =>
      simp only [via_setState]
      have g1 := g.of (keeps_setState r .txCancel)
      have h2 : (if cCode q = 0x100D ∨ cCode q = 0x9808 ∨ cCode q = 0x100C
            then ((r.setState .txCancel).via f).cancelUpload ev else (r.setState .txCancel).via f) =
          (if cCode q = 0x100D ∨ cCode q = 0x9808 ∨ cCode q = 0x100C
            then (r.setState .txCancel).cancelUpload dv else r.setState .txCancel).via f ∧
          Good I okq H (if cCode q = 0x100D ∨ cCode q = 0x9808 ∨ cCode q = 0x100C
            then (r.setState .txCancel).cancelUpload dv else r.setState .txCancel) := by
        by_cases hc : cCode q = 0x100D ∨ cCode q = 0x9808 ∨ cCode q = 0x100C
        · rw [if_pos hc, if_pos hc]; exact sim_cancelUpload S g1
        · rw [if_neg hc, if_neg hc]; exact ⟨rfl, g1⟩
      rw [h2.1]
      refine ⟨rfl, h2.2.of ?_⟩
      exact Keeps.trans (b := deleteStored _) ⟨rfl, Or.inr rfl, Or.inl rfl, Or.inl rfl, rfl⟩ (keeps_emit _ _)

theorem sim_evs (es : List Ev) : ∀ {r : Rsp D}, Good I okq H r →
    es.foldl (handleEv ev) (r.via f) = (es.foldl (handleEv dv) r).via f ∧ Good I okq H (es.foldl (handleEv dv) r) := by
  induction es with
  | nil => intro r g; exact ⟨rfl, g⟩
  | cons e es ih =>
    intro r g
    have h := sim_ev S g e
    simp only [List.foldl_cons, h.1]
    exact ih h.2

theorem sim_query {r : Rsp D} (g : Good I okq H r) (q : List UInt8) (hq : okq (cCode q) (cParams q)) (stop : Reply → Bool) :
    Match f I B okq H
      (if stop (ev.query (f r.dev) (cCode q) (cParams q)).2 then
          .ok { r.via f with dev := (ev.query (f r.dev) (cCode q) (cParams q)).1 }
        else ({ r.via f with dev := (ev.query (f r.dev) (cCode q) (cParams q)).1 } : Rsp E).sendReply q
          (ev.query (f r.dev) (cCode q) (cParams q)).2)
      (if stop (dv.query r.dev (cCode q) (cParams q)).2 then .ok { r with dev := (dv.query r.dev (cCode q) (cParams q)).1 }
        else ({ r with dev := (dv.query r.dev (cCode q) (cParams q)).1 } : Rsp D).sendReply q
          (dv.query r.dev (cCode q) (cParams q)).2) := by
  obtain ⟨e, i⟩ := S.query r.dev _ _ g.dev hq
  rw [e]
  simp only
  by_cases h : stop (dv.query r.dev (cCode q) (cParams q)).2 = true
  · simp only [if_pos h]
    exact .weak rfl fun b => g.to (i b)
  · simp only [if_neg h]
    refine ⟨via_sendReply ({ r with dev := (dv.query r.dev (cCode q) (cParams q)).1 }) _ _, fun r' e b => ?_⟩
    have k := keeps_sendReply e
    exact (g.to (i (k.bnd b))).of k

theorem sim_handle {r : Rsp D} (g : Good I okq H r) (q : List UInt8) (n : List Ev) (hq : okq (cCode q) (cParams q)) (k : OpKind)
    (hk : opKind (cCode q) = some k) :
    Match f I B okq H ((r.via f).handle ev q n k) (r.handle dv q n k) := by
  obtain ⟨k1, k2, k3, k4, k5, k6, k7, k8, k9⟩ := kind_code hk
  have hquery := fun stop => sim_query S g q hq stop
  have rep : ∀ c, Match f I B okq H (.ok ((r.via f).reply c)) (.ok (r.reply c)) :=
    fun c => .good (via_reply r c) (g.of (keeps_reply r c))
  cases k with
  | deviceInfo => exact hquery fun _ => false
  | openSession =>
    refine ⟨via_openSessionReq r q, fun r' e _ => ?_⟩
    simp only [handle, openSessionReq] at e
    split at e
    · cases e; exact g.of (keeps_reply ..)
    · split at e
      · exact g.of (keeps_reply1 e)
      · cases e
        have : Keeps r { r with session := cParam q 0 } := ⟨rfl, Or.inl rfl, Or.inl rfl, Or.inl rfl, rfl⟩
        exact g.of ((this.trans (keeps_reply _ _)).trans (keeps_emit _ _))
  | closeSession =>
    simp only [handle, closeSessionReq]
    rw [via_session]
    by_cases h : r.session = 0
    · simp only [if_pos h]; exact rep _
    · simp only [if_neg h]
      rw [via_dev]
      obtain ⟨e, i⟩ := S.eventsOff r.dev g.dev
      rw [e]
      refine .good (via_reply (({ r with session := 0, sendSeq := none, propList := none, dev := dv.eventsOff r.dev } : Rsp D).emit
        (.session false)) .ok) ?_
      refine ((g.to i).of ?_).of (keeps_reply _ _)
      exact ⟨rfl, Or.inl rfl, Or.inr rfl, Or.inr rfl, rfl⟩
  | propsSupported =>
    simp only [handle]
    rw [via_dev]
    cases preCheck 1 (cTid q) <;> first | exact rep _ | exact hquery fun _ => false
  | thumb =>
    simp only [handle]
    rw [via_dev, via_session]
    cases preCheck r.session (cTid q) <;> first
      | exact .good rfl g
      | (have := hquery fun p => decide (p.frames = [])
         simp only [decide_eq_true_eq] at this
         exact this)
  | query ps =>
    simp only [handle]
    rw [via_dev, via_session]
    have rp : ∀ c, Match f I B okq H ((r.via f).replyP c ps) (r.replyP c ps) :=
      fun c => ⟨via_replyP r c ps, fun r' e _ => g.of (keeps_replyP e)⟩
    cases preCheck r.session (cTid q) <;> first | exact rp _ | exact hquery fun _ => false
  | copy =>
    have hok : okq 0x101A (cParams q) := by rw [← k2 rfl]; exact hq
    have ce : ∀ c x, Match f I B okq H ((r.via f).copyEnd c x) (r.copyEnd c x) :=
      fun c x => ⟨via_copyEnd r c x, fun r' e _ => g.of (keeps_copyEnd e)⟩
    simp only [handle, copyReq]
    rw [via_session]
    cases preCheck r.session (cTid q) <;> try exact ce _ _
    obtain ⟨e1, g1⟩ := sim_evs S n g
    simp only [e1]
    generalize n.foldl (handleEv dv) r = r1 at *
    rw [via_dev, via_st]
    obtain ⟨e, i⟩ := S.copy r1.dev (cParams q) (decide (r1.st = .txCancel)) g1.dev hok
    show Match f I B okq H (({ r1.via f with dev := (ev.copy (f r1.dev) (cParams q) (decide (r1.st = .txCancel))).1 } : Rsp E).copyEnd
      (ev.copy (f r1.dev) (cParams q) (decide (r1.st = .txCancel))).2.1
      (ev.copy (f r1.dev) (cParams q) (decide (r1.st = .txCancel))).2.2) _
    rw [e]
    refine ⟨via_copyEnd ({ r1 with dev := (dv.copy r1.dev (cParams q) (decide (r1.st = .txCancel))).1 }) _ _, fun r' e b => ?_⟩
    have k := keeps_copyEnd e
    exact (g1.to (i (k.bnd b))).of k
  | skip => exact rep _
  | refused => exact rep _
  | sendInfo => exact .good rfl (g.of ⟨rfl, Or.inl rfl, Or.inl rfl, Or.inl rfl, rfl⟩)
  | sendObject =>
    refine .good (via_sendObjectReq r q) (g.of ?_)
    unfold sendObjectReq
    split
    · split <;> exact ⟨rfl, Or.inl rfl, Or.inl rfl, Or.inl rfl, rfl⟩
    · exact ⟨rfl, Or.inl rfl, Or.inl rfl, Or.inl rfl, rfl⟩
  | sendPropList =>
    have hok : okq 0x9808 (cParams q) := by rw [← k5 rfl]; exact hq
    have st : ∀ c, Match f I B okq H (.ok { r.via f with resp := c }) (.ok { r with resp := c }) :=
      fun c => .good rfl (g.of ⟨rfl, Or.inl rfl, Or.inl rfl, Or.inl rfl, rfl⟩)
    simp only [handle, propListReq]
    rw [via_session, via_dev]
    cases preCheck r.session (cTid q) <;> try exact st _
    rw [S.listCheck r.dev (cParams q) g.dev hok]
    cases dv.listCheck r.dev (cParams q) <;> try exact st _
    simp only
    by_cases h : cParam q 3 ≠ 0
    · simp only [if_pos h]; exact st _
    · simp only [if_neg h]
      exact .good rfl ⟨g.dev, g.req, g.seq, (fun p e => by cases e; exact ⟨Or.inr rfl, hok⟩), g.edit⟩
  | sendPartial =>
    refine .good (via_partialReq r q) ?_
    unfold partialReq
    split
    · split
      · exact g.of ⟨rfl, Or.inl rfl, Or.inl rfl, Or.inl rfl, rfl⟩
      · next e he =>
        split
        · exact g.of ⟨rfl, Or.inl rfl, Or.inl rfl, Or.inl rfl, rfl⟩
        · exact ⟨g.dev, g.req, g.seq, g.list, fun e' h' => by cases h'; exact g.edit e he⟩
    · exact g.of ⟨rfl, Or.inl rfl, Or.inl rfl, Or.inl rfl, rfl⟩
  | set c =>
    have hc : ev.check (f r.dev) (cCode q) (cParams q) = dv.check r.dev (cCode q) (cParams q) := S.check _ _ _ g.dev hq
    have st : ∀ x, Match f I B okq H (.ok { r.via f with resp := x }) (.ok { r with resp := x }) :=
      fun x => .good rfl (g.of ⟨rfl, Or.inl rfl, Or.inl rfl, Or.inl rfl, rfl⟩)
    unfold handle
    rw [via_session, via_dev, hc]
    exact st _
  | truncate =>
    simp only [handle, truncateReq]
    rw [via_session, via_edit, via_dev]
    cases preCheck r.session (cTid q) <;> try exact rep _
    cases he : r.edit with
    | none => exact rep _
    | some e =>
      simp only
      by_cases h : e.handle ≠ cParam q 0
      · simp only [if_pos h]; exact rep _
      · simp only [if_neg h]
        have hh : H (cParam q 0) := by
          have := g.edit e he
          rw [Decidable.not_not.mp h] at this
          exact this
        obtain ⟨e1, i⟩ := S.cut r.dev (cParam q 0) (cParam q 2 * 4294967296 + cParam q 1) g.dev hh
        show Match f I B okq H (.ok (({ r.via f with
            edit := some e, dev := (ev.truncate (f r.dev) (cParam q 0) (cParam q 2 * 4294967296 + cParam q 1)).1 } : Rsp E).reply
          (ev.truncate (f r.dev) (cParam q 0) (cParam q 2 * 4294967296 + cParam q 1)).2)) _
        rw [e1]
        refine .good (via_reply ({ r with
          edit := some e, dev := (dv.truncate r.dev (cParam q 0) (cParam q 2 * 4294967296 + cParam q 1)).1 }) _) (Good.of ?_ (keeps_reply _ _))
        exact ⟨i, g.req, g.seq, g.list, fun e' h' => by cases h'; exact g.edit e he⟩
  | beginEdit =>
    have hok : okq 0x95C4 (cParams q) := by rw [← k8 rfl]; exact hq
    simp only [handle, beginEditReq]
    rw [via_session, via_dev]
    cases preCheck r.session (cTid q) <;> try exact rep _
    obtain ⟨e, hh⟩ := S.handleOk r.dev (cParams q) g.dev hok
    have e' : ev.handleOk (f r.dev) (cParam q 0) = dv.handleOk r.dev (cParam q 0) := e
    have hh' : H (cParam q 0) := hh
    simp only [e']
    cases dv.handleOk r.dev (cParam q 0) <;> try exact rep _
    obtain ⟨e1, i⟩ := S.setEvents r.dev (cParam q 0) false g.dev hh'
    simp only [e1]
    refine .good (via_reply ({ r with edit := some ⟨cParam q 0, 0⟩, dev := dv.setEvents r.dev (cParam q 0) false }) _) ?_
    refine Good.of ?_ (keeps_reply _ _)
    exact ⟨i, g.req, g.seq, g.list, fun e' h' => by cases h'; exact hh'⟩
  | endEdit =>
    simp only [handle, endEditReq]
    rw [via_session, via_edit, via_dev]
    cases preCheck r.session (cTid q) <;> try exact rep _
    cases he : r.edit with
    | none => exact rep _
    | some e =>
      simp only
      by_cases h : e.handle ≠ cParam q 0
      · simp only [if_pos h]; exact rep _
      · simp only [if_neg h]
        have hh : H (cParam q 0) := by
          have := g.edit e he
          rw [Decidable.not_not.mp h] at this
          exact this
        obtain ⟨e1, i1⟩ := S.flush r.dev (cParam q 0) g.dev hh
        obtain ⟨e2, i2⟩ := S.setEvents _ (cParam q 0) true i1 hh
        rw [e1, e2]
        refine .good (via_reply ({ r with
          edit := none, dev := dv.setEvents (dv.flush r.dev (cParam q 0)) (cParam q 0) true }) _) ?_
        refine Good.of ?_ (keeps_reply _ _)
        exact ⟨i2, g.req, g.seq, g.list, fun e' h' => by cases h'⟩

theorem sim_command {r : Rsp D} (g : Good I okq H r) (n : List Ev) :
    Match f I B okq H ((r.via f).command ev n) (r.command dv n) := by
  unfold command
  rw [via_req]
  cases hq : r.req with
  | none => exact ⟨rfl, fun r' e => by cases e⟩
  | some q =>
    have key : ∀ r1 : Rsp D, Good I okq H r1 → Match f I B okq H
        (if r1.ready = false ∧ needsStorage (cCode q) = true then
            .ok { ((r1.via f).setState .waitStorage) with waitBuf := [], waitDone := false }
          else match opKind (cCode q) with
            | some k => (r1.via f).handle ev q n k
            | none => .ok ((r1.via f).reply .operationNotSupported))
        (if r1.ready = false ∧ needsStorage (cCode q) = true then
            .ok { (r1.setState .waitStorage) with waitBuf := [], waitDone := false }
          else match opKind (cCode q) with
            | some k => r1.handle dv q n k
            | none => .ok (r1.reply .operationNotSupported)) := by
      intro r1 g1
      by_cases h : r1.ready = false ∧ needsStorage (cCode q) = true
      · rw [if_pos h, if_pos h, via_setState]
        exact .good rfl ((g1.of (keeps_setState _ _)).of ⟨rfl, Or.inl rfl, Or.inl rfl, Or.inl rfl, rfl⟩)
      · rw [if_neg h, if_neg h]
        cases hk : opKind (cCode q) with
        | none => exact .good (via_reply r1 _) (g1.of (keeps_reply _ _))
        | some k => exact sim_handle S g1 q n (g.req q hq) k hk
    have g1 : Good I okq H { r with req := some q, resp := .ok } :=
      ⟨g.dev, (fun q' e => by cases e; exact g.req q hq), g.seq, g.list, g.edit⟩
    exact key { r with req := some q, resp := .ok } g1

theorem sim_uploadCheck {r : Rsp D} (g : Good I okq H r) (h n : Nat) (hh : H h) (l : Bool) :
    (r.via f).uploadCheck ev h n l = ((r.uploadCheck dv h n l).1.via f, (r.uploadCheck dv h n l).2) ∧
    Good I okq H (r.uploadCheck dv h n l).1 := by
  obtain ⟨e, i⟩ := S.cut r.dev h 0 g.dev hh
  obtain ⟨st, prev, session, req, resp, dataC, ready, wb, wd, seq, list, edit, resend, dev, out⟩ := r
  cases list with
  | some p =>
    have g1 : Good I okq H (⟨st, prev, session, req, resp, dataC, ready, wb, wd, seq, some { p with curr := p.curr + n }, edit, resend,
        dev, out⟩ : Rsp D) := ⟨g.dev, g.req, g.seq, (fun p' e => by cases e; exact g.list p rfl), g.edit⟩
    by_cases h1 : p.size > p.curr + n
    · cases l with
      | true =>
        simp only [uploadCheck, via, if_pos h1, if_true] at e ⊢
        rw [e]; exact ⟨rfl, g1.to i⟩
      | false =>
        simp only [uploadCheck, via, if_pos h1]
        exact ⟨rfl, g1⟩
    · simp only [uploadCheck, via, if_neg h1]
      exact ⟨trivial, g1⟩
  | none =>
    cases seq with
    | none => exact ⟨rfl, g⟩
    | some s =>
      have g1 : Good I okq H (⟨st, prev, session, req, resp, dataC, ready, wb, wd, some { s with written := u32 (s.written + n) }, none,
          edit, resend, dev, out⟩ : Rsp D) := ⟨g.dev, g.req, (fun s' e => by cases e; exact g.seq s rfl), g.list, g.edit⟩
      by_cases h1 : s.size > u32 (s.written + n)
      · cases l with
        | true =>
          simp only [uploadCheck, via, if_pos h1, if_true] at e ⊢
          rw [e]; exact ⟨rfl, g1.to i⟩
        | false =>
          simp only [uploadCheck, via, if_pos h1]
          exact ⟨rfl, g1⟩
      · simp only [uploadCheck, via, if_neg h1]
        exact ⟨trivial, g1⟩

theorem sim_uploadEnd {r : Rsp D} (g : Good I okq H r) (h : Nat) (hh : H h) (c : Resp) :
    (r.via f).uploadEnd ev h c = (r.uploadEnd dv h c).via f ∧ Good I okq H (r.uploadEnd dv h c) := by
  have close : ∀ r1 : Rsp D, Good I okq H r1 →
      ({ (({ r1.via f with dev := (ev.write (f r1.dev) h none false true).1 } : Rsp E).reply c) with propList := none } : Rsp E) =
        ({ (({ r1 with dev := (dv.write r1.dev h none false true).1 } : Rsp D).reply c) with propList := none } : Rsp D).via f ∧
      Good I okq H { (({ r1 with dev := (dv.write r1.dev h none false true).1 } : Rsp D).reply c) with propList := none } := by
    intro r1 g1
    obtain ⟨e, i⟩ := S.write r1.dev h none false true g1.dev hh
    rw [e]
    have e2 := via_reply (f := f) ({ r1 with dev := (dv.write r1.dev h none false true).1 }) c
    have e3 : ({ r1.via f with dev := f (dv.write r1.dev h none false true).1 } : Rsp E).reply c =
      (({ r1 with dev := (dv.write r1.dev h none false true).1 } : Rsp D).reply c).via f := e2
    simp only [e3]
    exact ⟨rfl, ((g1.to i).of (keeps_reply _ _)).of ⟨rfl, Or.inl rfl, Or.inl rfl, Or.inr rfl, rfl⟩⟩
  have g0 : Good I okq H { r with sendSeq := none } := g.of ⟨rfl, Or.inl rfl, Or.inr rfl, Or.inl rfl, rfl⟩
  cases hp : r.propList with
  | none =>
    have e1 : ∀ (dv : Dev D), r.uploadEnd dv h c = { (({ r with
        sendSeq := none, dev := (dv.write r.dev h none false true).1 } : Rsp D).reply c) with propList := none } := by
      intro dv; unfold uploadEnd; simp only [hp]
    have e2 : (r.via f).uploadEnd ev h c = { (({ r.via f with
        sendSeq := none, dev := (ev.write (f r.dev) h none false true).1 } : Rsp E).reply c) with propList := none } := by
      unfold uploadEnd; simp only [via, hp]
    rw [e1, e2]
    exact close _ g0
  | some p =>
    by_cases hc : c = .ok
    · subst hc
      obtain ⟨e, i⟩ := S.setProps r.dev h p.dataset g.dev hh
      have e1 : r.uploadEnd dv h .ok = { (({ r with
          sendSeq := none, dev := (dv.write (dv.setProps r.dev h p.dataset) h none false true).1 } : Rsp D).reply .ok) with
            propList := none } := by
        unfold uploadEnd; simp only [hp]
      have e2 : (r.via f).uploadEnd ev h .ok = { (({ r.via f with
          sendSeq := none, dev := (ev.write (f (dv.setProps r.dev h p.dataset)) h none false true).1 } : Rsp E).reply .ok) with
            propList := none } := by
        unfold uploadEnd; simp only [via, hp, e]
      rw [e1, e2]
      exact close { r with sendSeq := none, dev := dv.setProps r.dev h p.dataset } (g0.to i)
    · have e1 : r.uploadEnd dv h c = { (({ r with
          sendSeq := none, dev := (dv.write r.dev h none false true).1 } : Rsp D).reply c) with propList := none } := by
        unfold uploadEnd; cases c <;> first | rfl | exact absurd rfl hc
      have e2 : (r.via f).uploadEnd ev h c = { (({ r.via f with
          sendSeq := none, dev := (ev.write (f r.dev) h none false true).1 } : Rsp E).reply c) with propList := none } := by
        unfold uploadEnd; cases c <;> first | rfl | exact absurd rfl hc
      rw [e1, e2]
      exact close _ g0

theorem sim_uploadData {r : Rsp D} (g : Good I okq H r) (h0 : r.uploadHandle ≠ 0) (b : List UInt8) (x l : Bool) :
    Match f I B okq H ((r.via f).uploadData ev b x l) (r.uploadData dv b x l) := by
  have hh : H r.uploadHandle := by
    unfold uploadHandle at h0 ⊢
    cases hs : r.sendSeq with
    | some s => simp only; exact g.seq s hs
    | none =>
      cases hp : r.propList with
      | none => simp [hs, hp] at h0
      | some p => simp only [hs, hp] at h0 ⊢; exact (g.list p hp).1.resolve_right h0
  have hn : ¬ (r.sendSeq.isNone = true ∧ r.propList.isNone = true) := by
    rintro ⟨a, b⟩
    apply h0
    unfold uploadHandle
    rw [Option.isNone_iff_eq_none] at a b
    rw [a, b]
  unfold uploadData
  rw [if_neg (show ¬ ((r.via f).sendSeq.isNone = true ∧ (r.via f).propList.isNone = true) from hn), if_neg hn]
  by_cases h1 : x = true ∧ b.length < 12
  · rw [if_pos h1, if_pos h1]; exact ⟨rfl, fun r' e => by cases e⟩
  · rw [if_neg h1, if_neg h1, via_uploadHandle, via_dev]
    dsimp only
    generalize (if x = true then List.drop 12 b else b) = d
    obtain ⟨e, i⟩ := S.write r.dev r.uploadHandle (some d) x l g.dev hh
    rw [e]
    generalize dv.write r.dev r.uploadHandle (some d) x l = w at *
    obtain ⟨d', c⟩ := w
    have g1 : Good I okq H { r with dev := d' } := g.to i
    have fin : ∀ c, Match f I B okq H (.ok (({ r.via f with dev := f d' } : Rsp E).uploadEnd ev r.uploadHandle c))
        (.ok (({ r with dev := d' } : Rsp D).uploadEnd dv r.uploadHandle c)) := by
      intro c
      obtain ⟨a, b⟩ := sim_uploadEnd S g1 r.uploadHandle hh c
      exact .good a b
    cases c with
    | ok =>
      obtain ⟨a, b⟩ := sim_uploadCheck S g1 r.uploadHandle d.length hh l
      have a' : ({ r.via f with dev := f d' } : Rsp E).uploadCheck ev r.uploadHandle d.length l = _ := a
      dsimp only
      rw [a']
      generalize ({ r with dev := d' } : Rsp D).uploadCheck dv r.uploadHandle d.length l = v at *
      obtain ⟨r2, c2⟩ := v
      have fin2 : ∀ c, Match f I B okq H (.ok ((r2.via f).uploadEnd ev r.uploadHandle c))
          (.ok (r2.uploadEnd dv r.uploadHandle c)) := by
        intro c
        obtain ⟨a, b⟩ := sim_uploadEnd S b r.uploadHandle hh c
        exact .good a b
      cases c2 <;> first | exact fin2 _ | exact .good rfl b
    | _ => exact fin _

theorem sim_infoData {r : Rsp D} (g : Good I okq H r) (q a : List UInt8) (hok : okq 0x100C (cParams q)) :
    (r.via f).infoData ev q a = (r.infoData dv q a).via f ∧ (B (r.infoData dv q a).dev → Good I okq H (r.infoData dv q a)) := by
  have key : ∀ r2 : Rsp D, Good I okq H r2 →
      (if rd 4 a 20 = 0xFFFFFFFF then
          (({ r2.via f with sendSeq := none } : Rsp E).send (.response .objectTooLarge (cTid q) [])).1
        else match ev.addInfo (f r2.dev) (cParams q) a with
          | (d, .ok, ps, h) =>
            (({ r2.via f with dev := d, sendSeq := some ⟨h, rd 4 a 20, 0⟩ } : Rsp E).send (.response .ok (cTid q) ps)).1
          | (d, c, _, _) => (({ r2.via f with dev := d, sendSeq := none } : Rsp E).send (.response c (cTid q) [])).1) =
        (if rd 4 a 20 = 0xFFFFFFFF then
          (({ r2 with sendSeq := none } : Rsp D).send (.response .objectTooLarge (cTid q) [])).1
        else match dv.addInfo r2.dev (cParams q) a with
          | (d, .ok, ps, h) =>
            (({ r2 with dev := d, sendSeq := some ⟨h, rd 4 a 20, 0⟩ } : Rsp D).send (.response .ok (cTid q) ps)).1
          | (d, c, _, _) => (({ r2 with dev := d, sendSeq := none } : Rsp D).send (.response c (cTid q) [])).1).via f ∧
      (B (if rd 4 a 20 = 0xFFFFFFFF then
          (({ r2 with sendSeq := none } : Rsp D).send (.response .objectTooLarge (cTid q) [])).1
        else match dv.addInfo r2.dev (cParams q) a with
          | (d, .ok, ps, h) =>
            (({ r2 with dev := d, sendSeq := some ⟨h, rd 4 a 20, 0⟩ } : Rsp D).send (.response .ok (cTid q) ps)).1
          | (d, c, _, _) => (({ r2 with dev := d, sendSeq := none } : Rsp D).send (.response c (cTid q) [])).1).dev →
        Good I okq H (if rd 4 a 20 = 0xFFFFFFFF then
          (({ r2 with sendSeq := none } : Rsp D).send (.response .objectTooLarge (cTid q) [])).1
        else match dv.addInfo r2.dev (cParams q) a with
          | (d, .ok, ps, h) =>
            (({ r2 with dev := d, sendSeq := some ⟨h, rd 4 a 20, 0⟩ } : Rsp D).send (.response .ok (cTid q) ps)).1
          | (d, c, _, _) => (({ r2 with dev := d, sendSeq := none } : Rsp D).send (.response c (cTid q) [])).1)) := by
    intro r2 g2
    by_cases hz : rd 4 a 20 = 0xFFFFFFFF
    · rw [if_pos hz, if_pos hz]
      have g3 : Good I okq H { r2 with sendSeq := none } := ⟨g2.dev, g2.req, (fun s e => by cases e), g2.list, g2.edit⟩
      refine ⟨?_, fun _ => g3.of (keeps_send _ _)⟩
      exact congrArg Prod.fst (via_send { r2 with sendSeq := none } (.response .objectTooLarge (cTid q) []))
    · rw [if_neg hz, if_neg hz]
      obtain ⟨e, i⟩ := S.addInfo r2.dev (cParams q) a g2.dev hok
      rw [e]
      generalize dv.addInfo r2.dev (cParams q) a = w at *
      obtain ⟨d', c, ps, h⟩ := w
      have fail : ∀ c, (({ r2.via f with dev := f d', sendSeq := none } : Rsp E).send (.response c (cTid q) [])).1 =
            (({ r2 with dev := d', sendSeq := none } : Rsp D).send (.response c (cTid q) [])).1.via f ∧
          (B (({ r2 with dev := d', sendSeq := none } : Rsp D).send (.response c (cTid q) [])).1.dev →
            Good I okq H (({ r2 with dev := d', sendSeq := none } : Rsp D).send (.response c (cTid q) [])).1) := by
        intro c
        refine ⟨congrArg Prod.fst (via_send { r2 with dev := d', sendSeq := none } _), fun b => ?_⟩
        have k := keeps_send ({ r2 with dev := d', sendSeq := none } : Rsp D) (.response c (cTid q) [])
        refine Good.of ?_ k
        exact ⟨(i (k.bnd b)).1, g2.req, (fun s e => by cases e), g2.list, g2.edit⟩
      cases c with
      | ok =>
        refine ⟨congrArg Prod.fst (via_send { r2 with dev := d', sendSeq := some ⟨h, rd 4 a 20, 0⟩ } _), fun b => ?_⟩
        have k := keeps_send ({ r2 with dev := d', sendSeq := some ⟨h, rd 4 a 20, 0⟩ } : Rsp D) (.response .ok (cTid q) ps)
        obtain ⟨i1, i2⟩ := i (k.bnd b)
        refine Good.of ?_ k
        exact ⟨i1, g2.req, (fun s' e => by cases e; exact i2 rfl), g2.list, g2.edit⟩
      | _ => exact fail _
  exact key { r with propList := none } (g.of ⟨rfl, Or.inl rfl, Or.inl rfl, Or.inr rfl, rfl⟩)

theorem sim_listData {r : Rsp D} (g : Good I okq H r) (q a : List UInt8) :
    (r.via f).listData ev q a = (r.listData dv q a).via f ∧ (B (r.listData dv q a).dev → Good I okq H (r.listData dv q a)) := by
  unfold listData
  rw [via_propList, via_dev]
  cases hp : r.propList with
  | none => exact ⟨via_reply r _, fun _ => g.of (keeps_reply _ _)⟩
  | some p =>
    obtain ⟨e, i⟩ := S.addList r.dev p.params a g.dev (g.list p hp).2
    show (({ r.via f with
          dev := (ev.addList (f r.dev) p.params a).1
          propList := some { p with handle := (ev.addList (f r.dev) p.params a).2.2.2, dataset := a } } : Rsp E).send
        (.response (ev.addList (f r.dev) p.params a).2.1 (cTid q) (ev.addList (f r.dev) p.params a).2.2.1)).1 =
      (({ r with
          dev := (dv.addList r.dev p.params a).1
          propList := some { p with handle := (dv.addList r.dev p.params a).2.2.2, dataset := a } } : Rsp D).send
        (.response (dv.addList r.dev p.params a).2.1 (cTid q) (dv.addList r.dev p.params a).2.2.1)).1.via f ∧
      (B (({ r with
          dev := (dv.addList r.dev p.params a).1
          propList := some { p with handle := (dv.addList r.dev p.params a).2.2.2, dataset := a } } : Rsp D).send
        (.response (dv.addList r.dev p.params a).2.1 (cTid q) (dv.addList r.dev p.params a).2.2.1)).1.dev →
       Good I okq H (({ r with
          dev := (dv.addList r.dev p.params a).1
          propList := some { p with handle := (dv.addList r.dev p.params a).2.2.2, dataset := a } } : Rsp D).send
        (.response (dv.addList r.dev p.params a).2.1 (cTid q) (dv.addList r.dev p.params a).2.2.1)).1)
    rw [e]
    generalize dv.addList r.dev p.params a = w at *
    obtain ⟨d', c, ps, h⟩ := w
    refine ⟨congrArg Prod.fst (via_send { r with
      dev := d', propList := some { p with handle := h, dataset := a } } _), fun b => ?_⟩
    have k := keeps_send ({ r with dev := d', propList := some { p with handle := h, dataset := a } } : Rsp D)
      (.response c (cTid q) ps)
    obtain ⟨i1, i2⟩ := i (k.bnd b)
    refine Good.of ?_ k
    exact ⟨i1, g.req, g.seq, (fun p' e => by cases e; exact ⟨i2, (g.list p hp).2⟩), g.edit⟩

theorem sim_data {r : Rsp D} (g : Good I okq H r) (q b : List UInt8) (hq : okq (cCode q) (cParams q))
    (h0 : cCode q = 0x100D → r.resp = .ok → r.uploadHandle ≠ 0) (x l : Bool) :
    Match f I B okq H ((r.via f).dataPacket ev q b x l) (r.dataPacket dv q b x l) := by
  have de : ∀ (r1 : Rsp D), Good I okq H r1 → ∀ c, Match f I B okq H (.ok ((r1.via f).dataEnd c l)) (.ok (r1.dataEnd c l)) :=
    fun r1 g1 c => .good (via_dataEnd r1 c l) (g1.of (keeps_dataEnd r1 c l))
  have up : ∀ r1 : Rsp D, Good I okq H r1 → (r1.resp = .ok → r1.uploadHandle ≠ 0) → Match f I B okq H
      (match r1.resp with
        | .ok => (r1.via f).uploadData ev b x l
        | c => .ok ((r1.via f).dataEnd c l))
      (match r1.resp with
        | .ok => r1.uploadData dv b x l
        | c => .ok (r1.dataEnd c l)) := by
    intro r1 g1 h1
    cases hr : r1.resp with
    | ok => exact sim_uploadData S g1 (h1 hr) b x l
    | _ => exact de r1 g1 _
  have pd : ∀ r1 : Rsp D, Good I okq H r1 → Match f I B okq H
      (match r1.resp with
        | .ok => match (r1.via f).partialData ev b x l with
          | (r', c) => .ok (r'.dataEnd c l)
        | c => .ok ((r1.via f).dataEnd c l))
      (match r1.resp with
        | .ok => match r1.partialData dv b x l with
          | (r', c) => .ok (r'.dataEnd c l)
        | c => .ok (r1.dataEnd c l)) := by
    intro r1 g1
    cases hr : r1.resp with
    | ok =>
      have hp : (r1.via f).partialData ev b x l = ((r1.partialData dv b x l).1.via f, (r1.partialData dv b x l).2) ∧
          Good I okq H (r1.partialData dv b x l).1 := by
        unfold partialData
        rw [via_edit, via_dev]
        cases he : r1.edit with
        | none => exact ⟨rfl, g1⟩
        | some e =>
          by_cases hs : x = true ∧ b.length < 12
          · simp only [if_pos hs]; exact ⟨trivial, g1⟩
          · simp only [if_neg hs]
            generalize (if x = true then List.drop 12 b else b) = d
            obtain ⟨e2, i⟩ := S.writePartial r1.dev e.handle e.offset d x l g1.dev (g1.edit e he)
            show (({ r1.via f with
                  dev := (ev.writePartial (f r1.dev) e.handle e.offset d x l).1
                  edit := some { e with offset := u64 (e.offset + d.length) } } : Rsp E),
                (ev.writePartial (f r1.dev) e.handle e.offset d x l).2) =
              (({ r1 with
                  dev := (dv.writePartial r1.dev e.handle e.offset d x l).1
                  edit := some { e with offset := u64 (e.offset + d.length) } } : Rsp D).via f,
                (dv.writePartial r1.dev e.handle e.offset d x l).2) ∧ _
            rw [e2]
            exact ⟨rfl, i, g1.req, g1.seq, g1.list, fun e' h' => by cases h'; exact g1.edit e he⟩
      dsimp only
      rw [hp.1]
      exact de _ hp.2 _
    | _ => exact de r1 g1 _
  unfold dataPacket
  have g1 : Good I okq H { r with dataC := none } := g.of ⟨rfl, Or.inl rfl, Or.inl rfl, Or.inl rfl, rfl⟩
  by_cases hc : cCode q = 0x100D
  · rw [if_pos hc, if_pos hc]
    exact up { r with dataC := none } g1 (h0 hc)
  · rw [if_neg hc, if_neg hc]
    by_cases hc2 : cCode q = 0x95C2
    · rw [if_pos hc2, if_pos hc2]
      exact pd { r with dataC := none } g1
    · simp only [if_neg hc2, via_accumulate]
      have ga := g.of (keeps_accumulate r b x)
      generalize r.accumulate b x = r1 at *
      by_cases hl : l = false
      · simp only [if_pos hl]; exact .good rfl ga
      · simp only [if_neg hl]
        rw [via_dataCheck]
        cases r1.dataCheck q <;> try exact de r1 ga _
        rw [via_dataC]
        cases hd : r1.dataC with
        | none =>
          simp only
          by_cases hk : opKind (cCode q) = none
          · simp only [if_pos hk]; exact de r1 ga _
          · simp only [if_neg hk]; exact ⟨rfl, fun r' e => by cases e⟩
        | some a =>
          simp only
          cases hk : opKind (cCode q) with
          | none => exact de r1 ga _
          | some k =>
            obtain ⟨-, -, k3, -, k5, -⟩ := kind_code hk
            cases k <;> try exact de r1 ga _
            case sendInfo =>
              obtain ⟨e, w⟩ := sim_infoData S ga q a (by rw [← k3 rfl]; exact hq)
              exact .weak e w
            case sendPropList =>
              obtain ⟨e, w⟩ := sim_listData S ga q a
              exact .weak e w
            case set c =>
              obtain ⟨e, i⟩ := S.store r1.dev (cCode q) (cParams q) a ga.dev hq
              have gb : Good I okq H { r1 with dataC := some a } := ga.of ⟨rfl, Or.inl rfl, Or.inl rfl, Or.inl rfl, rfl⟩
              have key : Match f I B okq H
                  (({ r1.via f with dataC := some a, dev := (ev.store (f r1.dev) (cCode q) (cParams q) a).1 } : Rsp E).replyP
                    (ev.store (f r1.dev) (cCode q) (cParams q) a).2.1 (ev.store (f r1.dev) (cCode q) (cParams q) a).2.2)
                  (({ r1 with dataC := some a, dev := (dv.store r1.dev (cCode q) (cParams q) a).1 } : Rsp D).replyP
                    (dv.store r1.dev (cCode q) (cParams q) a).2.1 (dv.store r1.dev (cCode q) (cParams q) a).2.2) := by
                rw [e]
                refine ⟨via_replyP ({ r1 with dataC := some a, dev := (dv.store r1.dev (cCode q) (cParams q) a).1 }) _ _,
                  fun r' e b => ?_⟩
                have k := keeps_replyP e
                exact (gb.to (i (k.bnd b))).of k
              exact key

theorem sim_receive {r : Rsp D} (g : Good I okq H r) (b : List UInt8) (x l : Bool) (n : List Ev) (hf : Fits okq r (.packet b x l n)) :
    Match f I B okq H ((r.via f).receive ev b x l n) (r.receive dv b x l n) := by
  obtain ⟨hb, h0⟩ := hf
  have fresh : (r.st = .idle ∨ r.st = .txCancel ∨ r.st = .suspend) → Match f I B okq H
      (if x = true ∧ l = true then
        (({ { ((r.via f).setState .idle) with req := none } with req := some b }.setState
          (if hasDataPhase (cCode b) then .waitData else .waitResp)).emit .statusBusy).command ev n
      else Res.ok ({ ((r.via f).setState .idle) with req := none }.emit .reset))
      (if x = true ∧ l = true then
        (({ { (r.setState .idle) with req := none } with req := some b }.setState
          (if hasDataPhase (cCode b) then .waitData else .waitResp)).emit .statusBusy).command dv n
      else Res.ok ({ (r.setState .idle) with req := none }.emit .reset)) := by
    intro hst
    rw [via_setState]
    have g1 := g.of (keeps_setState r .idle)
    by_cases hx : x = true ∧ l = true
    · simp only [if_pos hx]
      have g2 : Good I okq H { (r.setState .idle) with req := some b } :=
        ⟨g1.dev, (fun q e => by cases e; exact hb hst hx.1 hx.2), g1.seq, g1.list, g1.edit⟩
      have g3 := (g2.of (keeps_setState _ (if hasDataPhase (cCode b) then .waitData else .waitResp))).of (keeps_emit _ .statusBusy)
      have := sim_command S g3 n
      rw [← via_emit, ← via_setState] at this
      exact this
    · simp only [if_neg hx]
      exact .good rfl (g1.of ⟨rfl, Or.inr rfl, Or.inl rfl, Or.inl rfl, rfl⟩)
  have bad : Match f I B okq H (.ok (((r.via f).setState .idle).emit .reset)) (.ok ((r.setState .idle).emit .reset)) := by
    rw [via_setState]
    exact .good rfl ((g.of (keeps_setState _ _)).of (keeps_emit _ _))
  unfold receive
  rw [via_st]
  cases hst : r.st with
  | idle => exact fresh (Or.inl hst)
  | txCancel => exact fresh (Or.inr (Or.inl hst))
  | suspend => exact fresh (Or.inr (Or.inr hst))
  | waitResp => exact bad
  | waitStorage =>
    rw [via_waitBuf]
    by_cases h : x = true ∧ r.waitBuf ≠ []
    · simp only [if_pos h]; exact bad
    · simp only [if_neg h]
      exact .good rfl (g.of ⟨rfl, Or.inl rfl, Or.inl rfl, Or.inl rfl, rfl⟩)
  | waitData =>
    rw [via_req]
    cases hq : r.req with
    | none => exact bad
    | some q =>
      simp only
      cases x with
      | true => exact sim_data S (g.of (keeps_emit r .statusBusy)) q b (g.req q hq) (h0 hst q hq) true l
      | false => exact sim_data S g q b (g.req q hq) (h0 hst q hq) false l

/-- One step. -/
theorem sim_step {r : Rsp D} (g : Good I okq H r) (i : In D) (hf : Fits okq r i) :
    Match f I B okq H ((r.via f).step ev (i.via f)) (r.step dv i) := by
  cases i with
  | packet b x l n => exact sim_receive S g b x l n hf
  | ready n =>
    simp only [In.via, step, storageReady]
    rw [via_st]
    have h : ¬ r.st = .waitStorage := hf
    simp only [if_neg h]
    exact .good rfl (g.of ⟨rfl, Or.inl rfl, Or.inl rfl, Or.inl rfl, rfl⟩)
  | ev e =>
    obtain ⟨a, b⟩ := sim_ev S g e
    exact .good a b
  | notify c ps =>
    simp only [In.via, step, Rsp.notify]
    rw [via_dev]
    have hl : listening ev (f r.dev) c ps = listening dv r.dev c ps := by
      unfold listening
      simp only [S.eventsOn r.dev _ g.dev]
    rw [hl]
    by_cases h : c ≠ EV_ADDED ∧ listening dv r.dev c ps = false
    · simp only [if_pos h]; exact .good rfl g
    · simp only [if_neg h]
      exact .good (congrArg Prod.fst (via_send r _)) (g.of (keeps_send _ _))
  | env d => exact absurd hf (by simp [Fits])

omit S in
/-- Back to the beginning. -/
theorem fitting_back (back : ∀ {r r' : Rsp D} {i : In D}, Fits okq r i → r.step dv i = .ok r' → B r'.dev → B r.dev) (is : List (In D)) :
    ∀ {r r' : Rsp D}, Fitting dv okq r is → r.run dv is = .ok r' → B r'.dev → B r.dev := by
  induction is with
  | nil => intro r r' _ e hb; cases e; exact hb
  | cons i is ih =>
    intro r r' hf hr hb
    cases hf with
    | cons h1 h2 =>
      rw [run] at hr
      cases hs : r.step dv i with
      | ub w => rw [hs] at hr; cases hr
      | ok r1 =>
        rw [hs] at hr
        simp only [Res.bind_ok] at hr
        exact back h1 hs (ih (h2 r1 hs) hr hb)

/-- Histories. `B` is needed at the end only if it cannot come true. -/
theorem sim_run (back : ∀ {r r' : Rsp D} {i : In D}, Fits okq r i → r.step dv i = .ok r' → B r'.dev → B r.dev) (is : List (In D)) :
    ∀ {r r' : Rsp D}, Good I okq H r → Fitting dv okq r is → r.run dv is = .ok r' → B r'.dev →
      (r.via f).run ev (is.map (In.via f)) = .ok (r'.via f) ∧ Good I okq H r' := by
  induction is with
  | nil => intro r r' g _ e hb; cases e; exact ⟨rfl, g⟩
  | cons i is ih =>
    intro r r' g hf hr hb
    cases hf with
    | cons h1 h2 =>
      obtain ⟨a, b⟩ := sim_step S g i h1
      rw [run] at hr
      rw [List.map_cons, run, a]
      cases hs : r.step dv i with
      | ub w => rw [hs] at hr; cases hr
      | ok r1 =>
        rw [hs] at hr
        simp only [viaRes_ok, Res.bind_ok] at hr ⊢
        have hb1 : B r1.dev := fitting_back back is (h2 r1 hs) hr hb
        exact ih (b r1 hs hb1) (h2 r1 hs) hr hb

end Rsp
end Mtp
