import Verif.Props.Upload
/-! Property theorems C34: uploaded data goes to the object announced last. -/
namespace Props
open Mtp Mtp.Rsp Spec

variable {D : Type}

/-- Operations that end or replace an announcement: CloseSession, SendObjectInfo, SendObject,
SendObjectPropList. -/
def uploadOps : List Nat := [0x1003, 0x100C, 0x100D, 0x9808]

private structure Inv (s : Option SendSeq) (p : Option PropListInfo) (r : Rsp D) : Prop where
  seq : r.sendSeq = s
  list : r.propList = p
  req : ∀ q, r.req = some q → cCode q ∉ uploadOps

private theorem Inv.emit {s p} {r : Rsp D} (h : Inv s p r) (o : Out) : Inv s p (r.emit o) := ⟨h.1, h.2, h.3⟩

private theorem Inv.setState {s p} {r : Rsp D} (h : Inv s p r) (x : RState) : Inv s p (r.setState x) :=
  ⟨(setState_sendSeq ..).trans h.1, (setState_propList ..).trans h.2, by rw [setState_req]; exact h.3⟩

private theorem Inv.send {s p} {r : Rsp D} (h : Inv s p r) (o : Out) : Inv s p (r.send o).1 := by
  unfold Rsp.send
  split
  · exact h
  · split
    · split
      · exact h
      · exact ⟨h.1, h.2, h.3⟩
    · split
      · have := ((h.setState .idle).emit o).emit .statusOk
        exact ⟨this.1, this.2, fun q e => by simp at e⟩
      · exact h.emit o

private theorem Inv.reply {s p} {r : Rsp D} (h : Inv s p r) (c : Resp) : Inv s p (r.reply c) := by
  unfold Rsp.reply
  split
  · exact h
  · exact h.send _

private theorem Inv.replyP {s p} {r r' : Rsp D} (h : Inv s p r) (c : Resp)
    (ps : List Nat) (hr : r.replyP c ps = .ok r') : Inv s p r' := by
  unfold Rsp.replyP at hr
  split at hr
  · cases hr; exact h.reply _
  · unfold reply1 at hr
    split at hr
    · simp at hr
    · cases hr; exact h.send _

private theorem Inv.sendReply {s p} {r r' : Rsp D} (h : Inv s p r) (q : List UInt8) (x : Reply)
    (hr : r.sendReply q x = .ok r') : Inv s p r' := by
  unfold Rsp.sendReply at hr
  split at hr
  · split at hr
    · cases hr; exact h
    · exact h.replyP _ _ hr
  · next dd l rest hf =>
    have hs := h.send (.data (cCode q) (cTid q) dd l)
    split at hr
    · next r2 e => cases hr; rw [e] at hs; exact hs
    · next r2 e =>
      rw [e] at hs
      have hm : Inv s p { r2 with out := r2.out ++ rest.map fun f => .more f.1 f.2 } := ⟨hs.1, hs.2, hs.3⟩
      split at hr
      · cases hr; exact hm
      · exact hm.replyP _ _ hr

private theorem Inv.closed {s p} {r : Rsp D} (h : Inv s p r) : Inv s p r.deleteStored :=
  ⟨h.1, h.2, fun q e => by simp [deleteStored] at e⟩

/-- Events that do not end the session. -/
def KeepsSession (e : Ev) : Prop := e ≠ .deviceReset ∧ e ≠ .cleanup

private theorem Inv.ev {s p} (dv : Dev D) {r : Rsp D} (h : Inv s p r) (e : Ev) (he : KeepsSession e) :
    Inv s p (r.handleEv dv e) := by
  cases e with
  | deviceReset => exact absurd rfl he.1
  | cleanup => exact absurd rfl he.2
  | suspend =>
    simp only [handleEv, handleSuspend]
    have : Inv s p { r with prev := r.st } := ⟨h.1, h.2, h.3⟩
    exact this.setState _
  | resume =>
    simp only [handleEv, handleResume]
    have h1 := h.setState r.prev
    split
    · exact h1
    · have h2 : Inv s p { (r.setState r.prev) with resend := none } := ⟨h1.1, h1.2, h1.3⟩
      split
      · exact h2
      · exact h2.emit _
  | cancel =>
    simp only [handleEv, handleCancel]
    split
    · exact h.emit _
    · next q hq =>
      have hn := h.3 q hq
      have : ¬ (cCode q = 0x100D ∨ cCode q = 0x9808 ∨ cCode q = 0x100C) := by
        intro e
        rcases e with e | e | e <;> rw [e] at hn <;> exact hn (by decide)
      rw [if_neg this]
      exact (h.setState _).closed.emit _

private theorem Inv.evs {s p} (dv : Dev D) (es : List Ev) : ∀ {r : Rsp D}, Inv s p r → (∀ e ∈ es, KeepsSession e) →
    Inv s p (es.foldl (handleEv dv) r) := by
  induction es with
  | nil => intro r h _; exact h
  | cons e es ih => intro r h he; exact ih (h.ev dv e (he e (by simp))) (fun x hx => he x (by simp [hx]))

private theorem kind_ops {c : Nat} {k : OpKind} (hk : opKind c = some k) (hc : c ∉ uploadOps) :
    k ≠ .closeSession ∧ k ≠ .sendInfo ∧ k ≠ .sendObject ∧ k ≠ .sendPropList := by
  have : ∀ e ∈ opTable, e.1 ∉ uploadOps →
      e.2 ≠ .closeSession ∧ e.2 ≠ .sendInfo ∧ e.2 ≠ .sendObject ∧ e.2 ≠ .sendPropList := by decide
  exact this _ (opKind_mem hk) hc

private theorem Inv.handle {s p} (dv : Dev D) {r r' : Rsp D} (h : Inv s p r) (q : List UInt8) (n : List Ev)
    (hn : ∀ e ∈ n, KeepsSession e) (k : OpKind)
    (hk : k ≠ .closeSession ∧ k ≠ .sendInfo ∧ k ≠ .sendObject ∧ k ≠ .sendPropList)
    (hr : r.handle dv q n k = .ok r') : Inv s p r' := by
  have same : ∀ r1 : Rsp D, r1.sendSeq = r.sendSeq → r1.propList = r.propList → r1.req = r.req → Inv s p r1 :=
    fun r1 h1 h2 h3 => ⟨h1.trans h.1, h2.trans h.2, by rw [h3]; exact h.3⟩
  cases k with
  | deviceInfo => simp only [Rsp.handle] at hr; refine Inv.sendReply ?_ _ _ hr; exact same _ rfl rfl rfl
  | openSession =>
    simp only [Rsp.handle, openSessionReq] at hr
    split at hr
    · cases hr; exact h.reply _
    · split at hr
      · exact h.replyP _ [_] hr
      · cases hr
        refine Inv.emit (Inv.reply ?_ _) _; exact same _ rfl rfl rfl
  | closeSession => exact absurd rfl hk.1
  | propsSupported =>
    simp only [Rsp.handle] at hr
    split at hr
    · refine Inv.sendReply ?_ _ _ hr; exact same _ rfl rfl rfl
    · cases hr; exact h.reply _
  | thumb =>
    simp only [Rsp.handle] at hr
    split at hr
    · split at hr
      · cases hr; exact same _ rfl rfl rfl
      · refine Inv.sendReply ?_ _ _ hr; exact same _ rfl rfl rfl
    · cases hr; exact h
  | query ps =>
    simp only [Rsp.handle] at hr
    split at hr
    · refine Inv.sendReply ?_ _ _ hr; exact same _ rfl rfl rfl
    · exact h.replyP _ _ hr
  | copy =>
    have ce : ∀ (r1 : Rsp D) c x, Inv s p r1 → r1.copyEnd c x = .ok r' → Inv s p r' := by
      intro r1 c x h1 hr
      unfold copyEnd at hr
      split at hr
      · cases hr; exact h1
      · exact h1.replyP _ [_] hr
    simp only [Rsp.handle, copyReq] at hr
    split at hr
    · have h1 := h.evs dv n hn
      refine ce _ _ _ ?_ hr
      exact ⟨h1.1, h1.2, h1.3⟩
    · exact ce _ _ _ h hr
  | skip => cases hr; exact h.reply _
  | refused => cases hr; exact h.reply _
  | sendInfo => exact absurd rfl hk.2.1
  | sendObject => exact absurd rfl hk.2.2.1
  | sendPropList => exact absurd rfl hk.2.2.2
  | sendPartial =>
    cases hr
    unfold partialReq
    split
    · split
      · exact same _ rfl rfl rfl
      · split <;> exact same _ rfl rfl rfl
    · exact same _ rfl rfl rfl
  | set c => cases hr; exact same _ rfl rfl rfl
  | truncate =>
    cases hr
    unfold truncateReq
    split
    · split
      · exact h.reply _
      · split
        · exact h.reply _
        · refine Inv.reply ?_ _; exact same _ rfl rfl rfl
    · exact h.reply _
  | beginEdit =>
    cases hr
    unfold beginEditReq
    split
    · split
      · refine Inv.reply ?_ _; exact same _ rfl rfl rfl
      · exact h.reply _
    · exact h.reply _
  | endEdit =>
    cases hr
    unfold endEditReq
    split
    · split
      · exact h.reply _
      · split
        · exact h.reply _
        · refine Inv.reply ?_ _; exact same _ rfl rfl rfl
    · exact h.reply _

private theorem Inv.command {s p} (dv : Dev D) {r r' : Rsp D} (h : Inv s p r) (n : List Ev)
    (hn : ∀ e ∈ n, KeepsSession e) (hr : r.command dv n = .ok r') : Inv s p r' := by
  unfold Rsp.command at hr
  split at hr
  · simp at hr
  · next q hq =>
    have h1 : Inv s p { r with resp := .ok } := ⟨h.1, h.2, h.3⟩
    simp only at hr
    split at hr
    · cases hr
      have := h1.setState .waitStorage
      exact ⟨this.1, this.2, this.3⟩
    · split at hr
      · next k hk => exact h1.handle dv q n hn k (kind_ops hk (h.3 q hq)) hr
      · cases hr; exact h1.reply _

private theorem Inv.dataEnd {s p} {r : Rsp D} (h : Inv s p r) (c : Resp) (l : Bool) : Inv s p (r.dataEnd c l) := by
  unfold Rsp.dataEnd
  simp only
  have h1 : Inv s p { r with resp := c } := ⟨h.1, h.2, h.3⟩
  split
  · exact h1.reply _
  · exact h1

private theorem Inv.data {s p} (dv : Dev D) {r r' : Rsp D} (h : Inv s p r) (q b : List UInt8)
    (hq : cCode q ∉ uploadOps) (f l : Bool) (hr : r.dataPacket dv q b f l = .ok r') : Inv s p r' := by
  unfold dataPacket at hr
  rw [if_neg (by intro e; rw [e] at hq; exact hq (by decide))] at hr
  split at hr
  · split at hr
    · have hp : Inv s p ({ r with dataC := none }.partialData dv b f l).1 := by
        unfold partialData
        split
        · exact ⟨h.1, h.2, h.3⟩
        · split <;> exact ⟨h.1, h.2, h.3⟩
      cases hr
      exact hp.dataEnd _ _
    · cases hr; refine Inv.dataEnd ?_ _ _; exact ⟨h.1, h.2, h.3⟩
  · have ha : Inv s p (r.accumulate b f) := by
      unfold accumulate
      split
      · exact ⟨h.1, h.2, h.3⟩
      · split
        · exact h
        · split
          · exact ⟨h.1, h.2, h.3⟩
          · exact h
    generalize r.accumulate b f = r1 at *
    simp only at hr
    split at hr
    · cases hr; exact ha
    · split at hr
      · split at hr
        · split at hr
          · cases hr; exact ha.dataEnd _ _
          · simp at hr
        · split at hr
          · next e => exact absurd rfl (kind_ops e hq).2.1
          · next e => exact absurd rfl (kind_ops e hq).2.2.2
          · refine Inv.replyP ?_ _ _ hr; exact ⟨ha.1, ha.2, ha.3⟩
          · cases hr; exact ha.dataEnd _ _
      · cases hr; exact ha.dataEnd _ _

private theorem Inv.receive {s p} (dv : Dev D) {r r' : Rsp D} (h : Inv s p r) (b : List UInt8)
    (f l : Bool) (n : List Ev) (hn : ∀ e ∈ n, KeepsSession e) (hb : f = true → l = true → cCode b ∉ uploadOps)
    (hr : r.receive dv b f l n = .ok r') : Inv s p r' := by
  have fresh : (if f = true ∧ l = true then
        (({ { (r.setState .idle) with req := none } with req := some b }.setState
          (if hasDataPhase (cCode b) then .waitData else .waitResp)).emit .statusBusy).command dv n
      else Res.ok ({ (r.setState .idle) with req := none }.emit .reset)) = Res.ok r' → Inv s p r' := by
    intro hr
    have h1 := h.setState .idle
    split at hr
    · next hfl =>
      refine Inv.command dv ?_ n hn hr
      refine Inv.emit (Inv.setState ?_ _) _
      exact ⟨h1.1, h1.2, fun q e => by cases e; exact hb hfl.1 hfl.2⟩
    · cases hr
      refine Inv.emit ?_ _
      exact ⟨h1.1, h1.2, fun q e => by simp at e⟩
  unfold Rsp.receive at hr
  split at hr
  · exact fresh hr
  · exact fresh hr
  · exact fresh hr
  · split at hr
    · cases hr; exact (h.setState _).emit _
    · next q hq =>
      refine Inv.data dv ?_ q b (h.3 q hq) f l hr
      split
      · exact h.emit _
      · exact h
  · split at hr
    · cases hr; exact (h.setState _).emit _
    · cases hr; exact ⟨h.1, h.2, h.3⟩
  · cases hr; exact (h.setState _).emit _

/-- Things that leave an announcement alone: the host may use any operation but those of `uploadOps`, with
any data, cancel it, be suspended and resumed; storages (all of them ready before) may change and send
events. -/
def Foreign : In D → Prop
  | .packet b first last nested =>
    (first = true → last = true → cCode b ∉ uploadOps) ∧ ∀ e ∈ nested, KeepsSession e
  | .ready _ => False
  | .ev e => KeepsSession e
  | .notify .. => True
  | .env _ => True

private theorem run_inv {s p} (dv : Dev D) (is : List (In D)) : ∀ {r r' : Rsp D}, Inv s p r →
    (∀ i ∈ is, Foreign i) → r.run dv is = .ok r' → Inv s p r' := by
  induction is with
  | nil => intro r r' h _ hr; cases hr; exact h
  | cons i is ih =>
    intro r r' h hi hr
    rw [run] at hr
    cases hs : r.step dv i with
    | ub w => rw [hs] at hr; simp at hr
    | ok r1 =>
      rw [hs] at hr
      refine ih ?_ (fun j hj => hi j (by simp [hj])) hr
      have hf := hi i (by simp)
      cases i with
      | packet b f l n => exact h.receive dv b f l n hf.2 hf.1 hs
      | ready n => exact absurd hf (by simp [Foreign])
      | ev e => cases hs; exact h.ev dv e hf
      | notify c ps =>
        cases hs
        unfold Rsp.notify
        split
        · exact h
        · exact h.send _
      | env d => cases hs; exact ⟨h.1, h.2, h.3⟩

/-- Other objects are not affected by what is done to one. -/
structure Separate (dv : Dev D) (content : D → Nat → List UInt8) : Prop where
  write : ∀ d h b first last h', h' ≠ h → content (dv.write d h b first last).1 h' = content d h'
  truncate : ∀ d h n h', h' ≠ h → content (dv.truncate d h n).1 h' = content d h'
  props : ∀ d h ds h', h' ≠ h → content (dv.setProps d h ds) h' = content d h'

private theorem upload_frame (dv : Dev D) (content : D → Nat → List UInt8) (sep : Separate dv content)
    (q : List UInt8) (h n h' : Nat) (hh : h' ≠ h) (bs : List (List UInt8)) :
    ∀ (r : Rsp D) (f : Bool) (w : Nat), Going r q h n w → (f = true → ∀ b ∈ bs.head?, 12 ≤ b.length) →
    ∀ r', r.run dv (dataPhase f bs) = .ok r' → content r'.dev h' = content r.dev h' := by
  induction bs with
  | nil => intro r f w g hb r' hr; cases hr; rfl
  | cons b bs ih =>
    intro r f w g hb r' hr
    obtain ⟨r1, e1, m⟩ := upload_packet dv r q b _ h n w f bs.isEmpty g (fun hf => hb hf b rfl) rfl
    have hrun : r.run dv (dataPhase f (b :: bs)) = r1.run dv (dataPhase false bs) := by
      simp only [dataPhase, Rsp.run, Rsp.step, e1, Res.bind_ok]
    rw [hrun] at hr
    have fin : ∀ c, Verdict r r1 q c → r'.dev = r1.dev := by
      intro c v
      obtain ⟨r2, e, _, _, kk, _⟩ := stray dv bs r1 v.st v.req
      rw [e] at hr
      cases hr
      exact kk.dev
    have hw := sep.write r.dev h (some (if f = true then List.drop 12 b else b)) f bs.isEmpty h' hh
    rcases m with ⟨_, m2, m3⟩ | ⟨_, _, m3, m4⟩ | ⟨_, _, _, m4, m5⟩ | ⟨_, _, _, m4, m5, _⟩
    · rw [fin _ m2, m3, sep.write _ _ _ _ _ _ hh, hw]
    · rw [fin _ m3]
      rcases m4 with m4 | ⟨ds, m4⟩
      · rw [m4, sep.write _ _ _ _ _ _ hh, hw]
      · rw [m4, sep.write _ _ _ _ _ _ hh, sep.props _ _ _ _ hh, hw]
    · rw [fin _ m4, m5, sep.write _ _ _ _ _ _ hh, sep.truncate _ _ _ _ hh, hw]
    · rw [ih r1 false _ m4 (by simp) r' hr, m5, hw]

/-- The heart of C34: an announcement survives everything that is not an upload operation, and the
SendObject that follows goes to the announced object and touches no other. -/
private theorem announced_target (dv : Dev D) (content : D → Nat → List UInt8) (law : Stores dv content)
    (sep : Separate dv content) (r1 r2 : Rsp D) (h n : Nat) (ha : Announced r1 h n) (hreq : r1.req = none)
    (mid : List (In D)) (hmid : ∀ i ∈ mid, Foreign i) (h12 : r1.run dv mid = .ok r2)
    (hst : r2.st = .idle) (hready : r2.ready = true) (hs : r2.session ≠ 0)
    (q : List UInt8) (ht : cTid q ≠ 0 ∧ cTid q ≠ 0xFFFFFFFF) (hc : cCode q = 0x100D)
    (bs : List (List UInt8)) (hne : bs ≠ []) (hb : ∀ b ∈ bs.head?, 12 ≤ b.length) :
    ∃ (r3 : Rsp D) (c : Resp), r2.run dv (sendObject q bs) = .ok r3 ∧
      responses r3.out = responses r2.out ++ [.response c (u16 (cTid q)) []] ∧
      (c = .ok → ∃ k, content r3.dev h = ((bodies true bs).take k).flatten ∧ n ≤ (content r3.dev h).length) ∧
      ∀ h' ≠ h, content r3.dev h' = content r2.dev h' := by
  have hinv : Inv r1.sendSeq r1.propList r2 :=
    run_inv dv mid ⟨rfl, rfl, fun q e => by rw [hreq] at e; simp at e⟩ hmid h12
  have ha2 : Announced r2 h n := by unfold Announced; rw [hinv.1, hinv.2]; exact ha
  obtain ⟨r3, c, e, o, _, _, _, p⟩ := C33_ok_complete dv content law r2 q h n bs hst hready hs ht hc ha2 hne hb
  refine ⟨r3, c, e, o, p, ?_⟩
  intro h' hh
  obtain ⟨r1', e1, g, kk, _⟩ := accept_going dv r2 q h n hst hready hs ht hc ha2
  have e' : r1'.run dv (dataPhase true bs) = .ok r3 := by
    rw [← e]; simp only [sendObject, Rsp.run, Rsp.step, e1, Res.bind_ok]
  rw [upload_frame dv content sep q h n h' hh bs r1' true 0 g (fun _ => hb) r3 e', kk.dev]

/-- A transaction with a data phase that is collected: command `q`, data packets `b :: bs`. -/
theorem run_txn (dv : Dev D) (r : Rsp D) (q b : List UInt8) (bs : List (List UInt8)) (hst : r.st = .idle)
    (hready : r.ready = true) (k : OpKind) (hk : opKind (cCode q) = some k) (hd : hasDataPhase (cCode q) = true)
    (hc : cCode q ≠ 0x100D ∧ cCode q ≠ 0x95C2) (h4 : 4 ≤ b.length) (hl : (b ++ bs.flatten).length ≤ cLen b)
    (r0 : Rsp D) (hr0 : (r.accept q).handle dv q [] k = .ok r0) (h0 : r0.st = .waitData ∧ r0.req = some q) :
    r.run dv (.packet q true true [] :: dataPhase true (b :: bs)) =
      (r0.emit .statusBusy).dataPacket dv q (b ++ bs.flatten) true true := by
  have e1 : r.receive dv q true true [] = .ok r0 := by
    rw [receive_idle dv r q [] hst, command_accept dv r q [] (Or.inl hready), hk]
    exact hr0
  simp only [Rsp.run, Rsp.step, e1, Res.bind_ok]
  rw [run_collect dv q hc b bs r0 h0.1 h0.2 h4 hl]
  unfold Rsp.receive
  rw [h0.1]
  simp only
  split
  · next hn => rw [h0.2] at hn; simp at hn
  · next q' hq' =>
    have : q' = q := by rw [h0.2] at hq'; exact (Option.some.inj hq').symm
    subst this
    rfl

/-- A data container that belongs to the request: same transaction, same operation, complete. -/
structure Proper (q b : List UInt8) (bs : List (List UInt8)) : Prop where
  first : 12 ≤ b.length
  size : (b ++ bs.flatten).length ≤ cLen b
  tid : cTid b = cTid q
  code : cCode b = cCode q

private theorem rd_append (w i : Nat) (a b : List UInt8) (h : i + w ≤ a.length) : rd w (a ++ b) i = rd w a i := by
  unfold rd
  rw [List.drop_append_of_le_length (by omega), List.take_append_of_le_length (by simp; omega)]

theorem check_proper {q b : List UInt8} {bs : List (List UInt8)} (hp : Proper q b bs) (r : Rsp D)
    (hr : r.resp = .ok) : ({ r with dataC := some (b ++ bs.flatten) } : Rsp D).dataCheck q = .ok := by
  have h1 : cTid (b ++ bs.flatten) = cTid q := by
    rw [← hp.tid]; exact rd_append 4 8 b _ (by have := hp.first; omega)
  have h2 : cCode (b ++ bs.flatten) = cCode q := by
    rw [← hp.code]; exact rd_append 2 6 b _ (by have := hp.first; omega)
  unfold dataCheck
  simp [hr, h1, h2]

/-- What C34 promises after an announcement of object `h` with `n` bytes led to state `r1`. -/
def GoesTo (dv : Dev D) (content : D → Nat → List UInt8) (r1 : Rsp D) (h n : Nat) : Prop :=
  ∀ (mid : List (In D)) (r2 : Rsp D), (∀ i ∈ mid, Foreign i) → r1.run dv mid = .ok r2 →
    r2.st = .idle → r2.ready = true → r2.session ≠ 0 →
  ∀ (q : List UInt8) (bs : List (List UInt8)), cTid q ≠ 0 ∧ cTid q ≠ 0xFFFFFFFF → cCode q = 0x100D →
    bs ≠ [] → (∀ b ∈ bs.head?, 12 ≤ b.length) →
  ∃ (r3 : Rsp D) (c : Resp), r2.run dv (sendObject q bs) = .ok r3 ∧
    responses r3.out = responses r2.out ++ [.response c (u16 (cTid q)) []] ∧
    (c = .ok → ∃ k, content r3.dev h = ((bodies true bs).take k).flatten ∧ n ≤ (content r3.dev h).length) ∧
    ∀ h' ≠ h, content r3.dev h' = content r2.dev h'

private theorem announce_done (dv : Dev D) (content : D → Nat → List UInt8) (law : Stores dv content)
    (sep : Separate dv content) (r1 : Rsp D) (hst : r1.st = .waitData) (h n : Nat) (ha : Announced r1 h n)
    (t : Nat) (ps : List Nat) (d : D) (hd : r1.dev = d) {R : List Out} (ho : responses r1.out = R) :
    responses (r1.send (.response .ok t ps)).1.out = R ++ [.response .ok t ps] ∧
    (r1.send (.response .ok t ps)).1.dev = d ∧
    GoesTo dv content (r1.send (.response .ok t ps)).1 h n := by
  refine ⟨?_, (send_dev ..).trans hd, ?_⟩
  · rw [send_response _ _ _ _ (by rw [hst]; simp)]
    simp only [deleteStored_out, emit_out, responses_append, responses_setState, ho]
    simp [responses, Out.isResponse]
  · intro mid r2 hmid h12 h2 h3 h4 q bs ht hc hne hb
    refine announced_target dv content law sep _ r2 h n ?_ ?_ mid hmid h12 h2 h3 h4 q ht hc bs hne hb
    · unfold Announced
      rw [send_sendSeq, send_propList]
      exact ha
    · rw [send_response _ _ _ _ (by rw [hst]; simp)]
      rfl

/-- C34. A SendObjectInfo transaction whose dataset the storage accepts (creating object `h`; the dataset,
however it is cut into packets, announces `n` bytes) is answered OK, whatever was announced before; and
whatever happens next short of another upload operation or the end of the session, the data of the next
SendObject goes to object `h` and to no other. -/
theorem C34_info (dv : Dev D) (content : D → Nat → List UInt8) (law : Stores dv content)
    (sep : Separate dv content) (r : Rsp D) (hst : r.st = .idle) (hready : r.ready = true) (hs : r.session ≠ 0)
    (q b : List UInt8) (bs : List (List UInt8)) (hq : cCode q = 0x100C) (ht : cTid q ≠ 0 ∧ cTid q ≠ 0xFFFFFFFF)
    (hp : Proper q b bs) (n h : Nat) (hn : n = rd 4 (b ++ bs.flatten) 20) (hn1 : n ≠ 0xFFFFFFFF)
    (d : D) (ps : List Nat) (hadd : dv.addInfo r.dev (cParams q) (b ++ bs.flatten) = (d, .ok, ps, h)) :
    ∃ r1, r.run dv (.packet q true true [] :: dataPhase true (b :: bs)) = .ok r1 ∧
      responses r1.out = responses r.out ++ [.response .ok (cTid q) ps] ∧ r1.dev = d ∧
      GoesTo dv content r1 h n := by
  have hk : opKind (cCode q) = some .sendInfo := by rw [hq]; decide
  have hd : hasDataPhase (cCode q) = true := by rw [hq]; decide
  have hpc : preCheck (r.accept q).session (cTid q) = .ok := by rw [accept_session, preCheck_ok hs ht]
  have hc : cCode q ≠ 0x100D ∧ cCode q ≠ 0x95C2 := by rw [hq]; decide
  have h0 : (r.accept q).handle dv q [] .sendInfo = .ok (r.accept q) := by
    simp only [Rsp.handle]
    rw [hpc]
    rfl
  have hst0 : (r.accept q).st = .waitData := by rw [accept_st, hd]; rfl
  rw [run_txn dv r q b bs hst hready .sendInfo hk hd hc (by have := hp.first; omega) hp.size _ h0
    ⟨hst0, accept_req r q⟩]
  have hacc2 : ∀ (r : Rsp D) x, r.accumulate x true = { r with dataC := some x } := fun r x => rfl
  unfold dataPacket
  rw [if_neg hc.1, if_neg hc.2, hacc2]
  simp only [Bool.true_eq_false, if_false]
  rw [check_proper hp _ (by rfl)]
  simp only [hk]
  refine ⟨_, rfl, ?_⟩
  unfold infoData
  simp only
  rw [← hn, if_neg hn1]
  have hdev : (r.accept q).dev = r.dev := accept_dev r q
  simp only [emit_dev, hdev, hadd]
  generalize hr1 : ({ (r.accept q).emit .statusBusy with
    dataC := some (b ++ bs.flatten), propList := none, dev := d, sendSeq := some ⟨h, n, 0⟩ } : Rsp D) = r1
  refine announce_done dv content law sep r1 (by rw [← hr1]; exact hst0) h n ?_ (cTid q) ps d ?_ ?_
  · rw [← hr1]; exact Or.inl ⟨rfl, rfl⟩
  · rw [← hr1]
  · rw [← hr1]
    show responses ((r.accept q).out ++ [.statusBusy]) = _
    rw [responses_append, responses_accept]; simp [responses, Out.isResponse]

theorem listData_eq (dv : Dev D) (r : Rsp D) (q a : List UInt8) (p : PropListInfo)
    (hp : r.propList = some p) (d : D) (c : Resp) (ps : List Nat) (h : Nat)
    (ha : dv.addList r.dev p.params a = (d, c, ps, h)) :
    r.listData dv q a = (({ r with dev := d, propList := some { p with handle := h, dataset := a } } : Rsp D).send
      (.response c (cTid q) ps)).1 := by
  unfold listData
  rw [hp]
  simp only [ha]

/-- C34 for SendObjectPropList, provided no SendObjectInfo is waiting for its data (otherwise see
`C34_mixup_violated`). -/
theorem C34_list_partial (dv : Dev D) (content : D → Nat → List UInt8) (law : Stores dv content)
    (sep : Separate dv content) (r : Rsp D) (hst : r.st = .idle) (hready : r.ready = true) (hs : r.session ≠ 0)
    (hseq : r.sendSeq = none)
    (q b : List UInt8) (bs : List (List UInt8)) (hq : cCode q = 0x9808) (ht : cTid q ≠ 0 ∧ cTid q ≠ 0xFFFFFFFF)
    (hp : Proper q b bs) (n h : Nat) (hn : n = cParam q 4) (hn1 : cParam q 3 = 0)
    (hck : dv.listCheck r.dev (cParams q) = .ok)
    (d : D) (ps : List Nat) (hadd : dv.addList r.dev (cParams q) (b ++ bs.flatten) = (d, .ok, ps, h)) :
    ∃ r1, r.run dv (.packet q true true [] :: dataPhase true (b :: bs)) = .ok r1 ∧
      responses r1.out = responses r.out ++ [.response .ok (cTid q) ps] ∧ r1.dev = d ∧
      GoesTo dv content r1 h n := by
  have hk : opKind (cCode q) = some .sendPropList := by rw [hq]; decide
  have hd : hasDataPhase (cCode q) = true := by rw [hq]; decide
  have hpc : preCheck (r.accept q).session (cTid q) = .ok := by rw [accept_session, preCheck_ok hs ht]
  have hc : cCode q ≠ 0x100D ∧ cCode q ≠ 0x95C2 := by rw [hq]; decide
  have hdev : (r.accept q).dev = r.dev := accept_dev r q
  have h0 : (r.accept q).handle dv q [] .sendPropList =
      .ok { (r.accept q) with propList := some ⟨0, cParam q 4, 0, cParams q, []⟩ } := by
    simp only [Rsp.handle, propListReq]
    rw [hpc, hdev, hck]
    simp only
    rw [if_neg (by simp [hn1])]
    simp
  have hst0 : (r.accept q).st = .waitData := by rw [accept_st, hd]; rfl
  rw [run_txn dv r q b bs hst hready .sendPropList hk hd hc (by have := hp.first; omega) hp.size _ h0
    ⟨hst0, accept_req r q⟩]
  have hacc2 : ∀ (r : Rsp D) x, r.accumulate x true = { r with dataC := some x } := fun r x => rfl
  unfold dataPacket
  rw [if_neg hc.1, if_neg hc.2, hacc2]
  simp only [Bool.true_eq_false, if_false]
  rw [check_proper hp _ (by rfl)]
  simp only [hk]
  refine ⟨_, rfl, ?_⟩
  rw [listData_eq dv _ q _ ⟨0, cParam q 4, 0, cParams q, []⟩ rfl d .ok ps h (by
    show dv.addList (r.accept q).dev (cParams q) _ = _
    rw [hdev]; exact hadd)]
  generalize hr1 : (Rsp.mk _ _ _ _ _ _ _ _ _ _ _ _ _ _ _ : Rsp D) = r1
  refine announce_done dv content law sep r1 (by rw [← hr1]; exact hst0) h n ?_ (cTid q) ps d ?_ ?_
  · rw [← hr1]; exact Or.inr ⟨(accept_sendSeq r q).trans hseq, _, rfl, rfl, hn.symm, rfl⟩
  · rw [← hr1]
  · rw [← hr1]
    show responses ((r.accept q).out ++ [.statusBusy]) = _
    rw [responses_append, responses_accept]; simp [responses, Out.isResponse]

/-- The toy storage keeps its objects apart. -/
example : Separate Toy.dev Toy.look where
  write d h b f l h' hh := by
    cases b with
    | none => rfl
    | some b =>
      simp only [Toy.dev, Toy.look, Toy.put]
      rw [List.find?_cons_of_neg (by simp; omega), List.find?_filter]
      congr 3
      funext x; simp; intro e; rw [e]; simpa using hh
  truncate d h n h' hh := by
    simp only [Toy.dev, Toy.look, Toy.put]
    rw [List.find?_cons_of_neg (by simp; omega), List.find?_filter]
    congr 3
    funext x; simp; intro e; rw [e]; simpa using hh
  props _ _ _ _ _ := rfl

/-- The dataset of an object of `n` bytes, up to its size field. -/
def infoOf (n : Nat) : List UInt8 := leBytes 4 1 ++ leBytes 2 0x3000 ++ leBytes 2 0 ++ leBytes 4 n

/-- Announce, ask for something else, send: hypotheses of `C34_info` are met and the data arrives. -/
example : Proper (Toy.cmd 0x100C 1 [0, 0]) (Toy.dat 0x100C 1 (infoOf 3)) [] ∧
    rd 4 (Toy.dat 0x100C 1 (infoOf 3)) 20 = 3 ∧
    (∀ i ∈ ([.packet (Toy.cmd 0x1004 3 []) true true []] : List (In Toy.Objs)), Foreign i) := by
  refine ⟨⟨by decide +kernel, by decide +kernel, by decide +kernel, by decide +kernel⟩, by decide +kernel, ?_⟩
  intro i hi
  rw [List.mem_singleton.mp hi]
  exact ⟨fun _ _ => by decide +kernel, by simp⟩

example : after (({ dev := [], ready := true, session := 1 } : Rsp Toy.Objs).run Toy.dev
    ([.packet (Toy.cmd 0x100C 1 [0, 0]) true true [], .packet (Toy.dat 0x100C 1 (infoOf 3)) true true [],
      .packet (Toy.cmd 0x1004 2 []) true true []] ++ sendObject (Toy.cmd 0x100D 3 []) [Toy.dat 0x100D 3 [7, 8, 9]]))
    (fun r => responses r.out = [.response .ok 1 [1, 0, 1], .response .ok 2 [], .response .ok 3 []] ∧
      Toy.look r.dev 1 = [7, 8, 9]) := by decide +kernel

/-- C34 is violated when a SendObjectPropList follows a SendObjectInfo that got no data: object 2 is
announced last, but the data goes to object 1 (mtpresponder.cpp:2268-2272 asks the SendObjectInfo sequence
first, 2079-2133 does not clear it), its completeness is judged by object 2's size, and object 2 stays
empty. -/
theorem C34_mixup_violated :
    after (({ dev := [], ready := true, session := 1 } : Rsp Toy.Objs).run Toy.dev
      ([.packet (Toy.cmd 0x100C 1 [0, 0]) true true [], .packet (Toy.dat 0x100C 1 (infoOf 9)) true true [],
        .packet (Toy.cmd 0x9808 2 [1, 0, 0x3000, 0, 3]) true true [], .packet (Toy.dat 0x9808 2 []) true true []] ++
        sendObject (Toy.cmd 0x100D 3 []) [Toy.dat 0x100D 3 [7, 8, 9]]))
    (fun r => responses r.out =
        [.response .ok 1 [1, 0, 1], .response .ok 2 [1, 0, 2], .response .ok 3 []] ∧
      Toy.look r.dev 1 = [7, 8, 9] ∧ Toy.look r.dev 2 = []) := by decide +kernel

/-- C34 is violated after a refused SendObjectPropList: it still counts as an announcement, of the object
with handle 0, so SendObject is not answered NoValidObjectInfo (mtpresponder.cpp:2404-2517 keeps the list
whatever the storage says). -/
theorem C34_refused_violated :
    after (({ dev := [], ready := true, session := 1 } : Rsp Toy.Objs).run
      { Toy.dev with addList := fun d _ _ => (d, .generalError, [], 0) }
      ([.packet (Toy.cmd 0x9808 2 [1, 0, 0x3000, 0, 3]) true true [], .packet (Toy.dat 0x9808 2 []) true true []] ++
        sendObject (Toy.cmd 0x100D 3 []) [Toy.dat 0x100D 3 [7, 8, 9]]))
    (fun r => responses r.out = [.response .generalError 2 [], .response .ok 3 []] ∧
      Toy.look r.dev 0 = [7, 8, 9]) := by decide +kernel

end Props
