import Verif.Lemmas.DataPhase
/-!
What the storages behind the responder do when commands come: any relation that every call on the storages respects holds between
the storages before and after a history.
-/
namespace Mtp
namespace Rsp
variable {D : Type}

/-- `R` is respected by every call the responder makes for operations in `ok`. -/
structure Closed (dv : Dev D) (ok : Nat → Prop) (R : D → D → Prop) : Prop where
  refl : ∀ d, R d d
  trans : ∀ a b c, R a b → R b c → R a c
  query : ∀ d c ps, ok c → R d (dv.query d c ps).1
  copy : ok 0x101A → ∀ d ps b, R d (dv.copy d ps b).1
  store : ∀ d c ps b, ok c → R d (dv.store d c ps b).1
  addInfo : ok 0x100C → ∀ d ps b, R d (dv.addInfo d ps b).1
  addList : ok 0x9808 → ∀ d ps b, R d (dv.addList d ps b).1
  write : ok 0x100D → ∀ d h b f l, R d (dv.write d h b f l).1
  cut : ok 0x100D ∨ ok 0x95C3 → ∀ d h n, R d (dv.truncate d h n).1
  setProps : ok 0x100D → ok 0x9808 → ∀ d h b, R d (dv.setProps d h b)
  writePartial : ok 0x95C2 → ∀ d h o b f l, R d (dv.writePartial d h o b f l).1
  delete : ok 0x100C ∨ ok 0x100D ∨ ok 0x9808 → ∀ d h, R d (dv.delete d h).1
  flush : ok 0x95C5 → ∀ d h, R d (dv.flush d h)
  setEvents : ok 0x95C4 ∨ ok 0x95C5 → ∀ d h b, R d (dv.setEvents d h b)
  eventsOff : ok 0x1003 → ∀ d, R d (dv.eventsOff d)

/-- Along the way. -/
structure Along (ok : Nat → Prop) (R : D → D → Prop) (d0 : D) (r : Rsp D) : Prop where
  dev : R d0 r.dev
  req : ∀ q, r.req = some q → ok (cCode q)
  list : ok 0x100D → r.propList.isSome = true → ok 0x9808

variable {ok : Nat → Prop} {R : D → D → Prop} {d0 : D} {dv : Dev D}

theorem Along.of {r r' : Rsp D} (h : Along ok R d0 r) (h1 : r'.dev = r.dev)
    (h2 : r'.req = r.req ∨ r'.req = none)
    (h3 : r'.propList.isSome = true → r.propList.isSome = true := by first | exact id | (simp; done) | (intro _; simp [*]; done)) : Along ok R d0 r' :=
  ⟨by rw [h1]; exact h.dev, (fun q e => by
    rcases h2 with h2 | h2
    · exact h.req q (h2 ▸ e)
    · rw [h2] at e; cases e), fun ho hs => h.list ho (h3 hs)⟩

theorem Along.step (cl : Closed dv ok R) {r : Rsp D} (h : Along ok R d0 r) {d : D} (hd : R r.dev d) :
    Along ok R d0 { r with dev := d } := ⟨cl.trans _ _ _ h.dev hd, h.req, h.list⟩

theorem Along.emit {r : Rsp D} (h : Along ok R d0 r) (o : Out) : Along ok R d0 (r.emit o) := h.of rfl (Or.inl rfl)

theorem Along.setState {r : Rsp D} (h : Along ok R d0 r) (x : RState) : Along ok R d0 (r.setState x) :=
  h.of (setState_dev ..) (Or.inl (setState_req ..))

theorem Along.send {r : Rsp D} (h : Along ok R d0 r) (o : Out) : Along ok R d0 (r.send o).1 := by
  unfold Rsp.send
  split
  · exact h
  · split
    · split
      · exact h
      · exact h.of rfl (Or.inl rfl)
    · split
      · exact (((h.setState .idle).emit o).emit .statusOk).of rfl (Or.inr rfl)
      · exact h.emit o

theorem Along.reply {r : Rsp D} (h : Along ok R d0 r) (c : Resp) : Along ok R d0 (r.reply c) := by
  unfold Rsp.reply
  split
  · exact h
  · exact h.send _

theorem Along.reply1 {r r' : Rsp D} (h : Along ok R d0 r) (c : Resp) (p : Nat) (hr : r.reply1 c p = .ok r') :
    Along ok R d0 r' := by
  unfold Rsp.reply1 at hr
  split at hr
  · cases hr
  · cases hr; exact h.send _

theorem Along.replyP {r r' : Rsp D} (h : Along ok R d0 r) (c : Resp) (ps : List Nat) (hr : r.replyP c ps = .ok r') :
    Along ok R d0 r' := by
  unfold Rsp.replyP at hr
  split at hr
  · cases hr; exact h.reply _
  · exact h.reply1 _ _ hr

theorem Along.sendReply {r r' : Rsp D} (h : Along ok R d0 r) (q : List UInt8) (x : Reply)
    (hr : r.sendReply q x = .ok r') : Along ok R d0 r' := by
  unfold Rsp.sendReply at hr
  split at hr
  · split at hr
    · cases hr; exact h
    · exact h.replyP _ _ hr
  · next dd l rest hf =>
    have hs := h.send (.data (cCode q) (cTid q) dd l)
    split at hr
    · next r2 e => cases hr; rw [e] at hs; exact hs
    · next r2 e =>
      rw [e] at hs
      have hm : Along ok R d0 { r2 with out := r2.out ++ rest.map fun f => .more f.1 f.2 } := hs.of rfl (Or.inl rfl)
      split at hr
      · cases hr; exact hm
      · exact hm.replyP _ _ hr

theorem Along.ev (cl : Closed dv ok R) {r : Rsp D} (h : Along ok R d0 r) (e : Ev) : Along ok R d0 (r.handleEv dv e) := by
  have close : Along ok R d0 r.closeSession := by
    unfold closeSession
    have h1 : Along ok R d0 ({ r with session := 0 }.deleteStored) := h.of rfl (Or.inr rfl)
    exact (h1.setState .idle).of rfl (Or.inl rfl)
  cases e with
  | deviceReset => exact close.emit _
  | cleanup => exact close
  | suspend =>
    have : Along ok R d0 { r with prev := r.st } := h.of rfl (Or.inl rfl)
    exact this.setState _
  | resume =>
    simp only [handleEv, handleResume]
    have h1 := h.setState r.prev
    split
    · exact h1
    · have h2 : Along ok R d0 { (r.setState r.prev) with resend := none } := h1.of rfl (Or.inl rfl)
      split
      · exact h2
      · exact h2.emit _
  | cancel =>
    simp only [handleEv, handleCancel]
    split
    · exact h.emit _
    · next q hq =>
      have h1 := h.setState .txCancel
      have h2 : Along ok R d0 (if cCode q = 0x100D ∨ cCode q = 0x9808 ∨ cCode q = 0x100C
          then (r.setState .txCancel).cancelUpload dv else r.setState .txCancel) := by
        split
        · next hc =>
          have hok : ok 0x100C ∨ ok 0x100D ∨ ok 0x9808 := by
            have := h.req q hq
            rcases hc with hc | hc | hc <;> rw [hc] at this <;> simp [this]
          unfold cancelUpload
          simp only
          have h3 : Along ok R d0 (if (r.setState .txCancel).cancelTarget = 0 then r.setState .txCancel
              else { (r.setState .txCancel) with
                dev := (dv.delete (r.setState .txCancel).dev (r.setState .txCancel).cancelTarget).1 }) := by
            split
            · exact h1
            · exact h1.step cl (cl.delete hok _ _)
          generalize (if (r.setState .txCancel).cancelTarget = 0 then r.setState .txCancel
              else { (r.setState .txCancel) with
                dev := (dv.delete (r.setState .txCancel).dev (r.setState .txCancel).cancelTarget).1 }) = r3 at *
          split
          · exact h3.of rfl (Or.inl rfl)
          · exact h3.of rfl (Or.inl rfl)
        · exact h1
      generalize (if cCode q = 0x100D ∨ cCode q = 0x9808 ∨ cCode q = 0x100C
          then (r.setState .txCancel).cancelUpload dv else r.setState .txCancel) = r2 at *
      have h4 : Along ok R d0 r2.deleteStored := h2.of rfl (Or.inr rfl)
      exact h4.emit _

theorem Along.evs (cl : Closed dv ok R) (es : List Ev) : ∀ {r : Rsp D}, Along ok R d0 r →
    Along ok R d0 (es.foldl (handleEv dv) r) := by
  induction es with
  | nil => intro r h; exact h
  | cons e es ih => intro r h; exact ih (h.ev cl e)

/-- The operation of each kind of handler that is not a query. -/
theorem kind_code {c : Nat} {k : OpKind} (hk : opKind c = some k) :
    (k = .closeSession → c = 0x1003) ∧ (k = .copy → c = 0x101A) ∧ (k = .sendInfo → c = 0x100C) ∧
    (k = .sendObject → c = 0x100D) ∧ (k = .sendPropList → c = 0x9808) ∧ (k = .sendPartial → c = 0x95C2) ∧
    (k = .truncate → c = 0x95C3) ∧ (k = .beginEdit → c = 0x95C4) ∧ (k = .endEdit → c = 0x95C5) := by
  have : ∀ e ∈ opTable,
      (e.2 = .closeSession → e.1 = 0x1003) ∧ (e.2 = .copy → e.1 = 0x101A) ∧ (e.2 = .sendInfo → e.1 = 0x100C) ∧
      (e.2 = .sendObject → e.1 = 0x100D) ∧ (e.2 = .sendPropList → e.1 = 0x9808) ∧ (e.2 = .sendPartial → e.1 = 0x95C2) ∧
      (e.2 = .truncate → e.1 = 0x95C3) ∧ (e.2 = .beginEdit → e.1 = 0x95C4) ∧ (e.2 = .endEdit → e.1 = 0x95C5) := by decide
  exact this _ (opKind_mem hk)

theorem Along.handle (cl : Closed dv ok R) {r r' : Rsp D} (h : Along ok R d0 r) (q : List UInt8) (n : List Ev)
    (hq : ok (cCode q)) (k : OpKind) (hk : opKind (cCode q) = some k) (hr : r.handle dv q n k = .ok r') :
    Along ok R d0 r' := by
  obtain ⟨k1, k2, k3, k4, k5, k6, k7, k8, k9⟩ := kind_code hk
  have hquery : ∀ ps, Along ok R d0 { r with dev := (dv.query r.dev (cCode q) ps).1 } :=
    fun ps => h.step cl (cl.query _ _ _ hq)
  cases k with
  | deviceInfo => simp only [Rsp.handle] at hr; exact Along.sendReply (hquery _) _ _ hr
  | openSession =>
    simp only [Rsp.handle, openSessionReq] at hr
    split at hr
    · cases hr; exact h.reply _
    · split at hr
      · exact h.reply1 _ _ hr
      · cases hr
        refine Along.emit (Along.reply ?_ _) _; exact h.of rfl (Or.inl rfl)
  | closeSession =>
    simp only [Rsp.handle, closeSessionReq] at hr
    have hok : ok 0x1003 := by rw [← k1 rfl]; exact hq
    split at hr
    · cases hr; exact h.reply _
    · cases hr
      refine Along.reply (Along.emit ?_ _) _
      exact (h.step cl (cl.eventsOff hok _)).of rfl (Or.inl rfl)
  | propsSupported =>
    simp only [Rsp.handle] at hr
    split at hr
    · exact Along.sendReply (hquery _) _ _ hr
    · cases hr; exact h.reply _
  | thumb =>
    simp only [Rsp.handle] at hr
    split at hr
    · split at hr
      · cases hr; exact hquery _
      · exact Along.sendReply (hquery _) _ _ hr
    · cases hr; exact h
  | query ps =>
    simp only [Rsp.handle] at hr
    split at hr
    · exact Along.sendReply (hquery _) _ _ hr
    · exact h.replyP _ _ hr
  | copy =>
    have hok : ok 0x101A := by rw [← k2 rfl]; exact hq
    have ce : ∀ (r1 : Rsp D) c x, Along ok R d0 r1 → r1.copyEnd c x = .ok r' → Along ok R d0 r' := by
      intro r1 c x h1 hr
      unfold copyEnd at hr
      split at hr
      · cases hr; exact h1
      · exact h1.reply1 _ _ hr
    simp only [Rsp.handle, copyReq] at hr
    split at hr
    · refine ce _ _ _ ?_ hr
      exact (h.evs cl n).step cl (cl.copy hok _ _ _)
    · exact ce _ _ _ h hr
  | skip => cases hr; exact h.reply _
  | refused => cases hr; exact h.reply _
  | sendInfo => cases hr; exact h.of rfl (Or.inl rfl)
  | sendObject =>
    cases hr
    unfold sendObjectReq
    split
    · split <;> exact h.of rfl (Or.inl rfl)
    · exact h.of rfl (Or.inl rfl)
  | sendPropList =>
    cases hr
    unfold propListReq
    have hok : ok 0x9808 := by rw [← k5 rfl]; exact hq
    split
    · split
      · split
        · exact h.of rfl (Or.inl rfl)
        · exact ⟨h.dev, h.req, fun _ _ => hok⟩
      · exact h.of rfl (Or.inl rfl)
    · exact h.of rfl (Or.inl rfl)
  | sendPartial =>
    cases hr
    unfold partialReq
    split
    · split
      · exact h.of rfl (Or.inl rfl)
      · split <;> exact h.of rfl (Or.inl rfl)
    · exact h.of rfl (Or.inl rfl)
  | set c => cases hr; exact h.of rfl (Or.inl rfl)
  | truncate =>
    have hok : ok 0x95C3 := by rw [← k7 rfl]; exact hq
    cases hr
    unfold truncateReq
    split
    · split
      · exact h.reply _
      · split
        · exact h.reply _
        · exact Along.reply (h.step cl (cl.cut (Or.inr hok) _ _ _)) _
    · exact h.reply _
  | beginEdit =>
    have hok : ok 0x95C4 := by rw [← k8 rfl]; exact hq
    cases hr
    unfold beginEditReq
    split
    · split
      · refine Along.reply ?_ _
        exact (h.step cl (cl.setEvents (Or.inl hok) _ _ _)).of rfl (Or.inl rfl)
      · exact h.reply _
    · exact h.reply _
  | endEdit =>
    have hok : ok 0x95C5 := by rw [← k9 rfl]; exact hq
    cases hr
    unfold endEditReq
    split
    · split
      · exact h.reply _
      · split
        · exact h.reply _
        · refine Along.reply ?_ _
          exact (h.step cl (cl.trans _ _ _ (cl.flush hok _ _) (cl.setEvents (Or.inr hok) _ _ _))).of rfl (Or.inl rfl)
    · exact h.reply _

theorem Along.command (cl : Closed dv ok R) {r r' : Rsp D} (h : Along ok R d0 r) (n : List Ev)
    (hr : r.command dv n = .ok r') : Along ok R d0 r' := by
  unfold Rsp.command at hr
  split at hr
  · cases hr
  · next q hq =>
    have h1 : Along ok R d0 { r with resp := .ok } := h.of rfl (Or.inl rfl)
    simp only at hr
    split at hr
    · cases hr
      exact (h1.setState .waitStorage).of rfl (Or.inl rfl)
    · split at hr
      · next k hk => exact h1.handle cl q n (h.req q hq) k hk hr
      · cases hr; exact h1.reply _

theorem Along.dataEnd {r : Rsp D} (h : Along ok R d0 r) (c : Resp) (l : Bool) : Along ok R d0 (r.dataEnd c l) := by
  unfold Rsp.dataEnd
  simp only
  have h1 : Along ok R d0 { r with resp := c } := h.of rfl (Or.inl rfl)
  split
  · exact h1.reply _
  · exact h1

theorem Along.uploadEnd (cl : Closed dv ok R) (hok : ok 0x100D) {r : Rsp D} (h : Along ok R d0 r) (x : Nat) (c : Resp) :
    Along ok R d0 (r.uploadEnd dv x c) := by
  unfold Rsp.uploadEnd
  simp only
  have close : ∀ r1 : Rsp D, Along ok R d0 r1 →
      Along ok R d0 { (({ r1 with dev := (dv.write r1.dev x none false true).1 } : Rsp D).reply c) with propList := none } := by
    intro r1 h1
    exact (Along.reply (h1.step cl (cl.write hok _ _ _ _ _)) c).of rfl (Or.inl rfl)
  split
  · next e =>
    refine close _ ?_
    have e' : r.propList = some _ := e
    exact (h.step cl (cl.setProps hok (h.list hok (by rw [e']; rfl)) _ _ _)).of rfl (Or.inl rfl)
  · refine close _ ?_
    exact h.of rfl (Or.inl rfl)

theorem Along.uploadCheck (cl : Closed dv ok R) (hok : ok 0x100D) {r : Rsp D} (h : Along ok R d0 r) (x n : Nat) (l : Bool) :
    Along ok R d0 (r.uploadCheck dv x n l).1 := by
  unfold Rsp.uploadCheck
  split
  · next p e =>
    simp only
    split
    · split
      · exact (h.step cl (cl.cut (Or.inl hok) _ _ _)).of rfl (Or.inl rfl)
      · exact h.of rfl (Or.inl rfl)
    · exact h.of rfl (Or.inl rfl)
  · simp only
    split
    · split
      · exact (h.step cl (cl.cut (Or.inl hok) _ _ _)).of rfl (Or.inl rfl)
      · exact h.of rfl (Or.inl rfl)
    · exact h.of rfl (Or.inl rfl)
  · exact h

theorem Along.uploadData (cl : Closed dv ok R) (hok : ok 0x100D) {r r' : Rsp D} (h : Along ok R d0 r) (b : List UInt8)
    (f l : Bool) (hr : r.uploadData dv b f l = .ok r') : Along ok R d0 r' := by
  unfold Rsp.uploadData at hr
  split at hr
  · cases hr; exact h.uploadEnd cl hok _ _
  · split at hr
    · cases hr
    · simp only at hr
      generalize hx : dv.write r.dev r.uploadHandle (some (if f = true then List.drop 12 b else b)) f l = x at hr
      have h1 : Along ok R d0 { r with dev := x.1 } := by
        rw [← hx]; exact h.step cl (cl.write hok _ _ _ _ _)
      obtain ⟨d', c⟩ := x
      split at hr
      · next e =>
        cases e
        have h2 := h1.uploadCheck cl hok r.uploadHandle (if f = true then List.drop 12 b else b).length l
        split at hr
        · next e2 => cases hr; rw [e2] at h2; exact h2
        · next e2 => cases hr; rw [e2] at h2; exact h2.uploadEnd cl hok _ _
      · next e =>
        cases e; cases hr
        exact h1.uploadEnd cl hok _ _

theorem Along.data (cl : Closed dv ok R) {r r' : Rsp D} (h : Along ok R d0 r) (q b : List UInt8)
    (hq : ok (cCode q)) (f l : Bool) (hr : r.dataPacket dv q b f l = .ok r') : Along ok R d0 r' := by
  unfold dataPacket at hr
  have h0 : Along ok R d0 { r with dataC := none } := h.of rfl (Or.inl rfl)
  split at hr
  · next hc =>
    split at hr
    · exact h0.uploadData cl (by rw [← hc]; exact hq) _ _ _ hr
    · cases hr; exact h0.dataEnd _ _
  split at hr
  · next hc =>
    split at hr
    · have hp : Along ok R d0 (({ r with dataC := none } : Rsp D).partialData dv b f l).1 := by
        unfold partialData
        split
        · exact h0
        · split
          · exact h0
          · exact (h0.step cl (cl.writePartial (by rw [← hc]; exact hq) _ _ _ _ _ _)).of rfl (Or.inl rfl)
      cases hr
      exact hp.dataEnd _ _
    · cases hr; exact h0.dataEnd _ _
  · have ha : Along ok R d0 (r.accumulate b f) := by
      unfold accumulate
      split
      · exact h.of rfl (Or.inl rfl)
      · split
        · exact h
        · split
          · exact h.of rfl (Or.inl rfl)
          · exact h
    generalize r.accumulate b f = r1 at *
    simp only at hr
    split at hr
    · cases hr; exact ha
    · split at hr
      · split at hr
        · split at hr
          · cases hr; exact ha.dataEnd _ _
          · cases hr
        · split at hr
          · next e =>
            have hok : ok 0x100C := by rw [← (kind_code e).2.2.1 rfl]; exact hq
            cases hr
            unfold infoData
            simp only
            split
            · refine Along.send ?_ _; exact ha.of rfl (Or.inl rfl)
            · split
              · next e2 =>
                refine Along.send ?_ _
                have := cl.addInfo hok r1.dev (cParams q)
                exact (ha.step cl (by have := cl.addInfo hok r1.dev (cParams q) ‹_›; rw [e2] at this; exact this)).of rfl (Or.inl rfl)
              · next e2 =>
                refine Along.send ?_ _
                exact (ha.step cl (by have := cl.addInfo hok r1.dev (cParams q) ‹_›; rw [e2] at this; exact this)).of rfl (Or.inl rfl)
          · next e =>
            have hok : ok 0x9808 := by rw [← (kind_code e).2.2.2.2.1 rfl]; exact hq
            cases hr
            unfold listData
            split
            · exact ha.reply _
            · refine Along.send ?_ _
              exact (ha.step cl (cl.addList hok _ _ _)).of rfl (Or.inl rfl)
          · refine Along.replyP ?_ _ _ hr
            exact ha.step cl (cl.store _ _ _ _ hq)
          · cases hr; exact ha.dataEnd _ _
      · cases hr; exact ha.dataEnd _ _

theorem Along.receive (cl : Closed dv ok R) {r r' : Rsp D} (h : Along ok R d0 r) (b : List UInt8) (f l : Bool) (n : List Ev)
    (hb : f = true → l = true → ok (cCode b)) (hr : r.receive dv b f l n = .ok r') : Along ok R d0 r' := by
  have fresh : (if f = true ∧ l = true then
        (({ { (r.setState .idle) with req := none } with req := some b }.setState
          (if hasDataPhase (cCode b) then .waitData else .waitResp)).emit .statusBusy).command dv n
      else Res.ok ({ (r.setState .idle) with req := none }.emit .reset)) = Res.ok r' → Along ok R d0 r' := by
    intro hr
    have h1 := h.setState .idle
    split at hr
    · next hfl =>
      refine Along.command cl ?_ n hr
      refine Along.emit (Along.setState ?_ _) _
      exact ⟨h1.dev, fun q e => (by cases e; exact hb hfl.1 hfl.2), h1.list⟩
    · cases hr
      refine Along.emit ?_ _
      exact h1.of rfl (Or.inr rfl)
  unfold Rsp.receive at hr
  split at hr
  · exact fresh hr
  · exact fresh hr
  · exact fresh hr
  · split at hr
    · cases hr; exact (h.setState _).emit _
    · next q hq =>
      refine Along.data cl ?_ q b (h.req q hq) f l hr
      split
      · exact h.emit _
      · exact h
  · split at hr
    · cases hr; exact (h.setState _).emit _
    · cases hr; exact h.of rfl (Or.inl rfl)
  · cases hr; exact (h.setState _).emit _

/-- Everything that can happen when the host uses only operations in `ok` and nobody else changes the storages. (A packet kept
while the storages were being read may later be taken for a command, so `ready` is allowed only if all operations are.) -/
def Using (ok : Nat → Prop) : In D → Prop
  | .packet b first last _ => first = true → last = true → ok (cCode b)
  | .ready _ => ∀ c, ok c
  | .ev _ => True
  | .notify .. => True
  | .env _ => False

theorem Along.input (cl : Closed dv ok R) {r r' : Rsp D} (h : Along ok R d0 r) (i : In D) (hi : Using ok i)
    (hr : r.step dv i = .ok r') : Along ok R d0 r' := by
  cases i with
  | packet b f l n => exact h.receive cl b f l n hi hr
  | ready n =>
    simp only [Rsp.step, storageReady] at hr
    have h1 : Along ok R d0 { r with ready := true } := h.of rfl (Or.inl rfl)
    split at hr
    · split at hr
      · cases hr
      · split at hr
        · next r2 e2 =>
          have h2 := Along.command cl (h1.setState _) n e2
          unfold replay at hr
          split at hr
          · cases hr; exact h2.of rfl (Or.inl rfl)
          · split at hr
            · next r3 e3 =>
              cases hr
              exact (h2.receive cl _ _ _ _ (fun _ _ => hi _) e3).of rfl (Or.inl rfl)
            · cases hr
        · cases hr
    · cases hr; exact h1
  | ev e => cases hr; exact h.ev cl e
  | notify c ps =>
    cases hr
    unfold Rsp.notify
    split
    · exact h
    · exact h.send _
  | env d => exact absurd hi (by simp [Using])

/-- Histories. -/
theorem run_along (cl : Closed dv ok R) (is : List (In D)) : ∀ {r r' : Rsp D}, Along ok R d0 r →
    (∀ i ∈ is, Using ok i) → r.run dv is = .ok r' → Along ok R d0 r' := by
  induction is with
  | nil => intro r r' h _ hr; cases hr; exact h
  | cons i is ih =>
    intro r r' h hi hr
    rw [run] at hr
    cases hs : r.step dv i with
    | ub w => rw [hs] at hr; simp at hr
    | ok r1 =>
      rw [hs] at hr
      exact ih (h.input cl i (hi i (by simp)) hs) (fun j hj => hi j (by simp [hj])) hr

/-- See the head of the file. -/
theorem run_closed (cl : Closed dv ok R) {is : List (In D)} {r r' : Rsp D} (hq : ∀ q, r.req = some q → ok (cCode q))
    (hl : ok 0x100D → r.propList.isSome = true → ok 0x9808)
    (hi : ∀ i ∈ is, Using ok i) (hr : r.run dv is = .ok r') : R r.dev r'.dev :=
  (run_along cl is ⟨cl.refl _, hq, hl⟩ hi hr).dev

end Rsp
end Mtp
