import Verif.Lemmas.Closed
/-!
Like Verif.Lemmas.Closed, with conditions on the single calls: which requests, which handles. Used to show that an object a host
does not address is left alone.
-/
namespace Mtp
namespace Rsp
variable {D : Type}

/-- `R` is respected by the requests in `okq`, by calls on handles in `Hw` and by deletions in `del`. Announcements lead to a handle
in `Hw` unless their response parameters are `Bad`. -/
structure Sparing (dv : Dev D) (okq : D → List UInt8 → Prop) (Hw : Nat → Prop) (del : D → Nat → Prop) (Bad : List Nat → Prop)
    (R : D → D → Prop) : Prop where
  refl : ∀ d, R d d
  trans : ∀ a b c, R a b → R b c → R a c
  zero : Hw 0
  edit : ∀ d q, okq d q → cCode q = 0x95C4 → Hw (cParam q 0)
  query : ∀ d q, okq d q → R d (dv.query d (cCode q) (cParams q)).1
  copy : ∀ d q b, okq d q → cCode q = 0x101A → R d (dv.copy d (cParams q) b).1
  store : ∀ d c ps b, R d (dv.store d c ps b).1
  addInfo : ∀ d ps b, R d (dv.addInfo d ps b).1
  announced : ∀ d ps b, (dv.addInfo d ps b).2.1 = .ok → Hw (dv.addInfo d ps b).2.2.2 ∨ Bad (dv.addInfo d ps b).2.2.1
  addList : ∀ d ps b, R d (dv.addList d ps b).1
  listed : ∀ d ps b, Hw (dv.addList d ps b).2.2.2 ∨ Bad (dv.addList d ps b).2.2.1
  write : ∀ d h b f l, Hw h → R d (dv.write d h b f l).1
  cut : ∀ d h n, Hw h → R d (dv.truncate d h n).1
  setProps : ∀ d h b, Hw h → R d (dv.setProps d h b)
  writePartial : ∀ d h o b f l, Hw h → R d (dv.writePartial d h o b f l).1
  delete : ∀ d h, del d h → R d (dv.delete d h).1
  flush : ∀ d h, R d (dv.flush d h)
  setEvents : ∀ d h b, R d (dv.setEvents d h b)
  eventsOff : ∀ d, R d (dv.eventsOff d)

/-- Along the way. -/
structure Clear (Hw : Nat → Prop) (R : D → D → Prop) (d0 : D) (r : Rsp D) : Prop where
  dev : R d0 r.dev
  seq : ∀ s, r.sendSeq = some s → Hw s.handle
  lst : ∀ p, r.propList = some p → Hw p.handle
  edt : ∀ e, r.edit = some e → Hw e.handle

variable {okq : D → List UInt8 → Prop} {Hw : Nat → Prop} {del : D → Nat → Prop} {Bad : List Nat → Prop} {R : D → D → Prop}
  {d0 : D} {dv : Dev D}

theorem Clear.of {r r' : Rsp D} (h : Clear Hw R d0 r) (h1 : r'.dev = r.dev) (h2 : r'.sendSeq = r.sendSeq ∨ r'.sendSeq = none)
    (h3 : r'.propList = r.propList ∨ r'.propList = none) (h4 : r'.edit = r.edit ∨ r'.edit = none) : Clear Hw R d0 r' := by
  refine ⟨by rw [h1]; exact h.dev, fun s e => ?_, fun s e => ?_, fun s e => ?_⟩
  · rcases h2 with h2 | h2
    · exact h.seq s (h2 ▸ e)
    · rw [h2] at e; cases e
  · rcases h3 with h3 | h3
    · exact h.lst s (h3 ▸ e)
    · rw [h3] at e; cases e
  · rcases h4 with h4 | h4
    · exact h.edt s (h4 ▸ e)
    · rw [h4] at e; cases e

theorem Clear.step (cl : Sparing dv okq Hw del Bad R) {r : Rsp D} (h : Clear Hw R d0 r) {d : D} (hd : R r.dev d) :
    Clear Hw R d0 { r with dev := d } := ⟨cl.trans _ _ _ h.dev hd, h.seq, h.lst, h.edt⟩

theorem Clear.same {r r' : Rsp D} (h : Clear Hw R d0 r) (h1 : r'.dev = r.dev) (h2 : r'.sendSeq = r.sendSeq)
    (h3 : r'.propList = r.propList) (h4 : r'.edit = r.edit) : Clear Hw R d0 r' :=
  h.of h1 (Or.inl h2) (Or.inl h3) (Or.inl h4)

theorem Clear.emit {r : Rsp D} (h : Clear Hw R d0 r) (o : Out) : Clear Hw R d0 (r.emit o) := h.same rfl rfl rfl rfl

theorem Clear.setState {r : Rsp D} (h : Clear Hw R d0 r) (x : RState) : Clear Hw R d0 (r.setState x) :=
  h.same (by simp) (by simp) (by simp) (by simp)

theorem Clear.send {r : Rsp D} (h : Clear Hw R d0 r) (o : Out) : Clear Hw R d0 (r.send o).1 := by
  unfold Rsp.send
  split
  · exact h
  · split
    · split
      · exact h
      · exact h.same rfl rfl rfl rfl
    · split
      · exact (((h.setState .idle).emit o).emit .statusOk).same rfl rfl rfl rfl
      · exact h.emit o

theorem Clear.reply {r : Rsp D} (h : Clear Hw R d0 r) (c : Resp) : Clear Hw R d0 (r.reply c) := by
  unfold Rsp.reply
  split
  · exact h
  · exact h.send _

theorem Clear.reply1 {r r' : Rsp D} (h : Clear Hw R d0 r) (c : Resp) (p : Nat) (hr : r.reply1 c p = .ok r') :
    Clear Hw R d0 r' := by
  unfold Rsp.reply1 at hr
  split at hr
  · cases hr
  · cases hr; exact h.send _

theorem Clear.replyP {r r' : Rsp D} (h : Clear Hw R d0 r) (c : Resp) (ps : List Nat) (hr : r.replyP c ps = .ok r') :
    Clear Hw R d0 r' := by
  unfold Rsp.replyP at hr
  split at hr
  · cases hr; exact h.reply _
  · exact h.reply1 _ _ hr

theorem Clear.sendReply {r r' : Rsp D} (h : Clear Hw R d0 r) (q : List UInt8) (x : Reply)
    (hr : r.sendReply q x = .ok r') : Clear Hw R d0 r' := by
  unfold Rsp.sendReply at hr
  split at hr
  · split at hr
    · cases hr; exact h
    · exact h.replyP _ _ hr
  · next dd l rest hf =>
    have hs := h.send (.data (cCode q) (cTid q) dd l)
    split at hr
    · next r2 e => cases hr; rw [e] at hs; exact hs
    · next r2 e =>
      rw [e] at hs
      have hm : Clear Hw R d0 { r2 with out := r2.out ++ rest.map fun f => .more f.1 f.2 } := hs.same rfl rfl rfl rfl
      split at hr
      · cases hr; exact hm
      · exact hm.replyP _ _ hr

/-- A cancel does not remove anything `del` does not allow. -/
def SpareCancel (del : D → Nat → Prop) (r : Rsp D) : Prop :=
  ∀ q, r.req = some q → cCode q = 0x100D ∨ cCode q = 0x9808 ∨ cCode q = 0x100C → r.cancelTarget ≠ 0 → del r.dev r.cancelTarget

theorem Clear.ev (cl : Sparing dv okq Hw del Bad R) {r : Rsp D} (h : Clear Hw R d0 r) (e : Ev)
    (hc : e = .cancel → SpareCancel del r) : Clear Hw R d0 (r.handleEv dv e) := by
  have close : Clear Hw R d0 r.closeSession := by
    unfold closeSession
    have h1 : Clear Hw R d0 ({ r with session := 0 }.deleteStored) := h.same rfl rfl rfl rfl
    exact (h1.setState .idle).of rfl (Or.inr rfl) (Or.inr rfl) (Or.inl rfl)
  cases e with
  | deviceReset => exact close.emit _
  | cleanup => exact close
  | suspend =>
    have : Clear Hw R d0 { r with prev := r.st } := h.same rfl rfl rfl rfl
    exact this.setState _
  | resume =>
    simp only [handleEv, handleResume]
    have h1 := h.setState r.prev
    split
    · exact h1
    · have h2 : Clear Hw R d0 { (r.setState r.prev) with resend := none } := h1.same rfl rfl rfl rfl
      split
      · exact h2
      · exact h2.emit _
  | cancel =>
    have hc := hc rfl
    simp only [handleEv, handleCancel]
    split
    · exact h.emit _
    · next q hq =>
      have h1 := h.setState .txCancel
      have ht : (r.setState .txCancel).cancelTarget = r.cancelTarget := by
        unfold cancelTarget
        rw [setState_propList, setState_sendSeq]
      have hd : (r.setState .txCancel).dev = r.dev := setState_dev ..
      have h2 : Clear Hw R d0 (if cCode q = 0x100D ∨ cCode q = 0x9808 ∨ cCode q = 0x100C
          then (r.setState .txCancel).cancelUpload dv else r.setState .txCancel) := by
        split
        · next hop =>
          unfold cancelUpload
          simp only
          have h3 : Clear Hw R d0 (if (r.setState .txCancel).cancelTarget = 0 then r.setState .txCancel
              else { (r.setState .txCancel) with
                dev := (dv.delete (r.setState .txCancel).dev (r.setState .txCancel).cancelTarget).1 }) := by
            split
            · exact h1
            · next h0 =>
              refine h1.step cl (cl.delete _ _ ?_)
              rw [ht] at h0 ⊢
              rw [hd]
              exact hc q hq hop h0
          generalize (if (r.setState .txCancel).cancelTarget = 0 then r.setState .txCancel
              else { (r.setState .txCancel) with
                dev := (dv.delete (r.setState .txCancel).dev (r.setState .txCancel).cancelTarget).1 }) = r3 at *
          split
          · exact h3.of rfl (Or.inl rfl) (Or.inr rfl) (Or.inl rfl)
          · exact h3.of rfl (Or.inr rfl) (Or.inl rfl) (Or.inl rfl)
        · exact h1
      generalize (if cCode q = 0x100D ∨ cCode q = 0x9808 ∨ cCode q = 0x100C
          then (r.setState .txCancel).cancelUpload dv else r.setState .txCancel) = r2 at *
      have h4 : Clear Hw R d0 r2.deleteStored := h2.same rfl rfl rfl rfl
      exact h4.emit _

/-- Events while something is copied: nothing is removed. -/
theorem Clear.evs (cl : Sparing dv okq Hw del Bad R) (es : List Ev) : ∀ {r : Rsp D}, Clear Hw R d0 r →
    (∀ q, r.req = some q → cCode q = 0x101A) → Clear Hw R d0 (es.foldl (handleEv dv) r) := by
  induction es with
  | nil => intro r h _; exact h
  | cons e es ih =>
    intro r h hq
    have hsp : SpareCancel del r := by
      intro q e1 e2
      rw [hq q e1] at e2
      simp at e2
    refine ih (h.ev cl e fun _ => hsp) ?_
    intro q hq'
    have key : (r.handleEv dv e).req = r.req ∨ (r.handleEv dv e).req = none := by
      cases e with
      | cancel =>
        simp only [handleEv, handleCancel]
        split
        · exact Or.inl rfl
        · exact Or.inr rfl
      | suspend => exact Or.inl (by simp [handleEv, handleSuspend])
      | resume =>
        left
        simp only [handleEv, handleResume]
        split
        · simp
        · split <;> simp
      | deviceReset => right; simp [handleEv, closeSession]
      | cleanup => right; simp [handleEv, closeSession]
    rcases key with k | k
    · exact hq q (k ▸ hq')
    · rw [k] at hq'; cases hq'

/-- Events while something is copied leave the device as it is. -/
theorem evs_dev (es : List Ev) : ∀ {r : Rsp D}, (∀ q, r.req = some q → cCode q = 0x101A) →
    (es.foldl (handleEv dv) r).dev = r.dev := by
  induction es with
  | nil => intro r _; rfl
  | cons e es ih =>
    intro r hq
    have key : (r.handleEv dv e).dev = r.dev ∧ ((r.handleEv dv e).req = r.req ∨ (r.handleEv dv e).req = none) := by
      cases e with
      | cancel =>
        simp only [handleEv, handleCancel]
        split
        · exact ⟨rfl, Or.inl rfl⟩
        · next q e1 =>
          have hc := hq q e1
          refine ⟨?_, Or.inr rfl⟩
          rw [if_neg (by rw [hc]; decide)]
          exact setState_dev ..
      | suspend => exact ⟨by simp [handleEv, handleSuspend], Or.inl (by simp [handleEv, handleSuspend])⟩
      | resume =>
        simp only [handleEv, handleResume]
        split
        · simp
        · split <;> simp
      | deviceReset => exact ⟨by simp [handleEv, closeSession, deleteStored], by right; simp [handleEv, closeSession]⟩
      | cleanup => exact ⟨by simp [handleEv, closeSession, deleteStored], by right; simp [handleEv, closeSession]⟩
    refine (ih fun q e1 => ?_).trans key.1
    rcases key.2 with k | k
    · exact hq q (k ▸ e1)
    · rw [k] at e1; cases e1

theorem Clear.handle (cl : Sparing dv okq Hw del Bad R) {r r' : Rsp D} (h : Clear Hw R d0 r) (q : List UInt8) (n : List Ev)
    (hrq : r.req = some q) (hq : okq r.dev q) (k : OpKind) (hk : opKind (cCode q) = some k) (hr : r.handle dv q n k = .ok r') :
    Clear Hw R d0 r' := by
  obtain ⟨k1, k2, k3, k4, k5, k6, k7, k8, k9⟩ := kind_code hk
  have hquery : Clear Hw R d0 { r with dev := (dv.query r.dev (cCode q) (cParams q)).1 } := h.step cl (cl.query _ _ hq)
  cases k with
  | deviceInfo => simp only [Rsp.handle] at hr; exact Clear.sendReply hquery _ _ hr
  | openSession =>
    simp only [Rsp.handle, openSessionReq] at hr
    split at hr
    · cases hr; exact h.reply _
    · split at hr
      · exact h.reply1 _ _ hr
      · cases hr
        refine Clear.emit (Clear.reply ?_ _) _; exact h.same rfl rfl rfl rfl
  | closeSession =>
    simp only [Rsp.handle, closeSessionReq] at hr
    split at hr
    · cases hr; exact h.reply _
    · cases hr
      refine Clear.reply (Clear.emit ?_ _) _
      exact (h.step cl (cl.eventsOff _)).of rfl (Or.inr rfl) (Or.inr rfl) (Or.inl rfl)
  | propsSupported =>
    simp only [Rsp.handle] at hr
    split at hr
    · exact Clear.sendReply hquery _ _ hr
    · cases hr; exact h.reply _
  | thumb =>
    simp only [Rsp.handle] at hr
    split at hr
    · split at hr
      · cases hr; exact hquery
      · exact Clear.sendReply hquery _ _ hr
    · cases hr; exact h
  | query ps =>
    simp only [Rsp.handle] at hr
    split at hr
    · exact Clear.sendReply hquery _ _ hr
    · exact h.replyP _ _ hr
  | copy =>
    have ce : ∀ (r1 : Rsp D) c x, Clear Hw R d0 r1 → r1.copyEnd c x = .ok r' → Clear Hw R d0 r' := by
      intro r1 c x h1 hr
      unfold copyEnd at hr
      split at hr
      · cases hr; exact h1
      · exact h1.reply1 _ _ hr
    simp only [Rsp.handle, copyReq] at hr
    split at hr
    · refine ce _ _ _ ?_ hr
      have hreq : ∀ q', r.req = some q' → cCode q' = 0x101A := fun q' e => by rw [hrq] at e; cases e; exact k2 rfl
      refine (h.evs cl n hreq).step cl ?_
      rw [evs_dev n hreq]
      exact cl.copy _ _ _ hq (k2 rfl)
    · exact ce _ _ _ h hr
  | skip => cases hr; exact h.reply _
  | refused => cases hr; exact h.reply _
  | sendInfo => cases hr; exact h.same rfl rfl rfl rfl
  | sendObject =>
    cases hr
    unfold sendObjectReq
    split
    · split <;> exact h.same rfl rfl rfl rfl
    · exact h.same rfl rfl rfl rfl
  | sendPropList =>
    cases hr
    unfold propListReq
    split
    · split
      · split
        · exact h.same rfl rfl rfl rfl
        · exact ⟨h.dev, h.seq, fun p e => by cases e; exact cl.zero, h.edt⟩
      · exact h.same rfl rfl rfl rfl
    · exact h.same rfl rfl rfl rfl
  | sendPartial =>
    cases hr
    unfold partialReq
    split
    · split
      · exact h.same rfl rfl rfl rfl
      · next e he =>
        split
        · exact h.same rfl rfl rfl rfl
        · exact ⟨h.dev, h.seq, h.lst, fun e' e1 => by cases e1; exact h.edt e he⟩
    · exact h.same rfl rfl rfl rfl
  | set c => cases hr; exact h.same rfl rfl rfl rfl
  | truncate =>
    cases hr
    unfold truncateReq
    split
    · split
      · exact h.reply _
      · next e he =>
        split
        · exact h.reply _
        · next hne =>
          have hhw : Hw (cParam q 0) := by
            have := h.edt e he
            rw [Decidable.not_not.mp hne] at this
            exact this
          exact Clear.reply (h.step cl (cl.cut _ _ _ hhw)) _
    · exact h.reply _
  | beginEdit =>
    cases hr
    unfold beginEditReq
    split
    · split
      · refine Clear.reply ?_ _
        exact ⟨cl.trans _ _ _ h.dev (cl.setEvents _ _ _), h.seq, h.lst, fun e e1 => by cases e1; exact cl.edit _ _ hq (k8 rfl)⟩
      · exact h.reply _
    · exact h.reply _
  | endEdit =>
    cases hr
    unfold endEditReq
    split
    · split
      · exact h.reply _
      · split
        · exact h.reply _
        · refine Clear.reply ?_ _
          exact (h.step cl (cl.trans _ _ _ (cl.flush _ _) (cl.setEvents _ _ _))).of rfl (Or.inl rfl) (Or.inl rfl) (Or.inr rfl)
    · exact h.reply _

theorem Clear.command (cl : Sparing dv okq Hw del Bad R) {r r' : Rsp D} (h : Clear Hw R d0 r) (n : List Ev)
    (hq : ∀ q, r.req = some q → okq r.dev q) (hr : r.command dv n = .ok r') : Clear Hw R d0 r' := by
  unfold Rsp.command at hr
  split at hr
  · cases hr
  · next q hrq =>
    have h1 : Clear Hw R d0 { r with resp := .ok } := h.same rfl rfl rfl rfl
    simp only at hr
    split at hr
    · cases hr
      exact (h1.setState .waitStorage).same rfl rfl rfl rfl
    · split at hr
      · next k hk => exact h1.handle cl q n hrq (hq q hrq) k hk hr
      · cases hr; exact h1.reply _

theorem Clear.dataEnd {r : Rsp D} (h : Clear Hw R d0 r) (c : Resp) (l : Bool) : Clear Hw R d0 (r.dataEnd c l) := by
  unfold Rsp.dataEnd
  simp only
  have h1 : Clear Hw R d0 { r with resp := c } := h.same rfl rfl rfl rfl
  split
  · exact h1.reply _
  · exact h1

theorem Clear.uploadEnd (cl : Sparing dv okq Hw del Bad R) {r : Rsp D} (h : Clear Hw R d0 r) (x : Nat) (hx : Hw x) (c : Resp) :
    Clear Hw R d0 (r.uploadEnd dv x c) := by
  unfold Rsp.uploadEnd
  simp only
  have close : ∀ r1 : Rsp D, Clear Hw R d0 r1 →
      Clear Hw R d0 { (({ r1 with dev := (dv.write r1.dev x none false true).1 } : Rsp D).reply c) with propList := none } := by
    intro r1 h1
    exact (Clear.reply (h1.step cl (cl.write _ _ _ _ _ hx)) c).of rfl (Or.inl rfl) (Or.inr rfl) (Or.inl rfl)
  split
  · refine close _ ?_
    exact (h.step cl (cl.setProps _ _ _ hx)).of rfl (Or.inr rfl) (Or.inl rfl) (Or.inl rfl)
  · refine close _ ?_
    exact h.of rfl (Or.inr rfl) (Or.inl rfl) (Or.inl rfl)

theorem Clear.uploadCheck (cl : Sparing dv okq Hw del Bad R) {r : Rsp D} (h : Clear Hw R d0 r) (x n : Nat) (hx : Hw x) (l : Bool) :
    Clear Hw R d0 (r.uploadCheck dv x n l).1 := by
  unfold Rsp.uploadCheck
  split
  · next p e =>
    have hp : ∀ d c, R r.dev d → Clear Hw R d0 { r with dev := d, propList := some { p with curr := c } } := fun d c hd =>
      ⟨cl.trans _ _ _ h.dev hd, h.seq, fun p' e1 => by cases e1; exact h.lst p e, h.edt⟩
    simp only
    split
    · split
      · exact hp _ _ (cl.cut _ _ _ hx)
      · exact hp _ _ (cl.refl _)
    · exact hp _ _ (cl.refl _)
  · next s e1 e =>
    have hp : ∀ d c, R r.dev d → Clear Hw R d0 { r with dev := d, sendSeq := some { s with written := c } } := fun d c hd =>
      ⟨cl.trans _ _ _ h.dev hd, fun p' e1 => by cases e1; exact h.seq s e, h.lst, h.edt⟩
    simp only
    split
    · split
      · exact hp _ _ (cl.cut _ _ _ hx)
      · exact hp _ _ (cl.refl _)
    · exact hp _ _ (cl.refl _)
  · exact h

theorem Clear.uploadData (cl : Sparing dv okq Hw del Bad R) {r r' : Rsp D} (h : Clear Hw R d0 r) (b : List UInt8)
    (f l : Bool) (hr : r.uploadData dv b f l = .ok r') : Clear Hw R d0 r' := by
  have hx : Hw r.uploadHandle := by
    unfold uploadHandle
    split
    · next s _ e => exact h.seq _ e
    · next p _ e => exact h.lst _ e
    · exact cl.zero
  unfold Rsp.uploadData at hr
  split at hr
  · cases hr; exact h.uploadEnd cl _ cl.zero _
  · split at hr
    · cases hr
    · simp only at hr
      generalize hw : dv.write r.dev r.uploadHandle (some (if f = true then List.drop 12 b else b)) f l = x at hr
      have h1 : Clear Hw R d0 { r with dev := x.1 } := by
        rw [← hw]; exact h.step cl (cl.write _ _ _ _ _ hx)
      obtain ⟨d', c⟩ := x
      split at hr
      · next e =>
        cases e
        have h2 := h1.uploadCheck cl r.uploadHandle (if f = true then List.drop 12 b else b).length hx l
        split at hr
        · next e2 => cases hr; rw [e2] at h2; exact h2
        · next e2 => cases hr; rw [e2] at h2; exact h2.uploadEnd cl _ hx _
      · next e =>
        cases e; cases hr
        exact h1.uploadEnd cl _ hx _

/-- A response with bad parameters came out between `r` and `r'`. -/
def Told (Bad : List Nat → Prop) (r r' : Rsp D) : Prop :=
  ∃ l c t ps, r'.out = r.out ++ l ∧ Out.response c t ps ∈ l ∧ Bad ps

theorem setState_grows (r : Rsp D) (s : RState) : ∃ l, (r.setState s).out = r.out ++ l := by
  unfold Rsp.setState
  split
  · exact ⟨[], by simp⟩
  · simp only
    split
    · exact ⟨[], by simp⟩
    · split
      · exact ⟨[_], rfl⟩
      · exact ⟨[_], rfl⟩

theorem send_told (r : Rsp D) (hst : r.st = .waitData) (c : Resp) (t : Nat) (ps : List Nat) (hb : Bad ps) :
    Told Bad r (r.send (.response c t ps)).1 := by
  unfold Rsp.send
  rw [if_neg (by rw [hst]; simp), if_neg (by rw [hst]; simp), if_pos (show (Out.response c t ps).isResponse = true from rfl)]
  obtain ⟨l, hl⟩ := setState_grows r .idle
  refine ⟨l ++ [.response c t ps] ++ [.statusOk], c, t, ps, ?_, by simp, hb⟩
  simp [hl]

theorem Clear.data (cl : Sparing dv okq Hw del Bad R) {r r' : Rsp D} (h : Clear Hw R d0 r) (q b : List UInt8)
    (hst : r.st = .waitData) (f l : Bool) (hr : r.dataPacket dv q b f l = .ok r') : Clear Hw R d0 r' ∨ Told Bad r r' := by
  unfold dataPacket at hr
  have h0 : Clear Hw R d0 { r with dataC := none } := h.same rfl rfl rfl rfl
  split at hr
  · next hc =>
    left
    split at hr
    · exact h0.uploadData cl _ _ _ hr
    · cases hr; exact h0.dataEnd _ _
  split at hr
  · next hc =>
    left
    split at hr
    · have hp : Clear Hw R d0 (({ r with dataC := none } : Rsp D).partialData dv b f l).1 := by
        unfold partialData
        split
        · exact h0
        · next e he =>
          split
          · exact h0
          · refine ⟨cl.trans _ _ _ h.dev (cl.writePartial _ _ _ _ _ _ (h.edt e he)), h.seq, h.lst, fun e' e1 => ?_⟩
            cases e1; exact h.edt e he
      cases hr
      exact hp.dataEnd _ _
    · cases hr; exact h0.dataEnd _ _
  · have ha : Clear Hw R d0 (r.accumulate b f) ∧ (r.accumulate b f).st = .waitData ∧ (r.accumulate b f).out = r.out := by
      unfold accumulate
      split
      · exact ⟨h.same rfl rfl rfl rfl, hst, rfl⟩
      · split
        · exact ⟨h, hst, rfl⟩
        · split
          · exact ⟨h.same rfl rfl rfl rfl, hst, rfl⟩
          · exact ⟨h, hst, rfl⟩
    generalize r.accumulate b f = r1 at *
    obtain ⟨ha, hs1, ho1⟩ := ha
    simp only at hr
    split at hr
    · cases hr; exact Or.inl ha
    · split at hr
      · split at hr
        · split at hr
          · cases hr; exact Or.inl (ha.dataEnd _ _)
          · cases hr
        · next a _ =>
          split at hr
          · next e =>
            cases hr
            unfold infoData
            simp only
            split
            · left
              refine Clear.send ?_ _; exact ha.of rfl (Or.inr rfl) (Or.inr rfl) (Or.inl rfl)
            · have hR := cl.addInfo r1.dev (cParams q) a
              have hA := cl.announced r1.dev (cParams q) a
              split
              · next d ps x e2 =>
                rw [e2] at hR hA
                rcases hA rfl with hw | hb
                · left
                  refine Clear.send ?_ _
                  exact ⟨cl.trans _ _ _ ha.dev hR, fun s e => by cases e; exact hw, (fun p e => by cases e), ha.edt⟩
                · right
                  obtain ⟨l, c, t, ps', g1, g2, g3⟩ := send_told (Bad := Bad)
                    ({ r1 with propList := none, dev := d, sendSeq := some ⟨x, rd 4 a 20, 0⟩ } : Rsp D) hs1 .ok (cTid q) ps hb
                  exact ⟨l, c, t, ps', by rw [g1]; exact congrArg (· ++ l) ho1, g2, g3⟩
              · next e2 =>
                left
                refine Clear.send ?_ _
                rw [e2] at hR
                exact ⟨cl.trans _ _ _ ha.dev hR, (fun s e => by cases e), (fun p e => by cases e), ha.edt⟩
          · next e =>
            cases hr
            unfold listData
            split
            · exact Or.inl (ha.reply _)
            · next p _ =>
              have hR := cl.addList r1.dev p.params a
              have hA := cl.listed r1.dev p.params a
              split
              next d c ps x e2 =>
              rw [e2] at hR hA
              rcases hA with hw | hb
              · left
                refine Clear.send ?_ _
                exact ⟨cl.trans _ _ _ ha.dev hR, ha.seq, fun p' e1 => by cases e1; exact hw, ha.edt⟩
              · right
                obtain ⟨l, c', t, ps', g1, g2, g3⟩ := send_told (Bad := Bad)
                  ({ r1 with dev := d, propList := some { p with handle := x, dataset := a } } : Rsp D) hs1 c (cTid q) ps hb
                exact ⟨l, c', t, ps', by rw [g1]; exact congrArg (· ++ l) ho1, g2, g3⟩
          · left
            refine Clear.replyP ?_ _ _ hr
            exact ha.step cl (cl.store _ _ _ _)
          · cases hr; exact Or.inl (ha.dataEnd _ _)
      · cases hr; exact Or.inl (ha.dataEnd _ _)

theorem Clear.receive (cl : Sparing dv okq Hw del Bad R) {r r' : Rsp D} (h : Clear Hw R d0 r) (b : List UInt8) (f l : Bool)
    (n : List Ev) (hb : r.st ≠ .waitData → f = true → l = true → okq r.dev b) (hr : r.receive dv b f l n = .ok r') :
    Clear Hw R d0 r' ∨ Told Bad r r' := by
  have fresh : r.st ≠ .waitData → (if f = true ∧ l = true then
        (({ { (r.setState .idle) with req := none } with req := some b }.setState
          (if hasDataPhase (cCode b) then .waitData else .waitResp)).emit .statusBusy).command dv n
      else Res.ok ({ (r.setState .idle) with req := none }.emit .reset)) = Res.ok r' → Clear Hw R d0 r' := by
    intro hst hr
    have h1 := h.setState .idle
    split at hr
    · next hfl =>
      refine Clear.command cl ?_ n ?_ hr
      · refine Clear.emit (Clear.setState ?_ _) _
        exact h1.same rfl rfl rfl rfl
      · intro q e
        rw [emit_req, setState_req] at e
        cases e
        have := hb hst hfl.1 hfl.2
        rw [emit_dev, setState_dev]
        show okq (r.setState .idle).dev b
        rw [setState_dev]
        exact this
    · cases hr
      refine Clear.emit ?_ _
      exact h1.same rfl rfl rfl rfl
  unfold Rsp.receive at hr
  split at hr
  · next e => exact Or.inl (fresh (by rw [e]; simp) hr)
  · next e => exact Or.inl (fresh (by rw [e]; simp) hr)
  · next e => exact Or.inl (fresh (by rw [e]; simp) hr)
  · next est =>
    split at hr
    · cases hr; exact Or.inl ((h.setState _).emit _)
    · next q hq =>
      simp only at hr
      have hk : Clear Hw R d0 (if f = true then r.emit .statusBusy else r) ∧ (if f = true then r.emit .statusBusy else r).st = .waitData
          ∧ ∃ l, (if f = true then r.emit .statusBusy else r).out = r.out ++ l := by
        split
        · exact ⟨h.emit _, est, [_], rfl⟩
        · exact ⟨h, est, [], by simp⟩
      generalize (if f = true then r.emit .statusBusy else r) = r1 at *
      obtain ⟨k1, k2, l1, k3⟩ := hk
      rcases k1.data cl q b k2 f l hr with k | ⟨l2, c, t, ps, g1, g2, g3⟩
      · exact Or.inl k
      · refine Or.inr ⟨l1 ++ l2, c, t, ps, ?_, by simp [g2], g3⟩
        rw [g1, k3, List.append_assoc]
  · split at hr
    · cases hr; exact Or.inl ((h.setState _).emit _)
    · cases hr; exact Or.inl (h.same rfl rfl rfl rfl)
  · cases hr; exact Or.inl ((h.setState _).emit _)

/-- What may happen in state `r`, leading to `r'`. -/
structure SpareStep (okq : D → List UInt8 → Prop) (del : D → Nat → Prop) (Bad : List Nat → Prop) (r : Rsp D) (i : In D)
    (r' : Rsp D) : Prop where
  request : ∀ b n, i = .packet b true true n → r.st ≠ .waitData → okq r.dev b
  cancel : i = .ev .cancel → SpareCancel del r
  told : ¬ Told Bad r r'
  others : (∀ n, i ≠ .ready n) ∧ ∀ d, i ≠ .env d

theorem Clear.input (cl : Sparing dv okq Hw del Bad R) {r r' : Rsp D} (h : Clear Hw R d0 r) (i : In D)
    (hi : SpareStep okq del Bad r i r') (hr : r.step dv i = .ok r') : Clear Hw R d0 r' := by
  cases i with
  | packet b f l n =>
    rcases h.receive cl b f l n (fun hst e1 e2 => hi.request b n (by rw [e1, e2]) hst) hr with k | k
    · exact k
    · exact absurd k hi.told
  | ready n => exact absurd rfl (hi.others.1 n)
  | ev e => cases hr; exact h.ev cl e fun he => hi.cancel (by rw [he])
  | notify c ps =>
    cases hr
    unfold Rsp.notify
    split
    · exact h
    · exact h.send _
  | env d => exact absurd rfl (hi.others.2 d)

/-- Histories all steps of which are such. -/
inductive SpareRun (dv : Dev D) (okq : D → List UInt8 → Prop) (del : D → Nat → Prop) (Bad : List Nat → Prop) :
    Rsp D → List (In D) → Rsp D → Prop
  | nil (r : Rsp D) : SpareRun dv okq del Bad r [] r
  | cons {r r1 r' : Rsp D} {i : In D} {is : List (In D)} : r.step dv i = .ok r1 → SpareStep okq del Bad r i r1 →
      SpareRun dv okq del Bad r1 is r' → SpareRun dv okq del Bad r (i :: is) r'

theorem run_clear (cl : Sparing dv okq Hw del Bad R) {is : List (In D)} {r r' : Rsp D} (hs : SpareRun dv okq del Bad r is r')
    (h : Clear Hw R d0 r) : Clear Hw R d0 r' := by
  induction hs with
  | nil r => exact h
  | cons hr hi _ ih => exact ih (h.input cl _ hi hr)

end Rsp
end Mtp
