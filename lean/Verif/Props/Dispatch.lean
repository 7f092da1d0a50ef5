import Verif.Lemmas.DataPhase
import Verif.Spec.Toy
import Mathlib.Tactic.ByContra
/-! Property theorems C53: advertised operations are implemented. -/
namespace Props
open Mtp Mtp.Rsp Spec

variable {D : Type}

/-- The storages and tables themselves never answer OperationNotSupported. -/
structure Honest (dv : Dev D) : Prop where
  query : ∀ d c ps r, (dv.query d c ps).2.response = some r → r.1 ≠ .operationNotSupported
  copy : ∀ d ps b, (dv.copy d ps b).2.1 ≠ .operationNotSupported
  check : ∀ d c ps, dv.check d c ps ≠ .operationNotSupported
  store : ∀ d c ps a, (dv.store d c ps a).2.1 ≠ .operationNotSupported
  listCheck : ∀ d ps, dv.listCheck d ps ≠ .operationNotSupported
  addInfo : ∀ d ps a, (dv.addInfo d ps a).2.1 ≠ .operationNotSupported
  addList : ∀ d ps a, (dv.addList d ps a).2.1 ≠ .operationNotSupported
  write : ∀ d h b f l, (dv.write d h b f l).2 ≠ .operationNotSupported
  truncate : ∀ d h n, (dv.truncate d h n).2 ≠ .operationNotSupported
  writePartial : ∀ d h o b f l, (dv.writePartial d h o b f l).2 ≠ .operationNotSupported
  handleOk : ∀ d h, dv.handleOk d h ≠ .operationNotSupported

/-- No OperationNotSupported was answered. -/
def Supported (out : List Out) : Prop := ∀ t ps, .response .operationNotSupported t ps ∉ out

private def Quiet (o : Out) : Prop := ∀ t ps, o ≠ .response .operationNotSupported t ps

private def Clean (r : Rsp D) : Prop :=
  Supported r.out ∧ r.resend = none ∧ r.ready = true ∧ r.st ≠ .suspend ∧ r.st ≠ .waitStorage ∧ r.prev = .idle

private def Sup (r : Rsp D) : Prop :=
  Clean r ∧ r.resp ≠ .operationNotSupported ∧
    (r.st = .waitData → ∀ q, r.req = some q → hasDataPhase (cCode q) = true)

private theorem Sup.emit {r : Rsp D} (h : Sup r) (o : Out) (ho : Quiet o) : Sup (r.emit o) := by
  refine ⟨⟨?_, h.1.2⟩, h.2⟩
  intro t ps hm
  rw [emit_out] at hm
  rcases List.mem_append.mp hm with hm | hm
  · exact h.1.1 t ps hm
  · exact ho t ps (List.mem_singleton.mp hm).symm

private theorem Sup.setState {r : Rsp D} (h : Sup r) {s : RState} (h1 : s ≠ .suspend) (h2 : s ≠ .waitStorage)
    (h3 : s = .waitData → ∀ q, r.req = some q → hasDataPhase (cCode q) = true) : Sup (r.setState s) := by
  refine ⟨⟨?_, ?_, ?_, ?_, ?_, ?_⟩, ?_, ?_⟩
  · rw [setState_out]
    intro t ps hm
    rcases List.mem_append.mp hm with hm | hm
    · exact h.1.1 t ps hm
    · split at hm
      · simp at hm
      · split at hm <;> simp at hm
  · rw [setState_resend]; exact h.1.2.1
  · rw [setState_ready]; exact h.1.2.2.1
  · rw [setState_st]; exact h1
  · rw [setState_st]; exact h2
  · rw [setState_prev]; exact h.1.2.2.2.2.2
  · rw [setState_resp]; exact h.2.1
  · rw [setState_st, setState_req]; exact h3

private theorem Sup.send {r : Rsp D} (h : Sup r) (o : Out) (ho : Quiet o) : Sup (r.send o).1 := by
  unfold Rsp.send
  split
  · exact h
  · rw [if_neg h.1.2.2.2.1]
    split
    · have := ((h.setState (s := .idle) (by simp) (by simp) (by simp)).emit o ho).emit .statusOk (by intro _ _; simp)
      exact ⟨this.1, this.2.1, fun _ q e => by simp at e⟩
    · exact h.emit o ho

private theorem quiet_response {c : Resp} (hc : c ≠ .operationNotSupported) (t : Nat) (ps : List Nat) :
    Quiet (.response c t ps) := by
  intro t' ps' e
  cases e
  exact hc rfl

private theorem Sup.reply {r : Rsp D} (h : Sup r) {c : Resp} (hc : c ≠ .operationNotSupported) :
    Sup (r.reply c) := by
  unfold Rsp.reply
  split
  · exact h
  · exact h.send _ (quiet_response hc _ _)

private theorem Sup.replyP {r r' : Rsp D} (h : Sup r) {c : Resp} (hc : c ≠ .operationNotSupported)
    (ps : List Nat) (hr : r.replyP c ps = .ok r') : Sup r' := by
  unfold Rsp.replyP at hr
  split at hr
  · cases hr; exact h.reply hc
  · unfold reply1 at hr
    split at hr
    · simp at hr
    · cases hr; exact h.send _ (quiet_response hc _ _)

private theorem Sup.sendReply {r r' : Rsp D} (h : Sup r) (q : List UInt8) (p : Reply)
    (hp : ∀ r, p.response = some r → r.1 ≠ .operationNotSupported)
    (hr : r.sendReply q p = .ok r') : Sup r' := by
  unfold Rsp.sendReply at hr
  split at hr
  · split at hr
    · cases hr; exact h
    · next c ps e => exact h.replyP (hp _ e) _ hr
  · next dd l rest hf =>
    have hs := h.send (.data (cCode q) (cTid q) dd l) (by intro _ _; simp)
    split at hr
    · next r2 e => cases hr; rw [e] at hs; exact hs
    · next r2 e =>
      rw [e] at hs
      have hm : Sup { r2 with out := r2.out ++ rest.map fun f => .more f.1 f.2 } := by
        refine ⟨⟨?_, hs.1.2⟩, hs.2⟩
        intro t ps hm
        rcases List.mem_append.mp hm with hm | hm
        · exact hs.1.1 t ps hm
        · obtain ⟨f, _, e⟩ := List.mem_map.mp hm
          simp at e
      split at hr
      · cases hr; exact hm
      · next c ps e => exact hm.replyP (hp _ e) _ hr

private theorem preCheck_quiet (s t : Nat) : preCheck s t ≠ .operationNotSupported := by
  unfold preCheck
  split
  · simp
  · split <;> simp

private theorem handle_sup (dv : Dev D) (hon : Honest dv) {r r' : Rsp D} (h : Sup r) (q : List UInt8)
    (k : OpKind) (hk : k ≠ .refused) (hr : r.handle dv q [] k = .ok r') : Sup r' := by
  have pq := preCheck_quiet r.session (cTid q)
  have rs : ∀ c : Resp, c ≠ .operationNotSupported → Sup { r with resp := c } := fun c hc => ⟨h.1, hc, h.2.2⟩
  cases k with
  | deviceInfo =>
    simp only [Rsp.handle] at hr
    refine Sup.sendReply ?_ _ _ (hon.query _ _ _) hr; exact h
  | openSession =>
    simp only [Rsp.handle, openSessionReq] at hr
    split at hr
    · cases hr; exact h.reply (by simp)
    · split at hr
      · exact h.replyP (by simp) [_] hr
      · cases hr
        refine Sup.emit (Sup.reply ?_ (by simp)) _ (by intro _ _; simp); exact h
  | closeSession =>
    simp only [Rsp.handle, closeSessionReq] at hr
    cases hr
    split
    · exact h.reply (by simp)
    · refine Sup.reply (Sup.emit ?_ _ (by intro _ _; simp)) (by simp); exact h
  | propsSupported =>
    simp only [Rsp.handle] at hr
    split at hr
    · refine Sup.sendReply ?_ _ _ (hon.query _ _ _) hr; exact h
    · cases hr; exact h.reply (by simp)
  | thumb =>
    simp only [Rsp.handle] at hr
    split at hr
    · split at hr
      · cases hr; exact h
      · refine Sup.sendReply ?_ _ _ (hon.query _ _ _) hr; exact h
    · cases hr; exact h
  | query ps =>
    simp only [Rsp.handle] at hr
    split at hr
    · refine Sup.sendReply ?_ _ _ (hon.query _ _ _) hr; exact h
    · exact h.replyP pq _ hr
  | copy =>
    have ce : ∀ (r1 : Rsp D) c x, Sup r1 → c ≠ Resp.operationNotSupported → r1.copyEnd c x = .ok r' → Sup r' := by
      intro r1 c x h1 hc hr
      unfold copyEnd at hr
      split at hr
      · cases hr; exact h1
      · exact h1.replyP hc [_] hr
    simp only [Rsp.handle, copyReq, List.foldl_nil] at hr
    split at hr
    · refine ce _ _ _ ?_ (hon.copy _ _ _) hr; exact h
    · exact ce _ _ _ h pq hr
  | skip => cases hr; exact h.reply pq
  | refused => exact absurd rfl hk
  | sendInfo => cases hr; exact rs _ pq
  | sendObject =>
    cases hr
    unfold sendObjectReq
    split
    · split
      · exact rs _ (by simp)
      · exact rs _ (by simp)
    · exact rs _ pq
  | sendPropList =>
    cases hr
    unfold propListReq
    split
    · split
      · split
        · exact rs _ (by simp)
        · exact rs _ (by simp)
      · exact rs _ (hon.listCheck _ _)
    · exact rs _ pq
  | sendPartial =>
    cases hr
    unfold partialReq
    split
    · split
      · exact rs _ (by simp)
      · split
        · exact rs _ (by simp)
        · exact rs _ (by simp)
    · exact rs _ pq
  | set c =>
    cases hr
    refine rs _ ?_
    split
    · split
      · exact hon.check _ _ _
      · simp
    · exact pq
  | truncate =>
    cases hr
    unfold truncateReq
    split
    · split
      · exact h.reply (by simp)
      · split
        · exact h.reply (by simp)
        · refine Sup.reply ?_ (hon.truncate _ _ _); exact h
    · exact h.reply pq
  | beginEdit =>
    cases hr
    unfold beginEditReq
    split
    · split
      · refine Sup.reply ?_ (by simp); exact h
      · exact h.reply (hon.handleOk _ _)
    · exact h.reply pq
  | endEdit =>
    cases hr
    unfold endEditReq
    split
    · split
      · exact h.reply (by simp)
      · split
        · exact h.reply (by simp)
        · refine Sup.reply ?_ (by simp); exact h
    · exact h.reply pq

/-- Every advertised operation is in the dispatch table, with a handler that does not refuse it. -/
private theorem advertised_kind {c : Nat} (h : c ∈ advertised) : ∃ k, opKind c = some k ∧ k ≠ .refused := by
  have : ∀ c ∈ advertised, (opKind c).any (fun k => decide (k ≠ .refused)) = true := by decide
  have := this c h
  cases hk : opKind c with
  | none => rw [hk] at this; simp at this
  | some k => rw [hk] at this; exact ⟨k, rfl, by simpa using this⟩

private theorem command_sup (dv : Dev D) (hon : Honest dv) {r r' : Rsp D} (h : Sup r) (q : List UInt8)
    (hq : r.req = some q) (ha : cCode q ∈ advertised) (hr : r.command dv [] = .ok r') : Sup r' := by
  unfold Rsp.command at hr
  split at hr
  · simp at hr
  · next q' hq' =>
    have : q' = q := by rw [hq] at hq'; exact (Option.some.inj hq').symm
    subst this
    simp only at hr
    rw [if_neg (by simp [h.1.2.2.1])] at hr
    obtain ⟨k, hk, hkr⟩ := advertised_kind ha
    rw [hk] at hr
    exact handle_sup (r := { r with resp := .ok }) dv hon ⟨h.1, by simp, h.2.2⟩ q' k hkr hr

private theorem uploadEnd_sup (dv : Dev D) {r : Rsp D} (h : Sup r) (x : Nat) {c : Resp}
    (hc : c ≠ .operationNotSupported) : Sup (r.uploadEnd dv x c) := by
  unfold uploadEnd
  simp only
  have key : ∀ r1 : Rsp D, Sup r1 → Sup { (r1.reply c) with propList := none } := fun r1 h1 => h1.reply hc
  apply key
  split <;> exact h

private theorem uploadData_sup (dv : Dev D) (hon : Honest dv) {r r' : Rsp D} (h : Sup r) (b : List UInt8)
    (f l : Bool) (hr : r.uploadData dv b f l = .ok r') : Sup r' := by
  unfold Rsp.uploadData at hr
  split at hr
  · cases hr; exact uploadEnd_sup dv h _ (by simp)
  · split at hr
    · simp at hr
    · simp only at hr
      generalize (if f = true then List.drop 12 b else b) = d at hr
      have hw := hon.write r.dev r.uploadHandle (some d) f l
      split at hr
      · next d' _ =>
        have hu : Sup (uploadCheck dv { r with dev := d' } r.uploadHandle d.length l).1 ∧
            (uploadCheck dv { r with dev := d' } r.uploadHandle d.length l).2 ≠ .operationNotSupported := by
          unfold uploadCheck
          split
          · simp only
            split
            · split
              · exact ⟨h, by simp⟩
              · exact ⟨h, by simp⟩
            · exact ⟨h, by simp⟩
          · simp only
            split
            · split
              · exact ⟨h, by simp⟩
              · exact ⟨h, by simp⟩
            · exact ⟨h, by simp⟩
          · exact ⟨h, by simp⟩
        split at hr
        · next r2 e => cases hr; rw [e] at hu; exact hu.1
        · next r2 c _ e => cases hr; rw [e] at hu; exact uploadEnd_sup dv hu.1 _ hu.2
      · next d' c _ e =>
        cases hr
        rw [e] at hw
        exact uploadEnd_sup (r := { r with dev := d' }) dv h _ hw

private theorem dataEnd_sup {r : Rsp D} (h : Sup r) {c : Resp} (hc : c ≠ .operationNotSupported) (l : Bool) :
    Sup (r.dataEnd c l) := by
  unfold dataEnd
  simp only
  have h1 : Sup { r with resp := c } := ⟨h.1, hc, h.2.2⟩
  split
  · exact h1.reply hc
  · exact h1

private theorem dataPacket_sup (dv : Dev D) (hon : Honest dv) {r r' : Rsp D} (h : Sup r) (q b : List UInt8)
    (hd : hasDataPhase (cCode q) = true) (f l : Bool)
    (hr : r.dataPacket dv q b f l = .ok r') : Sup r' := by
  unfold dataPacket at hr
  split at hr
  · split at hr
    · refine uploadData_sup dv hon ?_ b f l hr; exact h
    · cases hr; refine dataEnd_sup ?_ h.2.1 l; exact h
  · split at hr
    · split at hr
      · have hp : Sup ({ r with dataC := none }.partialData dv b f l).1 ∧
            ({ r with dataC := none }.partialData dv b f l).2 ≠ .operationNotSupported := by
          unfold partialData
          split
          · exact ⟨h, by simp⟩
          · split
            · exact ⟨h, by simp⟩
            · exact ⟨h, hon.writePartial _ _ _ _ _ _⟩
        cases hr
        exact dataEnd_sup hp.1 hp.2 l
      · cases hr; refine dataEnd_sup ?_ h.2.1 l; exact h
    · have ha : Sup (r.accumulate b f) := by
        unfold accumulate
        split
        · exact h
        · split
          · exact h
          · split <;> exact h
      generalize r.accumulate b f = r1 at *
      simp only at hr
      split at hr
      · cases hr; exact ha
      · have hdc : r1.dataCheck q ≠ .operationNotSupported := by
          unfold dataCheck
          split
          · split
            · simp
            · split <;> simp
          · exact ha.2.1
        split at hr
        · split at hr
          · split at hr
            · next e => rw [kind_none e] at hd; simp at hd
            · simp at hr
          · next a _ =>
            split at hr
            · cases hr
              unfold infoData
              simp only
              split
              · refine Sup.send ?_ _ (quiet_response (by simp) _ _); exact ha
              · split
                · refine Sup.send ?_ _ (quiet_response (by simp) _ _); exact ha
                · next d c _ _ _ e =>
                  refine Sup.send ?_ _ (quiet_response ?_ _ _)
                  · exact ha
                  · have := hon.addInfo r1.dev (cParams q) a
                    rw [e] at this
                    exact this
            · cases hr
              unfold listData
              split
              · exact ha.reply (by simp)
              · refine Sup.send ?_ _ (quiet_response (hon.addList _ _ _) _ _); exact ha
            · refine Sup.replyP ?_ (hon.store _ _ _ _) _ hr; exact ha
            · rename_i hc1 hc2 _ _ _ _ _ _ hi hl hs
              exfalso
              have hm : cCode q ∈ [0x100C, 0x100D, 0x9806, 0x9808, 0x1016, 0x9804, 0x9811, 0x95C2] :=
                of_decide_eq_true hd
              simp only [List.mem_cons, List.not_mem_nil, or_false] at hm
              rcases hm with e | e | e | e | e | e | e | e <;> rw [e] at hc1 hc2 hi hl hs
              · exact hi (by decide)
              · exact hc1 rfl
              · exact hs false (by decide)
              · exact hl (by decide)
              · exact hs true (by decide)
              · exact hs true (by decide)
              · exact hs false (by decide)
              · exact hc2 rfl
        · cases hr; exact dataEnd_sup ha hdc l

private theorem receive_sup (dv : Dev D) (hon : Honest dv) {r r' : Rsp D} (h : Sup r) (b : List UInt8)
    (f l : Bool) (hb : f = true → l = true → cCode b ∈ advertised)
    (hr : r.receive dv b f l [] = .ok r') : Sup r' := by
  have reset : ∀ r1 : Rsp D, Sup r1 → Sup ((r1.setState .idle).emit .reset) := fun r1 h1 =>
    (h1.setState (by simp) (by simp) (by simp)).emit _ (by intro _ _; simp)
  have fresh : ∀ (r2 : Rsp D), ({ (r.setState .idle) with req := none } : Rsp D) = r2 →
      (if f = true ∧ l = true then
        (({ r2 with req := some b }.setState (if hasDataPhase (cCode b) then .waitData else .waitResp)).emit
          .statusBusy).command dv []
      else Res.ok (r2.emit .reset)) = Res.ok r' → Sup r' := by
    intro r2 e2 hr
    have h2 : Sup r2 := by
      have := h.setState (s := .idle) (by simp) (by simp) (by simp)
      subst e2
      exact ⟨this.1, this.2.1, fun _ q e => by simp at e⟩
    have hi : r2.st = .idle := by subst e2; exact setState_st _ _
    split at hr
    · next hfl =>
      refine command_sup dv hon ?_ b ?_ (hb hfl.1 hfl.2) hr
      · refine Sup.emit (Sup.setState ?_ ?_ ?_ ?_) _ (by intro _ _; simp)
        · exact ⟨h2.1, h2.2.1, fun e => by simp [hi] at e⟩
        · split <;> simp
        · split <;> simp
        · intro e q hq
          cases hq
          by_cases hd : hasDataPhase (cCode b) = true
          · exact hd
          · rw [if_neg hd] at e; simp at e
      · simp
    · cases hr; exact h2.emit _ (by intro _ _; simp)
  unfold Rsp.receive at hr
  split at hr
  · exact fresh _ rfl hr
  · exact fresh _ rfl hr
  · exact fresh _ rfl hr
  · next hst =>
    split at hr
    · cases hr; exact reset _ h
    · next q hq =>
      refine dataPacket_sup dv hon ?_ q b (h.2.2 hst q hq) f l hr
      split
      · exact h.emit _ (by intro _ _; simp)
      · exact h
  · next hst => exact absurd hst h.1.2.2.2.2.1
  · cases hr; exact reset _ h

private theorem closeSession_sup {r : Rsp D} (h : Sup r) : Sup r.closeSession := by
  unfold closeSession
  have : Sup ({ r with session := 0 }.deleteStored.setState .idle) := by
    refine Sup.setState ?_ (by simp) (by simp) (by simp)
    exact ⟨h.1, h.2.1, fun _ q e => by simp [deleteStored] at e⟩
  exact this

private theorem ev_sup (dv : Dev D) {r : Rsp D} (h : Sup r) (e : Ev) (he : e ≠ .suspend) :
    Sup (r.handleEv dv e) := by
  cases e with
  | suspend => exact absurd rfl he
  | cancel =>
    simp only [handleEv, handleCancel]
    split
    · exact h.emit _ (by intro _ _; simp)
    · next q hq =>
      refine Sup.emit ?_ _ (by intro _ _; simp)
      have h1 : Sup (r.setState .txCancel) := h.setState (by simp) (by simp) (by simp)
      have key : ∀ r1 : Rsp D, Sup r1 → Sup r1.deleteStored :=
        fun r1 h1 => ⟨h1.1, h1.2.1, fun _ q e => by simp [deleteStored] at e⟩
      apply key
      split
      · unfold cancelUpload
        simp only
        split <;> split <;> exact h1
      · exact h1
  | resume =>
    simp only [handleEv, handleResume]
    have h1 : Sup (r.setState r.prev) := by
      rw [h.1.2.2.2.2.2]
      exact h.setState (by simp) (by simp) (by simp)
    split
    · exact h1
    · next o ho =>
      have := h1.1.2.1
      rw [this] at ho
      simp at ho
  | deviceReset => exact (closeSession_sup h).emit _ (by intro _ _; simp)
  | cleanup => exact closeSession_sup h

/-- The host uses advertised operations only and is not suspended. -/
def Advertised : In D → Prop
  | .packet b first last nested => (first = true → last = true → cCode b ∈ advertised) ∧ nested = []
  | .ready nested => nested = []
  | .ev e => e ≠ .suspend
  | .notify .. => True
  | .env _ => True

private theorem step_sup (dv : Dev D) (hon : Honest dv) {r r' : Rsp D} (h : Sup r) (i : In D) (hi : Advertised i)
    (hr : r.step dv i = .ok r') : Sup r' := by
  cases i with
  | packet b f l n =>
    obtain ⟨hb, hn⟩ := hi
    subst hn
    exact receive_sup dv hon h b f l hb hr
  | ready n =>
    simp only [Rsp.step, storageReady] at hr
    rw [if_neg h.1.2.2.2.2.1] at hr
    cases hr
    exact ⟨⟨h.1.1, h.1.2.1, rfl, h.1.2.2.2⟩, h.2⟩
  | ev e => cases hr; exact ev_sup dv h e hi
  | notify c ps =>
    cases hr
    unfold Rsp.notify
    split
    · exact h
    · exact h.send _ (by intro _ _; simp)
  | env d => cases hr; exact h

private theorem run_sup (dv : Dev D) (hon : Honest dv) (is : List (In D)) :
    ∀ {r r' : Rsp D}, Sup r → (∀ i ∈ is, Advertised i) → r.run dv is = .ok r' → Sup r' := by
  induction is with
  | nil => intro r r' h _ hr; cases hr; exact h
  | cons i is ih =>
    intro r r' h hi hr
    rw [run] at hr
    cases hs : r.step dv i with
    | ub w => rw [hs] at hr; simp at hr
    | ok r1 =>
      rw [hs] at hr
      exact ih (step_sup dv hon h i (hi i (by simp)) hs) (fun j hj => hi j (by simp [hj])) hr

/-- C53. Whatever the host does with the operations the device advertises, and whatever happens meanwhile
(cancels, resets, changes of the storages, broken packets), it is never told OperationNotSupported. -/
theorem C53_advertised (dv : Dev D) (hon : Honest dv) (d : D) (is : List (In D)) (r : Rsp D)
    (hi : ∀ i ∈ is, Advertised i) (hr : ({ dev := d, ready := true } : Rsp D).run dv is = .ok r) :
    Supported r.out := by
  refine (run_sup dv hon is ?_ hi hr).1.1
  exact ⟨⟨by intro t ps; simp, rfl, rfl, by simp, by simp, rfl⟩, by simp, by simp⟩

/-- C53. Any other operation code is answered OperationNotSupported and nothing else happens: the session,
the storages and pending uploads and edits stay as they are. (GetThumb, 0x100A, and the Skip operation,
0x9820, are implemented although not advertised.) -/
theorem C53_other (dv : Dev D) (r : Rsp D) (b : List UInt8) (n : List Ev) (hst : r.st = .idle)
    (hready : r.ready = true) (hc : cCode b ∉ advertised) (ht : cCode b ≠ 0x100A) (hk : cCode b ≠ 0x9820) :
    ∃ r', r.receive dv b true true n = .ok r' ∧
      responses r'.out = responses r.out ++ [.response .operationNotSupported (u16 (cTid b)) []] ∧
      r'.st = .idle ∧ Kept r r' := by
  have hd : hasDataPhase (cCode b) = false := by
    by_contra h
    have hm : cCode b ∈ [0x100C, 0x100D, 0x9806, 0x9808, 0x1016, 0x9804, 0x9811, 0x95C2] :=
      of_decide_eq_true (by rw [Bool.not_eq_false] at h; exact h)
    have : ∀ c ∈ [0x100C, 0x100D, 0x9806, 0x9808, 0x1016, 0x9804, 0x9811, 0x95C2], c ∈ advertised := by decide
    exact hc (this _ hm)
  have ho : opKind (cCode b) = none ∨ opKind (cCode b) = some .refused := by
    unfold opKind
    cases hf : opTable.find? (·.1 = cCode b) with
    | none => left; rfl
    | some e =>
      right
      have hm := List.mem_of_find?_eq_some hf
      have he : e.1 = cCode b := by simpa using List.find?_some hf
      have : ∀ e ∈ opTable, e.1 ∉ advertised → e.1 ≠ 0x100A → e.1 ≠ 0x9820 → e.2 = .refused := by decide
      rw [← he] at hc ht hk
      simp [this e hm hc ht hk]
  have key : r.receive dv b true true n = .ok ((r.accept b).reply .operationNotSupported) := by
    rw [receive_idle dv r b n hst, command_accept dv r b n (Or.inl hready)]
    rcases ho with e | e
    · rw [e]
    · rw [e]; rfl
  have hl := accept_live r b
  refine ⟨_, key, ?_, ?_, ?_⟩
  · rw [responses_reply _ _ b (accept_req r b) hl, responses_accept]
  · exact (reply_idle _ _ b (accept_req r b) hl).1
  · exact (Kept.accept r b).trans (Kept.reply _ _)
/-- The toy storage is honest: the hypothesis of `C53_advertised` can be met. -/
example : Honest Toy.dev where
  query d c ps r h := by simp [Toy.dev] at h; subst h; simp
  copy := by intros; simp [Toy.dev]
  check := by intros; simp [Toy.dev]
  store := by intros; simp [Toy.dev]
  listCheck := by intros; simp [Toy.dev]
  addInfo := by intros; simp [Toy.dev]
  addList := by intros; simp [Toy.dev]
  write d h b f l := by cases b <;> simp [Toy.dev]
  truncate := by intros; simp [Toy.dev]
  writePartial := by intros; simp [Toy.dev]
  handleOk d h := by simp only [Toy.dev]; split <;> simp

/-- A conversation of advertised operations, with a cancel in the middle of an upload. -/
def advertisedTalk : List (In Toy.Objs) :=
  [.packet (Toy.cmd 0x1002 0 [1]) true true [], .packet (Toy.cmd 0x100C 1 [0, 0]) true true [],
   .packet (Toy.dat 0x100C 1 (leBytes 4 1 ++ leBytes 2 0x3000 ++ leBytes 2 0 ++ leBytes 4 3)) true true [],
   .packet (Toy.cmd 0x100D 2 []) true true [], .ev .cancel, .packet (Toy.cmd 0x1004 3 []) true true []]

example : ∀ i ∈ advertisedTalk, Advertised i := by
  intro i hi
  simp only [advertisedTalk, List.mem_cons, List.not_mem_nil, or_false] at hi
  rcases hi with e | e | e | e | e | e <;> subst e
  · exact ⟨fun _ _ => by decide +kernel, rfl⟩
  · exact ⟨fun _ _ => by decide +kernel, rfl⟩
  · exact ⟨fun _ _ => by decide +kernel, rfl⟩
  · exact ⟨fun _ _ => by decide +kernel, rfl⟩
  · exact fun e => by cases e
  · exact ⟨fun _ _ => by decide +kernel, rfl⟩

example : after (({ dev := [], ready := true } : Rsp Toy.Objs).run Toy.dev advertisedTalk)
    (fun r => responses r.out =
      [.response .ok 0 [], .response .ok 1 [1, 0, 1], .response .ok 3 []]) := by decide +kernel

/-- InitiateCapture (0x100E) has no handler at all, GetDeviceProp's reset (0x1017) one that refuses. -/
example : cCode (Toy.cmd 0x100E 7 []) ∉ advertised ∧ cCode (Toy.cmd 0x1017 7 []) ∉ advertised ∧
    opKind 0x100E = none ∧ opKind 0x1017 = some .refused := by decide +kernel

end Props
