import Verif.Props.Announce
/-! Property theorems C40: in-place editing needs an edit session on the object. -/
namespace Props
open Mtp Mtp.Rsp Spec

variable {D : Type}

/-- The object being edited, if any. -/
def editing (r : Rsp D) : Option Nat := r.edit.map (·.handle)

private theorem replyP_edit {r r' : Rsp D} (c : Resp) (ps : List Nat) (hr : r.replyP c ps = .ok r') :
    r'.edit = r.edit := by
  unfold Rsp.replyP at hr
  split at hr
  · cases hr; simp
  · unfold reply1 at hr
    split at hr
    · simp at hr
    · cases hr; simp

private theorem sendReply_edit {r r' : Rsp D} (q : List UInt8) (x : Reply)
    (hr : r.sendReply q x = .ok r') : r'.edit = r.edit := by
  unfold Rsp.sendReply at hr
  split at hr
  · split at hr
    · cases hr; rfl
    · exact replyP_edit _ _ hr
  · next dd l rest hf =>
    have hs := send_edit r (.data (cCode q) (cTid q) dd l)
    split at hr
    · next r2 e => cases hr; rw [e] at hs; exact hs
    · next r2 e =>
      rw [e] at hs
      split at hr
      · cases hr; exact hs
      · rw [replyP_edit _ _ hr]; exact hs

private theorem closeSession_edit (r : Rsp D) : r.closeSession.edit = r.edit := by
  simp [closeSession]

private theorem ev_edit (dv : Dev D) (r : Rsp D) (e : Ev) : (r.handleEv dv e).edit = r.edit := by
  cases e with
  | cancel =>
    simp only [handleEv, handleCancel]
    split
    · rfl
    · split
      · unfold cancelUpload
        simp only
        split <;> split <;> simp [deleteStored, emit]
      · simp
  | suspend => simp [handleEv, handleSuspend]
  | resume =>
    simp only [handleEv, handleResume]
    split
    · simp
    · split <;> simp [emit]
  | deviceReset => simp [handleEv, closeSession_edit]
  | cleanup => simp [handleEv, closeSession_edit]

private theorem evs_edit (dv : Dev D) (es : List Ev) : ∀ r : Rsp D, (es.foldl (handleEv dv) r).edit = r.edit := by
  induction es with
  | nil => intro r; rfl
  | cons e es ih => intro r; rw [List.foldl_cons, ih, ev_edit]

private theorem handle_edit (dv : Dev D) {r r' : Rsp D} (q : List UInt8) (n : List Ev) (k : OpKind)
    (hk : k ≠ .beginEdit ∧ k ≠ .endEdit) (hr : r.handle dv q n k = .ok r') : editing r' = editing r := by
  have same : ∀ {r1 : Rsp D}, r1.edit = r.edit → editing r1 = editing r := by
    intro r1 h; unfold editing; rw [h]
  cases k with
  | deviceInfo => simp only [Rsp.handle] at hr; (have h := sendReply_edit _ _ hr; exact same h)
  | openSession =>
    simp only [Rsp.handle, openSessionReq] at hr
    split at hr
    · cases hr; exact same (by simp)
    · split at hr
      · exact same (replyP_edit _ [_] hr)
      · cases hr; exact same (by simp)
  | closeSession =>
    cases hr
    unfold closeSessionReq
    split <;> exact same (by simp)
  | propsSupported =>
    simp only [Rsp.handle] at hr
    split at hr
    · (have h := sendReply_edit _ _ hr; exact same h)
    · cases hr; exact same (by simp)
  | thumb =>
    simp only [Rsp.handle] at hr
    split at hr
    · split at hr
      · cases hr; exact same rfl
      · (have h := sendReply_edit _ _ hr; exact same h)
    · cases hr; rfl
  | query ps =>
    simp only [Rsp.handle] at hr
    split at hr
    · (have h := sendReply_edit _ _ hr; exact same h)
    · exact same (replyP_edit _ _ hr)
  | copy =>
    have ce : ∀ (r1 : Rsp D) c x, r1.edit = r.edit → r1.copyEnd c x = .ok r' → editing r' = editing r := by
      intro r1 c x h1 hr
      unfold copyEnd at hr
      split at hr
      · cases hr; exact same h1
      · exact same ((replyP_edit _ [_] hr).trans h1)
    simp only [Rsp.handle, copyReq] at hr
    split at hr
    · refine ce _ _ _ ?_ hr
      exact evs_edit dv n r
    · exact ce _ _ _ rfl hr
  | skip => cases hr; exact same (by simp)
  | refused => cases hr; exact same (by simp)
  | sendInfo => cases hr; rfl
  | sendObject =>
    cases hr
    unfold sendObjectReq
    split
    · split <;> rfl
    · rfl
  | sendPropList =>
    cases hr
    unfold propListReq
    split
    · split
      · split <;> rfl
      · rfl
    · rfl
  | sendPartial =>
    cases hr
    unfold partialReq
    split
    · split
      · rfl
      · next e he =>
        split
        · rfl
        · simp [editing, he]
    · rfl
  | set c => cases hr; rfl
  | truncate =>
    cases hr
    unfold truncateReq
    split
    · split
      · exact same (by simp)
      · split
        · exact same (by simp)
        · exact same (by simp)
    · exact same (by simp)
  | beginEdit => exact absurd rfl hk.1
  | endEdit => exact absurd rfl hk.2

private theorem uploadEnd_edit (dv : Dev D) (r : Rsp D) (h : Nat) (c : Resp) :
    (r.uploadEnd dv h c).edit = r.edit := by
  unfold uploadEnd
  simp only
  split <;> simp

private theorem upload_edit (dv : Dev D) {r r' : Rsp D} (b : List UInt8) (f l : Bool)
    (hr : r.uploadData dv b f l = .ok r') : r'.edit = r.edit := by
  unfold Rsp.uploadData at hr
  split at hr
  · cases hr; exact uploadEnd_edit ..
  · split at hr
    · simp at hr
    · simp only at hr
      split at hr
      · next d' _ =>
        have hu : ∀ x, (uploadCheck dv { r with dev := d' } r.uploadHandle x l).1.edit = r.edit := by
          intro x
          unfold uploadCheck
          simp only
          split
          · split
            · split <;> rfl
            · rfl
          · split
            · split <;> rfl
            · rfl
          · rfl
        split at hr
        · next r2 e => cases hr; exact (congrArg (fun x => x.1.edit) e).symm.trans (hu _)
        · next r2 c _ e => cases hr; exact (uploadEnd_edit ..).trans ((congrArg (fun x => x.1.edit) e).symm.trans (hu _))
      · cases hr; exact uploadEnd_edit ..

private theorem dataEnd_edit (r : Rsp D) (c : Resp) (l : Bool) : (r.dataEnd c l).edit = r.edit := by
  unfold dataEnd
  simp only
  split <;> simp

private theorem data_edit (dv : Dev D) {r r' : Rsp D} (q b : List UInt8) (f l : Bool)
    (hr : r.dataPacket dv q b f l = .ok r') : editing r' = editing r := by
  have same : ∀ {r1 : Rsp D}, r1.edit = r.edit → editing r1 = editing r := by
    intro r1 h; unfold editing; rw [h]
  unfold dataPacket at hr
  split at hr
  · split at hr
    · (have h := upload_edit dv _ _ _ hr; exact same h)
    · cases hr; exact same (dataEnd_edit ..)
  · split at hr
    · split at hr
      · cases hr
        have hp : editing ({ r with dataC := none }.partialData dv b f l).1 = editing r := by
          unfold partialData
          split
          · rfl
          · next e he =>
            split
            · rfl
            · simp only [editing, Option.map_some]
              have : r.edit = some e := he
              rw [this]; rfl
        have hd : ∀ (r1 : Rsp D) c, editing (r1.dataEnd c l) = editing r1 := by
          intro r1 c; unfold editing; rw [dataEnd_edit]
        exact (hd _ _).trans hp
      · cases hr; exact same (dataEnd_edit ..)
    · have ha : (r.accumulate b f).edit = r.edit := (accumulate_kept r b f).1.edit
      generalize r.accumulate b f = r1 at *
      simp only at hr
      split at hr
      · cases hr; exact same ha
      · split at hr
        · split at hr
          · split at hr
            · cases hr; exact same ((dataEnd_edit ..).trans ha)
            · simp at hr
          · split at hr
            · cases hr
              refine same ?_
              unfold infoData
              simp only
              split
              · simp [ha]
              · split <;> simp [ha]
            · cases hr
              refine same ?_
              unfold listData
              split <;> simp [ha]
            · (have h := replyP_edit _ _ hr; exact same (h.trans ha))
            · cases hr; exact same ((dataEnd_edit ..).trans ha)
        · cases hr; exact same ((dataEnd_edit ..).trans ha)

private theorem kind_edit {c : Nat} {k : OpKind} (hk : opKind c = some k) (hc : c ≠ 0x95C4 ∧ c ≠ 0x95C5) :
    k ≠ .beginEdit ∧ k ≠ .endEdit := by
  have : ∀ e ∈ opTable, e.1 ≠ 0x95C4 ∧ e.1 ≠ 0x95C5 → e.2 ≠ .beginEdit ∧ e.2 ≠ .endEdit := by decide
  exact this _ (opKind_mem hk) hc

theorem receive_edit (dv : Dev D) {r r' : Rsp D} (b : List UInt8) (f l : Bool) (n : List Ev)
    (hb : r.st ≠ .waitData → f = true → l = true → cCode b ≠ 0x95C4 ∧ cCode b ≠ 0x95C5)
    (hrec : r.receive dv b f l n = .ok r') : editing r' = editing r := by
  have same : ∀ {r1 : Rsp D}, r1.edit = r.edit → editing r1 = editing r := by
    intro r1 h; unfold editing; rw [h]
  have cmd : ∀ r1 : Rsp D, r1.edit = r.edit → r1.req = some b → (cCode b ≠ 0x95C4 ∧ cCode b ≠ 0x95C5) →
      r1.command dv n = .ok r' → editing r' = editing r := by
    intro r1 h1 h2 hc hr
    unfold Rsp.command at hr
    split at hr
    · simp at hr
    · next q hq =>
      have : q = b := by rw [h2] at hq; exact (Option.some.inj hq).symm
      subst this
      simp only at hr
      split at hr
      · cases hr; exact same (by simp [h1])
      · split at hr
        · next k hk =>
          rw [handle_edit dv q n k (kind_edit hk hc) hr]
          exact same h1
        · cases hr; exact same (by simp [h1])
  have fresh : r.st ≠ .waitData → (if f = true ∧ l = true then
        (({ { (r.setState .idle) with req := none } with req := some b }.setState
          (if hasDataPhase (cCode b) then .waitData else .waitResp)).emit .statusBusy).command dv n
      else Res.ok ({ (r.setState .idle) with req := none }.emit .reset)) = Res.ok r' → editing r' = editing r := by
    intro hw hr
    split at hr
    · next hfl => exact cmd _ (by simp) (by simp) (hb hw hfl.1 hfl.2) hr
    · cases hr; exact same (by simp [emit])
  unfold Rsp.receive at hrec
  have hr := hrec
  clear hrec
  split at hr
  · next e => exact fresh (by rw [e]; simp) hr
  · next e => exact fresh (by rw [e]; simp) hr
  · next e => exact fresh (by rw [e]; simp) hr
  · split at hr
    · cases hr; exact same (by simp)
    · have := data_edit dv _ b f l hr
      rw [this]
      split
      · rfl
      · rfl
  · split at hr
    · cases hr; exact same (by simp)
    · cases hr; rfl
  · cases hr; exact same (by simp)

/-- Anything but BeginEditObject and EndEditObject (storages being ready before). -/
def NoEdit : In D → Prop
  | .packet b first last _ => first = true → last = true → cCode b ≠ 0x95C4 ∧ cCode b ≠ 0x95C5
  | .ready _ => False
  | _ => True

/-- C40. Only BeginEditObject and EndEditObject change which object is being edited: whatever else the host
does and whatever happens (cancels, suspends, resets, the end of the session), the edited object stays the
same. -/
theorem C40_edit_only (dv : Dev D) (is : List (In D)) (r r' : Rsp D) (hi : ∀ i ∈ is, NoEdit i)
    (hr : r.run dv is = .ok r') : editing r' = editing r := by
  induction is generalizing r with
  | nil => cases hr; rfl
  | cons i is ih =>
    rw [run] at hr
    cases hs : r.step dv i with
    | ub w => rw [hs] at hr; simp at hr
    | ok r1 =>
      rw [hs] at hr
      rw [ih r1 (fun j hj => hi j (by simp [hj])) hr]
      have hf := hi i (by simp)
      cases i with
      | packet b f l n => exact receive_edit dv b f l n (fun _ => hf) hs
      | ready n => exact absurd hf (by simp [NoEdit])
      | ev e => cases hs; unfold editing; rw [ev_edit]
      | notify c ps =>
        cases hs
        unfold Rsp.notify
        split
        · rfl
        · unfold editing; rw [send_edit]
      | env d => cases hs; rfl

/-- C40. TruncateObject64 for an object that is not being edited is refused, with exactly one response, and
changes nothing. -/
theorem C40_truncate_refused (dv : Dev D) (r : Rsp D) (hst : r.st = .idle) (hready : r.ready = true)
    (hs : r.session ≠ 0) (q : List UInt8) (hq : cCode q = 0x95C3) (ht : cTid q ≠ 0 ∧ cTid q ≠ 0xFFFFFFFF)
    (he : editing r ≠ some (cParam q 0)) (n : List Ev) :
    ∃ (r' : Rsp D) (c : Resp), r.receive dv q true true n = .ok r' ∧ Kept r r' ∧ c ≠ .ok ∧
      responses r'.out = responses r.out ++ [.response c (u16 (cTid q)) []] ∧ r'.st = .idle := by
  have hk : opKind (cCode q) = some .truncate := by rw [hq]; decide
  have hpc : preCheck (r.accept q).session (cTid q) = .ok := by rw [accept_session, preCheck_ok hs ht]
  have hl := accept_live r q
  have key : ∃ c : Resp, c ≠ .ok ∧ r.receive dv q true true n = .ok ((r.accept q).reply c) := by
    rw [receive_idle dv r q n hst, command_accept dv r q n (Or.inl hready), hk]
    simp only [Rsp.handle, truncateReq]
    rw [hpc]
    simp only
    split
    · exact ⟨_, by simp, rfl⟩
    · next e he' =>
      rw [accept_edit] at he'
      rw [if_pos (by intro hh; exact he (by simp [editing, he', hh]))]
      exact ⟨_, by simp, rfl⟩
  obtain ⟨c, hc, e⟩ := key
  refine ⟨_, c, e, (Kept.accept r q).trans (Kept.reply _ _), hc, ?_, (reply_idle _ _ q (accept_req r q) hl).1⟩
  rw [responses_reply _ _ q (accept_req r q) hl, responses_accept]

/-- C40. SendPartialObject64 for an object that is not being edited is refused, with exactly one response, and
changes nothing, whatever data follows and however it is cut. -/
theorem C40_partial_refused (dv : Dev D) (r : Rsp D) (hst : r.st = .idle) (hready : r.ready = true)
    (hs : r.session ≠ 0) (q : List UInt8) (hq : cCode q = 0x95C2) (ht : cTid q ≠ 0 ∧ cTid q ≠ 0xFFFFFFFF)
    (he : editing r ≠ some (cParam q 0)) (bs : List (List UInt8)) (hne : bs ≠ []) :
    ∃ (r' : Rsp D) (c : Resp), r.run dv (.packet q true true [] :: dataPhase true bs) = .ok r' ∧ Kept r r' ∧
      c ≠ .ok ∧ responses r'.out = responses r.out ++ [.response c (u16 (cTid q)) []] ∧ r'.st = .idle := by
  have hk : opKind (cCode q) = some .sendPartial := by rw [hq]; decide
  have hpc : preCheck (r.accept q).session (cTid q) = .ok := by rw [accept_session, preCheck_ok hs ht]
  have hst0 : (r.accept q).st = .waitData := by rw [accept_st, hq]; rfl
  have key : ∃ c : Resp, c ≠ .ok ∧ r.receive dv q true true [] = .ok { (r.accept q) with resp := c } := by
    rw [receive_idle dv r q [] hst, command_accept dv r q [] (Or.inl hready), hk]
    simp only [Rsp.handle, partialReq]
    rw [hpc]
    simp only
    split
    · exact ⟨_, by simp, rfl⟩
    · next e he' =>
      rw [accept_edit] at he'
      rw [if_pos (by intro hh; exact he (by simp [editing, he', hh]))]
      exact ⟨_, by simp, rfl⟩
  obtain ⟨c, hc, e⟩ := key
  obtain ⟨r', e', kk, i1, _, o⟩ := run_refuse dv q c bs hne { (r.accept q) with resp := c } true
    ⟨hst0, accept_req r q, rfl, hc⟩
  refine ⟨r', c, ?_, ?_, hc, ?_, i1⟩
  · simp only [Rsp.run, Rsp.step, e, Res.bind_ok]; exact e'
  · have k1 := Kept.accept r q
    exact ⟨kk.session.trans k1.session, kk.ready.trans k1.ready, kk.sendSeq.trans k1.sendSeq,
      kk.propList.trans k1.propList, kk.edit.trans k1.edit, kk.dev.trans k1.dev⟩
  · rw [o]
    show responses (r.accept q).out ++ _ = _
    rw [responses_accept]

/-- Between two transactions, all but the edit session and the storages as it was. -/
structure Between (r r' : Rsp D) : Prop where
  req : r'.req = none
  session : r'.session = r.session
  ready : r'.ready = r.ready
  sendSeq : r'.sendSeq = r.sendSeq
  propList : r'.propList = r.propList

theorem begin_end (dv : Dev D) (r : Rsp D) (hst : r.st = .idle) (hready : r.ready = true)
    (hs : r.session ≠ 0) (q : List UInt8) (ht : cTid q ≠ 0 ∧ cTid q ≠ 0xFFFFFFFF) (n : List Ev) :
    (cCode q = 0x95C4 → dv.handleOk r.dev (cParam q 0) = .ok →
      ∃ r' : Rsp D, r.receive dv q true true n = .ok r' ∧ editing r' = some (cParam q 0) ∧
        r'.dev = dv.setEvents r.dev (cParam q 0) false ∧
        responses r'.out = responses r.out ++ [.response .ok (u16 (cTid q)) []] ∧ r'.st = .idle ∧ Between r r') ∧
    (cCode q = 0x95C5 → editing r = some (cParam q 0) →
      ∃ r' : Rsp D, r.receive dv q true true n = .ok r' ∧ editing r' = none ∧
        r'.dev = dv.setEvents (dv.flush r.dev (cParam q 0)) (cParam q 0) true ∧
        responses r'.out = responses r.out ++ [.response .ok (u16 (cTid q)) []] ∧ r'.st = .idle ∧ Between r r') := by
  have hpc : preCheck (r.accept q).session (cTid q) = .ok := by rw [accept_session, preCheck_ok hs ht]
  have hl := accept_live r q
  have hdev := accept_dev r q
  have fin : ∀ r1 : Rsp D, r1.st = (r.accept q).st → r1.req = some q → r1.out = (r.accept q).out →
      r1.session = (r.accept q).session → r1.ready = (r.accept q).ready → r1.sendSeq = (r.accept q).sendSeq →
      r1.propList = (r.accept q).propList →
      responses (r1.reply .ok).out = responses r.out ++ [.response .ok (u16 (cTid q)) []] ∧
      (r1.reply .ok).st = .idle ∧ Between r (r1.reply .ok) := by
    intro r1 h1 h2 h3 h4 h5 h6 h7
    have hl1 : r1.st ≠ .txCancel ∧ r1.st ≠ .suspend := by rw [h1]; exact hl
    exact ⟨by rw [responses_reply _ _ q h2 hl1, h3, responses_accept], (reply_idle _ _ q h2 hl1).1, (reply_idle _ _ q h2 hl1).2,
      by rw [reply_session, h4, accept_session], by rw [reply_ready, h5, accept_ready], by rw [reply_sendSeq, h6, accept_sendSeq],
      by rw [reply_propList, h7, accept_propList]⟩
  constructor
  · intro hq hh
    have hk : opKind (cCode q) = some .beginEdit := by rw [hq]; decide
    rw [receive_idle dv r q n hst, command_accept dv r q n (Or.inl hready), hk]
    simp only [Rsp.handle, beginEditReq]
    have hh' : dv.handleOk (r.accept q).dev (cParam q 0) = .ok := by rw [hdev]; exact hh
    rw [hpc, hh']
    refine ⟨_, rfl, ?_, ?_, ?_⟩
    · simp [editing]
    · rw [reply_dev, ← hdev]
    · exact fin _ rfl (accept_req r q) rfl rfl rfl rfl rfl
  · intro hq he
    have hk : opKind (cCode q) = some .endEdit := by rw [hq]; decide
    rw [receive_idle dv r q n hst, command_accept dv r q n (Or.inl hready), hk]
    simp only [Rsp.handle, endEditReq]
    rw [hpc]
    simp only
    split
    · next e => rw [accept_edit] at e; simp [editing, e] at he
    · next e he' =>
      rw [accept_edit] at he'
      rw [if_neg (by intro hh; apply hh; simpa [editing, he'] using he)]
      refine ⟨_, rfl, ?_, ?_, ?_⟩
      · simp [editing]
      · rw [reply_dev, ← hdev]
      · exact fin _ rfl (accept_req r q) rfl rfl rfl rfl rfl

/-- C40. BeginEditObject on an existing object opens an edit session on it and stops its events; EndEditObject
on the object being edited closes it and starts its events again. -/
theorem C40_begin_end (dv : Dev D) (law : ∀ d h b, dv.eventsOn (dv.setEvents d h b) h = b)
    (r : Rsp D) (hst : r.st = .idle) (hready : r.ready = true)
    (hs : r.session ≠ 0) (q : List UInt8) (ht : cTid q ≠ 0 ∧ cTid q ≠ 0xFFFFFFFF) (n : List Ev) :
    (cCode q = 0x95C4 → dv.handleOk r.dev (cParam q 0) = .ok →
      ∃ r' : Rsp D, r.receive dv q true true n = .ok r' ∧ editing r' = some (cParam q 0) ∧
        dv.eventsOn r'.dev (cParam q 0) = false ∧
        responses r'.out = responses r.out ++ [.response .ok (u16 (cTid q)) []] ∧ r'.st = .idle ∧ Between r r') ∧
    (cCode q = 0x95C5 → editing r = some (cParam q 0) →
      ∃ r' : Rsp D, r.receive dv q true true n = .ok r' ∧ editing r' = none ∧
        dv.eventsOn r'.dev (cParam q 0) = true ∧
        responses r'.out = responses r.out ++ [.response .ok (u16 (cTid q)) []] ∧ r'.st = .idle ∧ Between r r') := by
  obtain ⟨h1, h2⟩ := begin_end dv r hst hready hs q ht n
  refine ⟨fun hq hh => ?_, fun hq he => ?_⟩
  · obtain ⟨r', a, b, c, d⟩ := h1 hq hh
    exact ⟨r', a, b, by rw [c]; exact law _ _ _, d⟩
  · obtain ⟨r', a, b, c, d⟩ := h2 hq he
    exact ⟨r', a, b, by rw [c]; exact law _ _ _, d⟩

/-- C40. Between BeginEdit and EndEdit: TruncateObject64 of the edited object is carried out on exactly that
object, at the 64-bit size given, and its result is the answer. -/
theorem C40_truncate (dv : Dev D) (r : Rsp D) (hst : r.st = .idle) (hready : r.ready = true)
    (hs : r.session ≠ 0) (q : List UInt8) (hq : cCode q = 0x95C3) (ht : cTid q ≠ 0 ∧ cTid q ≠ 0xFFFFFFFF)
    (he : editing r = some (cParam q 0)) (n : List Ev) :
    ∃ r' : Rsp D, r.receive dv q true true n = .ok r' ∧
      r'.dev = (dv.truncate r.dev (cParam q 0) (cParam q 2 * 2 ^ 32 + cParam q 1)).1 ∧
      responses r'.out = responses r.out ++
        [.response (dv.truncate r.dev (cParam q 0) (cParam q 2 * 2 ^ 32 + cParam q 1)).2 (u16 (cTid q)) []] ∧
      r'.st = .idle ∧ editing r' = editing r ∧ Between r r' := by
  have hk : opKind (cCode q) = some .truncate := by rw [hq]; decide
  have hpc : preCheck (r.accept q).session (cTid q) = .ok := by rw [accept_session, preCheck_ok hs ht]
  have hl := accept_live r q
  have hdev := accept_dev r q
  obtain ⟨e, he', hh⟩ : ∃ e, r.edit = some e ∧ e.handle = cParam q 0 := by
    unfold editing at he
    cases h : r.edit with
    | none => rw [h] at he; simp at he
    | some e => rw [h] at he; exact ⟨e, rfl, by simpa using he⟩
  have hn : (2 : Nat) ^ 32 = 4294967296 := rfl
  rw [hn]
  cases hx : dv.truncate r.dev (cParam q 0) (cParam q 2 * 4294967296 + cParam q 1) with
  | mk d c =>
    have key : (r.accept q).truncateReq dv q = ({ (r.accept q) with dev := d } : Rsp D).reply c := by
      have hx' : dv.truncate (r.accept q).dev (cParam q 0) (cParam q 2 * 4294967296 + cParam q 1) = (d, c) := by
        rw [hdev]; exact hx
      have he2 : (r.accept q).edit = some e := by rw [accept_edit]; exact he'
      unfold truncateReq
      rw [hpc]
      simp only [hx', he2]
      rw [if_neg (by simp [hh])]
    have e1 : r.receive dv q true true n = .ok (({ (r.accept q) with dev := d } : Rsp D).reply c) := by
      rw [receive_idle dv r q n hst, command_accept dv r q n (Or.inl hready), hk]
      simp only [Rsp.handle]
      rw [key]
    refine ⟨_, e1, by rw [reply_dev],
      ?_, (reply_idle ({ (r.accept q) with dev := d } : Rsp D) _ q (accept_req r q) hl).1, ?_,
      (reply_idle ({ (r.accept q) with dev := d } : Rsp D) _ q (accept_req r q) hl).2, by rw [reply_session]; exact accept_session r q,
      by rw [reply_ready]; exact accept_ready r q, by rw [reply_sendSeq]; exact accept_sendSeq r q,
      by rw [reply_propList]; exact accept_propList r q⟩
    · rw [responses_reply ({ (r.accept q) with dev := d } : Rsp D) _ q (accept_req r q) hl]
      show responses (r.accept q).out ++ _ = _
      rw [responses_accept]
    · unfold editing
      rw [reply_edit]
      show (r.accept q).edit.map _ = _
      rw [accept_edit]

/-- What a storage is asked to do for a partial write of segments `ds` at `off`: one write per segment, each
where the one before ended; the first failure ends it. -/
def partialWrites (dv : Dev D) (h : Nat) : D → Nat → Bool → List (List UInt8) → D × Resp
  | d, _, _, [] => (d, .ok)
  | d, off, first, b :: bs =>
    match dv.writePartial d h off b first bs.isEmpty with
    | (d', .ok) => partialWrites dv h d' (u64 (off + b.length)) false bs
    | (d', c) => (d', c)

private theorem partial_packet (dv : Dev D) (r : Rsp D) (q b : List UInt8) (e : EditSeq) (f l : Bool)
    (hst : r.st = .waitData) (hreq : r.req = some q) (hresp : r.resp = .ok) (hq : cCode q = 0x95C2)
    (he : r.edit = some e) (hb : f = true → 12 ≤ b.length) (bd : List UInt8)
    (hbd : (if f = true then b.drop 12 else b) = bd) (d' : D) (c : Resp)
    (hx : dv.writePartial r.dev e.handle e.offset bd f l = (d', c)) :
    r.receive dv b f l [] = .ok (({ (if f = true then r.emit .statusBusy else r) with
      dataC := none, dev := d', edit := some { e with offset := u64 (e.offset + bd.length) } } : Rsp D).dataEnd c l) := by
  have hr : r.receive dv b f l [] = (if f = true then r.emit .statusBusy else r).dataPacket dv q b f l := by
    unfold Rsp.receive
    rw [hst]
    simp only
    split
    · next hn => rw [hreq] at hn; simp at hn
    · next q' hq' =>
      have : q' = q := by rw [hreq] at hq'; exact (Option.some.inj hq').symm
      subst this
      rfl
  rw [hr]
  have h1 : (if f = true then r.emit .statusBusy else r).resp = .ok := by split <;> exact hresp
  have h2 : (if f = true then r.emit .statusBusy else r).edit = some e := by split <;> exact he
  have h3 : (if f = true then r.emit .statusBusy else r).dev = r.dev := by split <;> rfl
  generalize (if f = true then r.emit .statusBusy else r) = r0 at *
  have hp : ({ r0 with dataC := none } : Rsp D).partialData dv b f l =
      ({ r0 with dataC := none, dev := d', edit := some { e with offset := u64 (e.offset + bd.length) } }, c) := by
    unfold partialData
    simp only [h2]
    rw [if_neg (by intro hh; have := hb hh.1; omega)]
    have : dv.writePartial r0.dev e.handle e.offset bd f l = (d', c) := by rw [h3]; exact hx
    simp only [hbd, this]
  unfold dataPacket
  rw [if_neg (by rw [hq]; decide), if_pos hq, hp]
  split
  · rfl
  · next hn => exact absurd h1 hn

private theorem run_partial (dv : Dev D) (q : List UInt8) (hq : cCode q = 0x95C2) (bs : List (List UInt8))
    (hne : bs ≠ []) : ∀ (r : Rsp D) (e : EditSeq) (f : Bool), r.st = .waitData → r.req = some q → r.resp = .ok →
    r.edit = some e → (f = true → ∀ b ∈ bs.head?, 12 ≤ b.length) →
    ∃ r', r.run dv (dataPhase f bs) = .ok r' ∧
      r'.dev = (partialWrites dv e.handle r.dev e.offset f (bodies f bs)).1 ∧
      responses r'.out = responses r.out ++
        [.response (partialWrites dv e.handle r.dev e.offset f (bodies f bs)).2 (u16 (cTid q)) []] ∧
      r'.st = .idle ∧ editing r' = some e.handle ∧ Between r r' := by
  induction bs with
  | nil => exact absurd rfl hne
  | cons b bs ih =>
    intro r e f hst hreq hresp he hb
    cases hx : dv.writePartial r.dev e.handle e.offset (if f = true then b.drop 12 else b) f bs.isEmpty with
    | mk d' c =>
    have hp := partial_packet dv r q b e f bs.isEmpty hst hreq hresp hq he (fun hf => hb hf b rfl) _ rfl d' c hx
    generalize hbd : (if f = true then b.drop 12 else b) = bd at hp hx
    have hbod : bodies f (b :: bs) = bd :: bodies false bs := by simp [bodies, hbd]
    have o0 : responses (if f = true then r.emit .statusBusy else r).out = responses r.out := by
      split
      · rw [emit_out, responses_append]; simp [responses, Out.isResponse]
      · rfl
    have s0 : (if f = true then r.emit .statusBusy else r).st = .waitData := by split <;> exact hst
    have q0 : (if f = true then r.emit .statusBusy else r).req = some q := by split <;> exact hreq
    have k0 : Kept r (if f = true then r.emit .statusBusy else r) := by
      split
      · exact Kept.emit r _
      · exact Kept.refl r
    have hbe : (bodies false bs).isEmpty = bs.isEmpty := by cases bs <;> rfl
    generalize (if f = true then r.emit .statusBusy else r) = r0 at hp o0 s0 q0 k0
    simp only [dataPhase, Rsp.run, Rsp.step, hp, Res.bind_ok, hbod]
    generalize hr1 : ({ r0 with
      dataC := none, dev := d', edit := some { e with offset := u64 (e.offset + bd.length) } } : Rsp D) = r1
    have s1 : r1.st = .waitData := by rw [← hr1]; exact s0
    have q1 : r1.req = some q := by rw [← hr1]; exact q0
    have d1 : r1.dev = d' := by rw [← hr1]
    have e1 : r1.edit = some { e with offset := u64 (e.offset + bd.length) } := by rw [← hr1]
    have o1 : responses r1.out = responses r.out := by rw [← hr1]; exact o0
    have k1 : r1.session = r.session ∧ r1.ready = r.ready ∧ r1.sendSeq = r.sendSeq ∧ r1.propList = r.propList := by
      rw [← hr1]; exact ⟨k0.session, k0.ready, k0.sendSeq, k0.propList⟩
    have hl1 : r1.st ≠ .txCancel ∧ r1.st ≠ .suspend := by rw [s1]; simp
    cases bs with
    | nil =>
      have hpw : partialWrites dv e.handle r.dev e.offset f [bd] = (d', c) := by
        have hx' : dv.writePartial r.dev e.handle e.offset bd f true = (d', c) := hx
        unfold partialWrites
        simp only [List.isEmpty_nil, hx']
        cases c <;> rfl
      simp only [bodies, hpw, dataPhase, Rsp.run, List.isEmpty_nil, dataEnd, if_true]
      have hl2 : ({ r1 with resp := c } : Rsp D).st ≠ .txCancel ∧ ({ r1 with resp := c } : Rsp D).st ≠ .suspend := hl1
      refine ⟨_, rfl, ?_, ?_, (reply_idle ({ r1 with resp := c } : Rsp D) c q q1 hl2).1, ?_,
        (reply_idle ({ r1 with resp := c } : Rsp D) c q q1 hl2).2, by rw [reply_session]; exact k1.1,
        by rw [reply_ready]; exact k1.2.1, by rw [reply_sendSeq]; exact k1.2.2.1, by rw [reply_propList]; exact k1.2.2.2⟩
      · rw [reply_dev]; exact d1
      · rw [responses_reply ({ r1 with resp := c } : Rsp D) c q q1 hl2, ← o1]
      · unfold editing; rw [reply_edit]
        show r1.edit.map _ = _
        rw [e1]; rfl
    | cons b2 bs2 =>
      have hde : r1.dataEnd c (b2 :: bs2).isEmpty = { r1 with resp := c } := by simp [dataEnd]
      rw [hde]
      by_cases hc : c = .ok
      · subst hc
        obtain ⟨r', e', t1, t2, t3, t4, t5⟩ := ih (by simp) { r1 with resp := .ok } { e with offset := u64 (e.offset + bd.length) } false
          s1 q1 rfl e1 (by simp)
        have hpw : partialWrites dv e.handle r.dev e.offset f (bd :: bodies false (b2 :: bs2)) =
            partialWrites dv e.handle d' (u64 (e.offset + bd.length)) false (bodies false (b2 :: bs2)) := by
          rw [partialWrites, hbe, hx]
        rw [hpw]
        have d1' : ({ r1 with resp := .ok } : Rsp D).dev = d' := d1
        rw [d1'] at t1 t2
        refine ⟨r', e', t1, ?_, t3, t4, t5.req, t5.session.trans k1.1, t5.ready.trans k1.2.1, t5.sendSeq.trans k1.2.2.1,
          t5.propList.trans k1.2.2.2⟩
        rw [t2]
        show responses r1.out ++ _ = _
        rw [o1]
      · obtain ⟨r', e', kk, i1, i2, o⟩ := run_refuse dv q c (b2 :: bs2) (by simp) { r1 with resp := c } false
          ⟨s1, q1, rfl, hc⟩
        have hpw : partialWrites dv e.handle r.dev e.offset f (bd :: bodies false (b2 :: bs2)) = (d', c) := by
          rw [partialWrites, hbe, hx]
          cases c <;> first | rfl | exact absurd rfl hc
        rw [hpw]
        refine ⟨r', e', kk.dev.trans d1, ?_, i1, ?_, i2, kk.session.trans k1.1, kk.ready.trans k1.2.1,
          kk.sendSeq.trans k1.2.2.1, kk.propList.trans k1.2.2.2⟩
        · rw [o]
          show responses r1.out ++ _ = _
          rw [o1]
        · unfold editing
          rw [kk.edit]
          show r1.edit.map _ = _
          rw [e1]; rfl

/-- C40. Between BeginEdit and EndEdit: the data of SendPartialObject64 for the edited object, however cut into
packets, is written to exactly that object, consecutively from the 64-bit offset given; the answer is the
storage's, and after a failure nothing more is written. -/
theorem C40_partial_accepted (dv : Dev D) (r : Rsp D) (hst : r.st = .idle) (hready : r.ready = true)
    (hs : r.session ≠ 0) (q : List UInt8) (hq : cCode q = 0x95C2) (ht : cTid q ≠ 0 ∧ cTid q ≠ 0xFFFFFFFF)
    (he : editing r = some (cParam q 0)) (bs : List (List UInt8)) (hne : bs ≠ [])
    (hb : ∀ b ∈ bs.head?, 12 ≤ b.length) :
    let w := partialWrites dv (cParam q 0) r.dev (cParam q 2 * 2 ^ 32 + cParam q 1) true (bodies true bs)
    ∃ r' : Rsp D, r.run dv (.packet q true true [] :: dataPhase true bs) = .ok r' ∧ r'.dev = w.1 ∧
      responses r'.out = responses r.out ++ [.response w.2 (u16 (cTid q)) []] ∧ r'.st = .idle ∧
      editing r' = editing r ∧ Between r r' := by
  have hk : opKind (cCode q) = some .sendPartial := by rw [hq]; decide
  have hpc : preCheck (r.accept q).session (cTid q) = .ok := by rw [accept_session, preCheck_ok hs ht]
  have hst0 : (r.accept q).st = .waitData := by rw [accept_st, hq]; rfl
  obtain ⟨e, he', hh⟩ : ∃ e, r.edit = some e ∧ e.handle = cParam q 0 := by
    unfold editing at he
    cases h : r.edit with
    | none => rw [h] at he; simp at he
    | some e => rw [h] at he; exact ⟨e, rfl, by simpa using he⟩
  have e1 : r.receive dv q true true [] = .ok { (r.accept q) with
      resp := .ok, edit := some { e with offset := cParam q 2 * 4294967296 + cParam q 1 } } := by
    rw [receive_idle dv r q [] hst, command_accept dv r q [] (Or.inl hready), hk]
    simp only [Rsp.handle, partialReq]
    have he2 : (r.accept q).edit = some e := by rw [accept_edit]; exact he'
    rw [hpc]
    simp only [he2]
    rw [if_neg (by simp [hh])]
  obtain ⟨r', e', t1, t2, t3, t4, t5⟩ := run_partial dv q hq bs hne { (r.accept q) with
      resp := .ok, edit := some { e with offset := cParam q 2 * 4294967296 + cParam q 1 } }
    { e with offset := cParam q 2 * 4294967296 + cParam q 1 } true hst0 (accept_req r q) rfl rfl (fun _ => hb)
  have hdev : (r.accept q).dev = r.dev := accept_dev r q
  simp only [hdev, hh] at t1 t2 t4
  refine ⟨r', ?_, t1, ?_, t3, t4.trans he.symm, t5.req, t5.session.trans (accept_session r q), t5.ready.trans (accept_ready r q),
    t5.sendSeq.trans (accept_sendSeq r q), t5.propList.trans (accept_propList r q)⟩
  · simp only [Rsp.run, Rsp.step, e1, Res.bind_ok]; exact e'
  · rw [t2, responses_accept]

/-- A storage with event flags, for the examples: the list of objects whose events are off. -/
def flagDev : Dev (List Nat) where
  query d _ _ := (d, { frames := [], response := some (.ok, []) })
  copy d _ _ := (d, .ok, 0)
  check _ _ _ := .ok
  store d _ _ _ := (d, .ok, [])
  listCheck _ _ := .ok
  addInfo d _ _ := (d, .ok, [], 1)
  addList d _ _ := (d, .ok, [], 1)
  write d _ _ _ _ := (d, .ok)
  truncate d _ _ := (d, .ok)
  setProps d _ _ := d
  writePartial d _ _ _ _ _ := (d, .ok)
  delete d _ := (d, .ok)
  handleOk _ h := if h < 100 then .ok else .invalidObjectHandle
  flush d _ := d
  setEvents d h b := if b then d.filter (· ≠ h) else h :: d
  eventsOff d := d
  eventsOn d h := d.all (· ≠ h)

example : ∀ d h b, flagDev.eventsOn (flagDev.setEvents d h b) h = b := by
  intro d h b
  cases b <;> simp [flagDev]

/-- Edit object 7: partial write and truncate are accepted in between and refused afterwards. -/
example : after (({ dev := [], ready := true, session := 1 } : Rsp (List Nat)).run flagDev
    [.packet (Toy.cmd 0x95C4 1 [7]) true true [], .packet (Toy.cmd 0x95C2 2 [7, 0, 0, 2]) true true [],
     .packet (Toy.dat 0x95C2 2 [1, 2]) true true [], .packet (Toy.cmd 0x95C3 3 [8, 0, 0]) true true [],
     .packet (Toy.cmd 0x95C5 4 [7]) true true [], .packet (Toy.cmd 0x95C3 5 [7, 0, 0]) true true []])
    (fun r => responses r.out = [.response .ok 1 [], .response .ok 2 [], .response .invalidObjectHandle 3 [],
      .response .ok 4 [], .response .generalError 5 []] ∧ editing r = none ∧ r.dev = []) := by decide +kernel

/-- C40 is violated by a second BeginEditObject (mtpresponder.cpp:1654-1688 overwrites the first): object 7
can no longer be ended (EndEditObject is refused) and its events stay off although it is not being edited. -/
theorem C40_second_begin_violated :
    after (({ dev := [], ready := true, session := 1 } : Rsp (List Nat)).run flagDev
      [.packet (Toy.cmd 0x95C4 1 [7]) true true [], .packet (Toy.cmd 0x95C4 2 [8]) true true [],
       .packet (Toy.cmd 0x95C5 3 [7]) true true [], .packet (Toy.cmd 0x95C5 4 [8]) true true []])
    (fun r => responses r.out = [.response .ok 1 [], .response .ok 2 [], .response .invalidObjectHandle 3 [],
        .response .ok 4 []] ∧ editing r = none ∧ flagDev.eventsOn r.dev 7 = false) := by decide +kernel

/-- C40 is violated across sessions: an edit session survives the session it was opened in
(mtpresponder.cpp:896-919 does not end it): in the next session the object can be truncated without
BeginEditObject. -/
theorem C40_session_violated :
    after (({ dev := [], ready := true, session := 1 } : Rsp (List Nat)).run flagDev
      [.packet (Toy.cmd 0x95C4 1 [7]) true true [], .packet (Toy.cmd 0x1003 2 []) true true [],
       .packet (Toy.cmd 0x1002 0 [1]) true true [], .packet (Toy.cmd 0x95C3 1 [7, 0, 0]) true true []])
    (fun r => responses r.out = [.response .ok 1 [], .response .ok 2 [], .response .ok 0 [],
        .response .ok 1 []]) := by decide +kernel

end Props
