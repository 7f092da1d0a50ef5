import Verif.Lemmas.ServerAnswers
import Verif.Props.PropSetList
/-! SendObjectPropList at the server. -/
namespace Mtp
open Spec
namespace Server

/-- An announcement uses up one handle at most. -/
theorem addItem_asked_le (s : Server) (o : ObjInfo) (par : Nat) : (s.addItem o par).1.tree.asked ≤ s.tree.asked + 1 := by
  have key : ∀ b, ((grant s.tree b).addItem ⟨toPath o.fileName, o.format, par⟩ (.node none o.format [])).1.asked ≤ s.tree.asked + 1 := by
    intro b
    rw [addItem_eq']
    simp only
    cases hp : (grant s.tree b).get (if par = ALL then 0 else par) with
    | none => exact Nat.le_succ _
    | some pit => exact add_node_asked (grant s.tree b) ..
  rw [(addItem_tree s o par _ rfl).2.1]
  exact key _

/-- Like `announce_split`, with the storage. -/
theorem announce_split' (s : Server) (sid par : Nat) (o : ObjInfo) :
    s.announce sid par o = (s, .generalError, [], 0) ∨
    ∃ o' s' r h, '/' ∉ toPath o'.fileName ∧ (if sid = 0 then 0x00010001 else sid) = s.sid ∧ s.addItem o' par = (s', r, h) ∧
      ((r = .ok ∧ ∃ p, s.announce sid par o = (s', .ok, [s.sid, p, h], h)) ∨ (r ≠ .ok ∧ s.announce sid par o = (s', r, [], 0))) := by
  unfold announce
  simp only
  generalize (if sid = 0 then 0x00010001 else sid) = sid
  by_cases hc : sid ≠ s.sid ∨ plain o.fileName = false
  · rw [if_pos hc]; exact Or.inl rfl
  · have hpl : plain o.fileName = true := by
      cases hp : plain o.fileName with
      | true => rfl
      | false => exact absurd (Or.inr hp) hc
    have hsid : sid = s.sid := Decidable.byContradiction fun h => hc (Or.inl h)
    right
    have hsl := plain_slash hpl
    generalize ho : ({ o with parent := par } : ObjInfo) = o'
    have hsl' : '/' ∉ toPath o'.fileName := by rw [← ho]; exact hsl
    cases ha : s.addItem o' par with
    | mk s' rh =>
      obtain ⟨r, h⟩ := rh
      refine ⟨o', s', r, h, hsl', hsid, ha, ?_⟩
      rw [if_neg hc]
      by_cases hr : r = .ok
      · subst hr
        rw [hsid]
        exact Or.inl ⟨rfl, _, rfl⟩
      · refine Or.inr ⟨hr, ?_⟩
        split
        · next e => cases e; exact absurd rfl hr
        · next e => cases e; rfl

/-- A property list that arrives is read. -/
theorem list_decoded (c : DevCaps) (hw : c.WF) (fmt : Nat) (hf : fmt < 2 ^ 16) (es : List Elem)
    (hes : ∀ e ∈ es, SoundElem e) (hl : (Spec.listData es).length ≤ 2 ^ 30) (tid : Nat) :
    ((∀ e ∈ es, Props.Belongs c fmt e) ∧
      decodeList c fmt (dataContainer 0x9808 tid (Spec.listData es)) = some (.inr (Props.keptOf es, Props.lastName es 0 none))) ∨
    (∃ front e back, es = front ++ e :: back ∧ (∀ x ∈ front, Props.Belongs c fmt x) ∧ ¬ Props.Belongs c fmt e ∧
      decodeList c fmt (dataContainer 0x9808 tid (Spec.listData es)) = some (.inl front.length)) := by
  have hcl : (dataContainer 0x9808 tid (Spec.listData es)).length = 12 + (Spec.listData es).length := by
    unfold dataContainer; rw [List.length_append, header_length]
  obtain ⟨rx, e, _⟩ := Props.framed_collect (c := dataContainer 0x9808 tid (Spec.listData es))
    (p := dataContainer 0x9808 tid (Spec.listData es)) (ps := []) (Props.container_framed _ _ _ hl) (by simp) (by omega)
  have hat := Props.arrives_at (op := 0x9808) (tid := tid) (pay := Spec.listData es) (rx := rx) ⟨_, [], by simp, by omega, e⟩ hl
  have hn : es.length < 256 ^ 4 := by
    have hle : es.length ≤ (encs (es.flatMap elemData)).length := Props.elems_le_size es
    simp only [Spec.listData, List.length_append] at hl
    have : es.length < 4294967296 := by omega
    simpa using this
  have hat0 : rx.At (header (12 + (Spec.listData es).length) 2 0x9808 tid) (intBytes 4 es.length ++ encs (es.flatMap elemData)) := hat
  have a1 := Rx.getInt_at hat0 hn
  have b1 := hat0.advance
  rw [intBytes_length] at b1
  unfold decodeList
  rw [e]
  simp only [Res.bind_ok, a1]
  rcases Props.scanElems_at c hw fmt hf es 0 _ _ none hes b1 with ⟨g1, g2⟩ | ⟨front, e, back, g1, g2, g3, g4⟩
  · left
    refine ⟨g1, ?_⟩
    rw [g2]
  · right
    refine ⟨front, e, back, g1, g2, g3, ?_⟩
    rw [g4, Nat.zero_add]

/-- A SendObjectPropList transaction whose request phase is fine. -/
theorem send_list (r : Rsp Server) (ho : Open r) (q : List UInt8) (hq : Asking q 0x9808) (es : List Elem)
    (hl : (Spec.listData es).length ≤ 2 ^ 30) (b : List UInt8) (bs : List (List UInt8)) (hb : 12 ≤ b.length)
    (hc : (b :: bs).flatten = dataContainer 0x9808 (cTid q) (Spec.listData es))
    (hck : r.dev.listCheck (cParams q) = .ok) (h3 : cParam q 3 = 0) :
    ∃ r' c ps h, r.dev.addList (cParams q) (dataContainer 0x9808 (cTid q) (Spec.listData es)) = (r'.dev, c, ps, h) ∧
      Answered r r' (sendObject q (b :: bs)) q c ps ∧ r'.sendSeq = r.sendSeq ∧
      (r.sendSeq = none → Spec.Announced r' h (cParam q 4)) := by
  have hp : Props.Proper q b bs := proper_of (by rw [hq.code]; exact hc) hb hl
  have hk : opKind (cCode q) = some .sendPropList := by rw [hq.code]; decide
  have hd : hasDataPhase (cCode q) = true := by rw [hq.code]; decide
  have hpc : Rsp.preCheck (r.accept q).session (cTid q) = .ok := by rw [Rsp.accept_session, Rsp.preCheck_ok ho.session hq.tid]
  have hcd : cCode q ≠ 0x100D ∧ cCode q ≠ 0x95C2 := by rw [hq.code]; decide
  have hdev : (r.accept q).dev = r.dev := Rsp.accept_dev r q
  have h0 : (r.accept q).handle dev q [] .sendPropList =
      .ok { (r.accept q) with propList := some ⟨0, cParam q 4, 0, cParams q, []⟩ } := by
    simp only [Rsp.handle, Rsp.propListReq]
    rw [hpc, hdev, show dev.listCheck r.dev (cParams q) = .ok from hck]
    simp only
    rw [if_neg (by simp [h3])]
    simp
  have hst0 : (r.accept q).st = .waitData := by rw [Rsp.accept_st, hd]; rfl
  have hfl : b ++ bs.flatten = dataContainer 0x9808 (cTid q) (Spec.listData es) := by rw [← hc, List.flatten_cons]
  generalize hC : dataContainer 0x9808 (cTid q) (Spec.listData es) = C at *
  generalize hA : r.dev.addList (cParams q) C = A
  obtain ⟨d, c, ps, h⟩ := A
  let r1 : Rsp Server := { (r.accept q).emit .statusBusy with
    dataC := some C, dev := d, propList := some ⟨h, cParam q 4, 0, cParams q, C⟩ }
  have hrun : r.run dev (sendObject q (b :: bs)) = .ok (r1.send (.response c (cTid q) ps)).1 := by
    unfold sendObject
    rw [Props.run_txn dev r q b bs ho.idle ho.ready .sendPropList hk hd hcd (by omega) hp.size _ h0 ⟨hst0, Rsp.accept_req r q⟩]
    have hacc2 : ∀ (r : Rsp Server) x, r.accumulate x true = { r with dataC := some x } := fun r x => rfl
    unfold Rsp.dataPacket
    rw [if_neg hcd.1, if_neg hcd.2, hacc2]
    simp only [Bool.true_eq_false, if_false]
    rw [Props.check_proper hp _ (by rfl)]
    simp only [hk]
    rw [hfl, Props.listData_eq dev _ q _ ⟨0, cParam q 4, 0, cParams q, []⟩ rfl d c ps h (by
      show dev.addList (r.accept q).dev (cParams q) _ = _
      rw [hdev]; exact hA)]
    rfl
  have hst1 : r1.st = .waitData := hst0
  have hout : responses r1.out = responses r.out := by
    show responses ((r.accept q).emit .statusBusy).out = _
    rw [Rsp.emit_out, responses_append, Rsp.responses_accept]; simp [responses, Out.isResponse]
  have hse : r1.session ≠ 0 := by
    show (r.accept q).session ≠ 0
    rw [Rsp.accept_session]; exact ho.session
  have hrd : r1.ready = true := (Rsp.accept_ready ..).trans ho.ready
  have hsq : r1.sendSeq = r.sendSeq := Rsp.accept_sendSeq r q
  have hpl : r1.propList = some ⟨h, cParam q 4, 0, cParams q, C⟩ := rfl
  have hd1 : r1.dev = d := rfl
  generalize r1 = r2 at *
  refine ⟨(r2.send (.response c (cTid q) ps)).1, c, ps, h, ?_, ⟨hrun, ⟨cTid q, rfl, ?_⟩, ?_⟩, ?_, ?_⟩
  · rw [Rsp.send_dev, hd1]
  · rw [Rsp.send_response _ _ _ _ (by rw [hst1]; simp)]
    simp only [Rsp.deleteStored_out, Rsp.emit_out, responses_append, Rsp.responses_setState, hout]
    simp [responses, Out.isResponse]
  · rw [Rsp.send_response _ _ _ _ (by rw [hst1]; simp)]
    exact ⟨by simp, rfl, by simpa using hrd, by simpa using hse⟩
  · rw [Rsp.send_sendSeq, hsq]
  · intro hn
    right
    rw [Rsp.send_sendSeq, Rsp.send_propList, hsq, hpl]
    exact ⟨hn, _, rfl, rfl, rfl, rfl⟩

/-- A SendObjectPropList transaction refused in the request phase. -/
theorem list_refused (r : Rsp Server) (ho : Open r) (q : List UInt8) (hq : Asking q 0x9808) (bs : List (List UInt8)) (hne : bs ≠ [])
    (hck : r.dev.listCheck (cParams q) ≠ .ok ∨ cParam q 3 ≠ 0) :
    ∃ r' c, c ≠ .ok ∧ Answered r r' (sendObject q bs) q c [] ∧ r'.dev = r.dev ∧ r'.sendSeq = r.sendSeq ∧ r'.propList = r.propList ∧
      (r.dev.listCheck (cParams q) ≠ .ok → c = r.dev.listCheck (cParams q)) ∧
      (r.dev.listCheck (cParams q) = .ok → c = .objectTooLarge) := by
  have hk : opKind (cCode q) = some .sendPropList := by rw [hq.code]; decide
  have hd : hasDataPhase (cCode q) = true := by rw [hq.code]; decide
  have hpc : Rsp.preCheck (r.accept q).session (cTid q) = .ok := by rw [Rsp.accept_session, Rsp.preCheck_ok ho.session hq.tid]
  have hdev : (r.accept q).dev = r.dev := Rsp.accept_dev r q
  have hst0 : (r.accept q).st = .waitData := by rw [Rsp.accept_st, hd]; rfl
  obtain ⟨c, hc, h0, h1, h2⟩ : ∃ c, c ≠ Resp.ok ∧ (r.accept q).handle dev q [] .sendPropList = .ok { (r.accept q) with resp := c } ∧
      (r.dev.listCheck (cParams q) ≠ .ok → c = r.dev.listCheck (cParams q)) ∧
      (r.dev.listCheck (cParams q) = .ok → c = .objectTooLarge) := by
    simp only [Rsp.handle, Rsp.propListReq]
    rw [hpc, hdev, show dev.listCheck r.dev (cParams q) = r.dev.listCheck (cParams q) from rfl]
    simp only
    by_cases e : r.dev.listCheck (cParams q) = .ok
    · rw [e]
      have h3 : cParam q 3 ≠ 0 := hck.resolve_left (fun h => h e)
      refine ⟨.objectTooLarge, by decide, ?_, fun h => absurd rfl h, fun _ => rfl⟩
      simp only
      rw [if_pos h3]
    · refine ⟨_, e, ?_, fun _ => rfl, fun h => absurd h e⟩
      generalize r.dev.listCheck (cParams q) = c at *
      cases c <;> first | exact absurd rfl e | rfl
  have e1 : r.receive dev q true true [] = .ok { (r.accept q) with resp := c } := by
    rw [Rsp.receive_idle dev r q [] ho.idle, Rsp.command_accept dev r q [] (Or.inl ho.ready), hk]
    exact h0
  obtain ⟨r', e, k, i1, i2, o⟩ := Rsp.run_refuse dev q c bs hne { (r.accept q) with resp := c } true
    ⟨hst0, Rsp.accept_req r q, rfl, hc⟩
  refine ⟨r', c, hc, ⟨?_, ⟨u16 (cTid q), by unfold u16; omega, ?_⟩, i1, i2, ?_, ?_⟩, ?_, ?_, ?_, h1, h2⟩
  · unfold sendObject
    simp only [Rsp.run, Rsp.step, e1, Res.bind_ok]
    exact e
  · rw [o]
    show responses (r.accept q).out ++ _ = _
    rw [Rsp.responses_accept]
  · exact k.ready.trans ((Rsp.accept_ready ..).trans ho.ready)
  · rw [k.session]
    show (r.accept q).session ≠ 0
    rw [Rsp.accept_session]; exact ho.session
  · exact k.dev.trans hdev
  · exact k.sendSeq.trans (Rsp.accept_sendSeq r q)
  · exact k.propList.trans (Rsp.accept_propList r q)

end Server
end Mtp
