import Verif.Lemmas.ServerSend
import Verif.Props.Announce
import Verif.Props.Adding
import Verif.Props.Datasets
/-! SendObjectInfo at the server. -/
namespace Mtp
open Spec
namespace Server

theorem rd_append (w i : Nat) (a b : List UInt8) (h : i + w ≤ a.length) : rd w (a ++ b) i = rd w a i := by
  unfold rd
  rw [List.drop_append_of_le_length (by omega), List.take_append_of_le_length (by simp; omega)]

theorem rd_at (w i v : Nat) (pre post : List UInt8) (h : pre.length = i) (hv : v < 256 ^ w) :
    rd w (pre ++ (intBytes w v ++ post)) i = v := by
  unfold rd
  rw [← h, List.drop_left, List.take_append_of_le_length (by rw [intBytes_length]; omega),
    List.take_of_length_le (by rw [intBytes_length]; omega), leVal_intBytes _ _ hv]

theorem rd_lt (w i : Nat) (b : List UInt8) : rd w b i < 256 ^ w := by
  unfold rd
  refine Nat.lt_of_lt_of_le (leVal_lt _) (Nat.pow_le_pow_right (by omega) (by rw [List.length_take]; omega))

theorem header_code (len tid code : Nat) (pay : List UInt8) (hc : code < 256 ^ 2) :
    rd 2 (header len 2 code tid ++ pay) 6 = code := by
  have : header len 2 code tid ++ pay = (intBytes 4 len ++ intBytes 2 2) ++ (intBytes 2 code ++ (intBytes 4 tid ++ pay)) := by
    unfold header; simp only [List.append_assoc]
  rw [this]
  exact rd_at _ _ _ _ _ (by simp [intBytes_length]) hc

theorem header_tid (len tid code : Nat) (pay : List UInt8) (hc : tid < 256 ^ 4) :
    rd 4 (header len 2 code tid ++ pay) 8 = tid := by
  have : header len 2 code tid ++ pay = (intBytes 4 len ++ intBytes 2 2 ++ intBytes 2 code) ++ (intBytes 4 tid ++ pay) := by
    unfold header; simp only [List.append_assoc]
  rw [this]
  exact rd_at _ _ _ _ _ (by simp [intBytes_length]) hc

theorem header_len (len tid code : Nat) (pay : List UInt8) (hc : len < 256 ^ 4) :
    rd 4 (header len 2 code tid ++ pay) 0 = len := by
  have : header len 2 code tid ++ pay = [] ++ (intBytes 4 len ++ (intBytes 2 2 ++ (intBytes 2 code ++ (intBytes 4 tid ++ pay)))) := by
    unfold header; simp only [List.append_assoc, List.nil_append]
  rw [this]
  exact rd_at _ _ _ _ _ rfl hc

/-- A container for the command `q` in packets. -/
theorem proper_of {q b : List UInt8} {bs : List (List UInt8)} {pay : List UInt8}
    (hc : (b :: bs).flatten = dataContainer (cCode q) (cTid q) pay) (hb : 12 ≤ b.length) (hl : pay.length ≤ 2 ^ 30) :
    Props.Proper q b bs := by
  rw [List.flatten_cons] at hc
  have t1 : cTid q < 256 ^ 4 := rd_lt ..
  have t2 : cCode q < 256 ^ 2 := rd_lt ..
  have t3 : 12 + pay.length < 256 ^ 4 := by
    have : (256 : Nat) ^ 4 = 4294967296 := by decide
    omega
  refine ⟨hb, ?_, ?_, ?_⟩
  · have : cLen b = 12 + pay.length := by
      unfold cLen
      rw [← rd_append 4 0 b bs.flatten (by omega), hc]
      exact header_len _ _ _ _ t3
    rw [this, hc]
    unfold dataContainer
    rw [List.length_append, header_length]
    exact Nat.le_refl _
  · show rd 4 b 8 = _
    rw [← rd_append 4 8 b bs.flatten (by omega), hc]
    exact header_tid _ _ _ _ t1
  · show rd 2 b 6 = _
    rw [← rd_append 2 6 b bs.flatten (by omega), hc]
    exact header_code _ _ _ _ t2

theorem objInfo_short (o : ObjInfo) : (encs (objInfoVals o)).length ≤ 2 ^ 30 := by
  refine Nat.le_trans (m := 3000) ?_ (by decide)
  have h1 := strBytes_length_le o.fileName
  have h2 := strBytes_length_le o.captureDate
  have h3 := strBytes_length_le o.modDate
  have h4 := strBytes_length_le o.keywords
  simp only [Spec.encs, Spec.objInfoVals, List.flatMap_cons, List.flatMap_nil, Spec.enc,
    List.length_append, intBytes_length, List.length_nil]
  rw [← Nat.sub_eq_zero_iff_le]
  omega

/-- The announced size, and the rest of the dataset. -/
theorem info_decoded (tid : Nat) (o : ObjInfo) (hf : ObjInfoFits o) :
    rd 4 (dataContainer 0x100C tid (encs (objInfoVals o))) 20 = o.size % 2 ^ 32 ∧
    decodeInfo (dataContainer 0x100C tid (encs (objInfoVals o))) = some (objInfoReceived o) := by
  constructor
  · have : dataContainer 0x100C tid (encs (objInfoVals o)) =
        (header (12 + (encs (objInfoVals o)).length) 2 0x100C tid ++ (intBytes 4 o.storageId ++ intBytes 2 o.format ++
          intBytes 2 o.protection)) ++ (intBytes 4 (o.size % 2 ^ 32) ++ encs ((objInfoVals o).drop 4)) := by
      unfold dataContainer
      rw [List.append_assoc]
      simp only [objInfoVals, encs, List.flatMap_cons, enc, List.append_assoc, List.drop_succ_cons, List.drop_zero]
    rw [this]
    refine rd_at _ _ _ _ _ ?_ ?_
    · simp only [List.length_append, header_length, intBytes_length]
    · exact Nat.mod_lt _ (by decide)
  · have hlen := objInfo_short o
    generalize hc : dataContainer 0x100C tid (encs (objInfoVals o)) = c
    have hcl : c.length = 12 + (encs (objInfoVals o)).length := by rw [← hc]; unfold dataContainer; rw [List.length_append, header_length]
    obtain ⟨r, e, hm, ho, -, hlt⟩ := Props.framed_collect (c := c) (p := c) (ps := [])
      (by rw [← hc]; exact Props.container_framed _ _ _ hlen) (by simp) (by omega)
    have hat := Props.arrives_at (op := 0x100C) (tid := tid) (pay := encs (objInfoVals o)) (rx := r)
      ⟨c, [], by rw [hc]; simp, by omega, e⟩ hlen
    have hg := getObjInfo_at hf (post := []) (by rw [List.append_nil]; exact hat)
    unfold decodeInfo
    rw [e, Res.bind_ok, hg]

/-- A SendObjectInfo transaction. -/
theorem send_info (r : Rsp Server) (ho : Open r) (q : List UInt8) (hq : Asking q 0x100C) (o : ObjInfo) (hf : ObjInfoFits o)
    (b : List UInt8) (bs : List (List UInt8)) (hb : 12 ≤ b.length)
    (hc : (b :: bs).flatten = dataContainer 0x100C (cTid q) (encs (objInfoVals o))) (hsz : o.size % 2 ^ 32 ≠ 0xFFFFFFFF) :
    ∃ r' c ps h, r.dev.addInfo (cParams q) (dataContainer 0x100C (cTid q) (encs (objInfoVals o))) = (r'.dev, c, ps, h) ∧
      Answered r r' (sendObject q (b :: bs)) q c (if c = .ok then ps else []) ∧
      (c = .ok → Spec.Announced r' h (o.size % 2 ^ 32)) := by
  have hp : Props.Proper q b bs := proper_of (by rw [hq.code]; exact hc) hb (objInfo_short o)
  have hk : opKind (cCode q) = some .sendInfo := by rw [hq.code]; decide
  have hd : hasDataPhase (cCode q) = true := by rw [hq.code]; decide
  have hpc : Rsp.preCheck (r.accept q).session (cTid q) = .ok := by rw [Rsp.accept_session, Rsp.preCheck_ok ho.session hq.tid]
  have hcd : cCode q ≠ 0x100D ∧ cCode q ≠ 0x95C2 := by rw [hq.code]; decide
  have h0 : (r.accept q).handle dev q [] .sendInfo = .ok (r.accept q) := by
    simp only [Rsp.handle]
    rw [hpc]
    rfl
  have hst0 : (r.accept q).st = .waitData := by rw [Rsp.accept_st, hd]; rfl
  have hrun : r.run dev (sendObject q (b :: bs)) =
      .ok (({ (r.accept q).emit .statusBusy with dataC := some (b ++ bs.flatten) } : Rsp Server).infoData dev q (b ++ bs.flatten)) := by
    unfold sendObject
    rw [Props.run_txn dev r q b bs ho.idle ho.ready .sendInfo hk hd hcd (by omega) hp.size _ h0 ⟨hst0, Rsp.accept_req r q⟩]
    have hacc2 : ∀ (r : Rsp Server) x, r.accumulate x true = { r with dataC := some x } := fun r x => rfl
    unfold Rsp.dataPacket
    rw [if_neg hcd.1, if_neg hcd.2, hacc2]
    simp only [Bool.true_eq_false, if_false]
    rw [Props.check_proper hp _ (by rfl)]
    simp only [hk]
  have hfl : b ++ bs.flatten = dataContainer 0x100C (cTid q) (encs (objInfoVals o)) := by rw [← hc, List.flatten_cons]
  rw [hfl] at hrun
  generalize hC : dataContainer 0x100C (cTid q) (encs (objInfoVals o)) = C at *
  obtain ⟨i1, i2⟩ := info_decoded (cTid q) o hf
  rw [hC] at i1
  have fin : ∀ (r2 : Rsp Server) (c : Resp) (ps : List Nat), r2.st = .waitData → r2.ready = true → r2.session ≠ 0 →
      responses r2.out = responses r.out →
      r.run dev (sendObject q (b :: bs)) = .ok (r2.send (.response c (cTid q) ps)).1 →
      Answered r (r2.send (.response c (cTid q) ps)).1 (sendObject q (b :: bs)) q c ps := by
    intro r2 c ps a1 a2 a3 a4 a5
    refine ⟨a5, ⟨cTid q, rfl, ?_⟩, ?_⟩
    · rw [Rsp.send_response _ _ _ _ (by rw [a1]; simp)]
      simp only [Rsp.deleteStored_out, Rsp.emit_out, responses_append, Rsp.responses_setState, a4]
      simp [responses, Out.isResponse]
    · rw [Rsp.send_response _ _ _ _ (by rw [a1]; simp)]
      exact ⟨by simp, rfl, by simpa using a2, by simpa using a3⟩
  have hout : responses ((r.accept q).emit .statusBusy).out = responses r.out := by
    rw [Rsp.emit_out, responses_append, Rsp.responses_accept]; simp [responses, Out.isResponse]
  have hdev : (({ (r.accept q).emit .statusBusy with dataC := some C, propList := none } : Rsp Server)).dev = r.dev :=
    Rsp.accept_dev r q
  unfold Rsp.infoData at hrun
  simp only [i1, if_neg hsz] at hrun
  rw [show ((r.accept q).emit Out.statusBusy).dev = r.dev from hdev] at hrun
  have hse : (r.accept q).session ≠ 0 := by rw [Rsp.accept_session]; exact ho.session
  generalize hA : r.dev.addInfo (cParams q) C = A
  obtain ⟨d, c, ps, h⟩ := A
  have hA' : dev.addInfo r.dev (cParams q) C = (d, c, ps, h) := hA
  rw [hA'] at hrun
  by_cases hok : c = .ok
  · subst hok
    simp only at hrun
    refine ⟨_, .ok, ps, h, ?_, fin _ _ _ ?_ ?_ ?_ ?_ hrun, fun _ => ?_⟩
    · rw [Rsp.send_dev]
    · exact hst0
    · exact (Rsp.accept_ready ..).trans ho.ready
    · exact hse
    · exact hout
    · left
      rw [Rsp.send_sendSeq, Rsp.send_propList]
      exact ⟨rfl, rfl⟩
  · have hrun : r.run dev (sendObject q (b :: bs)) = .ok (({ (r.accept q).emit .statusBusy with
        dataC := some C, propList := none, dev := d, sendSeq := none } : Rsp Server).send (.response c (cTid q) [])).1 := by
      rw [hrun]
      split
      · next h1 =>
        simp only [Prod.mk.injEq] at h1
        exact absurd h1.2.1 hok
      · next h1 =>
        simp only [Prod.mk.injEq] at h1
        obtain ⟨rfl, rfl, rfl, rfl⟩ := h1
        rfl
    have hfin := fin ({ (r.accept q).emit .statusBusy with
        dataC := some C, propList := none, dev := d, sendSeq := none } : Rsp Server) c [] hst0 ((Rsp.accept_ready ..).trans ho.ready) hse hout hrun
    refine ⟨_, c, ps, h, ?_, (show (if c = Resp.ok then ps else []) = [] from if_neg hok).symm ▸ hfin, fun hh => absurd hh hok⟩
    rw [Rsp.send_dev]

end Server
end Mtp
