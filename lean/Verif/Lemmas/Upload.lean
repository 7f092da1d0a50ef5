import Verif.Spec.Upload
import Verif.Lemmas.DataPhase
/-! The data phase of an upload. -/
namespace Mtp
namespace Rsp
variable {D : Type}

/-- An announced upload of which `w` bytes were written. -/
def Pend (r : Rsp D) (h n w : Nat) : Prop :=
  (r.sendSeq = some ⟨h, n, u32 w⟩ ∧ r.propList = none) ∨
  (r.sendSeq = none ∧ ∃ p, r.propList = some p ∧ p.handle = h ∧ p.size = n ∧ p.curr = w)

/-- The upload requested by `q` goes on. -/
structure Going (r : Rsp D) (q : List UInt8) (h n w : Nat) : Prop where
  st : r.st = .waitData
  req : r.req = some q
  resp : r.resp = .ok
  code : cCode q = 0x100D
  pend : Pend r h n w

/-- The upload was answered `c`. -/
structure Verdict (r r' : Rsp D) (q : List UInt8) (c : Resp) : Prop where
  st : r'.st = .idle
  req : r'.req = none
  sendSeq : r'.sendSeq = none
  propList : r'.propList = none
  session : r'.session = r.session
  ready : r'.ready = r.ready
  edit : r'.edit = r.edit
  out : Spec.responses r'.out = Spec.responses r.out ++ [.response c (u16 (cTid q)) []]

/-- Closing the upload of `h` with verdict `c`: the storage afterwards is that of `d`, with properties
set perhaps, closed. -/
theorem uploadEnd_verdict (dv : Dev D) (r : Rsp D) (q : List UInt8) (h : Nat) (c : Resp)
    (hst : r.st = .waitData) (hq : r.req = some q) :
    Verdict r (r.uploadEnd dv h c) q c ∧
    ((r.uploadEnd dv h c).dev = (dv.write r.dev h none false true).1 ∨
      c = .ok ∧ ∃ ds, (r.uploadEnd dv h c).dev = (dv.write (dv.setProps r.dev h ds) h none false true).1) := by
  have key : ∀ r1 : Rsp D, r1.st = .waitData → r1.req = some q → r1.sendSeq = none → r1.session = r.session →
      r1.ready = r.ready → r1.edit = r.edit → r1.out = r.out →
      Verdict r { (r1.reply c) with propList := none } q c := by
    intro r1 h1 h2 h3 h4 h5 h6 h7
    have hl : r1.st ≠ .txCancel ∧ r1.st ≠ .suspend := by rw [h1]; simp
    obtain ⟨i1, i2⟩ := reply_idle r1 c q h2 hl
    refine ⟨i1, i2, (reply_sendSeq r1 c).trans h3, rfl, (reply_session r1 c).trans h4,
      (reply_ready r1 c).trans h5, (reply_edit r1 c).trans h6, ?_⟩
    show Spec.responses (r1.reply c).out = _
    rw [responses_reply r1 c q h2 hl, h7]
  unfold uploadEnd
  simp only
  split
  · next p _ =>
    refine ⟨key _ hst hq rfl rfl rfl rfl rfl, Or.inr ⟨rfl, p.dataset, ?_⟩⟩
    exact reply_dev _ _
  · refine ⟨key _ hst hq rfl rfl rfl rfl rfl, Or.inl ?_⟩
    exact reply_dev _ _

/-- What a packet with body `d` does to an upload, `x` being the storage's answer. -/
def Moved (dv : Dev D) (r r' : Rsp D) (q d : List UInt8) (h n w : Nat) (l : Bool) (x : D × Resp) : Prop :=
  (x.2 ≠ .ok ∧ Verdict r r' q x.2 ∧ r'.dev = (dv.write x.1 h none false true).1) ∨
  (x.2 = .ok ∧ n ≤ w + d.length ∧ Verdict r r' q .ok ∧
    (r'.dev = (dv.write x.1 h none false true).1 ∨
      ∃ ds, r'.dev = (dv.write (dv.setProps x.1 h ds) h none false true).1)) ∨
  (x.2 = .ok ∧ (w + d.length < n ∨ 2 ^ 32 ≤ w + d.length) ∧ l = true ∧ Verdict r r' q .incompleteTransfer ∧
    r'.dev = (dv.write (dv.truncate x.1 h 0).1 h none false true).1) ∨
  (x.2 = .ok ∧ (w + d.length < n ∨ 2 ^ 32 ≤ w + d.length) ∧ l = false ∧ Going r' q h n (w + d.length) ∧
    r'.dev = x.1 ∧ r'.session = r.session ∧ r'.ready = r.ready ∧ r'.edit = r.edit ∧
    Spec.responses r'.out = Spec.responses r.out)

theorem uploadData_eq (dv : Dev D) (r : Rsp D) (q b d : List UInt8) (h n w : Nat) (f l : Bool)
    (g : Going r q h n w) (hb : f = true → 12 ≤ b.length) (hd : (if f = true then b.drop 12 else b) = d) :
    r.uploadData dv b f l = match dv.write r.dev h (some d) f l with
      | (d', .ok) =>
        match ({ r with dev := d' } : Rsp D).uploadCheck dv h d.length l with
        | (r', .undefined) => .ok r'
        | (r', c) => .ok (r'.uploadEnd dv h c)
      | (d', c) => .ok (({ r with dev := d' } : Rsp D).uploadEnd dv h c) := by
  have hp : ¬ (r.sendSeq.isNone ∧ r.propList.isNone) := by
    rcases g.pend with ⟨e, _⟩ | ⟨_, p, e, _⟩
    · simp [e]
    · simp [e]
  have hu : r.uploadHandle = h := by
    rcases g.pend with ⟨e, _⟩ | ⟨e1, p, e, eh, _⟩
    · simp [uploadHandle, e]
    · simp [uploadHandle, e, e1, eh]
  unfold uploadData
  rw [if_neg hp, if_neg (by intro hh; have := hb hh.1; omega)]
  simp only [hu, hd]
  rfl

theorem upload_check (dv : Dev D) (r : Rsp D) (q d : List UInt8) (h n w : Nat) (l : Bool) (g : Going r q h n w) :
    ∃ r1 : Rsp D, r1.st = .waitData ∧ r1.req = some q ∧ r1.resp = .ok ∧ r1.session = r.session ∧
      r1.ready = r.ready ∧ r1.edit = r.edit ∧ r1.out = r.out ∧ Pend r1 h n (w + d.length) ∧
      ((r.uploadCheck dv h d.length l = (r1, .ok) ∧ n ≤ w + d.length ∧ r1.dev = r.dev) ∨
       (r.uploadCheck dv h d.length l = (r1, .incompleteTransfer) ∧ (w + d.length < n ∨ 2 ^ 32 ≤ w + d.length) ∧
         l = true ∧ r1.dev = (dv.truncate r.dev h 0).1) ∨
       (r.uploadCheck dv h d.length l = (r1, .undefined) ∧ (w + d.length < n ∨ 2 ^ 32 ≤ w + d.length) ∧
         l = false ∧ r1.dev = r.dev)) := by
  have hu32 : ∀ k, u32 (u32 w + k) = u32 (w + k) := by intro k; unfold u32; omega
  have hle : ∀ k, u32 k ≤ k := fun k => Nat.mod_le _ _
  have hne : ∀ k, u32 k < n → k < n ∨ 2 ^ 32 ≤ k := by intro k; unfold u32; omega
  rcases g.pend with ⟨e, ep⟩ | ⟨e1, p, e, eh, es, ec⟩
  · have huc : r.uploadCheck dv h d.length l =
        (if n > u32 (w + d.length) then
          if l then ({ r with sendSeq := some ⟨h, n, u32 (w + d.length)⟩, dev := (dv.truncate r.dev h 0).1 }, .incompleteTransfer)
          else ({ r with sendSeq := some ⟨h, n, u32 (w + d.length)⟩ }, .undefined)
        else ({ r with sendSeq := some ⟨h, n, u32 (w + d.length)⟩ }, .ok)) := by
      unfold uploadCheck
      simp only [e, ep, hu32]
    rw [huc]
    by_cases hn : n > u32 (w + d.length)
    · rw [if_pos hn]
      cases l with
      | true => exact ⟨{ r with sendSeq := some ⟨h, n, u32 (w + d.length)⟩, dev := (dv.truncate r.dev h 0).1 }, g.st, g.req, g.resp, rfl, rfl, rfl, rfl, Or.inl ⟨rfl, ep⟩, Or.inr (Or.inl ⟨rfl, hne _ hn, rfl, rfl⟩)⟩
      | false => exact ⟨{ r with sendSeq := some ⟨h, n, u32 (w + d.length)⟩ }, g.st, g.req, g.resp, rfl, rfl, rfl, rfl, Or.inl ⟨rfl, ep⟩, Or.inr (Or.inr ⟨rfl, hne _ hn, rfl, rfl⟩)⟩
    · rw [if_neg hn]
      exact ⟨{ r with sendSeq := some ⟨h, n, u32 (w + d.length)⟩ }, g.st, g.req, g.resp, rfl, rfl, rfl, rfl, Or.inl ⟨rfl, ep⟩,
        Or.inl ⟨rfl, Nat.le_trans (Nat.le_of_not_lt hn) (hle _), rfl⟩⟩
  · subst es ec
    have huc : r.uploadCheck dv h d.length l =
        (if p.size > p.curr + d.length then
          if l then ({ r with propList := some { p with curr := p.curr + d.length }, dev := (dv.truncate r.dev h 0).1 }, .incompleteTransfer)
          else ({ r with propList := some { p with curr := p.curr + d.length } }, .undefined)
        else ({ r with propList := some { p with curr := p.curr + d.length } }, .ok)) := by
      unfold uploadCheck
      simp only [e]
    rw [huc]
    by_cases hn : p.size > p.curr + d.length
    · rw [if_pos hn]
      cases l with
      | true => exact ⟨{ r with propList := some { p with curr := p.curr + d.length }, dev := (dv.truncate r.dev h 0).1 }, g.st, g.req, g.resp, rfl, rfl, rfl, rfl, Or.inr ⟨e1, _, rfl, eh, rfl, rfl⟩, Or.inr (Or.inl ⟨rfl, Or.inl hn, rfl, rfl⟩)⟩
      | false => exact ⟨{ r with propList := some { p with curr := p.curr + d.length } }, g.st, g.req, g.resp, rfl, rfl, rfl, rfl, Or.inr ⟨e1, _, rfl, eh, rfl, rfl⟩, Or.inr (Or.inr ⟨rfl, Or.inl hn, rfl, rfl⟩)⟩
    · rw [if_neg hn]
      exact ⟨{ r with propList := some { p with curr := p.curr + d.length } }, g.st, g.req, g.resp, rfl, rfl, rfl, rfl, Or.inr ⟨e1, _, rfl, eh, rfl, rfl⟩,
        Or.inl ⟨rfl, Nat.le_of_not_lt hn, rfl⟩⟩

theorem upload_data (dv : Dev D) (r : Rsp D) (q b d : List UInt8) (h n w : Nat) (f l : Bool)
    (g : Going r q h n w) (hb : f = true → 12 ≤ b.length) (hd : (if f = true then b.drop 12 else b) = d) :
    ∃ r', r.uploadData dv b f l = .ok r' ∧ Moved dv r r' q d h n w l (dv.write r.dev h (some d) f l) := by
  rw [uploadData_eq dv r q b d h n w f l g hb hd]
  cases hx : dv.write r.dev h (some d) f l with
  | mk d' c =>
    by_cases hc : c = .ok
    · subst hc
      simp only
      have g' : Going ({ r with dev := d' } : Rsp D) q h n w := ⟨g.st, g.req, g.resp, g.code, g.pend⟩
      obtain ⟨r1, s1, s2, s3, s4, s5, s6, s7, s8, hcase⟩ := upload_check dv _ q d h n w l g'
      have lift : ∀ r' c, Verdict r1 r' q c → Verdict r r' q c := fun r' c v =>
        ⟨v.st, v.req, v.sendSeq, v.propList, v.session.trans s4, v.ready.trans s5, v.edit.trans s6,
          by rw [v.out, s7]⟩
      rcases hcase with ⟨e, hn, hdev⟩ | ⟨e, hn, hl, hdev⟩ | ⟨e, hn, hl, hdev⟩
      · rw [e]
        obtain ⟨v, hv⟩ := uploadEnd_verdict dv r1 q h .ok s1 s2
        rw [hdev] at hv
        refine ⟨_, rfl, Or.inr (Or.inl ⟨rfl, hn, lift _ _ v, ?_⟩)⟩
        rcases hv with hv | ⟨_, hv⟩
        · exact Or.inl hv
        · exact Or.inr hv
      · rw [e]
        obtain ⟨v, hv⟩ := uploadEnd_verdict dv r1 q h .incompleteTransfer s1 s2
        rw [hdev] at hv
        refine ⟨_, rfl, Or.inr (Or.inr (Or.inl ⟨rfl, hn, hl, lift _ _ v, ?_⟩))⟩
        rcases hv with hv | ⟨hv, _⟩
        · exact hv
        · simp at hv
      · rw [e]
        exact ⟨r1, rfl, Or.inr (Or.inr (Or.inr ⟨rfl, hn, hl, ⟨s1, s2, s3, g.code, s8⟩, hdev, s4, s5, s6, by rw [s7]⟩))⟩
    · refine ⟨({ r with dev := d' } : Rsp D).uploadEnd dv h c, ?_, Or.inl ⟨hc, ?_⟩⟩
      · split
        · next e => cases e; exact absurd rfl hc
        · next e => cases e; rfl
      · obtain ⟨v, hv⟩ := uploadEnd_verdict dv ({ r with dev := d' } : Rsp D) q h c g.st g.req
        refine ⟨⟨v.st, v.req, v.sendSeq, v.propList, v.session, v.ready, v.edit, v.out⟩, ?_⟩
        rcases hv with hv | ⟨hv, _⟩
        · exact hv
        · exact absurd hv hc

/-- One packet of an upload. -/
theorem upload_packet (dv : Dev D) (r : Rsp D) (q b d : List UInt8) (h n w : Nat) (f l : Bool)
    (g : Going r q h n w) (hb : f = true → 12 ≤ b.length) (hd : (if f = true then b.drop 12 else b) = d) :
    ∃ r', r.receive dv b f l [] = .ok r' ∧ Moved dv r r' q d h n w l (dv.write r.dev h (some d) f l) := by
  have hr : r.receive dv b f l [] = (if f = true then r.emit .statusBusy else r).dataPacket dv q b f l := by
    unfold Rsp.receive
    rw [g.st]
    simp only
    split
    · next hn => rw [g.req] at hn; simp at hn
    · next q' hq' =>
      have : q' = q := by rw [g.req] at hq'; exact (Option.some.inj hq').symm
      subst this
      rfl
  rw [hr]
  have g0 : Going (if f = true then r.emit .statusBusy else r) q h n w := by
    split
    · exact ⟨g.st, g.req, g.resp, g.code, g.pend⟩
    · exact g
  have o0 : Spec.responses (if f = true then r.emit .statusBusy else r).out = Spec.responses r.out := by
    split
    · rw [emit_out, Spec.responses_append]; simp [Spec.responses, Out.isResponse]
    · rfl
  have k0 : Kept r (if f = true then r.emit .statusBusy else r) := by
    split
    · exact Kept.emit ..
    · exact Kept.refl _
  generalize (if f = true then r.emit .statusBusy else r) = r0 at *
  unfold dataPacket
  rw [if_pos g0.code]
  have hresp : ({ r0 with dataC := none } : Rsp D).resp = .ok := g0.resp
  have g1 : Going ({ r0 with dataC := none } : Rsp D) q h n w := ⟨g0.st, g0.req, g0.resp, g0.code, g0.pend⟩
  obtain ⟨r', e, m⟩ := upload_data dv _ q b d h n w f l g1 hb hd
  refine ⟨r', ?_, ?_⟩
  · split
    · exact e
    · next h => exact absurd hresp h
  have hx : dv.write ({ r0 with dataC := none } : Rsp D).dev h (some d) f l = dv.write r.dev h (some d) f l := by
    show dv.write r0.dev h (some d) f l = _
    rw [k0.dev]
  rw [hx] at m
  have lift : ∀ c, Verdict ({ r0 with dataC := none } : Rsp D) r' q c → Verdict r r' q c := fun c v =>
    ⟨v.st, v.req, v.sendSeq, v.propList, v.session.trans k0.session, v.ready.trans k0.ready,
      v.edit.trans k0.edit, by rw [v.out, ← o0]⟩
  rcases m with ⟨m1, m2, m3⟩ | ⟨m1, m2, m3, m4⟩ | ⟨m1, m2, m3, m4, m5⟩ | ⟨m1, m2, m3, m4, m5, m6, m7, m8, m9⟩
  · exact Or.inl ⟨m1, lift _ m2, m3⟩
  · exact Or.inr (Or.inl ⟨m1, m2, lift _ m3, m4⟩)
  · exact Or.inr (Or.inr (Or.inl ⟨m1, m2, m3, lift _ m4, m5⟩))
  · exact Or.inr (Or.inr (Or.inr ⟨m1, m2, m3, m4, m5, m6.trans k0.session, m7.trans k0.ready,
      m8.trans k0.edit, m9.trans o0⟩))

/-- Stray data packets after the verdict change nothing (but reset the transport). -/
theorem stray (dv : Dev D) (bs : List (List UInt8)) : ∀ r : Rsp D, r.st = .idle → r.req = none →
    ∃ r', r.run dv (Spec.dataPhase false bs) = .ok r' ∧ r'.st = .idle ∧ r'.req = none ∧ Kept r r' ∧
      Spec.responses r'.out = Spec.responses r.out := by
  induction bs with
  | nil => intro r h1 h2; exact ⟨r, rfl, h1, h2, Kept.refl r, rfl⟩
  | cons b bs ih =>
    intro r h1 h2
    have hs : r.setState .idle = r := by unfold setState; rw [if_pos h1]
    have hr : r.receive dv b false bs.isEmpty [] = .ok (({ r with req := none } : Rsp D).emit .reset) := by
      unfold Rsp.receive
      split
      · simp only [hs, Bool.false_eq_true, false_and, if_false]
      all_goals next h => rw [h1] at h; simp at h
    obtain ⟨r', e, i1, i2, k, o⟩ := ih (({ r with req := none } : Rsp D).emit .reset) h1 rfl
    refine ⟨r', ?_, i1, i2, ⟨k.session, k.ready, k.sendSeq, k.propList, k.edit, k.dev⟩, ?_⟩
    · simp only [Spec.dataPhase, Rsp.run, Rsp.step, hr, Res.bind_ok]
      exact e
    · rw [o, emit_out, Spec.responses_append]; simp [Spec.responses, Out.isResponse]

/-- A command with data phase accepted. -/
theorem accept_going (dv : Dev D) (r : Rsp D) (q : List UInt8) (h n : Nat) (hst : r.st = .idle)
    (hready : r.ready = true) (hs : r.session ≠ 0) (ht : cTid q ≠ 0 ∧ cTid q ≠ 0xFFFFFFFF)
    (hc : cCode q = 0x100D) (ha : Spec.Announced r h n) :
    ∃ r', r.receive dv q true true [] = .ok r' ∧ Going r' q h n 0 ∧ Kept r r' ∧
      Spec.responses r'.out = Spec.responses r.out := by
  have hk : opKind (cCode q) = some .sendObject := by rw [hc]; decide
  refine ⟨r.accept q, ?_, ?_, Kept.accept r q, responses_accept r q⟩
  · rw [receive_idle dv r q [] hst, command_accept dv r q [] (Or.inl hready), hk]
    simp only [handle, sendObjectReq]
    have hp : preCheck (r.accept q).session (cTid q) = .ok := by rw [accept_session, preCheck_ok hs ht]
    rw [hp]
    simp only
    rw [if_neg]
    · rfl
    rw [accept_sendSeq, accept_propList]
    rcases ha with ⟨e, _⟩ | ⟨_, p, e, _⟩
    · simp [e]
    · simp [e]
  · refine ⟨?_, accept_req r q, accept_resp r q, hc, ?_⟩
    · rw [accept_st, hc]; rfl
    · unfold Pend
      rw [accept_sendSeq, accept_propList]
      exact ha

theorem cLen_append (a b : List UInt8) (h : 4 ≤ a.length) : cLen (a ++ b) = cLen a := by
  simp [cLen, rd, List.take_append_of_le_length h]

/-- A collected data phase has the same effect as if it came in one packet. -/
theorem run_collect_aux (dv : Dev D) (q : List UInt8) (hc : cCode q ≠ 0x100D ∧ cCode q ≠ 0x95C2)
    (bs : List (List UInt8)) (hne : bs ≠ []) : ∀ (r : Rsp D) (a : List UInt8), r.st = .waitData → r.req = some q →
    r.dataC = some a → 4 ≤ a.length → (a ++ bs.flatten).length ≤ cLen a →
    r.run dv (Spec.dataPhase false bs) = r.dataPacket dv q (a ++ bs.flatten) true true := by
  induction bs with
  | nil => exact absurd rfl hne
  | cons b bs ih =>
    intro r a hst hq ha h4 hl
    have hr : ∀ l, r.receive dv b false l [] = r.dataPacket dv q b false l := by
      intro l
      unfold Rsp.receive
      rw [hst]
      simp only
      split
      · next hn => rw [hq] at hn; simp at hn
      · next q' hq' =>
        have : q' = q := by rw [hq] at hq'; exact (Option.some.inj hq').symm
        subst this
        rfl
    simp only [Spec.dataPhase, Rsp.run, Rsp.step, hr]
    simp only [List.flatten_cons, List.length_append] at hl
    have hacc : r.accumulate b false = { r with dataC := some (a ++ b) } := by
      unfold accumulate
      rw [ha]
      simp only [Bool.false_eq_true, if_false]
      rw [if_pos (by omega)]
    have hacc2 : ∀ (r : Rsp D) x, r.accumulate x true = { r with dataC := some x } := fun r x => rfl
    cases bs with
    | nil =>
      have e : r.dataPacket dv q b false true = r.dataPacket dv q (a ++ b) true true := by
        unfold dataPacket
        rw [if_neg hc.1, if_neg hc.2, if_neg hc.1, if_neg hc.2, hacc, hacc2]
      simp only [List.isEmpty_nil, List.flatten_cons, List.flatten_nil, List.append_nil, e]
      cases r.dataPacket dv q (a ++ b) true true <;> rfl
    | cons b2 bs2 =>
      have e : r.dataPacket dv q b false (b2 :: bs2).isEmpty = .ok { r with dataC := some (a ++ b) } := by
        unfold dataPacket
        rw [if_neg hc.1, if_neg hc.2, hacc]
        rfl
      rw [e, Res.bind_ok]
      rw [ih (by simp) { r with dataC := some (a ++ b) } (a ++ b) hst hq rfl (by rw [List.length_append]; omega)
        (by rw [cLen_append a b h4]; simp only [List.length_append]; omega)]
      rw [List.flatten_cons, List.append_assoc]
      unfold dataPacket
      rw [if_neg hc.1, if_neg hc.2, if_neg hc.1, if_neg hc.2, hacc2, hacc2]
      rfl

theorem run_collect (dv : Dev D) (q : List UInt8) (hc : cCode q ≠ 0x100D ∧ cCode q ≠ 0x95C2)
    (b : List UInt8) (bs : List (List UInt8)) (r : Rsp D) (hst : r.st = .waitData) (hq : r.req = some q)
    (h4 : 4 ≤ b.length) (hl : (b ++ bs.flatten).length ≤ cLen b) :
    r.run dv (Spec.dataPhase true (b :: bs)) = r.receive dv (b ++ bs.flatten) true true [] := by
  have hr : ∀ b l, r.receive dv b true l [] = (r.emit .statusBusy).dataPacket dv q b true l := by
    intro b l
    unfold Rsp.receive
    rw [hst]
    simp only
    split
    · next hn => rw [hq] at hn; simp at hn
    · next q' hq' =>
      have : q' = q := by rw [hq] at hq'; exact (Option.some.inj hq').symm
      subst this
      rfl
  have hacc2 : ∀ (r : Rsp D) x, r.accumulate x true = { r with dataC := some x } := fun r x => rfl
  simp only [Spec.dataPhase, Rsp.run, Rsp.step, hr]
  cases bs with
  | nil =>
    simp only [List.isEmpty_nil, List.flatten_nil, List.append_nil]
    cases (r.emit .statusBusy).dataPacket dv q b true true <;> rfl
  | cons b2 bs2 =>
    have e : (r.emit .statusBusy).dataPacket dv q b true (b2 :: bs2).isEmpty =
        .ok { (r.emit .statusBusy) with dataC := some b } := by
      unfold dataPacket
      rw [if_neg hc.1, if_neg hc.2, hacc2]
      rfl
    rw [e, Res.bind_ok]
    rw [run_collect_aux dv q hc (b2 :: bs2) (by simp) { (r.emit .statusBusy) with dataC := some b } b hst hq rfl h4 hl]
    unfold dataPacket
    rw [if_neg hc.1, if_neg hc.2, if_neg hc.1, if_neg hc.2, hacc2, hacc2]

end Rsp
end Mtp
