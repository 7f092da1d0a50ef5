import Verif.Spec.Host
import Verif.Spec.Toy
import Verif.Lemmas.Responder
/-! Property theorems C36, C37: one response per command, with its transaction id. -/
namespace Props
open Mtp Mtp.Rsp

variable {D : Type}

/-- The id on a response: the command's, or its low 16 bits. -/
def IdCut (t t' : Nat) : Prop := t' = t ∨ t' = t % 65536

private theorem resp_append (a b : List Out) : Spec.responses (a ++ b) = Spec.responses a ++ Spec.responses b := by
  simp [Spec.responses]

private theorem resp_setState (r : Rsp D) (s : RState) :
    Spec.responses (r.setState s).out = Spec.responses r.out := by
  rw [setState_out, resp_append]
  split
  · simp [Spec.responses, Out.isResponse]
  · split <;> simp [Spec.responses, Out.isResponse]

private theorem resp_accept (r : Rsp D) (b : List UInt8) :
    Spec.responses (r.accept b).out = Spec.responses r.out := by
  rw [accept_out, resp_append, resp_append]
  split <;> simp [Spec.responses, Out.isResponse]

/-- `r'` comes from `r` by answering request `q`. -/
private def Ans (r r' : Rsp D) (q : List UInt8) : Prop :=
  r'.st = .idle ∧ r'.ready = r.ready ∧
  ∃ c t ps, Spec.responses r'.out = Spec.responses r.out ++ [.response c t ps] ∧ IdCut (cTid q) t

private def Live (r : Rsp D) : Prop := r.st ≠ .txCancel ∧ r.st ≠ .suspend

private theorem ans_send {r : Rsp D} (hl : Live r) (c : Resp) (t : Nat) (ps : List Nat) (q : List UInt8)
    (ht : IdCut (cTid q) t) : Ans r (r.send (.response c t ps)).1 q := by
  unfold Rsp.send
  rw [if_neg (by simp [hl.1]), if_neg hl.2, if_pos (by rfl)]
  refine ⟨by simp, by simp, c, t, ps, ?_, ht⟩
  simp only [deleteStored_out, emit_out, resp_append, resp_setState]
  simp [Spec.responses, Out.isResponse]

private theorem ans_reply {r : Rsp D} (hl : Live r) (c : Resp) (q : List UInt8) (hq : r.req = some q) :
    Ans r (r.reply c) q := by
  unfold Rsp.reply
  rw [hq]
  exact ans_send hl c _ [] q (.inr rfl)

private theorem ans_replyP {r : Rsp D} (hl : Live r) (c : Resp) (ps : List Nat) (q : List UInt8)
    (hq : r.req = some q) : ∃ r', r.replyP c ps = .ok r' ∧ Ans r r' q := by
  cases ps with
  | nil => exact ⟨_, rfl, ans_reply hl c q hq⟩
  | cons p ps =>
    refine ⟨(r.send (.response c (u16 (cTid q)) [p])).1, ?_, ans_send hl c _ _ q (.inr rfl)⟩
    simp [Rsp.replyP, reply1, hq]

/-- Like `Ans`, for a step during which other fields changed. -/
private theorem Ans.of {r r0 r' : Rsp D} {q : List UInt8} (h : Ans r r' q) (h1 : r.ready = r0.ready)
    (h2 : Spec.responses r.out = Spec.responses r0.out) : Ans r0 r' q :=
  ⟨h.1, h.2.1.trans h1, by rw [← h2]; exact h.2.2⟩

private theorem ans_sendReply {r : Rsp D} (hl : Live r) (q : List UInt8) (p : Reply) (hq : r.req = some q)
    (hp : p.response.isSome) : ∃ r', r.sendReply q p = .ok r' ∧ Ans r r' q := by
  obtain ⟨⟨c, ps⟩, hp⟩ := Option.isSome_iff_exists.mp hp
  unfold Rsp.sendReply
  cases hf : p.frames with
  | nil => simp only [hp]; exact ans_replyP hl c ps q hq
  | cons f rest =>
    obtain ⟨d, l⟩ := f
    have hs : r.send (.data (cCode q) (cTid q) d l) = (r.emit (.data (cCode q) (cTid q) d l), true) := by
      unfold Rsp.send
      rw [if_neg (by simp [hl.1]), if_neg hl.2, if_neg (by simp [Out.isResponse])]
    simp only [hs, hp]
    obtain ⟨r', e, h⟩ := ans_replyP (r := { (r.emit (.data (cCode q) (cTid q) d l)) with
      out := (r.emit (.data (cCode q) (cTid q) d l)).out ++ rest.map fun f => .more f.1 f.2 }) hl c ps q hq
    refine ⟨r', e, h.of rfl ?_⟩
    simp only [emit_out, resp_append]
    have : Spec.responses (rest.map fun f => Out.more f.1 f.2) = [] := by
      unfold Spec.responses
      rw [List.filter_eq_nil_iff]
      intro o ho
      obtain ⟨f, _, rfl⟩ := List.mem_map.mp ho
      simp [Out.isResponse]
    rw [this]
    simp [Spec.responses, Out.isResponse]

/-- The request phase of an operation with data leaves the transaction open. -/
private def Open (r r' : Rsp D) : Prop :=
  r'.st = r.st ∧ r'.req = r.req ∧ r'.ready = r.ready ∧ Spec.responses r'.out = Spec.responses r.out

private theorem handle_ans (dv : Dev D) (tot : Spec.Total dv) {r : Rsp D} (hl : Live r) (q : List UInt8)
    (hq : r.req = some q) (k : OpKind) (hk : dataKind k = false) (ht : k ≠ .thumb) :
    ∃ r', r.handle dv q [] k = .ok r' ∧ Ans r r' q := by
  have query : ∀ d c ps, ∃ r', ({ r with dev := d } : Rsp D).sendReply q (dv.query r.dev c ps).2 = .ok r' ∧
      Ans r r' q := by
    intro d c ps
    obtain ⟨r', e, h⟩ := ans_sendReply (r := { r with dev := d }) hl q (dv.query r.dev c ps).2 hq (tot _ _ _)
    exact ⟨r', e, h.of rfl rfl⟩
  have ok : ∀ (r1 : Rsp D) c, Live r1 → r1.req = some q → r1.ready = r.ready →
      Spec.responses r1.out = Spec.responses r.out → Ans r (r1.reply c) q :=
    fun r1 c h1 h2 h3 h4 => (ans_reply h1 c q h2).of h3 h4
  cases k with
  | deviceInfo => exact query _ _ _
  | openSession =>
    simp only [Rsp.handle, openSessionReq]
    split
    · exact ⟨_, rfl, ans_reply hl _ q hq⟩
    · split
      · obtain ⟨r', e, h⟩ := ans_replyP hl .sessionAlreadyOpen [r.session] q hq
        exact ⟨r', e, h⟩
      · refine ⟨_, rfl, ?_⟩
        have h := ok { r with session := cParam q 0 } .ok hl hq rfl rfl
        obtain ⟨h1, h2, c, t, ps, h3, h4⟩ := h
        refine ⟨h1, h2, c, t, ps, ?_, h4⟩
        rw [emit_out, resp_append, h3]
        simp [Spec.responses, Out.isResponse]
  | closeSession =>
    simp only [Rsp.handle, closeSessionReq]
    refine ⟨_, rfl, ?_⟩
    split
    · exact ans_reply hl _ q hq
    · refine ok _ _ hl hq rfl ?_
      rw [emit_out, resp_append]
      simp [Spec.responses, Out.isResponse]
  | propsSupported =>
    simp only [Rsp.handle]
    split
    · exact query _ _ _
    · exact ⟨_, rfl, ans_reply hl _ q hq⟩
  | thumb => exact absurd rfl ht
  | query ps =>
    simp only [Rsp.handle]
    split
    · exact query _ _ _
    · exact ans_replyP hl _ _ q hq
  | copy =>
    have ce : ∀ (r1 : Rsp D) c x, Live r1 → r1.req = some q → r1.ready = r.ready →
        Spec.responses r1.out = Spec.responses r.out → ∃ r', r1.copyEnd c x = .ok r' ∧ Ans r r' q := by
      intro r1 c x h1 h2 h3 h4
      unfold copyEnd
      rw [if_neg h1.1]
      obtain ⟨r', e, h⟩ := ans_replyP h1 c [x] q h2
      exact ⟨r', e, h.of h3 h4⟩
    simp only [Rsp.handle, copyReq, List.foldl_nil]
    split
    · exact ce _ _ _ hl hq rfl rfl
    · exact ce _ _ _ hl hq rfl rfl
  | skip => exact ⟨_, rfl, ans_reply hl _ q hq⟩
  | refused => exact ⟨_, rfl, ans_reply hl _ q hq⟩
  | sendInfo => simp [dataKind] at hk
  | sendObject => simp [dataKind] at hk
  | sendPropList => simp [dataKind] at hk
  | sendPartial => simp [dataKind] at hk
  | set c => simp [dataKind] at hk
  | truncate =>
    refine ⟨_, rfl, ?_⟩
    unfold truncateReq
    split
    · split
      · exact ans_reply hl _ q hq
      · split
        · exact ans_reply hl _ q hq
        · exact ok _ _ hl hq rfl rfl
    · exact ans_reply hl _ q hq
  | beginEdit =>
    refine ⟨_, rfl, ?_⟩
    unfold beginEditReq
    split
    · split
      · exact ok _ _ hl hq rfl rfl
      · exact ans_reply hl _ q hq
    · exact ans_reply hl _ q hq
  | endEdit =>
    refine ⟨_, rfl, ?_⟩
    unfold endEditReq
    split
    · split
      · exact ans_reply hl _ q hq
      · split
        · exact ans_reply hl _ q hq
        · exact ok _ _ hl hq rfl rfl
    · exact ans_reply hl _ q hq

private theorem handle_open (dv : Dev D) {r : Rsp D} (q : List UInt8) (n : List Ev)
    (k : OpKind) (hk : dataKind k = true) : ∃ r', r.handle dv q n k = .ok r' ∧ Open r r' := by
  have triv : ∀ r' : Rsp D, r'.st = r.st → r'.req = r.req → r'.ready = r.ready → r'.out = r.out → Open r r' :=
    fun r' h1 h2 h3 h4 => ⟨h1, h2, h3, by rw [h4]⟩
  cases k <;> simp [dataKind] at hk
  · exact ⟨_, rfl, triv _ rfl rfl rfl rfl⟩
  · refine ⟨_, rfl, ?_⟩
    unfold sendObjectReq
    split
    · split <;> exact triv _ rfl rfl rfl rfl
    · exact triv _ rfl rfl rfl rfl
  · refine ⟨_, rfl, ?_⟩
    unfold propListReq
    split
    · split
      · split <;> exact triv _ rfl rfl rfl rfl
      · exact triv _ rfl rfl rfl rfl
    · exact triv _ rfl rfl rfl rfl
  · refine ⟨_, rfl, ?_⟩
    unfold partialReq
    split
    · split
      · exact triv _ rfl rfl rfl rfl
      · split <;> exact triv _ rfl rfl rfl rfl
    · exact triv _ rfl rfl rfl rfl
  · exact ⟨_, rfl, triv _ rfl rfl rfl rfl⟩

private theorem kind_thumb (code : Nat) (h : opKind code = some .thumb) : code = 0x100A := by
  have : ∀ e ∈ opTable, e.2 = .thumb → e.1 = 0x100A := by decide
  exact this _ (opKind_mem h) rfl

/-- Outside the command's own output nothing is answered on the way into the handler. -/
private theorem command_result (dv : Dev D) (tot : Spec.Total dv) {r : Rsp D} (hl : Live r) (q : List UInt8)
    (hq : r.req = some q) (hready : r.ready = true) (hth : cCode q ≠ 0x100A) :
    ∃ r', r.command dv [] = .ok r' ∧
      (hasDataPhase (cCode q) = false → Ans r r' q) ∧ (hasDataPhase (cCode q) = true → Open r r') := by
  unfold Rsp.command
  split
  · next h => rw [hq] at h; simp at h
  · next q' hq' =>
    have : q' = q := by rw [hq] at hq'; exact (Option.some.inj hq').symm
    subst this
    simp only
    rw [if_neg (by simp [hready])]
    cases hk : opKind (cCode q') with
    | none =>
      exact ⟨_, rfl, fun _ => (ans_reply (r := { r with resp := .ok }) hl _ q' hq).of rfl rfl,
        fun h => by rw [kind_none hk] at h; simp at h⟩
    | some k =>
      have hd := kind_data hk
      cases hdk : dataKind k with
      | false =>
        obtain ⟨r', e, h⟩ := handle_ans dv tot (r := { r with resp := .ok }) hl q' hq k hdk
          (by rintro rfl; exact hth (kind_thumb _ hk))
        exact ⟨r', e, fun _ => h.of rfl rfl, fun h => by rw [hd, hdk] at h; simp at h⟩
      | true =>
        obtain ⟨r', e, h⟩ := handle_open dv (r := { r with resp := .ok }) q' [] k hdk
        exact ⟨r', e, fun h => by rw [hd, hdk] at h; simp at h, fun _ => h⟩

private theorem uploadEnd_ans (dv : Dev D) {r : Rsp D} (hl : Live r) (h : Nat) (c : Resp) (q : List UInt8)
    (hq : r.req = some q) : Ans r (r.uploadEnd dv h c) q := by
  unfold uploadEnd
  simp only
  have key : ∀ r1 : Rsp D, r1.st = r.st → r1.req = r.req → r1.ready = r.ready → r1.out = r.out →
      Ans r { (r1.reply c) with propList := none } q := by
    intro r1 h1 h2 h3 h4
    have := ans_reply (r := r1) (by unfold Live; rw [h1]; exact hl) c q (h2.trans hq)
    exact this.of h3 (by rw [h4])
  apply key <;> split <;> rfl

private theorem uploadCheck_open (dv : Dev D) (r : Rsp D) (h n : Nat) (l : Bool) :
    Open r (r.uploadCheck dv h n l).1 := by
  unfold uploadCheck
  split
  · simp only
    split
    · split <;> exact ⟨rfl, rfl, rfl, rfl⟩
    · exact ⟨rfl, rfl, rfl, rfl⟩
  · simp only
    split
    · split <;> exact ⟨rfl, rfl, rfl, rfl⟩
    · exact ⟨rfl, rfl, rfl, rfl⟩
  · exact ⟨rfl, rfl, rfl, rfl⟩

/-- The last packet always gets a verdict. -/
private theorem uploadCheck_last (dv : Dev D) (r : Rsp D) (h n : Nat) :
    (r.uploadCheck dv h n true).2 ≠ .undefined := by
  unfold uploadCheck
  split
  · simp only
    split
    · simp
    · simp
  · simp only
    split
    · simp
    · simp
  · simp

private theorem uploadData_result (dv : Dev D) {r : Rsp D} (hl : Live r) (b : List UInt8) (f l : Bool)
    (hb : f = true → 12 ≤ b.length) (q : List UInt8) (hq : r.req = some q) :
    ∃ r', r.uploadData dv b f l = .ok r' ∧ (Ans r r' q ∨ (l = false ∧ Open r r')) := by
  unfold uploadData
  split
  · exact ⟨_, rfl, .inl (uploadEnd_ans dv hl _ _ q hq)⟩
  · rw [if_neg (by rintro ⟨h1, h2⟩; have := hb h1; omega)]
    simp only
    generalize (if f = true then List.drop 12 b else b) = d
    split
    · next d' hw =>
      have h1 := uploadCheck_open dv { r with dev := d' } r.uploadHandle d.length l
      have h2 : l = true → _ := fun e => uploadCheck_last dv { r with dev := d' } r.uploadHandle d.length
      generalize hx : uploadCheck dv { r with dev := d' } r.uploadHandle d.length l = x at h1
      obtain ⟨r1, c⟩ := x
      obtain ⟨o1, o2, o3, o4⟩ := h1
      by_cases hc : c = .undefined
      · subst hc
        refine ⟨r1, rfl, .inr ⟨?_, o1, o2, o3, o4⟩⟩
        cases l with
        | false => rfl
        | true => exact absurd (congrArg Prod.snd hx) (h2 rfl)
      · refine ⟨r1.uploadEnd dv r.uploadHandle c, ?_, .inl ?_⟩
        · cases c <;> first | rfl | exact absurd rfl hc
        · refine (uploadEnd_ans dv ?_ _ c q (o2.trans hq)).of o3 o4
          unfold Live
          rw [o1]; exact hl
    · next d' c _ _ =>
      exact ⟨_, rfl, .inl ((uploadEnd_ans dv (r := { r with dev := d' }) hl r.uploadHandle c q hq).of rfl rfl)⟩

private theorem dataEnd_result {r : Rsp D} (hl : Live r) (c : Resp) (l : Bool) (q : List UInt8)
    (hq : r.req = some q) : (l = true ∧ Ans r (r.dataEnd c l) q) ∨ (l = false ∧ Open r (r.dataEnd c l)) := by
  unfold dataEnd
  cases l with
  | true => exact .inl ⟨rfl, (ans_reply (r := { r with resp := c }) hl c q hq).of rfl rfl⟩
  | false => exact .inr ⟨rfl, rfl, rfl, rfl, rfl⟩

private theorem infoData_ans (dv : Dev D) {r : Rsp D} (hl : Live r) (q a : List UInt8) :
    Ans r (r.infoData dv q a) q := by
  unfold infoData
  simp only
  split
  · exact (ans_send (r := { r with propList := none, sendSeq := none }) hl _ _ _ q (.inl rfl)).of rfl rfl
  · split
    · exact (ans_send (r := { r with propList := none, sendSeq := _, dev := _ }) hl _ _ _ q (.inl rfl)).of rfl rfl
    · exact (ans_send (r := { r with propList := none, sendSeq := none, dev := _ }) hl _ _ _ q (.inl rfl)).of rfl rfl

private theorem listData_ans (dv : Dev D) {r : Rsp D} (hl : Live r) (q a : List UInt8) (hq : r.req = some q) :
    Ans r (r.listData dv q a) q := by
  unfold listData
  split
  · exact ans_reply hl _ q hq
  · exact (ans_send (r := { r with dev := _, propList := some _ }) hl _ _ _ q (.inl rfl)).of rfl rfl

/-- The transaction `q` is open and its data, if begun, is being collected. -/
private def Waiting (r : Rsp D) (q : List UInt8) (seen : Bool) : Prop :=
  r.st = .waitData ∧ r.req = some q ∧
  (seen = true → cCode q ≠ 0x100D → cCode q ≠ 0x95C2 → r.dataC.isSome)

private theorem dataPacket_result (dv : Dev D) {r : Rsp D} (q b : List UInt8) (f l seen : Bool)
    (hw : Waiting r q seen) (hf : f ≠ seen) (hb : f = true → 12 ≤ b.length) :
    ∃ r', r.dataPacket dv q b f l = .ok r' ∧
      (Ans r r' q ∨ (l = false ∧ Open r r' ∧
        (cCode q ≠ 0x100D → cCode q ≠ 0x95C2 → r'.dataC.isSome))) := by
  obtain ⟨hst, hq, hdc⟩ := hw
  have hl : Live r := by unfold Live; rw [hst]; simp
  have wk : ∀ r' : Rsp D, ((l = true ∧ Ans r r' q) ∨ (l = false ∧ Open r r')) → cCode q = 0x100D ∨ cCode q = 0x95C2 →
      (Ans r r' q ∨ (l = false ∧ Open r r' ∧ (cCode q ≠ 0x100D → cCode q ≠ 0x95C2 → r'.dataC.isSome))) := by
    rintro r' (⟨h1, h2⟩ | ⟨h1, h2⟩) hc
    · exact .inl h2
    · refine .inr ⟨h1, h2, fun h3 h4 => ?_⟩
      cases hc <;> contradiction
  unfold dataPacket
  split
  · next hcode =>
    split
    · obtain ⟨r', e, h⟩ := uploadData_result dv (r := { r with dataC := none }) hl b f l hb q hq
      refine ⟨r', e, ?_⟩
      rcases h with h | ⟨h1, h2⟩
      · exact .inl (h.of rfl rfl)
      · exact wk r' (.inr ⟨h1, h2⟩) (.inl hcode)
    · next c _ =>
      refine ⟨_, rfl, wk _ ?_ (.inl hcode)⟩
      rcases dataEnd_result (r := { r with dataC := none }) hl r.resp l q hq with ⟨h1, h2⟩ | ⟨h1, h2⟩
      · exact .inl ⟨h1, h2.of rfl rfl⟩
      · exact .inr ⟨h1, h2⟩
  · next hcode =>
    split
    · next hcode2 =>
      split
      · have hp : Open r ({ r with dataC := none }.partialData dv b f l).1 := by
          unfold partialData
          split
          · exact ⟨rfl, rfl, rfl, rfl⟩
          · split <;> exact ⟨rfl, rfl, rfl, rfl⟩
        generalize ({ r with dataC := none }.partialData dv b f l) = x at hp
        obtain ⟨r1, c⟩ := x
        obtain ⟨o1, o2, o3, o4⟩ := hp
        refine ⟨_, rfl, wk _ ?_ (.inr hcode2)⟩
        have := dataEnd_result (r := r1) (by unfold Live; rw [o1]; exact hl) c l q (o2.trans hq)
        rcases this with ⟨h1, h2⟩ | ⟨h1, h2⟩
        · exact .inl ⟨h1, h2.of o3 o4⟩
        · exact .inr ⟨h1, h2.1.trans o1, h2.2.1.trans o2, h2.2.2.1.trans o3, h2.2.2.2.trans o4⟩
      · next c _ =>
        refine ⟨_, rfl, wk _ ?_ (.inr hcode2)⟩
        rcases dataEnd_result (r := { r with dataC := none }) hl r.resp l q hq with ⟨h1, h2⟩ | ⟨h1, h2⟩
        · exact .inl ⟨h1, h2.of rfl rfl⟩
        · exact .inr ⟨h1, h2⟩
    · next hcode2 =>
      have ha : Open r (r.accumulate b f) ∧ (r.accumulate b f).dataC.isSome := by
        unfold accumulate
        split
        · exact ⟨⟨rfl, rfl, rfl, rfl⟩, rfl⟩
        · next hff =>
          have hs : seen = true := by
            cases seen with
            | true => rfl
            | false => exact absurd (by simpa using hff) hf
          obtain ⟨a, ea⟩ := Option.isSome_iff_exists.mp (hdc hs hcode hcode2)
          rw [ea]
          simp only
          split
          · exact ⟨⟨rfl, rfl, rfl, rfl⟩, rfl⟩
          · exact ⟨⟨rfl, rfl, rfl, rfl⟩, by rw [ea]; rfl⟩
      generalize r.accumulate b f = r1 at ha
      obtain ⟨⟨o1, o2, o3, o4⟩, hds⟩ := ha
      have hl1 : Live r1 := by unfold Live; rw [o1]; exact hl
      have hq1 : r1.req = some q := o2.trans hq
      simp only
      split
      · next hlf => exact ⟨_, rfl, .inr ⟨hlf, ⟨o1, o2, o3, o4⟩, fun _ _ => hds⟩⟩
      · next hlt =>
        have hlt : l = true := by simpa using hlt
        subst hlt
        have de : ∀ (c : Resp), Ans r (r1.dataEnd c true) q := by
          intro c
          rcases dataEnd_result hl1 c true q hq1 with ⟨_, h⟩ | ⟨h, _⟩
          · exact h.of o3 o4
          · simp at h
        obtain ⟨a, ea⟩ := Option.isSome_iff_exists.mp hds
        split
        · split
          · next hn => rw [ea] at hn; simp at hn
          next a' ea' =>
          have : a' = a := by rw [ea] at ea'; exact (Option.some.inj ea').symm
          subst this
          split
          · exact ⟨_, rfl, .inl ((infoData_ans dv hl1 q a').of o3 o4)⟩
          · exact ⟨_, rfl, .inl ((listData_ans dv hl1 q a' hq1).of o3 o4)⟩
          · obtain ⟨r', e, h⟩ := ans_replyP (r := { r1 with dev := (dv.store r1.dev (cCode q) (cParams q) a').1 })
              hl1 (dv.store r1.dev (cCode q) (cParams q) a').2.1 (dv.store r1.dev (cCode q) (cParams q) a').2.2 q hq1
            exact ⟨r', e, .inl (h.of o3 o4)⟩
          · exact ⟨_, rfl, .inl (de _)⟩
        · exact ⟨_, rfl, .inl (de _)⟩

/-- What host and responder agree on. -/
private def Agree (h : Spec.Host) (r : Rsp D) : Prop :=
  r.ready = true ∧
  match h.current with
  | none => r.st = .idle ∧ Spec.Answers IdCut h.finished (Spec.responses r.out)
  | some (q, seen) =>
    (hasDataPhase (cCode q) = true ∧ Waiting r q seen ∧ Spec.Answers IdCut h.finished (Spec.responses r.out)) ∨
    (seen = true ∧ r.st = .idle ∧ Spec.Answers IdCut (h.finished ++ [cTid q]) (Spec.responses r.out))

private theorem Ans.answers {r r' : Rsp D} {q : List UInt8} (h : Ans r r' q) {ts : List Nat}
    (ha : Spec.Answers IdCut ts (Spec.responses r.out)) :
    Spec.Answers IdCut (ts ++ [cTid q]) (Spec.responses r'.out) := by
  obtain ⟨_, _, c, t, ps, h1, h2⟩ := h
  rw [h1]
  exact .snoc ha h2

private theorem agree_noise {h : Spec.Host} {r r' : Rsp D} (ha : Agree h r) (h1 : r'.st = r.st)
    (h2 : r'.ready = r.ready) (h3 : r'.req = r.req) (h4 : r'.dataC = r.dataC)
    (h5 : Spec.responses r'.out = Spec.responses r.out) : Agree h r' := by
  unfold Agree Waiting at *
  rw [h1, h2, h3, h4, h5]
  exact ha

private theorem agree_step (dv : Dev D) (tot : Spec.Total dv) {h h' : Spec.Host} {r : Rsp D} (i : In D)
    (ha : Agree h r) (hh : h.step i = some h') : ∃ r', r.step dv i = .ok r' ∧ Agree h' r' := by
  have live : r.st ≠ .suspend ∧ r.st ≠ .txCancel := by
    obtain ⟨_, hm⟩ := ha
    split at hm
    · rw [hm.1]; simp
    · rcases hm with ⟨_, h1, _⟩ | ⟨_, h1, _⟩
      · rw [h1.1]; simp
      · rw [h1]; simp
  cases i with
  | ready n => cases hc : h.current <;> simp [Spec.Host.step, hc] at hh
  | ev e => cases hc : h.current <;> simp [Spec.Host.step, hc] at hh
  | env d =>
    have : h' = h := by cases hc : h.current <;> simp [Spec.Host.step, hc] at hh <;> exact hh.symm
    subst this
    exact ⟨_, rfl, agree_noise ha rfl rfl rfl rfl rfl⟩
  | notify c ps =>
    have : h' = h := by cases hc : h.current <;> simp [Spec.Host.step, hc] at hh <;> exact hh.symm
    subst this
    refine ⟨_, rfl, ?_⟩
    unfold Rsp.notify
    split
    · exact ha
    · unfold Rsp.send
      rw [if_neg (by simp [live.2]), if_neg live.1, if_neg (by simp [Out.isResponse])]
      refine agree_noise ha rfl rfl rfl rfl ?_
      rw [emit_out, resp_append]
      simp [Spec.responses, Out.isResponse]
  | packet b f l n =>
    obtain ⟨hready, hm⟩ := ha
    cases hc : h.current with
    | none =>
      rw [hc] at hm
      obtain ⟨hst, hans⟩ := hm
      cases f <;> cases l <;> cases n <;> simp [Spec.Host.step, hc] at hh
      obtain ⟨hth, hh⟩ := hh
      simp only [Rsp.step, Rsp.receive, hst, and_self, if_true]
      have hset : ∀ s : RState, (r.setState .idle).setState s = (r.setState .idle).setState s := fun _ => rfl
      obtain ⟨r', e, h1, h2⟩ := command_result dv tot (q := b)
        (r := (({ (({ (r.setState .idle) with req := none } : Rsp D)) with req := some b } : Rsp D).setState
          (if hasDataPhase (cCode b) then .waitData else .waitResp)).emit .statusBusy)
        (by unfold Live; simp only [emit_st, setState_st]; split <;> simp) (by simp) (by simpa using hready) hth
      have hr0 : Spec.responses ((({ (({ (r.setState .idle) with req := none } : Rsp D)) with req := some b } : Rsp D).setState
          (if hasDataPhase (cCode b) then .waitData else .waitResp)).emit .statusBusy).out = Spec.responses r.out := by
        rw [emit_out, resp_append, resp_setState]
        show Spec.responses (r.setState .idle).out ++ _ = _
        rw [resp_setState]
        simp [Spec.responses, Out.isResponse]
      refine ⟨r', e, ?_⟩
      cases hd : hasDataPhase (cCode b) with
      | false =>
        rw [hd] at hh
        simp only [Bool.false_eq_true, if_false] at hh
        cases hh
        have h1 := h1 hd
        refine ⟨by rw [h1.2.1]; simpa using hready, ?_⟩
        simp only [hc]
        refine ⟨h1.1, ?_⟩
        refine Ans.answers h1 ?_
        rw [hr0]
        exact hans
      | true =>
        rw [hd] at hh
        simp only [if_true] at hh
        cases hh
        obtain ⟨o1, o2, o3, o4⟩ := h2 hd
        refine ⟨by rw [o3]; simpa using hready, .inl ⟨hd, ⟨?_, ?_, by simp⟩, ?_⟩⟩
        · rw [o1]; simp [hd]
        · rw [o2]; simp
        · rw [o4, hr0]; exact hans
    | some cur =>
      obtain ⟨q, seen⟩ := cur
      rw [hc] at hm
      cases n with
      | cons _ _ => simp [Spec.Host.step, hc] at hh
      | nil =>
      simp only [Spec.Host.step, hc] at hh
      split at hh
      · simp at hh
      · next hcond =>
        have hf : f ≠ seen := fun e => hcond (.inl e)
        have hb : f = true → 12 ≤ b.length := by
          intro e
          by_cases hb : b.length < 12
          · exact absurd (.inr ⟨e, hb⟩) hcond
          · omega
        rcases hm with ⟨hd, hw, hans⟩ | ⟨hseen, hst, hans⟩
        · have hw' := hw
          obtain ⟨hst, hq, hdc⟩ := hw
          simp only [Rsp.step, Rsp.receive, hst, hq]
          have hw2 : Waiting (if f = true then r.emit .statusBusy else r) q seen := by
            split <;> exact hw'
          have hr0 : Spec.responses (if f = true then r.emit .statusBusy else r).out = Spec.responses r.out := by
            split
            · rw [emit_out, resp_append]; simp [Spec.responses, Out.isResponse]
            · rfl
          have hre : (if f = true then r.emit .statusBusy else r).ready = true := by
            split <;> exact hready
          obtain ⟨r', e, h1⟩ := dataPacket_result dv q b f l seen hw2 hf hb
          refine ⟨r', e, ?_⟩
          rcases h1 with h1 | ⟨hl, ⟨o1, o2, o3, o4⟩, hdc'⟩
          · have hans' := Ans.answers h1 (ts := h.finished) (by rw [hr0]; exact hans)
            cases l with
            | true =>
              simp only [if_true] at hh
              cases hh
              exact ⟨by rw [h1.2.1]; exact hre, h1.1, hans'⟩
            | false =>
              simp only [Bool.false_eq_true, if_false] at hh
              cases hh
              exact ⟨by rw [h1.2.1]; exact hre, .inr ⟨rfl, h1.1, hans'⟩⟩
          · subst hl
            simp only [Bool.false_eq_true, if_false] at hh
            cases hh
            refine ⟨by rw [o3]; exact hre, .inl ⟨hd, ⟨?_, ?_, fun _ => hdc'⟩, ?_⟩⟩
            · rw [o1]; exact hw2.1
            · rw [o2]; exact hw2.2.1
            · rw [o4, hr0]; exact hans
        · have hff : f = false := by
            subst hseen
            cases f with
            | false => rfl
            | true => exact absurd rfl hf
          subst hff
          simp only [Rsp.step, Rsp.receive, hst, Bool.false_eq_true, false_and, if_false]
          refine ⟨_, rfl, ?_⟩
          have hr1 : Spec.responses (({ (r.setState .idle) with req := none } : Rsp D).emit .reset).out = Spec.responses r.out := by
            rw [emit_out, resp_append]
            show Spec.responses (r.setState .idle).out ++ _ = _
            rw [resp_setState]
            simp [Spec.responses, Out.isResponse]
          have hst1 : (({ (r.setState .idle) with req := none } : Rsp D).emit .reset).st = .idle := by simp
          have hre1 : (({ (r.setState .idle) with req := none } : Rsp D).emit .reset).ready = true := by simpa using hready
          cases l with
          | true =>
            simp only [if_true] at hh
            cases hh
            exact ⟨hre1, hst1, by rw [hr1]; exact hans⟩
          | false =>
            simp only [Bool.false_eq_true, if_false] at hh
            cases hh
            exact ⟨hre1, .inr ⟨rfl, hst1, by rw [hr1]; exact hans⟩⟩

private theorem agree_run (dv : Dev D) (tot : Spec.Total dv) (is : List (In D)) {h h' : Spec.Host} {r : Rsp D}
    (ha : Agree h r) (hh : h.talk is = some h') : ∃ r', r.run dv is = .ok r' ∧ Agree h' r' := by
  induction is generalizing h r with
  | nil => cases hh; exact ⟨r, rfl, ha⟩
  | cons i is ih =>
    unfold Spec.Host.talk at hh
    cases hs : h.step i with
    | none => rw [hs] at hh; simp at hh
    | some h1 =>
      rw [hs] at hh
      obtain ⟨r1, e, ha1⟩ := agree_step dv tot i ha hs
      obtain ⟨r2, e2, ha2⟩ := ih ha1 hh
      refine ⟨r2, ?_, ha2⟩
      unfold Rsp.run
      rw [e]
      exact e2

/-- C36 (for a host following the protocol, storages ready, no GetThumb, no download breaking off): the
responder runs into no undefined behaviour and, whenever no transaction is open, has sent exactly one
response for every command, in order, and no other. -/
theorem C36_one_response_partial (dv : Dev D) (tot : Spec.Total dv) (d : D) (is : List (In D)) (h : Spec.Host)
    (hh : Spec.Host.talk {} is = some h) (hc : h.current = none) :
    ∃ r, Rsp.run dv { dev := d, ready := true } is = .ok r ∧
      Spec.Answers IdCut h.finished (Spec.responses r.out) ∧
      (Spec.responses r.out).length = h.finished.length := by
  have h0 : Agree ({} : Spec.Host) ({ dev := d, ready := true } : Rsp D) := ⟨rfl, rfl, .nil⟩
  obtain ⟨r, e, ha⟩ := agree_run dv tot is h0 hh
  have hans : Spec.Answers IdCut h.finished (Spec.responses r.out) := by
    have := ha.2
    rw [hc] at this
    exact this.2
  refine ⟨r, e, hans, ?_⟩
  generalize h.finished = ts at hans
  generalize Spec.responses r.out = os at hans
  induction hans with
  | nil => rfl
  | snoc _ _ ih => simp [ih]

open Spec.Toy in
/-- Open a session, announce an object, send its bytes in two packets while a change is announced, copy
it: a conversation following the protocol, with five transactions answered. -/
example : (Spec.Host.talk (D := Objs) {}
      [.packet (cmd 0x1002 1 [1]) true true [], .packet (cmd 0x100C 2 [0, 0]) true true [],
       .packet (dat 0x100C 2 (leBytes 8 0 ++ leBytes 4 3)) true true [],
       .packet (cmd 0x100D 3 []) true true [], .packet (dat 0x100D 3 [7]) true false [],
       .notify 0x4002 [9], .packet [8, 9] false true [], .packet (cmd 0x101A 4 [1]) true true []]).map
      (fun h => (h.finished, h.current.isNone)) = some ([1, 2, 3, 4], true) ∧
    Spec.after (Rsp.run dev { dev := [], ready := true }
      [.packet (cmd 0x1002 1 [1]) true true [], .packet (cmd 0x100C 2 [0, 0]) true true [],
       .packet (dat 0x100C 2 (leBytes 8 0 ++ leBytes 4 3)) true true [],
       .packet (cmd 0x100D 3 []) true true [], .packet (dat 0x100D 3 [7]) true false [],
       .notify 0x4002 [9], .packet [8, 9] false true [], .packet (cmd 0x101A 4 [1]) true true []])
      (fun r => r.dev = [(2, [7, 8, 9]), (1, [7, 8, 9])] ∧
        Spec.responses r.out = [.response .ok 1 [], .response .ok 2 [1, 0, 1], .response .ok 3 [],
          .response .ok 4 [2]]) := by
  decide +kernel

/-- C36 is violated by GetThumb without a session (or thumbnail): no response, and the next command is
answered by a reset instead of a response. -/
theorem C36_thumb_violated (dv : Dev D) (r : Rsp D) (b b2 : List UInt8) (hst : r.st = .idle)
    (hready : r.ready = true) (hs : r.session = 0) (hb : cCode b = 0x100A) :
    ∃ r1 r2, r.step dv (.packet b true true []) = .ok r1 ∧ r1.step dv (.packet b2 true true []) = .ok r2 ∧
      Spec.responses r2.out = Spec.responses r.out ∧ r2.out.getLast? = some .reset := by
  refine ⟨r.accept b, ?_⟩
  have h1 : r.step dv (.packet b true true []) = .ok (r.accept b) := by
    simp only [Rsp.step]
    rw [receive_idle _ _ _ _ hst, command_accept _ _ _ _ (.inl hready), hb]
    have : opKind 0x100A = some .thumb := by decide
    simp only [this, Rsp.handle]
    rw [accept_session, hs]
    rfl
  have hst1 : (r.accept b).st = .waitResp := by
    show (r.accept b).st = _
    rw [accept_st, hb]
    decide
  refine ⟨((r.accept b).setState .idle).emit .reset, h1, ?_, ?_, ?_⟩
  · simp only [Rsp.step, Rsp.receive, hst1]
  · rw [emit_out, resp_append, resp_setState]
    show Spec.responses (r.accept b).out ++ _ = _
    rw [resp_accept]
    simp [Spec.responses, Out.isResponse]
  · rw [emit_out, List.getLast?_append]; simp

/-- C36 is violated by an unsupported operation with a data phase: the data container is taken for
another command and answered too. -/
theorem C36_unsupported_data_violated (dv : Dev D) (r : Rsp D) (b b2 : List UInt8) (hst : r.st = .idle)
    (hready : r.ready = true) (hb : opKind (cCode b) = none) (hb2 : cCode b2 = cCode b) :
    ∃ r2, r.run dv [.packet b true true [], .packet b2 true true []] = .ok r2 ∧
      Spec.responses r2.out = Spec.responses r.out ++
        [.response .operationNotSupported (u16 (cTid b)) [],
         .response .operationNotSupported (u16 (cTid b2)) []] := by
  have one : ∀ (r : Rsp D) (b : List UInt8), r.st = .idle → r.ready = true → opKind (cCode b) = none →
      ∃ r1, r.step dv (.packet b true true []) = .ok r1 ∧ r1.st = .idle ∧ r1.ready = true ∧
        Spec.responses r1.out = Spec.responses r.out ++ [.response .operationNotSupported (u16 (cTid b)) []] := by
    intro r b hst hready hb
    refine ⟨(r.accept b).reply .operationNotSupported, ?_, ?_, ?_, ?_⟩
    · simp only [Rsp.step]
      rw [receive_idle _ _ _ _ hst, command_accept _ _ _ _ (.inl hready), hb]
    · rw [reply_eq _ _ b (accept_req ..) (accept_live ..)]; simp
    · rw [reply_ready]; exact (accept_ready ..).trans hready
    · rw [reply_eq _ _ b (accept_req ..) (accept_live ..)]
      simp only [deleteStored_out, emit_out, resp_append, resp_setState]
      show Spec.responses (r.accept b).out ++ _ ++ _ = _
      rw [resp_accept]
      simp [Spec.responses, Out.isResponse]
  obtain ⟨r1, e1, s1, d1, o1⟩ := one r b hst hready hb
  obtain ⟨r2, e2, s2, d2, o2⟩ := one r1 b2 s1 d1 (hb2 ▸ hb)
  refine ⟨r2, ?_, ?_⟩
  · simp [Rsp.run, e1, e2]
  · rw [o2, o1, List.append_assoc]; rfl

/-- C36 is violated when a download breaks off after its first packet: no response follows. -/
theorem C36_broken_download_violated (dv : Dev D) (r : Rsp D) (b : List UInt8) (f : List UInt8 × Bool)
    (fs : List (List UInt8 × Bool)) (d' : D) (hst : r.st = .idle) (hready : r.ready = true)
    (hs : r.session ≠ 0) (hb : cCode b = 0x1009) (ht : cTid b ≠ 0 ∧ cTid b ≠ 0xFFFFFFFF)
    (hd : dv.query r.dev 0x1009 (cParams b) = (d', ⟨f :: fs, none⟩)) :
    ∃ r1, r.step dv (.packet b true true []) = .ok r1 ∧ Spec.responses r1.out = Spec.responses r.out ∧
      r1.st = .waitResp := by
  obtain ⟨fd, fl⟩ := f
  have hk : opKind 0x1009 = some (.query []) := by decide
  have hp : preCheck r.session (cTid b) = .ok := preCheck_ok hs ht
  have key : ∀ r1 : Rsp D, r1.st = .waitResp → ∃ r2, r1.sendReply b ⟨(fd, fl) :: fs, none⟩ = .ok r2 ∧
      Spec.responses r2.out = Spec.responses r1.out ∧ r2.st = .waitResp := by
    intro r1 h1
    have hsend : r1.send (.data (cCode b) (cTid b) fd fl) = (r1.emit (.data (cCode b) (cTid b) fd fl), true) := by
      unfold Rsp.send
      rw [if_neg (by simp [h1]), if_neg (by simp [h1]), if_neg (by simp [Out.isResponse])]
    unfold Rsp.sendReply
    simp only [hsend]
    refine ⟨_, rfl, ?_, h1⟩
    show Spec.responses (_ ++ _) = _
    rw [resp_append, emit_out, resp_append]
    have : Spec.responses (fs.map fun f => Out.more f.1 f.2) = [] := by
      unfold Spec.responses
      rw [List.filter_eq_nil_iff]
      intro o ho
      obtain ⟨f, _, rfl⟩ := List.mem_map.mp ho
      simp [Out.isResponse]
    rw [this]
    simp [Spec.responses, Out.isResponse]
  have hst1 : (r.accept b).st = .waitResp := by rw [accept_st, hb]; decide
  simp only [Rsp.step]
  rw [receive_idle _ _ _ _ hst, command_accept _ _ _ _ (.inl hready)]
  rw [hb, hk]
  have hp' : preCheck (r.accept b).session (cTid b) = .ok := by rw [accept_session]; exact hp
  have hd' : dv.query (r.accept b).dev 0x1009 (cParams b) = (d', ⟨(fd, fl) :: fs, none⟩) := by
    rw [accept_dev]; exact hd
  simp only [Rsp.handle, hp', hb, hd']
  obtain ⟨r2, e, h1, h2⟩ := key { (r.accept b) with dev := d' } hst1
  exact ⟨r2, e, h1.trans (resp_accept r b), h2⟩

/-- C36 is violated by a device reset while an object is copied: the request is forgotten, then
dereferenced. -/
theorem C36_copy_reset_violated (dv : Dev D) (r : Rsp D) (b : List UInt8) (hst : r.st = .idle)
    (hready : r.ready = true) (hs : r.session ≠ 0) (hb : cCode b = 0x101A)
    (ht : cTid b ≠ 0 ∧ cTid b ≠ 0xFFFFFFFF) :
    r.step dv (.packet b true true [.deviceReset]) = .ub .nullDeref := by
  have hk : opKind 0x101A = some .copy := by decide
  have hp : preCheck r.session (cTid b) = .ok := preCheck_ok hs ht
  simp only [Rsp.step]
  rw [receive_idle _ _ _ _ hst, command_accept _ _ _ _ (.inl hready)]
  rw [hb, hk]
  simp only [Rsp.handle, copyReq, accept_session, hp, List.foldl_cons, List.foldl_nil, Rsp.handleEv]
  simp [copyEnd, reply1, closeSession]

open Spec.Toy in
/-- The unsupported operation 0x9999 with data. -/
example : Spec.after (Rsp.run dev { dev := [], ready := true }
      [.packet (cmd 0x9999 5 []) true true [], .packet (dat 0x9999 5 [1, 2]) true true []])
      (fun r => (Spec.responses r.out).length = 2) := by
  decide +kernel

/-! ### C37 -/

/-- C37 for transaction ids below 65536: every response carries the id of its command. -/
theorem C37_tid_partial (dv : Dev D) (tot : Spec.Total dv) (d : D) (is : List (In D)) (h : Spec.Host)
    (hh : Spec.Host.talk {} is = some h) (hc : h.current = none) (hs : ∀ t ∈ h.finished, t < 65536) :
    ∃ r, Rsp.run dv { dev := d, ready := true } is = .ok r ∧
      Spec.Answers (fun t t' => t' = t) h.finished (Spec.responses r.out) := by
  obtain ⟨r, e, ha, _⟩ := C36_one_response_partial dv tot d is h hh hc
  refine ⟨r, e, ?_⟩
  generalize h.finished = ts at ha hs
  generalize Spec.responses r.out = os at ha
  induction ha with
  | nil => exact .nil
  | @snoc ts os t t' c ps _ hid ih =>
    refine .snoc (ih fun t ht => hs t (by simp [ht])) ?_
    have := hs t (by simp)
    rcases hid with h | h
    · exact h
    · rw [h]; exact Nat.mod_eq_of_lt this

/-- C37 is violated for every larger id: the response (here to OpenSession) carries only its low 16
bits. -/
theorem C37_tid_violated (dv : Dev D) (r : Rsp D) (b : List UInt8) (hst : r.st = .idle)
    (hs : r.session = 0) (hb : cCode b = 0x1002) (hp : cParam b 0 ≠ 0) (ht : 65536 ≤ cTid b) :
    ∃ r' t, r.step dv (.packet b true true []) = .ok r' ∧
      Spec.responses r'.out = Spec.responses r.out ++ [.response .ok t []] ∧ t ≠ cTid b := by
  have hk : opKind 0x1002 = some .openSession := by decide
  refine ⟨((({ (r.accept b) with session := cParam b 0 } : Rsp D).reply .ok).emit (.session true)),
    u16 (cTid b), ?_, ?_, ?_⟩
  · simp only [Rsp.step]
    rw [receive_idle _ _ _ _ hst, command_accept _ _ _ _ (.inr (by rw [hb]; decide))]
    rw [hb, hk]
    simp only [Rsp.handle, openSessionReq]
    rw [if_neg hp, if_neg (by rw [accept_session]; simp [hs])]
  · rw [reply_eq _ _ b (show ({ (r.accept b) with session := cParam b 0 } : Rsp D).req = _ from accept_req ..)
      (accept_live r b)]
    simp only [deleteStored_out, emit_out, resp_append, resp_setState]
    show Spec.responses (r.accept b).out ++ _ ++ _ ++ _ = _
    rw [resp_accept]
    simp [Spec.responses, Out.isResponse]
  · unfold u16
    have := Nat.mod_lt (cTid b) (show 0 < 65536 by decide)
    omega

open Spec.Toy in
example : Spec.after (Rsp.run dev { dev := [] } [.packet (cmd 0x1002 0x10007 [1]) true true []])
    (fun r => Spec.responses r.out = [.response .ok 7 []]) := by
  decide +kernel

end Props
