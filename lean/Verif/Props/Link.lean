import Verif.Lemmas.LinkQuiet
import Verif.Lemmas.LinkLarge
import Verif.Props.Server
/-! Property theorem C95: talking to the responder over USB. -/
namespace Props
open Mtp Spec

variable {D : Type}

private theorem clean_inv {r : Rsp D} (h : r.resend = none) : r.RsInv (resets r.out) := ⟨rfl, fun o e => by rw [h] at e; cases e⟩

/-- C95. The stream of bytes is the conversation. A host sends commands and data containers, one USB transfer each; the reads come
in at any pace, so that the main thread sees any grouping of them. Then there is a way of cutting the data into packets, behind
the header and nowhere else, such that: if the responder takes these packets without resetting the transporter, then the bytes
coming over USB have exactly the same effect, and the next container can follow. -/
theorem C95_stream (dv : Dev D) (ts : List Turn) (reads pieces : List (List UInt8)) (hs : ∀ c ∈ containers ts, Sized c.1)
    (hq : ∀ t ∈ ts, ∀ q c, t = .ask q ∨ t = .give q c → q.length ≤ MAX_IN)
    (ht : Transfers ((containers ts).map (·.1)) reads) (hg : Grouped reads pieces) (hm : ∀ p ∈ pieces, p.length ≤ RBUF) :
    ∃ is, Conveys RBUF ts is ∧ ∀ (r r' : Rsp D), r.resend = none → r.run dv is = .ok r' → resets r'.out = resets r.out →
      (Link.mk r 0).pieces dv pieces = .done ⟨r', 0⟩ := by
  have hk : ∀ c ∈ containers ts, c.2 ≤ MAX_IN ∧ c.2 ≤ c.1.length := by
    intro c h
    have h12 := (hs c h).1
    obtain ⟨t, hmem, hc⟩ := List.mem_flatMap.mp h
    cases t with
    | ask q =>
      rcases List.mem_singleton.mp hc with rfl
      exact ⟨hq _ hmem q [] (Or.inl rfl), Nat.le_refl _⟩
    | give q d =>
      rcases List.mem_cons.mp hc with rfl | hc
      · exact ⟨hq _ hmem q d (Or.inr rfl), Nat.le_refl _⟩
      · rcases List.mem_singleton.mp hc with rfl
        exact ⟨by simp [MAX_IN], h12⟩
  have hfl : pieces.flatten = ((containers ts).map (·.1)).flatten := by
    rw [Link.grouped_flatten hg, Link.transfers_flatten ht]
  obtain ⟨is, h1, hp, h2⟩ := Link.stream_packets dv ts RBUF pieces hs hm hfl (Link.cuts_kept ht hg hk)
  refine ⟨is, h1, fun r r' hr hrun he => h2 _ r r' (clean_inv hr) hrun ?_⟩
  obtain ⟨k, hk'⟩ := (clean_inv hr).run dv is hp hrun
  have := hk'.1
  rw [he] at this
  have : k = 0 := by omega
  rw [this] at hk'
  exact hk'

/-- C95. Commands and data that fit what the responder expects never reset the transporter: a command to an idle responder, and the
data, in any packets, of a command other than SendObject that takes data. -/
theorem C95_taken (dv : Dev D) (r r' : Rsp D) (hst : r.st = .idle) (hready : r.ready = true) (hr : r.resend = none) (q : List UInt8) :
    (r.run dv [.packet q true true []] = .ok r' → resets r'.out = resets r.out) ∧
    (∀ bs, cCode q ∈ [0x100C, 0x1016, 0x9804, 0x9806, 0x9808, 0x9811, 0x95C2] → r.run dv (sendObject q bs) = .ok r' →
      resets r'.out = resets r.out) := by
  refine ⟨fun h => ?_, fun bs hc h => ?_⟩
  · obtain ⟨r1, h1, h2⟩ := Rsp.run_cons h
    cases h2
    exact ((clean_inv hr).whole dv q [] hst h1).1
  · have : ∃ k, opKind (cCode q) = some k ∧ Rsp.dataKind k = true ∧ hasDataPhase (cCode q) = true ∧ cCode q ≠ 0x100D := by
      simp only [List.mem_cons, List.not_mem_nil, or_false] at hc
      rcases hc with e | e | e | e | e | e | e <;> rw [e] <;> exact ⟨_, rfl, rfl, by decide, by decide⟩
    obtain ⟨k, k1, k2, k3, k4⟩ := this
    exact ((clean_inv hr).give dv q bs k hst hready k1 k2 k3 k4 h).1

private theorem bodies_flatten {ds : List (List UInt8)} {c : List UInt8} (hfl : ds.flatten = c) (hh : ∀ b ∈ ds.head?, 12 ≤ b.length) :
    (bodies true ds).flatten = c.drop 12 := by
  have hf : ∀ l : List (List UInt8), bodies false l = l := by
    intro l
    induction l with
    | nil => rfl
    | cons a l ih => simp [bodies, ih]
  cases ds with
  | nil => rw [← hfl]; rfl
  | cons b ds =>
    rw [← hfl]
    simp only [bodies, if_true, hf, List.flatten_cons]
    rw [List.drop_append_of_le_length (hh b (by simp))]

/-- C95. A file is uploaded over USB: however the reads of the announcement, its dataset, the SendObject command and the data are
grouped, the announcement and the upload are answered OK, in this order, the new object holds exactly the data, and the transporter
is ready for the next container. GetObject for it, sent over USB, is then answered OK with exactly the data. -/
theorem C95_upload_download (r : Rsp Server) (ho : Open r) (hr : r.resend = none) (w : ServerOk r.dev) (hw : Willing r.dev) (o : ObjInfo)
    (data q1 c1 q2 c2 : List UInt8) (hu : UsbUpload r.dev o data q1 c1 q2 c2) (h1 : q1.length ≤ MAX_IN) (h2 : q2.length ≤ MAX_IN)
    (reads pieces : List (List UInt8)) (ht : Transfers [q1, c1, q2, c2] reads) (hg : Grouped reads pieces)
    (hm : ∀ p ∈ pieces, p.length ≤ RBUF) :
    ∃ (r2 : Rsp Server) (h t1 t2 : Nat), (Link.mk r 0).pieces Server.dev pieces = .done ⟨r2, 0⟩ ∧
      t1 % 2 ^ 16 = cTid q1 % 2 ^ 16 ∧ t2 % 2 ^ 16 = cTid q2 % 2 ^ 16 ∧
      responses r2.out = responses r.out ++ [.response .ok t1 [r.dev.sid, folderOf q1, h], .response .ok t2 []] ∧
      r.dev.tree.has h = false ∧ contents r2.dev h = some data ∧ Open r2 ∧
      ∀ q3, Asking q3 0x1009 → cParam q3 0 = h → Sized q3 → q3.length ≤ MAX_IN →
        ∃ (r3 : Rsp Server) (t3 : Nat), (Link.mk r2 0).pieces Server.dev [q3] = .done ⟨r3, 0⟩ ∧ t3 % 2 ^ 16 = cTid q3 % 2 ^ 16 ∧
          responses r3.out = responses r2.out ++ [.response .ok t3 []] ∧ dataOf r3.out = dataOf r2.out ++ data := by
  obtain ⟨s1, s2, s3, s4⟩ := hu.sized
  have hlen : c2.length = data.length + 12 := by
    rw [← hu.contents, List.length_drop]
    have := s4.1
    omega
  have hsz := hu.size
  have hs42 := s4.2.2
  obtain ⟨is, cv, hrun⟩ := C95_stream Server.dev [.give q1 c1, .give q2 c2] reads pieces (by
      intro c hc
      simp only [containers, Turn.parts, List.flatMap_cons, List.flatMap_nil, List.append_nil, List.cons_append, List.nil_append,
        List.mem_cons, List.not_mem_nil, or_false] at hc
      rcases hc with rfl | rfl | rfl | rfl <;> assumption) (by
      intro t hmem q c e
      simp only [List.mem_cons, List.not_mem_nil, or_false] at hmem
      rcases hmem with rfl | rfl
      · rcases e with e | e <;> cases e; exact h1
      · rcases e with e | e <;> cases e; exact h2) ht hg hm
  cases cv with
  | give _ _ bs ts is1 b1 b2 b3 cv =>
  cases cv with
  | give _ _ ds ts is2 d1 d2 d3 cv =>
  cases cv
  have nz : ∀ (l : List (List UInt8)) (c : List UInt8), l.flatten = c → 12 ≤ c.length → l ≠ [] := by
    rintro l c e hc rfl
    rw [← e] at hc
    simp at hc
  have hup : Uploading r.dev o data q1 bs q2 ds := by
    refine ⟨hu.fits, hu.file, hu.size, by omega, hu.announce, hu.offer, ⟨?_, b1.trans hu.dataset⟩, hu.send,
      nz ds c2 d1 s4.1, d3, (bodies_flatten d1 d3).trans hu.contents, fun b hb => Nat.lt_of_le_of_lt (d2 b hb).2 (by decide)⟩
    cases bs with
    | nil => exact absurd rfl (nz [] c1 b1 s2.1)
    | cons b bs => exact ⟨b, rfl, b3 b rfl⟩
  obtain ⟨r1, h, r2, a1, hnew, a2, hw2, w2, hc2, _, ⟨_, _, hi2⟩, _⟩ := uploaded r ho w hw o data q1 bs q2 ds hup
  obtain ⟨r1', h', a1', an, _⟩ := Server.offer_taken r ho w q1 hu.announce o hu.fits bs hup.dataset (by omega) hu.offer
  have e1 : r1' = r1 := by
    have := a1'.run
    rw [a1.run] at this
    cases this
    rfl
  subst e1
  have i1 : r1'.RsInv (resets r.out) := (clean_inv hr).give Server.dev q1 bs .sendInfo ho.idle ho.ready
    (by rw [hu.announce.code]; rfl) rfl (by rw [hu.announce.code]; decide) (by rw [hu.announce.code]; decide) a1.run
  have i2 : r2.RsInv (resets r.out) := by
    obtain ⟨r1a, x1, x2⟩ := Rsp.run_cons a2.run
    have j1 := i1.whole Server.dev q2 [] a1.again.idle x1
    obtain ⟨r1b, y1, g, _, yo⟩ := Rsp.accept_going Server.dev r1' q2 h' _ a1.again.idle a1.again.ready a1.again.session hu.send.tid
      hu.send.code an
    have x1' : r1'.receive Server.dev q2 true true [] = .ok r1a := x1
    rw [y1] at x1'
    have e : r1b = r1a := by cases x1'; rfl
    clear x1'
    subst e
    obtain ⟨t, _, ht⟩ := a2.out
    refine Rsp.RsInv.uploaded Server.dev q2 h' _ t ds true 0 r1b r2 j1 g (fun b hb => (d2 b hb).1) (fun _ => d3) ?_ x2 (by rw [ht, yo])
    rw [bodies_flatten d1 d3, hu.contents]
    omega
  obtain ⟨t1, ht1, o1⟩ := a1.out
  obtain ⟨t2, ht2, o2⟩ := a2.out
  have hrr : r.run Server.dev (sendObject q1 bs ++ (sendObject q2 ds ++ [])) = .ok r2 := by
    rw [List.append_nil, Link.run_join a1.run]
    exact a2.run
  refine ⟨r2, h, t1, t2, hrun r r2 hr hrr i2.1, ht1, ht2, by rw [o2, o1, List.append_assoc]; rfl, hnew, hc2, a2.again, ?_⟩
  intro q3 hq3 hp3 hs3 hl3
  have hsize : r2.dev.sizeOf h = data.length := by
    rw [Server.size_info hi2]
    show o.size % 2 ^ 32 = _
    omega
  obtain ⟨r3, a3, b3, _⟩ := Server.get_object r2 a2.again hw2 q3 hq3 h hp3 data hc2 hsize (by omega)
  obtain ⟨t3, ht3, o3⟩ := a3.out
  refine ⟨r3, t3, ?_, ht3, o3, b3⟩
  have hcuts : CutsKept (containers [.ask q3]) [q3] := by
    refine Link.cuts_kept (reads := [q3]) ?_ ⟨[[q3]], rfl, by simp⟩ ?_
    · exact .cons q3 [q3] [] [] ⟨by simp, by simp⟩ .nil
    · intro c hc
      rcases List.mem_singleton.mp hc with rfl
      exact ⟨hl3, Nat.le_refl _⟩
  obtain ⟨is3, cv3, _, hrun3⟩ := Link.stream_packets Server.dev [.ask q3] q3.length [q3] (by
    intro c hc
    rcases List.mem_singleton.mp hc with rfl
    exact hs3) (by simp) (by simp [containers, Turn.parts]) hcuts
  cases cv3 with
  | ask _ _ is cv3 =>
  cases cv3
  exact hrun3 _ r2 r3 i2 a3.run (i2.whole Server.dev q3 [] a2.again.idle (by
    obtain ⟨ra, x1, x2⟩ := Rsp.run_cons a3.run
    cases x2
    exact x1))

/-- C95. Objects too large for the length field. A container of 4 GB or more says 0xFFFFFFFF instead of its length. When the object
was announced with its size (SendObjectPropList), the transporter still sees where the container ends: whatever pieces it comes in,
the responder gets its packets, the last one marked as the last, and the next container can follow. -/
theorem C95_large (dv : Dev D) (r r' : Rsp D) (o : PropListInfo) (ho : r.propList = some o) (c : List UInt8) (hc : c.length = o.size + 12)
    (hbig : 0xFFFFFFFF ≤ c.length) (hfit : c.length < 2 ^ 64) (hmark : leVal (c.take 4) = 0xFFFFFFFF) (htype : leVal ((c.drop 4).take 2) = 2)
    (hcode : leVal ((c.drop 6).take 2) = 0x100D) (p : List UInt8) (ps : List (List UInt8)) (hfl : (p :: ps).flatten = c) (hp : 12 ≤ p.length)
    (hne : ∀ b ∈ ps, b ≠ []) (hr : r.resend = none) (hrun : r.run dv (dataPhase true (p :: ps)) = .ok r')
    (he : resets r'.out = resets r.out) : (Link.mk r 0).pieces dv (p :: ps) = .done ⟨r', 0⟩ := by
  have hfl' : c = p ++ ps.flatten := by rw [← hfl]; rfl
  have t4 : p.take 4 = c.take 4 := by rw [hfl', List.take_append_of_le_length (by omega)]
  have d4 : (p.drop 4).take 2 = (c.drop 4).take 2 := by
    rw [hfl', List.drop_append_of_le_length (by omega), List.take_append_of_le_length (by rw [List.length_drop]; omega)]
  have d6 : (p.drop 6).take 2 = (c.drop 6).take 2 := by
    rw [hfl', List.drop_append_of_le_length (by omega), List.take_append_of_le_length (by rw [List.length_drop]; omega)]
  have hobj : Link.objSize r p = o.size := by
    unfold Link.objSize
    rw [ho]
    exact if_pos ⟨by unfold rd; rw [d4, htype], by unfold cCode rd; rw [d6, hcode]⟩
  have hlen : c.length = p.length + ps.flatten.length := by rw [hfl', List.length_append]
  refine Link.whole_pieces dv p ps _ r r' (by omega) hne ?_ (clean_inv hr) hrun ?_
  · rw [hobj]
    unfold announced
    rw [t4, hmark]
    simp only [true_and, u64]
    split
    · rw [Nat.mod_eq_of_lt (by omega)]; omega
    · omega
  · obtain ⟨k, hk⟩ := (clean_inv hr).run dv _ (Link.dataPhase_packets (p :: ps) true) hrun
    have := hk.1
    rw [he] at this
    have : k = 0 := by omega
    rw [this] at hk
    exact hk

/-- C95 is violated for objects of that size that were announced with SendObjectInfo, which has no room for the size: after
4 GB - 1 bytes the transporter takes the container to be over; the rest of the file is read as new containers. -/
theorem C95_large_violated (dv : Dev D) (r r' : Rsp D) (ho : r.propList = none) (p : List UInt8) (ps : List (List UInt8)) (hp : 12 ≤ p.length)
    (hne : ∀ b ∈ ps, b ≠ []) (hmark : leVal (p.take 4) = 0xFFFFFFFF) (hall : (p :: ps).flatten.length = 0xFFFFFFFF) (hr : r.resend = none)
    (hrun : r.run dv (dataPhase true (p :: ps)) = .ok r') (he : resets r'.out = resets r.out) (rest : List (List UInt8)) :
    (Link.mk r 0).pieces dv (p :: ps ++ rest) = (Link.mk r' 0).pieces dv rest := by
  have hobj : Link.objSize r p = 0 := by unfold Link.objSize; rw [ho]
  have : (Link.mk r 0).pieces dv (p :: ps) = .done ⟨r', 0⟩ := by
    refine Link.whole_pieces dv p ps _ r r' (by omega) hne ?_ (clean_inv hr) hrun ?_
    · rw [hobj]
      unfold announced
      rw [hmark]
      simp only [true_and]
      rw [if_neg (by omega)]
      simpa using hall.symm
    · obtain ⟨k, hk⟩ := (clean_inv hr).run dv _ (Link.dataPhase_packets (p :: ps) true) hrun
      have := hk.1
      rw [he] at this
      have : k = 0 := by omega
      rw [this] at hk
      exact hk
  exact Link.pieces_append dv (p :: ps) rest _ _ this

/-! ### What goes wrong -/

/-- C95 is violated when an upload is answered before all its data has come, as when the storage is full: the next piece of the data
makes the responder reset the transporter, and what follows is taken for new containers: the contents of the file are obeyed. -/
theorem C95_data_obeyed_violated (dv : Dev D) (l : Link D) (hst : l.rsp.st = .idle) (hq : l.rsp.req = none) (hl : 0 < l.readLen)
    (p : List UInt8) (hp : p ≠ []) (ps : List (List UInt8)) :
    l.pieces dv (p :: ps) = (Link.mk (l.rsp.emit .reset) 0).pieces dv ps := by
  have hd : 0 < p.length := List.length_pos_iff.mpr hp
  have hn : l.readLen ≠ 0 := by omega
  have hrec : ∀ b last, l.rsp.receive dv b false last [] = .ok (l.rsp.emit .reset) := by
    intro b last
    have e : { (l.rsp.setState .idle) with req := none } = l.rsp := by
      unfold Rsp.setState
      rw [if_pos hst, ← hq]
    unfold Rsp.receive
    rw [hst]
    simp only [Bool.false_eq_true, false_and, if_false, e]
  have : l.piece dv (p.length + 1) p = .done ⟨l.rsp.emit .reset, 0⟩ := by
    have hdec : decide (l.readLen = 0) = false := by simp [hn]
    unfold Link.piece
    rw [if_neg (by omega), if_neg (by omega)]
    simp only [hdec, hrec]
    rw [if_neg]
    rw [Rsp.emit_out, Rsp.resets_append]
    intro h
    simp [resets, Out.isReset] at h
  rw [Link.pieces, this]

/-- C95 is violated after a cancel in the middle of an upload's data (C38): the transporter goes on expecting the rest of the
cancelled container, takes the next command for it, and the command is lost: no response, the transporter is reset. Whatever the
storage and the command. -/
theorem C95_cancel_violated (dv : Dev D) (l : Link D) (q0 : List UInt8) (hst : l.rsp.st = .waitData) (hq : l.rsp.req = some q0)
    (hl : 0 < l.readLen) (p : List UInt8) (hp : p ≠ []) :
    ∃ l', (l.ev dv .cancel).pieces dv [p] = .done l' ∧ responses l'.rsp.out = responses l.rsp.out ∧ l'.rsp.req = none ∧
      l'.rsp.st = .idle ∧ l'.readLen = 0 := by
  have hd : 0 < p.length := List.length_pos_iff.mpr hp
  have hn : l.readLen ≠ 0 := by omega
  have hdec : decide (l.readLen = 0) = false := by simp [hn]
  obtain ⟨hc1, hc2⟩ : (l.rsp.handleCancel dv).st = .txCancel ∧ responses (l.rsp.handleCancel dv).out = responses l.rsp.out := by
    unfold Rsp.handleCancel
    rw [hq]
    have h1 : (l.rsp.setState .txCancel).st = .txCancel := Rsp.setState_st ..
    have h2 := Rsp.responses_setState l.rsp .txCancel
    generalize l.rsp.setState .txCancel = r1 at *
    have h3 : ∀ r2 : Rsp D, r2.st = .txCancel → responses r2.out = responses l.rsp.out →
        (r2.deleteStored.emit .statusOk).st = .txCancel ∧ responses (r2.deleteStored.emit .statusOk).out = responses l.rsp.out := by
      intro r2 a1 a2
      refine ⟨a1, ?_⟩
      rw [Rsp.emit_out, Rsp.deleteStored_out, responses_append, a2]
      simp [responses, Out.isResponse]
    refine h3 _ ?_ ?_
    · split
      · unfold Rsp.cancelUpload
        simp only
        repeat' split
        all_goals exact h1
      · exact h1
    · split
      · unfold Rsp.cancelUpload
        simp only
        repeat' split
        all_goals exact h2
      · exact h2
  generalize e : l.rsp.handleCancel dv = r1 at *
  have hev : l.ev dv .cancel = ⟨r1, l.readLen⟩ := by simp [Link.ev, Rsp.handleEv, e]
  have hrec : ∀ b last, r1.receive dv b false last [] = .ok ({ (r1.setState .idle) with req := none }.emit .reset) := by
    intro b last
    unfold Rsp.receive
    rw [hc1]
    simp only [Bool.false_eq_true, false_and, if_false]
  refine ⟨⟨{ (r1.setState .idle) with req := none }.emit .reset, 0⟩, ?_, ?_, rfl, Rsp.setState_st .., rfl⟩
  · rw [hev]
    have : Link.piece dv (p.length + 1) ⟨r1, l.readLen⟩ p = .done ⟨{ (r1.setState .idle) with req := none }.emit .reset, 0⟩ := by
      unfold Link.piece
      rw [if_neg (by omega), if_neg (by simp [hn])]
      simp only [hdec, hrec]
      rw [if_neg]
      rw [Rsp.emit_out, Rsp.resets_append]
      simp only
      rw [Rsp.setState_out, Rsp.resets_append]
      intro h
      have : resets [Out.reset] = 1 := rfl
      omega
    rw [Link.pieces, this]
    rfl
  · simp only
    rw [Rsp.emit_out, responses_append]
    simp only
    rw [Rsp.responses_setState, hc2]
    simp [responses, Out.isResponse]

/-! ### Examples -/

/-- The data container of a three-byte file. -/
def demoPutWhole : List UInt8 := Toy.dat 0x100D 6 [7, 8, 9]

/-- The hypotheses of C95 are met: two reads are seen at once, then one, then one. -/
theorem C95_witness : Open demoRsp ∧ demoRsp.resend = none ∧ ServerOk demoRsp.dev ∧ Willing demoRsp.dev ∧
    UsbUpload demoRsp.dev demoFile [7, 8, 9] demoAnn (demoAnnData.headD []) demoPut demoPutWhole ∧
    Transfers [demoAnn, demoAnnData.headD [], demoPut, demoPutWhole] [demoAnn, demoAnnData.headD [], demoPut, demoPutWhole] ∧
    Grouped [demoAnn, demoAnnData.headD [], demoPut, demoPutWhole] [demoAnn ++ demoAnnData.headD [], demoPut, demoPutWhole] := by
  obtain ⟨w1, w2, w3, w4⟩ := C82_witness
  refine ⟨w1, rfl, w2, w3, ⟨w4.fits, w4.file, w4.size, w4.announce, w4.offer, by decide +kernel, w4.send, by decide +kernel, ?_⟩, ?_,
    ⟨[[demoAnn, demoAnnData.headD []], [demoPut], [demoPutWhole]], rfl, by simp⟩⟩
  · exact ⟨by decide +kernel, by decide +kernel, by decide +kernel, by decide +kernel⟩
  · have one : ∀ c, Reads c [c] := fun c => ⟨by simp, by simp⟩
    exact .cons _ [_] _ _ (one _) (.cons _ [_] _ _ (one _) (.cons _ [_] _ _ (one _) (.cons _ [_] _ _ (one _) .nil)))

/-- A container of exactly 4 GB: the header and zeros. -/
def hugeC : List UInt8 := [255, 255, 255, 255, 2, 0, 0x0D, 0x10, 6, 0, 0, 0] ++ List.replicate 0xFFFFFFF4 0

/-- A responder waiting for it, the object having been announced with or without its size. -/
def hugeRsp (o : Option PropListInfo) (s : Option SendSeq) : Rsp Toy.Objs :=
  { dev := [], ready := true, session := 1, st := .waitData, req := some demoPut, resp := .ok, propList := o, sendSeq := s }

/-- The hypotheses of `C95_large` are met. -/
theorem C95_large_witness : ∃ r', (hugeRsp (some ⟨1, 0xFFFFFFF4, 0, [], []⟩) none).run Toy.dev (dataPhase true [hugeC]) = .ok r' ∧
    resets r'.out = 0 ∧ hugeC.length = 0xFFFFFFF4 + 12 ∧ leVal (hugeC.take 4) = 0xFFFFFFFF ∧ leVal ((hugeC.drop 4).take 2) = 2 ∧
    leVal ((hugeC.drop 6).take 2) = 0x100D := by
  have hl : hugeC.length = 0xFFFFFFF4 + 12 := by
    unfold hugeC
    rw [List.length_append, List.length_replicate]
    decide
  obtain ⟨r', h1, -⟩ := Rsp.upload_packet Toy.dev (hugeRsp (some ⟨1, 0xFFFFFFF4, 0, [], []⟩) none) demoPut hugeC _ 1 0xFFFFFFF4 0 true true
    ⟨rfl, rfl, rfl, by decide, Or.inr ⟨rfl, _, rfl, rfl, rfl, rfl⟩⟩ (fun _ => by omega) rfl
  refine ⟨r', ?_, ?_, hl, ?_, ?_, ?_⟩
  · simp only [dataPhase, Rsp.run, Rsp.step, List.isEmpty]
    rw [h1]
    rfl
  · exact (Rsp.RsInv.data (E := 0) ⟨rfl, fun o e => by cases e⟩ Toy.dev demoPut hugeC true true [] rfl rfl h1).1
  · unfold hugeC
    rw [List.take_append_of_le_length (by decide)]
    decide
  · unfold hugeC
    rw [List.drop_append_of_le_length (by decide), List.take_append_of_le_length (by decide)]
    decide
  · unfold hugeC
    rw [List.drop_append_of_le_length (by decide), List.take_append_of_le_length (by decide)]
    decide

/-- The hypotheses of `C95_large_violated` are met. -/
theorem C95_large_violated_witness : ∃ r', (hugeRsp none (some ⟨1, 0xFFFFFFFF, 0⟩)).run Toy.dev (dataPhase true [hugeC.take 0xFFFFFFFF]) = .ok r' ∧
    resets r'.out = 0 ∧ [hugeC.take 0xFFFFFFFF].flatten.length = 0xFFFFFFFF ∧ leVal ((hugeC.take 0xFFFFFFFF).take 4) = 0xFFFFFFFF := by
  have hl : (hugeC.take 0xFFFFFFFF).length = 0xFFFFFFFF := by
    unfold hugeC
    rw [List.length_take, List.length_append, List.length_replicate]
    decide
  obtain ⟨r', h1, -⟩ := Rsp.upload_packet Toy.dev (hugeRsp none (some ⟨1, 0xFFFFFFFF, 0⟩)) demoPut (hugeC.take 0xFFFFFFFF) _ 1 0xFFFFFFFF 0 true true
    ⟨rfl, rfl, rfl, by decide, Or.inl ⟨rfl, rfl⟩⟩ (fun _ => by rw [hl]; decide) rfl
  refine ⟨r', ?_, ?_, by simpa using hl, ?_⟩
  · simp only [dataPhase, Rsp.run, Rsp.step, List.isEmpty]
    rw [h1]
    rfl
  · exact (Rsp.RsInv.data (E := 0) ⟨rfl, fun o e => by cases e⟩ Toy.dev demoPut _ true true [] rfl rfl h1).1
  · unfold hugeC
    rw [List.take_take, Nat.min_eq_left (by decide), List.take_append_of_le_length (by decide)]
    decide

/-- What the host sees, and what is on disk. -/
def seen : LinkOut Server → Option (List Out × List (String × List UInt8))
  | .done l => some (responses l.rsp.out, l.rsp.dev.files)
  | _ => none

/-- An upload in three pieces, one cut in the middle of the data. -/
example : seen ((Link.mk demoRsp 0).pieces Server.dev
      [demoAnn ++ demoAnnData.headD [] ++ demoPut, demoPutWhole.take 13, demoPutWhole.drop 13]) =
    some ([.response .ok 5 [0x00010001, 0, 1], .response .ok 6 []], [("/s/ab", [7, 8, 9])]) := by
  decide +kernel

/-- The storage of `demoRsp`, on which writing fails from the fourth call on. -/
def fullRsp : Rsp Server :=
  { demoRsp with dev := { demoEmpty with ios := fun n _ => if n < 3 then {} else { writes := [none] } } }

/-- A file of 42 bytes that contains a DeleteObject command. -/
def trojan : List UInt8 := [1, 2, 3, 4, 5, 6, 7, 8] ++ Toy.cmd 0x100B 99 [1] ++ [0, 0, 0, 0, 0, 0, 0, 0, 0, 0, 0, 0, 0, 0, 0, 0, 0, 0]

/-- C95 is violated, as above: the upload of a file fails for want of space, and a DeleteObject command inside the file is carried
out (and answered): the first file is gone. -/
theorem C95_trojan_violated : seen ((Link.mk fullRsp 0).pieces Server.dev
      [demoAnn, demoAnnData.headD [], demoPut, demoPutWhole, Toy.cmd 0x100C 7 [0x00010001, 0xFFFFFFFF],
        dataContainer 0x100C 7 (encs (objInfoVals { demoFile with size := 42, fileName := [99] })), Toy.cmd 0x100D 8 [],
        (Toy.dat 0x100D 8 trojan).take 16, ((Toy.dat 0x100D 8 trojan).drop 16).take 4, ((Toy.dat 0x100D 8 trojan).drop 20).take 16]) =
    some ([.response .ok 5 [0x00010001, 0, 1], .response .ok 6 [], .response .ok 7 [0x00010001, 0, 2], .response .generalError 8 [],
      .response .ok 99 []], [("/s/c", [])]) := by
  decide +kernel

/-- The hypotheses of `C95_cancel_violated` are met in the middle of an upload. -/
example : (match (Link.mk demoRsp 0).pieces Server.dev [demoAnn, demoAnnData.headD [], demoPut, demoPutWhole.take 13] with
    | .done l => decide (l.rsp.st = .waitData ∧ l.rsp.req = some demoPut ∧ 0 < l.readLen)
    | _ => false) = true := by
  decide +kernel

end Props
