import Verif.Lemmas.ServerParts
/-! Moving and renaming, as a host sees it. -/
namespace Mtp
open Spec
namespace Server

theorem Shifted.info {s s' : Server} {h p : Nat} {P Q : Path} (m : Shifted s s' h p P Q) (w : ServerOk s) (x : Nat) (hx : x ≠ h) :
    s'.infoOf x = s.infoOf x := by
  unfold infoOf
  rw [m.infos]
  cases e : s.tree.get x with
  | none =>
    have : s'.tree.get x = none := by
      cases e1 : s'.tree.get x with
      | none => rfl
      | some iy => obtain ⟨ix, e2⟩ := m.old e1; rw [e] at e2; cases e2
    rw [this]
  | some ix =>
    have : ∃ iy, s'.tree.get x = some iy ∧ iy.fmt = ix.fmt ∧ iy.name = ix.name ∧ iy.par = ix.par := by
      by_cases hu : Under P ix.path
      · exact ⟨_, m.rel.below x ix e hu hx, rfl, rfl, rfl⟩
      · obtain ⟨ks, e1, _⟩ := m.rel.out x ix e hu
        exact ⟨_, e1, rfl, rfl, rfl⟩
    obtain ⟨iy, e1, e2, e3, e4⟩ := this
    rw [e1]
    cases AMap.get s.infos x <;> simp only [e2, e3, e4]

/-- The information about the object that was moved or renamed. -/
theorem Shifted.told {s s' : Server} {h p : Nat} {P Q : Path} (m : Shifted s s' h p P Q) (w : ServerOk s) {it : Item}
    (e : s.tree.get h = some it) {n : Path} (hn : ∃ it', s'.tree.get h = some it' ∧ it'.name = n) :
    (s.infoOf h).1 = .ok ∧ s'.infoOf h = (.ok, { (s.infoOf h).2 with fileName := fromPath n, parent := p }) := by
  obtain ⟨nm, f, e1, _⟩ := m.rel.self it e
  obtain ⟨it', e2, e3⟩ := m.fmt it e
  obtain ⟨it2, e4, e5⟩ := hn
  rw [e1] at e2 e4
  cases e2
  cases e4
  simp only at e3 e5
  have hk := w.known h
  rw [has_iff.mpr ⟨_, e⟩] at hk
  obtain ⟨o, ho⟩ := Option.isSome_iff_exists.mp hk
  unfold infoOf
  rw [m.infos, e, e1, ho]
  exact ⟨rfl, by simp only [e3, e5]⟩

/-- MoveObject. -/
theorem move_done {s : Server} (w : ServerOk s) {h p : Nat} (m : Movable s h p) : (s.move h s.sid p).2 = .ok := by
  obtain ⟨it, pit, e1, e2, e3, e4⟩ := m.free
  have hno : (it.path ++ ['/']).isPrefixOf (join pit.path it.name) = false := by
    rw [Bool.eq_false_iff]
    intro hc
    rw [List.isPrefixOf_iff_prefix] at hc
    obtain ⟨u, hu⟩ := hc
    have h0 : h ≠ 0 := by
      rintro rfl
      exact m.apart (w.wf.below_root e2)
    obtain ⟨p', pit', q1, q2, q3, q4, q5, q6⟩ := w.wf.parent h it e1 h0
    have hun : Under it.path (join pit.path it.name) := Or.inr ⟨u, by rw [← hu]; simp [join]⟩
    refine m.apart ((w.wf.below_iff e1 e2).mpr (hun.of_join q6 fun h1 => ?_))
    rw [h1, w.wf.pathOf h it e1] at e4
    cases e4
  have hpos : (decide (pit.fmt = ASSOC) && (AMap.get s.tree.paths (join pit.path it.name)).isNone &&
      !(it.path ++ ['/']).isPrefixOf (join pit.path it.name)) = true := by
    rw [hno, e4]; simp [e3]
  have hmv : ((grant s.tree true).move h p true).2 = .ok := by
    have g1 : (grant s.tree true).get h = some it := e1
    have g2 : (grant s.tree true).get p = some pit := e2
    have g3 : AMap.get (grant s.tree true).paths (join pit.path it.name) = none := e4
    have g4 : (grant s.tree true).fs (grant s.tree true).tick = true := by
      simp only [grant, Bool.and_true]; exact m.granted
    unfold Tree.move
    simp only [g1, g2, g3, Option.isSome_none, Bool.false_eq_true, and_false, if_false, if_true, Tree.ask, g4, Bool.not_true]
  unfold move
  simp only [e1, e2, ne_eq, not_true_eq_false, if_false, hpos]
  split
  · rfl
  · next t r hne et =>
    rw [et] at hmv
    exact absurd hmv hne

/-- A data phase for a `set` operation. -/
theorem set_answer_by {D : Type} (dv : Dev D) (r : Rsp D) (ho : Open r) (q : List UInt8) (code : Nat) (hq : Asking q code) (ck : Bool)
    (hk : opKind code = some (.set ck)) (hd : hasDataPhase code = true) (pay : List UInt8) (bs : List (List UInt8))
    (hc : CarriesDataset bs (dataContainer code (cTid q) pay)) (hl : pay.length ≤ 2 ^ 30) :
    (ck = true → dv.check r.dev code (cParams q) = .ok) →
    ∃ r', AnsweredBy dv r r' (sendObject q bs) q (dv.store r.dev code (cParams q) (dataContainer code (cTid q) pay)).2.1
        ((dv.store r.dev code (cParams q) (dataContainer code (cTid q) pay)).2.2.take 1) ∧
      r'.dev = (dv.store r.dev code (cParams q) (dataContainer code (cTid q) pay)).1 ∧ dataOf r'.out = dataOf r.out := by
  intro hck
  obtain ⟨⟨b, hb, hb12⟩, hfl⟩ := hc
  obtain ⟨bs', rfl⟩ : ∃ bs', bs = b :: bs' := by
    cases bs with
    | nil => cases hb
    | cons a l => cases hb; exact ⟨l, rfl⟩
  have hp : Props.Proper q b bs' := proper_of (by rw [hq.code]; exact hfl) hb12 hl
  have hk' : opKind (cCode q) = some (.set ck) := by rw [hq.code]; exact hk
  have hd' : hasDataPhase (cCode q) = true := by rw [hq.code]; exact hd
  have hpc : Rsp.preCheck (r.accept q).session (cTid q) = .ok := by rw [Rsp.accept_session, Rsp.preCheck_ok ho.session hq.tid]
  have hcd : cCode q ≠ 0x100D ∧ cCode q ≠ 0x95C2 := by
    constructor
    · intro e
      rw [e] at hk'
      exact absurd hk' (by rw [show opKind 0x100D = some .sendObject from rfl]; simp)
    · intro e
      rw [e] at hk'
      exact absurd hk' (by rw [show opKind 0x95C2 = some .sendPartial from rfl]; simp)
  have h0 : (r.accept q).handle dv q [] (.set ck) = .ok { (r.accept q) with resp := .ok } := by
    simp only [Rsp.handle]
    rw [hpc]
    simp only
    rw [Rsp.accept_dev, hq.code]
    cases ck with
    | false => rfl
    | true => rw [if_pos rfl, hck rfl]
  have hst0 : (r.accept q).st = .waitData := by rw [Rsp.accept_st, hd']; rfl
  have hfl' : b ++ bs'.flatten = dataContainer code (cTid q) pay := by rw [← hfl, List.flatten_cons]
  generalize hC : dataContainer code (cTid q) pay = C at *
  have hrun : r.run dv (sendObject q (b :: bs')) =
      ({ (r.accept q).emit .statusBusy with resp := .ok, dataC := some C, dev := (dv.store r.dev code (cParams q) C).1 } : Rsp D).replyP
        (dv.store r.dev code (cParams q) C).2.1 (dv.store r.dev code (cParams q) C).2.2 := by
    unfold sendObject
    rw [Props.run_txn dv r q b bs' ho.idle ho.ready (.set ck) hk' hd' hcd (by omega) hp.size _ h0 ⟨hst0, Rsp.accept_req r q⟩]
    have hacc2 : ∀ (r : Rsp D) x, r.accumulate x true = { r with dataC := some x } := fun r x => rfl
    unfold Rsp.dataPacket
    rw [if_neg hcd.1, if_neg hcd.2, hacc2]
    simp only [Bool.true_eq_false, if_false]
    rw [Props.check_proper hp _ (by rfl)]
    simp only [hfl', hq.code, hk]
    show (({ (r.accept q).emit .statusBusy with resp := .ok, dataC := some C, dev := (dv.store (r.accept q).dev code (cParams q) C).1 } : Rsp D).replyP
        (dv.store (r.accept q).dev code (cParams q) C).2.1 (dv.store (r.accept q).dev code (cParams q) C).2.2) = _
    rw [Rsp.accept_dev]
  generalize dv.store r.dev code (cParams q) C = x at *
  obtain ⟨d, c, ps⟩ := x
  simp only at hrun ⊢
  obtain ⟨r', b1, b2, b3, b4, b5⟩ := replyP_spec ({ (r.accept q).emit .statusBusy with resp := .ok, dataC := some C, dev := d } : Rsp D) q
    (Rsp.accept_req r q) (Or.inr hst0) ((Rsp.accept_ready ..).trans ho.ready)
    (by show (r.accept q).session ≠ 0; rw [Rsp.accept_session]; exact ho.session) c ps
  refine ⟨r', ⟨hrun.trans b1, ⟨u16 (cTid q), by unfold u16; omega, ?_⟩, b3⟩, b2, ?_⟩
  · rw [b4]
    congr 1
    show responses ((r.accept q).emit .statusBusy).out = _
    rw [Rsp.emit_out, responses_append, Rsp.responses_accept]; simp [responses, Out.isResponse]
  · rw [b5]
    show dataOf ((r.accept q).emit .statusBusy).out = _
    rw [Rsp.emit_out, dataOf_append, dataOf_accept]; simp [dataOf]

/-- … of the server. -/
theorem set_answer (r : Rsp Server) (ho : Open r) (q : List UInt8) (code : Nat) (hq : Asking q code) (ck : Bool)
    (hk : opKind code = some (.set ck)) (hd : hasDataPhase code = true) (pay : List UInt8) (bs : List (List UInt8))
    (hc : CarriesDataset bs (dataContainer code (cTid q) pay)) (hl : pay.length ≤ 2 ^ 30) :
    (ck = true → dev.check r.dev code (cParams q) = .ok) →
    ∃ r', Answered r r' (sendObject q bs) q (store r.dev code (cParams q) (dataContainer code (cTid q) pay)).2.1
        ((store r.dev code (cParams q) (dataContainer code (cTid q) pay)).2.2.take 1) ∧
      r'.dev = (store r.dev code (cParams q) (dataContainer code (cTid q) pay)).1 ∧ dataOf r'.out = dataOf r.out :=
  set_answer_by dev r ho q code hq ck hk hd pay bs hc hl

/-- The name in the dataset. -/
theorem name_decoded (code tid : Nat) (n : QStr) : decodeName (dataContainer code tid (enc (.str n))) = some (bom (cut n)) := by
  have hlen : (strBytes (cut n)).length ≤ 2 ^ 30 := Nat.le_trans (strBytes_length_le n) (by decide)
  show decodeName (dataContainer code tid (strBytes (cut n))) = _
  generalize hc : dataContainer code tid (strBytes (cut n)) = c
  have hcl : c.length = 12 + (strBytes (cut n)).length := by rw [← hc]; unfold dataContainer; rw [List.length_append, header_length]
  obtain ⟨r, e, hm, ho, -, hlt⟩ := Props.framed_collect (c := c) (p := c) (ps := [])
    (by rw [← hc]; exact Props.container_framed _ _ _ hlen) (by simp) (by omega)
  have hat := Props.arrives_at (op := code) (tid := tid) (pay := strBytes (cut n)) (rx := r)
    ⟨c, [], by rw [hc]; simp, by omega, e⟩ hlen
  have hg := Rx.getStr_at (cut_len n) (post := []) (by rw [List.append_nil]; exact hat)
  unfold decodeName
  rw [e, Res.bind_ok, hg]

theorem rename_done {s : Server} (w : ServerOk s) {h : Nat} {n : QStr} (m : Renamable s h n) :
    (s.rename h n).2 = .ok ∧ ¬ Quiet s (s.rename h n).1 := by
  obtain ⟨it, p, pit, e1, e2, e3, e4⟩ := m.free
  have g4 : (grant s.tree true).fs (grant s.tree true).tick = true := by
    simp only [grant, Bool.and_true]; exact m.granted
  obtain ⟨h1, h2⟩ := Props.C21_rename_done (t := grant s.tree true) (grant_wf w.wf true) (toPath n) e1 e2 e3 m.chars m.dots e4 g4
  have h3 : ((grant s.tree true).rename h (toPath n)).1.get h = _ := h2.self it e1
  have key : (s.rename h n).2 = ((grant s.tree true).rename h (toPath n)).2 ∧
      (s.rename h n).1.tree.get h = ((grant s.tree true).rename h (toPath n)).1.get h := by
    unfold rename
    rw [e1]
    simp only [m.name]
    split
    · exact ⟨rfl, rfl⟩
    · exact ⟨rfl, rfl⟩
  refine ⟨key.1.trans h1, fun hq => ?_⟩
  have := hq.get h
  rw [key.2, h3, e1] at this
  have hp := congrArg (fun i : Option Item => i.map (·.path)) this
  simp only [Option.map_some, Option.some.injEq] at hp
  have h5 := w.wf.pathOf h it e1
  rw [← hp, e4] at h5
  cases h5

theorem Shifted.placed {s s' : Server} {h p : Nat} {P Q : Path} (m : Shifted s s' h p P Q) (w : ServerOk s) {it : Item}
    (e : s.tree.get h = some it) {n : Path} (hn : ∃ it', s'.tree.get h = some it' ∧ it'.name = n) : Placed s s' h p (fromPath n) := by
  obtain ⟨t1, t2⟩ := m.told w e hn
  refine ⟨m.sid, m.ok w, t1, t2, fun x hx => m.info w x hx, fun x => m.has x, fun x => (m.contents w x).1, ?_⟩
  intro it' e'
  obtain ⟨nm, f, e1, _⟩ := m.rel.self it e
  rw [e'] at e1
  cases e1
  rfl

/-- MoveObject. -/
theorem move_answer (r : Rsp Server) (ho : Open r) (w : ServerOk r.dev) (q : List UInt8) (hq : Asking q 0x1019)
    (hs : cParam q 1 = r.dev.sid) (m : Movable r.dev (cParam q 0) (cParam q 2)) :
    ∃ r', Answered r r' (ask q) q .ok [] ∧ dataOf r'.out = dataOf r.out ∧
      Placed r.dev r'.dev (cParam q 0) (cParam q 2) (r.dev.infoOf (cParam q 0)).2.fileName := by
  have hok := move_done w m
  have hqu : query r.dev 0x1019 (cParams q) = ((r.dev.move (cParam q 0) (cParam q 1) (cParam q 2)).1,
    ⟨[], some ((r.dev.move (cParam q 0) (cParam q 1) (cParam q 2)).2, [])⟩) := rfl
  rw [hs, hok] at hqu
  obtain ⟨r', a1, a2, a3⟩ := query_answer r ho q 0x1019 hq _ rfl rfl .ok [] (by rw [hqu])
  rw [hqu] at a2 a3
  simp only [List.map_nil, List.flatten_nil, List.append_nil] at a2 a3
  refine ⟨r', a1, a3, ?_⟩
  rcases move_cases' w (cParam q 0) r.dev.sid (cParam q 2) with ⟨_, h2⟩ | ⟨_, _, it, pit, e1, e2, sh, it', e3, e4, e5, e6⟩
  · exact absurd hok h2
  · have hp := sh.placed w e1 ⟨it', e3, e5⟩
    rw [a2]
    have : (r.dev.infoOf (cParam q 0)).2.fileName = fromPath it.name := by
      have hk := w.known (cParam q 0)
      rw [has_iff.mpr ⟨_, e1⟩] at hk
      obtain ⟨o, ho⟩ := Option.isSome_iff_exists.mp hk
      unfold infoOf
      rw [e1, ho]
    rw [this]
    exact hp

/-- A move that is impossible. -/
theorem move_refused (r : Rsp Server) (ho : Open r) (w : ServerOk r.dev) (q : List UInt8) (hq : Asking q 0x1019)
    (c : Resp) (hc : (r.dev.move (cParam q 0) (cParam q 1) (cParam q 2)).2 = c) (hne : c ≠ .ok) :
    ∃ r', Answered r r' (ask q) q c [] ∧ dataOf r'.out = dataOf r.out ∧ Quiet r.dev r'.dev := by
  have hqu : query r.dev 0x1019 (cParams q) = ((r.dev.move (cParam q 0) (cParam q 1) (cParam q 2)).1,
    ⟨[], some ((r.dev.move (cParam q 0) (cParam q 1) (cParam q 2)).2, [])⟩) := rfl
  rw [hc] at hqu
  obtain ⟨r', a1, a2, a3⟩ := query_answer r ho q 0x1019 hq _ rfl rfl c [] (by rw [hqu])
  rw [hqu] at a2 a3
  simp only [List.map_nil, List.flatten_nil, List.append_nil] at a2 a3
  refine ⟨r', a1, a3, ?_⟩
  rcases move_cases' w (cParam q 0) (cParam q 1) (cParam q 2) with ⟨h1, _⟩ | ⟨h1, _⟩
  · rw [a2]; exact h1
  · rw [hc] at h1; exact absurd h1 hne

theorem check_name (s : Server) (q : List UInt8) :
    dev.check s 0x9804 (cParams q) = if s.tree.has (cParam q 0) then .ok else .invalidObjectHandle := rfl

/-- SetObjectPropValue of the file name. -/
theorem rename_answer (r : Rsp Server) (ho : Open r) (w : ServerOk r.dev) (q : List UInt8) (hq : Asking q 0x9804)
    (hp : cParam q 1 = 0xDC07) (n : QStr) (bs : List (List UInt8))
    (hc : CarriesDataset bs (dataContainer 0x9804 (cTid q) (enc (.str n)))) (m : Renamable r.dev (cParam q 0) (bom (cut n))) :
    ∃ r', Answered r r' (sendObject q bs) q .ok [] ∧ dataOf r'.out = dataOf r.out ∧
      Placed r.dev r'.dev (cParam q 0) (r.dev.infoOf (cParam q 0)).2.parent (bom (cut n)) := by
  obtain ⟨hok, hnq⟩ := rename_done w m
  have hst : store r.dev 0x9804 (cParams q) (dataContainer 0x9804 (cTid q) (enc (.str n))) =
      ((r.dev.rename (cParam q 0) (bom (cut n))).1, .ok, []) := by
    unfold store
    rw [if_pos ⟨rfl, hp⟩, name_decoded]
    simp only
    rw [← hok]
    rfl
  obtain ⟨it, p, pit, e1, e2, e3, e4⟩ := m.free
  obtain ⟨r', a1, a2, a3⟩ := set_answer r ho q 0x9804 hq true rfl rfl (enc (.str n)) bs hc
    (Nat.le_trans (strBytes_length_le n) (by decide)) (fun _ => by rw [check_name, if_pos (has_iff.mpr ⟨_, e1⟩)])
  rw [hst] at a1 a2
  refine ⟨r', a1, a3, ?_⟩
  rcases rename_cases' w (cParam q 0) (bom (cut n)) with h2 | ⟨_, it1, p1, pit1, f1, f2, f3, sh, it', g3, g4, g5, g6⟩
  · exact absurd h2 hnq
  · have hpl := sh.placed w f1 ⟨it', g3, g5⟩
    rw [fromPath_toPath m.name] at hpl
    rw [a2]
    have : (r.dev.infoOf (cParam q 0)).2.parent = p1 := by
      have hk := w.known (cParam q 0)
      rw [has_iff.mpr ⟨_, f1⟩] at hk
      obtain ⟨o, ho⟩ := Option.isSome_iff_exists.mp hk
      unfold infoOf
      rw [f1, ho]
      show it1.par = p1
      have h0 : cParam q 0 ≠ 0 := sh.notRoot
      obtain ⟨p', pit', q1, q2, q3, _⟩ := w.wf.parent _ it1 f1 h0
      rw [f2] at q1; cases q1
      exact q2
    rw [this]
    exact hpl

/-- A `set` operation refused in its request phase. -/
theorem set_refused_by {D : Type} (dv : Dev D) (r : Rsp D) (ho : Open r) (q : List UInt8) (code : Nat) (hq : Asking q code)
    (hk : opKind code = some (.set true)) (hd : hasDataPhase code = true) (bs : List (List UInt8)) (hne : bs ≠ []) (c : Resp)
    (hc : dv.check r.dev code (cParams q) = c) (hcn : c ≠ .ok) :
    ∃ r', AnsweredBy dv r r' (sendObject q bs) q c [] ∧ r'.dev = r.dev := by
  have hk' : opKind (cCode q) = some (.set true) := by rw [hq.code]; exact hk
  have hd' : hasDataPhase (cCode q) = true := by rw [hq.code]; exact hd
  have hpc : Rsp.preCheck (r.accept q).session (cTid q) = .ok := by rw [Rsp.accept_session, Rsp.preCheck_ok ho.session hq.tid]
  have h0 : (r.accept q).handle dv q [] (.set true) = .ok { (r.accept q) with resp := c } := by
    simp only [Rsp.handle]
    rw [hpc]
    simp only
    rw [Rsp.accept_dev, hq.code, if_pos trivial, hc]
  have hst0 : (r.accept q).st = .waitData := by rw [Rsp.accept_st, hd']; rfl
  have e1 : r.receive dv q true true [] = .ok { (r.accept q) with resp := c } := by
    rw [Rsp.receive_idle dv r q [] ho.idle, Rsp.command_accept dv r q [] (Or.inl ho.ready), hk']
    exact h0
  obtain ⟨r', b1, b2, b3, b4, b5⟩ := Rsp.run_refuse dv q c bs hne { (r.accept q) with resp := c } true
    ⟨hst0, Rsp.accept_req r q, rfl, hcn⟩
  refine ⟨r', ⟨?_, ⟨u16 (cTid q), by unfold u16; omega, ?_⟩, b3, b4, ?_, ?_⟩, ?_⟩
  · unfold sendObject
    simp only [Rsp.run, Rsp.step, e1, Res.bind_ok]
    exact b1
  · rw [b5]
    congr 1
    exact Rsp.responses_accept r q
  · rw [b2.ready]; exact (Rsp.accept_ready r q).trans ho.ready
  · rw [b2.session]
    show (r.accept q).session ≠ 0
    rw [Rsp.accept_session]; exact ho.session
  · rw [b2.dev]; exact Rsp.accept_dev r q

theorem set_refused (r : Rsp Server) (ho : Open r) (q : List UInt8) (code : Nat) (hq : Asking q code)
    (hk : opKind code = some (.set true)) (hd : hasDataPhase code = true) (bs : List (List UInt8)) (hne : bs ≠ []) (c : Resp)
    (hc : dev.check r.dev code (cParams q) = c) (hcn : c ≠ .ok) :
    ∃ r', Answered r r' (sendObject q bs) q c [] ∧ r'.dev = r.dev :=
  set_refused_by dev r ho q code hq hk hd bs hne c hc hcn

end Server
end Mtp
