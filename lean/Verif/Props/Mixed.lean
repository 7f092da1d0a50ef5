import Verif.Lemmas.Mixed
import Verif.Props.Survive
import Verif.Props.Storages
import Verif.Props.ServerProps
/-! Property theorems C104: property requests between uploads and downloads. -/
namespace Props
open Mtp Spec
open Mtp.Server (Safe Survives)

/-- C104. Whatever was asked about properties before, and whatever is cached: as long as no property is asked for or set, the device
answers, byte for byte, and changes its objects and files exactly as a device without properties. Missing: requests before the
storage is ready; and data sent although the announcement (SendObjectPropList) was refused (see `Rsp.Fits`). -/
theorem C104_plain_partial (r r' : Rsp PServer) (hq : r.req = none) (is : List (Rsp.In PServer)) (hf : NoProps r is)
    (hr : r.run PServer.dev is = .ok r') :
    ∃ s, (plainly r).run Server.dev (is.map (Rsp.In.via (·.srv))) = .ok s ∧ s.out = r'.out ∧ s.dev = r'.dev.srv :=
  ⟨plainly r', (Rsp.sim_run PServer.sim (fun _ _ _ => trivial) is (PServer.good hq) hf hr trivial).1, rfl, rfl⟩

/-- C104. Asking for properties changes no object: GetObjPropValue and GetObjectPropList, with whatever parameters, are answered, and
the objects, the files and everything the device knows about them are the same afterwards. -/
theorem C104_asking (r : Rsp PServer) (ho : Open r) (q : List UInt8) (hq : Asking q 0x9803 ∨ Asking q 0x9805) :
    ∃ (r' : Rsp PServer) (c : Resp) (ps : List Nat), AnsweredBy PServer.dev r r' (ask q) q c ps ∧ r'.dev.srv = r.dev.srv := by
  have key : ∀ (code : Nat) (l : List Nat) (x : Res (Fac (Option Val) × Option (List UInt8) × Resp)), Asking q code →
      opKind code = some (.query l) → hasDataPhase code = false → r.dev.query code (cParams q) = r.dev.answer x →
      ∃ (r' : Rsp PServer) (c : Resp) (ps : List Nat), AnsweredBy PServer.dev r r' (ask q) q c ps ∧ r'.dev.srv = r.dev.srv := by
    intro code l x hq hk hd e
    have hres : ∃ c ps, (PServer.dev.query r.dev code (cParams q)).2.response = some (c, ps) := by
      show ∃ c ps, (PServer.query r.dev code (cParams q)).2.response = some (c, ps)
      rw [e]
      unfold PServer.answer
      split
      · next f b c => 
        unfold Server.oneFrame
        split
        · exact ⟨_, _, rfl⟩
        · exact ⟨_, _, rfl⟩
        · next e => cases e
      · exact ⟨_, _, rfl⟩
    obtain ⟨c, ps, hres⟩ := hres
    obtain ⟨r', a, d, _⟩ := Server.query_answer_by PServer.dev r ho q code hq l hk hd c ps hres
    refine ⟨r', c, _, a, ?_⟩
    rw [d]
    show (PServer.query r.dev code (cParams q)).1.srv = _
    rw [e, PServer.answer_srv]
  rcases hq with h | h
  · exact key 0x9803 _ _ h rfl rfl rfl
  · exact key 0x9805 _ _ h rfl rfl rfl

theorem spare_all {x : Nat} {r r' : Rsp PServer} {is : List (Rsp.In PServer)} (h : SparesAll x r is r') :
    Rsp.SpareRun PServer.dev (fun d q => Server.Elsewhere x d.srv q) (fun d h => Server.Other x d.srv h)
      (fun ps => ∃ i p, ps = [i, p, x]) r is r' := by
  induction h with
  | nil r => exact .nil r
  | @cons r r1 r' i is hs hi _ ih =>
    refine .cons hs ⟨fun b n e hst => ?_, ?_, ?_, ?_, ?_⟩ ih
    · have e' : Rsp.In.via (·.srv) i = .packet b true true n := by rw [e]; rfl
      exact ⟨fun hc => hi.delete b n e' hst hc, fun hc => hi.edit b n e' hst hc, fun hc => hi.copy b n e' hst hc⟩
    · intro e q _ _ h0
      obtain ⟨c1, c2⟩ := hi.cancel (by rw [e]; rfl)
      unfold Rsp.cancelTarget at h0 ⊢
      cases hp : r.propList with
      | some p => exact c2 p hp
      | none =>
        cases hs : r.sendSeq with
        | some s => exact c1 s hs
        | none => rw [hp, hs] at h0; exact absurd rfl h0
    · rintro ⟨l, c, t, ps, e1, e2, i, p, rfl⟩
      exact hi.upload l c t i p e1 e2
    · rintro n rfl
      exact hi.others.1 n rfl
    · rintro d rfl
      exact hi.others.2 d.srv rfl

theorem run_safe_all {x : Nat} {r r' : Rsp PServer} (hx : AtRest x (plainly r)) (w : ServerOk r.dev.srv) {is : List (Rsp.In PServer)}
    (h : SparesAll x r is r') (hb : r'.dev.srv.tree.asked < 0xFFFFFFFF) :
    Survives x r.dev.srv r'.dev.srv ∧ Safe x r.dev.srv r'.dev.srv := by
  have hk : Rsp.Clear (· ≠ x) (fun d d' : PServer => Survives x d.srv d'.srv) r.dev r :=
    ⟨Survives.refl x r.dev.srv, hx.seq, hx.list, hx.edit⟩
  have := (Rsp.run_clear (PServer.sparing x hx.noRoot) (spare_all h) hk).dev
  exact ⟨this, this.safe w hb hx.there⟩

/-- C104. An object that is at rest survives every history that does not address it, whatever properties are asked for and set on
the way: it is still there, holds the same bytes, and what the device knows about it is the same, but for its name and folder. -/
theorem C104_survives (r r' : Rsp PServer) (w : ServerOk r.dev.srv) (x : Nat) (hx : AtRest x (plainly r)) (is : List (Rsp.In PServer))
    (h : SparesAll x r is r') (hb : r'.dev.srv.tree.asked < 0xFFFFFFFF) :
    ServerOk r'.dev.srv ∧ r'.dev.srv.tree.has x = true ∧ contents r'.dev.srv x = contents r.dev.srv x ∧
      ∃ o n p, r.dev.srv.infoOf x = (.ok, o) ∧ r'.dev.srv.infoOf x = (.ok, { o with fileName := n, parent := p }) := by
  obtain ⟨sv, sf⟩ := run_safe_all hx w h hb
  refine ⟨sv.later.2 w hb, sf.has hx.there, sf.contents hx.file, ?_⟩
  obtain ⟨ix, e⟩ := has_iff.mp hx.there
  obtain ⟨iy, e', hf⟩ := sf.item ix e
  have hk := w.known x
  rw [show r.dev.srv.tree.has x = true from hx.there, Option.isSome_iff_exists] at hk
  obtain ⟨o, ho⟩ := hk
  rw [show (plainly r).dev = r.dev.srv from rfl] at e
  refine ⟨_, Server.fromPath iy.name, iy.par, by unfold Server.infoOf; rw [e, ho], ?_⟩
  unfold Server.infoOf
  rw [e', sf.infos, ho]
  simp only [hf]

/-- C104. What is uploaded is what is downloaded, with property requests in between: a host announces an object and sends its data, both
answered OK; after any further history that does not address it, in which properties of this and of other objects may be asked for
and set (it may be renamed, too), GetObject sends exactly those bytes. -/
theorem C104_upload_download (r : Rsp PServer) (ho : Open r) (w : ServerOk r.dev.srv) (hed : r.edit = none)
    (hw : Willing r.dev.srv) (o : ObjInfo)
    (data q1 : List UInt8) (bs : List (List UInt8)) (q2 : List UInt8) (ds : List (List UInt8))
    (hu : Uploading r.dev.srv o data q1 bs q2 ds) :
    ∃ r1 h r2, AnsweredBy PServer.dev r r1 (sendObject q1 bs) q1 .ok [r.dev.srv.sid, folderOf q1, h] ∧
      r.dev.srv.tree.has h = false ∧ AnsweredBy PServer.dev r1 r2 (sendObject q2 ds) q2 .ok [] ∧
      ServerOk r2.dev.srv ∧ AtRest h (plainly r2) ∧
      ∀ (is : List (Rsp.In PServer)) (r3 : Rsp PServer), SparesAll h r2 is r3 → r3.dev.srv.tree.asked < 0xFFFFFFFF → Open r3 →
        ∀ q3, Asking q3 0x1009 → cParam q3 0 = h →
          ∃ r4, AnsweredBy PServer.dev r3 r4 (ask q3) q3 .ok [] ∧ dataOf r4.out = dataOf r3.out ++ data := by
  have hsz := hu.size
  have hsm := hu.small
  have hmod : o.size % 2 ^ 32 = data.length := by omega
  obtain ⟨s1, h, a1, an, hios, nw, _⟩ := Server.offer_taken_left (plainly r) (open_via.mpr ho) w q1 hu.announce o hu.fits bs hu.dataset
    (by omega) hu.offer
  rw [hmod] at an
  obtain ⟨s2, _, a2, b1, b2, b3, b4, b5, ⟨b6, b7, b8⟩, b9, b10⟩ := sent_left (plainly r) s1 w a1.again
    (fun a b => by rw [hios]; exact hw a b) nw hu.file data an hsm q2 hu.send ds hu.packets
  obtain ⟨r1, e1, v1, g1⟩ := Rsp.sim_lift PServer.sim (sendObject q1 bs) (PServer.good ho.none)
    (Rsp.fitting_announce ho hu.announce (by rw [hu.announce.code]; decide))
    (by rw [via_transfer]; exact a1.run)
  subst v1
  have ho1 : Open r1 := open_via.mp a1.again
  have h0 : h ≠ 0 := by
    rintro rfl
    obtain ⟨it, e, _⟩ := w.wf.root
    have := nw.fresh
    rw [show (plainly r).dev = r.dev.srv from rfl, e] at this
    cases this
  obtain ⟨r2, e2, v2, g2⟩ := Rsp.sim_lift PServer.sim (sendObject q2 ds) g1
    (Rsp.fitting_upload ho1 hu.send (by rw [hu.send.code]; decide) h0 (show Spec.Announced r1 h data.length from an) hu.packets.2.1)
    (by rw [via_transfer]; exact a2.run)
  subst v2
  have hed : r2.edit = none := by
    refine editing_none (transfer_edit PServer.dev q2 (by rw [hu.send.code]; decide) (fun rx ex => ?_) ds e2)
      (editing_none (transfer_edit PServer.dev q1 (by rw [hu.announce.code]; decide) (fun rx ex => ?_) bs e1) hed)
    · obtain ⟨r', e', g, -, -⟩ := Rsp.accept_going PServer.dev r1 q2 h data.length ho1.idle ho1.ready ho1.session hu.send.tid hu.send.code an
      rw [e'] at ex
      cases ex
      exact g.st
    · have hk : opKind (cCode q1) = some .sendInfo := by rw [hu.announce.code]; decide
      rw [Rsp.receive_idle PServer.dev r q1 [] ho.idle, Rsp.command_accept PServer.dev r q1 [] (Or.inl ho.ready), hk] at ex
      cases ex
      show (r.accept q1).st = .waitData
      rw [Rsp.accept_st, hu.announce.code]; rfl
  have ho2 : Open r2 := open_via.mp a2.again
  have hsize : r2.dev.srv.sizeOf h = data.length := by
    obtain ⟨m, b5⟩ := b5
    have := Server.size_info (h := h) (s := r2.dev.srv) b5
    rw [this]
    have hinfo := info_new nw hu.offer.name
    rw [hinfo]
    simp only [toldOf, objInfoReceived]
    exact hmod
  have hrest : AtRest h (plainly r2) := by
    obtain ⟨it, e, _⟩ := b9
    exact ⟨has_iff.mpr ⟨it, e⟩, h0, (fun s e => by rw [show (plainly r2).sendSeq = none from b6] at e; cases e),
      (fun s e => by rw [show (plainly r2).propList = none from b7] at e; cases e),
      (fun s e => by rw [show (plainly r2).edit = none from hed] at e; cases e),
      (fun it p n _ _ e => by rw [show (plainly r2).dev.dataFile = none from b8] at e; cases e)⟩
  refine ⟨r1, h, r2, ⟨e1, a1.out, ho1⟩, has_false.mpr nw.fresh, ⟨e2, a2.out, ho2⟩, b2, hrest, ?_⟩
  intro is r3 hrun hb ho3 q3 hq3 hp3
  obtain ⟨sv, sf⟩ := run_safe_all hrest b2 hrun hb
  have hs3 : r3.dev.srv.sizeOf h = data.length := by
    rw [← hsize]
    unfold Server.sizeOf
    rw [sf.infos]
  obtain ⟨s4, c1, c2, _⟩ := Server.get_object (plainly r3) (open_via.mpr ho3)
    (fun a b => by rw [show (plainly r3).dev.ios = _ from sv.ios]; exact b1 a b) q3 hq3 h hp3 data
    ((sf.contents hrest.file).trans b3) hs3 hsm
  obtain ⟨r4, e4, v4, _⟩ := Rsp.sim_lift PServer.sim (ask q3) (PServer.good ho3.none)
    (Rsp.fitting_ask ho3 (by rw [hq3.code]; decide)) c1.run
  subst v4
  exact ⟨r4, ⟨e4, c1.out, open_via.mp c1.again⟩, c2⟩

/-! ### Witness -/

private def spareAllB (x : Nat) : Rsp PServer → List (Rsp.In PServer) → Bool
  | _, [] => true
  | r, i :: is => match r.step PServer.dev i with
    | .ok r1 => spareB x (plainly r) (i.via (·.srv)) (plainly r1) && spareAllB x r1 is
    | .ub _ => false

private theorem spareAllB_ok {x : Nat} {is : List (Rsp.In PServer)} : ∀ {r : Rsp PServer}, spareAllB x r is = true →
    ∃ r', SparesAll x r is r' := by
  induction is with
  | nil => exact fun _ => ⟨_, .nil _⟩
  | cons i is ih =>
    intro r h
    unfold spareAllB at h
    cases hs : r.step PServer.dev i with
    | ub _ => rw [hs] at h; cases h
    | ok r1 =>
      rw [hs] at h
      simp only [Bool.and_eq_true] at h
      obtain ⟨r', hr⟩ := ih h.2
      exact ⟨r', .cons hs (spareB_ok h.1) hr⟩

/-- After the upload of file 1. -/
private def pAfter : Rsp PServer :=
  match demoPRsp.run PServer.dev (sendObject demoAnn demoAnnData ++ sendObject demoPut demoPutData) with
  | .ok r => r
  | .ub _ => demoPRsp

/-- The hypotheses of C104 are met: properties of file 1 are asked for, one by one and all at once, its name is set (once alone and once
in a list), then it is downloaded under its new name; another file is uploaded and deleted meanwhile. -/
theorem C104_witness : (Open demoPRsp ∧ ServerOk demoPRsp.dev.srv ∧ demoPRsp.edit = none ∧ Willing demoPRsp.dev.srv ∧
      Uploading demoPRsp.dev.srv demoFile [7, 8, 9] demoAnn demoAnnData demoPut demoPutData) ∧
    (∃ r', SparesAll 1 pAfter
      (propValue 7 1 0xDC07 ++ ask (Toy.cmd 0x9805 8 [1, 0, 0xFFFFFFFF, 0, 0]) ++
       sendObject (Toy.cmd 0x9804 9 [1, 0xDC07]) [dataContainer 0x9804 9 (enc (.str [99]))] ++
       sendObject (Toy.cmd 0x100C 10 [0x00010001, 0xFFFFFFFF]) [dataContainer 0x100C 10 (encs (objInfoVals { demoFile with fileName := [98] }))] ++
       sendObject (Toy.cmd 0x100D 11 []) [Toy.dat 0x100D 11 [1, 2, 3]] ++ propValue 12 2 0xDC04 ++ ask (Toy.cmd 0x100B 13 [2]) ++
       sendObject (Toy.cmd 0x9806 14 []) [dataContainer 0x9806 14 (Spec.listData [⟨1, 0xDC07, 0xFFFF, .str [100]⟩])]) r') ∧
    gets (sendObject demoAnn demoAnnData ++ sendObject demoPut demoPutData ++
       sendObject (Toy.cmd 0x9804 9 [1, 0xDC07]) [dataContainer 0x9804 9 (enc (.str [99]))] ++
       sendObject (Toy.cmd 0x9806 14 []) [dataContainer 0x9806 14 (Spec.listData [⟨1, 0xDC07, 0xFFFF, .str [100]⟩])] ++
       ask (Toy.cmd 0x1009 15 [1])) =
      ([.response .ok 5 [0x00010001, 0, 1], .response .ok 6 [], .response .ok 9 [], .response .ok 14 [], .response .ok 15 []], [7, 8, 9]) := by
  refine ⟨⟨⟨rfl, rfl, rfl, by decide⟩, demoEmpty_ok, rfl, C82_witness.2.2.1, C82_witness.2.2.2⟩,
    spareAllB_ok (by decide +kernel), by decide +kernel⟩

end Props
