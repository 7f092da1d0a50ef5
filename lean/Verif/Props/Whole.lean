import Verif.Lemmas.Whole
import Verif.Props.Mixed
import Verif.Props.DeviceRefs
/-! Property theorems C115: files on the whole device. -/
namespace Props
open Mtp Spec
open Mtp.Server (Safe Survives)

/-- C115. Whatever happened before: as long as none of the operations in `ownOps` is used, the whole device answers, byte for byte, and
changes its objects and files exactly as its storage alone. Missing: as C104_plain_partial. -/
theorem C115_stored_partial (r r' : Rsp Device) (hq : r.req = none) (is : List (Rsp.In Device))
    (hf : Rsp.Fitting Device.dev (fun c _ => c ∉ ownOps) r is) (hr : r.run Device.dev is = .ok r') :
    ∃ s, (stored r).run Server.dev (is.map (Rsp.In.via (·.ps.srv))) = .ok s ∧ s.out = r'.out ∧ s.dev = r'.dev.ps.srv :=
  ⟨stored r', (Rsp.sim_run Device.sim (fun _ _ _ => trivial) is (Device.good hq) hf hr trivial).1, rfl, rfl⟩

theorem run_safe_whole {x : Nat} {r r' : Rsp Device} (hx : AtRest x (stored r)) (w : ServerOk r.dev.ps.srv) 
    (h : SparesWhole x r r') (hb : r'.dev.ps.srv.tree.asked < 0xFFFFFFFF) :
    Survives x r.dev.ps.srv r'.dev.ps.srv ∧ Safe x r.dev.ps.srv r'.dev.ps.srv := by
  have hk : Rsp.Clear (· ≠ x) (fun d d' : Device => Survives x d.ps.srv d'.ps.srv) r.dev r :=
    ⟨Survives.refl x r.dev.ps.srv, hx.seq, hx.list, hx.edit⟩
  have := (Device.spares_clear hx.noRoot h hk).dev
  exact ⟨this, this.safe w hb hx.there⟩

/-- C115. An object that is at rest survives every history that does not address it, whatever properties are asked for and set on
the way: it is still there, holds the same bytes, and what the device knows about it is the same, but for its name and folder. -/
theorem C115_survives (r r' : Rsp Device) (w : ServerOk r.dev.ps.srv) (x : Nat) (hx : AtRest x (stored r)) 
    (h : SparesWhole x r r') (hb : r'.dev.ps.srv.tree.asked < 0xFFFFFFFF) :
    ServerOk r'.dev.ps.srv ∧ r'.dev.ps.srv.tree.has x = true ∧ contents r'.dev.ps.srv x = contents r.dev.ps.srv x ∧
      ∃ o n p, r.dev.ps.srv.infoOf x = (.ok, o) ∧ r'.dev.ps.srv.infoOf x = (.ok, { o with fileName := n, parent := p }) := by
  obtain ⟨sv, sf⟩ := run_safe_whole hx w h hb
  refine ⟨sv.later.2 w hb, sf.has hx.there, sf.contents hx.file, ?_⟩
  obtain ⟨ix, e⟩ := has_iff.mp hx.there
  obtain ⟨iy, e', hf⟩ := sf.item ix e
  have hk := w.known x
  rw [show r.dev.ps.srv.tree.has x = true from hx.there, Option.isSome_iff_exists] at hk
  obtain ⟨o, ho⟩ := hk
  rw [show (stored r).dev = r.dev.ps.srv from rfl] at e
  refine ⟨_, Server.fromPath iy.name, iy.par, by unfold Server.infoOf; rw [e, ho], ?_⟩
  unfold Server.infoOf
  rw [e', sf.infos, ho]
  simp only [hf]

/-- C115. What is uploaded is what is downloaded, with property requests in between: a host announces an object and sends its data, both
answered OK; after any further history that does not address it, in which properties of this and of other objects may be asked for
and set (it may be renamed, too), GetObject sends exactly those bytes. -/
theorem C115_upload_download (r : Rsp Device) (ho : Open r) (w : ServerOk r.dev.ps.srv) (hed : r.edit = none)
    (hw : Willing r.dev.ps.srv) (o : ObjInfo)
    (data q1 : List UInt8) (bs : List (List UInt8)) (q2 : List UInt8) (ds : List (List UInt8))
    (hu : Uploading r.dev.ps.srv o data q1 bs q2 ds) :
    ∃ r1 h r2, AnsweredBy Device.dev r r1 (sendObject q1 bs) q1 .ok [r.dev.ps.srv.sid, folderOf q1, h] ∧
      r.dev.ps.srv.tree.has h = false ∧ AnsweredBy Device.dev r1 r2 (sendObject q2 ds) q2 .ok [] ∧
      ServerOk r2.dev.ps.srv ∧ AtRest h (stored r2) ∧ contents r2.dev.ps.srv h = some data ∧
      ∀ (r3 : Rsp Device), SparesWhole h r2 r3 → r3.dev.ps.srv.tree.asked < 0xFFFFFFFF → Open r3 →
        ∀ q3, Asking q3 0x1009 → cParam q3 0 = h →
          ∃ r4, AnsweredBy Device.dev r3 r4 (ask q3) q3 .ok [] ∧ dataOf r4.out = dataOf r3.out ++ data := by
  have hsz := hu.size
  have hsm := hu.small
  have hmod : o.size % 2 ^ 32 = data.length := by omega
  obtain ⟨s1, h, a1, an, hios, nw, _⟩ := Server.offer_taken_left (stored r) (open_via.mpr ho) w q1 hu.announce o hu.fits bs hu.dataset
    (by omega) hu.offer
  rw [hmod] at an
  obtain ⟨s2, _, a2, b1, b2, b3, b4, b5, ⟨b6, b7, b8⟩, b9, b10⟩ := sent_left (stored r) s1 w a1.again
    (fun a b => by rw [hios]; exact hw a b) nw hu.file data an hsm q2 hu.send ds hu.packets
  obtain ⟨r1, e1, v1, g1⟩ := Rsp.sim_lift Device.sim (sendObject q1 bs) (Device.good ho.none)
    (Rsp.fitting_announce ho hu.announce (by rw [hu.announce.code]; decide))
    (by rw [via_transfer]; exact a1.run)
  subst v1
  have ho1 : Open r1 := open_via.mp a1.again
  have h0 : h ≠ 0 := by
    rintro rfl
    obtain ⟨it, e, _⟩ := w.wf.root
    have := nw.fresh
    rw [show (stored r).dev = r.dev.ps.srv from rfl, e] at this
    cases this
  obtain ⟨r2, e2, v2, g2⟩ := Rsp.sim_lift Device.sim (sendObject q2 ds) g1
    (Rsp.fitting_upload ho1 hu.send (by rw [hu.send.code]; decide) h0 (show Spec.Announced r1 h data.length from an) hu.packets.2.1)
    (by rw [via_transfer]; exact a2.run)
  subst v2
  have hed : r2.edit = none := by
    refine editing_none (transfer_edit Device.dev q2 (by rw [hu.send.code]; decide) (fun rx ex => ?_) ds e2)
      (editing_none (transfer_edit Device.dev q1 (by rw [hu.announce.code]; decide) (fun rx ex => ?_) bs e1) hed)
    · obtain ⟨r', e', g, -, -⟩ := Rsp.accept_going Device.dev r1 q2 h data.length ho1.idle ho1.ready ho1.session hu.send.tid hu.send.code an
      rw [e'] at ex
      cases ex
      exact g.st
    · have hk : opKind (cCode q1) = some .sendInfo := by rw [hu.announce.code]; decide
      rw [Rsp.receive_idle Device.dev r q1 [] ho.idle, Rsp.command_accept Device.dev r q1 [] (Or.inl ho.ready), hk] at ex
      cases ex
      show (r.accept q1).st = .waitData
      rw [Rsp.accept_st, hu.announce.code]; rfl
  have ho2 : Open r2 := open_via.mp a2.again
  have hsize : r2.dev.ps.srv.sizeOf h = data.length := by
    obtain ⟨m, b5⟩ := b5
    have := Server.size_info (h := h) (s := r2.dev.ps.srv) b5
    rw [this]
    have hinfo := info_new nw hu.offer.name
    rw [hinfo]
    simp only [toldOf, objInfoReceived]
    exact hmod
  have hrest : AtRest h (stored r2) := by
    obtain ⟨it, e, _⟩ := b9
    exact ⟨has_iff.mpr ⟨it, e⟩, h0, (fun s e => by rw [show (stored r2).sendSeq = none from b6] at e; cases e),
      (fun s e => by rw [show (stored r2).propList = none from b7] at e; cases e),
      (fun s e => by rw [show (stored r2).edit = none from hed] at e; cases e),
      (fun it p n _ _ e => by rw [show (stored r2).dev.dataFile = none from b8] at e; cases e)⟩
  refine ⟨r1, h, r2, ⟨e1, a1.out, ho1⟩, has_false.mpr nw.fresh, ⟨e2, a2.out, ho2⟩, b2, hrest, b3, ?_⟩
  intro r3 hrun hb ho3 q3 hq3 hp3
  obtain ⟨sv, sf⟩ := run_safe_whole hrest b2 hrun hb
  have hs3 : r3.dev.ps.srv.sizeOf h = data.length := by
    rw [← hsize]
    unfold Server.sizeOf
    rw [sf.infos]
  obtain ⟨s4, c1, c2, _⟩ := Server.get_object (stored r3) (open_via.mpr ho3)
    (fun a b => by rw [show (stored r3).dev.ios = _ from sv.ios]; exact b1 a b) q3 hq3 h hp3 data
    ((sf.contents hrest.file).trans b3) hs3 hsm
  obtain ⟨r4, e4, v4, _⟩ := Rsp.sim_lift Device.sim (ask q3) (Device.good ho3.none)
    (Rsp.fitting_ask ho3 (by rw [hq3.code]; decide)) c1.run
  subst v4
  exact ⟨r4, ⟨e4, c1.out, open_via.mp c1.again⟩, c2⟩

/-- A run that spares object `x`, checked. -/
def spareWholeB (x : Nat) : Rsp Device → List (Rsp.In Device) → Bool
  | _, [] => true
  | r, i :: is => match r.step Device.dev i with
    | .ok r1 => spareB x (stored r) (i.via (·.ps.srv)) (stored r1) && spareWholeB x r1 is
    | .ub _ => false

theorem spareWholeB_ok {x : Nat} {r0 r' : Rsp Device} {is : List (Rsp.In Device)} : ∀ {r : Rsp Device}, SparesWhole x r0 r →
    spareWholeB x r is = true → r.run Device.dev is = .ok r' → SparesWhole x r0 r' := by
  induction is with
  | nil => intro r t _ e; cases e; exact t
  | cons i is ih =>
    intro r t h e
    unfold spareWholeB at h
    simp only [Rsp.run] at e
    cases hs : r.step Device.dev i with
    | ub _ => rw [hs] at h; cases h
    | ok r1 =>
      rw [hs] at h e
      simp only [Bool.and_eq_true] at h
      exact ih (.step t hs (spareB_ok h.1)) h.2 e

/-- File 1 is uploaded. -/
def wholeUpload : List (Rsp.In Device) := sendObject demoAnn demoAnnData ++ sendObject demoPut demoPutData

/-- Another file is uploaded, references of file 1 are set and asked for, the file is renamed, a property of the device is asked for, the other file is
deleted. -/
def wholeLater : List (Rsp.In Device) :=
  sendObject (Toy.cmd 0x100C 7 [0x00010001, 0xFFFFFFFF]) [dataContainer 0x100C 7 (encs (objInfoVals { demoFile with fileName := [98] }))] ++
  sendObject (Toy.cmd 0x100D 8 []) [Toy.dat 0x100D 8 [1, 2, 3]] ++ demoRefs 1 [2] ++ ask (Toy.cmd 0x9810 10 [1]) ++
  sendObject (Toy.cmd 0x9804 11 [1, 0xDC07]) [dataContainer 0x9804 11 (enc (.str [99]))] ++ ask (Toy.cmd 0x1015 12 [0xD402]) ++
  ask (Toy.cmd 0x1005 13 [0x00010001]) ++ ask (Toy.cmd 0x100B 14 [2])

/-- The hypotheses of C115 are met: file 1 is uploaded, then all kinds of operations are used (references, properties of the object
and of the device, another file), and the file is downloaded under its new name. -/
theorem C115_witness : (Open demoGRsp ∧ ServerOk demoGRsp.dev.ps.srv ∧ demoGRsp.edit = none ∧ Willing demoGRsp.dev.ps.srv ∧
      Uploading demoGRsp.dev.ps.srv demoFile [7, 8, 9] demoAnn demoAnnData demoPut demoPutData) ∧
    (∃ r r' : Rsp Device, demoGRsp.run Device.dev wholeUpload = .ok r ∧ r.run Device.dev wholeLater = .ok r' ∧ SparesWhole 1 r r' ∧
      r'.dev.ps.srv.tree.asked < 0xFFFFFFFF ∧ Open r') ∧
    toldBy (wholeUpload ++ ask (Toy.cmd 0x1009 15 [1])) =
      ([.response .ok 5 [0x00010001, 0, 1], .response .ok 6 [], .response .ok 15 []], [7, 8, 9]) ∧
    (toldBy (wholeUpload ++ wholeLater)).1.length = 10 := by
  refine ⟨⟨⟨rfl, rfl, rfl, by decide⟩, demoEmpty_ok, rfl, C82_witness.2.2.1, C82_witness.2.2.2⟩, ?_, by decide +kernel, by decide +kernel⟩
  have hk : (match demoGRsp.run Device.dev wholeUpload with
      | .ok r => spareWholeB 1 r wholeLater && (match r.run Device.dev wholeLater with
          | .ok r1 => decide (r1.dev.ps.srv.tree.asked < 0xFFFFFFFF) && decide (r1.st = .idle) && r1.req.isNone && r1.ready && decide (r1.session ≠ 0)
          | .ub _ => false)
      | .ub _ => false) = true := by decide +kernel
  cases e : demoGRsp.run Device.dev wholeUpload with
  | ub k => rw [e] at hk; cases hk
  | ok r =>
    rw [e] at hk
    cases e1 : r.run Device.dev wholeLater with
    | ub k => simp only [e1, Bool.and_false] at hk; cases hk
    | ok r1 =>
      simp only [e1, Bool.and_eq_true, decide_eq_true_eq, Option.isNone_iff_eq_none] at hk
      obtain ⟨h1, ⟨⟨⟨h2, h3⟩, h4⟩, h5⟩, h6⟩ := hk
      exact ⟨r, r1, rfl, e1, spareWholeB_ok (.start _) h1 e1, h2, h3, h4, h5, h6⟩

end Props
