import Verif.Lemmas.ServerSpare
import Verif.Props.Server
/-! Property theorems C88: objects that are not addressed are left alone. -/
namespace Props
open Mtp Spec
open Mtp.Server (Safe Survives)

theorem spare_run {x : Nat} {r r' : Rsp Server} {is : List (Rsp.In Server)} (h : SparesRun x r is r') :
    Rsp.SpareRun Server.dev (Server.Elsewhere x) (Server.Other x) (fun ps => ∃ i p, ps = [i, p, x]) r is r' := by
  induction h with
  | nil r => exact .nil r
  | @cons r r1 r' i is hs hi _ ih =>
    refine .cons hs ⟨fun b n e hst => ⟨fun hc => hi.delete b n e hst hc, fun hc => hi.edit b n e hst hc, fun hc => hi.copy b n e hst hc⟩, ?_, ?_, hi.others⟩ ih
    · intro e q _ _ h0
      obtain ⟨c1, c2⟩ := hi.cancel e
      unfold Rsp.cancelTarget at h0 ⊢
      cases hp : r.propList with
      | some p => exact c2 p hp
      | none =>
        cases hs : r.sendSeq with
        | some s => exact c1 s hs
        | none => rw [hp, hs] at h0; exact absurd rfl h0
    · rintro ⟨l, c, t, ps, e1, e2, i, p, rfl⟩
      exact hi.upload l c t i p e1 e2

theorem run_safe {x : Nat} {r r' : Rsp Server} (hx : AtRest x r) (w : ServerOk r.dev) {is : List (Rsp.In Server)}
    (h : SparesRun x r is r') (hb : r'.dev.tree.asked < 0xFFFFFFFF) :
    Survives x r.dev r'.dev ∧ Safe x r.dev r'.dev := by
  have hk : Rsp.Clear (· ≠ x) (Survives x) r.dev r := ⟨Survives.refl x r.dev, hx.seq, hx.list, hx.edit⟩
  have := (Rsp.run_clear (Server.sparing x hx.noRoot) (spare_run h) hk).dev
  exact ⟨this, this.safe w hb hx.there⟩

/-- C88. An object that is at rest survives every history that does not address it: it is still there, holds the same bytes, and
what the device tells about it is the same, but for its name and folder (it may have been renamed or moved). -/
theorem C88_survives (r r' : Rsp Server) (w : ServerOk r.dev) (x : Nat) (hx : AtRest x r) (is : List (Rsp.In Server))
    (h : SparesRun x r is r') (hb : r'.dev.tree.asked < 0xFFFFFFFF) :
    r'.dev.tree.has x = true ∧ contents r'.dev x = contents r.dev x ∧
      ∃ o n p, r.dev.infoOf x = (.ok, o) ∧ r'.dev.infoOf x = (.ok, { o with fileName := n, parent := p }) := by
  have sf := (run_safe hx w h hb).2
  refine ⟨sf.has hx.there, sf.contents hx.file, ?_⟩
  obtain ⟨ix, e⟩ := has_iff.mp hx.there
  obtain ⟨iy, e', hf⟩ := sf.item ix e
  have hk := w.known x
  rw [hx.there, Option.isSome_iff_exists] at hk
  obtain ⟨o, ho⟩ := hk
  refine ⟨_, Server.fromPath iy.name, iy.par, by unfold Server.infoOf; rw [e, ho], ?_⟩
  unfold Server.infoOf
  rw [e', sf.infos, ho]
  simp only [hf]

/-- C88 with C82: an uploaded object can be downloaded, byte for byte, after any history that does not address it: other uploads,
edits, deletions, cancellations and so on. -/
theorem C88_upload_survives (r : Rsp Server) (ho : Open r) (w : ServerOk r.dev) (hw : Willing r.dev) (o : ObjInfo)
    (data q1 : List UInt8) (bs : List (List UInt8)) (q2 : List UInt8) (ds : List (List UInt8))
    (hu : Uploading r.dev o data q1 bs q2 ds) :
    ∃ r1 h r2, Answered r r1 (sendObject q1 bs) q1 .ok [r.dev.sid, folderOf q1, h] ∧
      r.dev.tree.has h = false ∧ Answered r1 r2 (sendObject q2 ds) q2 .ok [] ∧
      ((∀ e, r2.edit = some e → e.handle ≠ h) →
        ∀ (is : List (Rsp.In Server)) (r3 : Rsp Server), SparesRun h r2 is r3 → r3.dev.tree.asked < 0xFFFFFFFF → Open r3 →
        ∀ q3, Asking q3 0x1009 → cParam q3 0 = h →
          ∃ r4, Answered r3 r4 (ask q3) q3 .ok [] ∧ dataOf r4.out = dataOf r3.out ++ data) := by
  obtain ⟨r1, h, r2, a1, hnew, a2, hw2, w2, hc2, _, ⟨_, _, hi2⟩, ⟨n1, n2, n3⟩, _, _⟩ := uploaded r ho w hw o data q1 bs q2 ds hu
  refine ⟨r1, h, r2, a1, hnew, a2, ?_⟩
  intro hed is r3 hrun hb ho3 q3 hq3 hp3
  have h0 : h ≠ 0 := by
    rintro rfl
    obtain ⟨ri, hr, _⟩ := w.wf.root
    rw [has_iff.mpr ⟨ri, hr⟩] at hnew
    cases hnew
  have hrest : AtRest h r2 := ⟨Server.info_has hi2, h0, (fun s e => by rw [n1] at e; cases e),
    (fun s e => by rw [n2] at e; cases e), hed, (fun it p n _ _ e => by rw [n3] at e; cases e)⟩
  obtain ⟨sv, sf⟩ := run_safe hrest w2 hrun hb
  have hsize : r3.dev.sizeOf h = data.length := by
    have h1 := hu.size
    have h2 := hu.small
    have : r3.dev.sizeOf h = r2.dev.sizeOf h := by unfold Server.sizeOf; rw [sf.infos]
    rw [this, Server.size_info hi2]
    show o.size % 2 ^ 32 = _
    omega
  obtain ⟨r4, b1, b2, _⟩ := Server.get_object r3 ho3 (fun a b => by rw [sv.ios]; exact hw2 a b) q3 hq3 h hp3 data
    ((sf.contents hrest.file).trans hc2) hsize hu.small
  exact ⟨r4, b1, b2⟩

/-! ### Witnesses and violations -/

/-- A check that implies `CopiedElsewhere`. -/
def copiedB (s : Server) (q : List UInt8) (x : Nat) : Bool :=
  match s.tree.get (cParam q 0), s.tree.get (cParam q 2), s.tree.get x with
  | some it, some pit, some ix => !((join pit.path it.name).isPrefixOf ix.path)
  | _, _, _ => true

theorem copiedB_ok {s : Server} {q : List UInt8} {x : Nat} (h : copiedB s q x = true) : CopiedElsewhere s q x := by
  intro it pit ix e1 e2 e3 hu
  unfold copiedB at h
  rw [e1, e2, e3] at h
  have : (join pit.path it.name).isPrefixOf ix.path = true := by
    rw [List.isPrefixOf_iff_prefix]
    rcases hu with e | ⟨n, e⟩
    · rw [e]; exact List.prefix_refl _
    · rw [e]
      exact ⟨'/' :: n, rfl⟩
  simp only [this] at h
  cases h

/-- A check that implies `Spares`, for objects in the root. -/
def spareB (x : Nat) (r : Rsp Server) (i : Rsp.In Server) (r' : Rsp Server) : Bool :=
  ((r.dev.tree.get x).bind (·.parent) == some 0) && ((r.dev.tree.get 0).bind (·.parent) == none) && x != 0 &&
  (match i with
    | .packet b _ _ _ => ((cCode b != 0x95C4 || cParam b 0 != x) && (cCode b != 0x101A || copiedB r.dev b x)) &&
        (cCode b != 0x100B || (cParam b 0 != ALL && cParam b 0 != x && cParam b 0 != 0))
    | .ev .cancel => r.sendSeq.isNone && r.propList.isNone
    | .ready _ => false
    | .env _ => false
    | _ => true) &&
  (r'.out.drop r.out.length).all fun o => match o with
    | .response _ _ [_, _, y] => y != x
    | _ => true

theorem spareB_ok {x : Nat} {r : Rsp Server} {i : Rsp.In Server} {r' : Rsp Server} (h : spareB x r i r' = true) :
    Spares x r i r' := by
  unfold spareB at h
  simp only [Bool.and_eq_true, beq_iff_eq, bne_iff_ne] at h
  obtain ⟨⟨⟨⟨h1, h2⟩, h3⟩, h4⟩, h5⟩ := h
  refine ⟨?_, ?_, ?_, ?_, ?_, ?_, ?_⟩
  · rintro b n rfl _ hc
    simp only [hc, Bool.and_eq_true, Bool.or_eq_true, bne_iff_ne, ne_eq, not_true_eq_false, false_or] at h4
    obtain ⟨_, ⟨a1, a2⟩, a3⟩ := h4
    refine ⟨a1, ?_⟩
    have h0 : ∀ h z, z = 0 → h ≠ 0 → ¬ Below r.dev.tree h z := by
      intro h z hz a3 hb
      cases hb with
      | self => exact a3 hz
      | child e ep _ => subst hz; rw [e] at h2; rw [Option.bind_some, ep] at h2; cases h2
    generalize cParam b 0 = k at *
    intro hb
    cases hb with
    | self => exact a2 rfl
    | child e ep hb =>
      rw [e, Option.bind_some, ep] at h1
      cases h1
      exact h0 _ _ rfl a3 hb
  · rintro b n rfl _ hc
    simp only [hc, Bool.and_eq_true, Bool.or_eq_true, bne_iff_ne, ne_eq, not_true_eq_false, false_or] at h4
    exact h4.1.1
  · rintro b n rfl _ hc
    simp only [hc, Bool.and_eq_true, Bool.or_eq_true, bne_iff_ne, ne_eq, not_true_eq_false, false_or] at h4
    exact copiedB_ok h4.1.2
  · intro l c t i p e hm
    rw [e, List.drop_left] at h5
    have := List.all_eq_true.mp h5 _ hm
    simp only [bne_self_eq_false] at this
    cases this
  · rintro rfl
    simp only [Bool.and_eq_true, Option.isNone_iff_eq_none] at h4
    exact ⟨(fun s e => by rw [h4.1] at e; cases e), (fun s e => by rw [h4.2] at e; cases e)⟩
  · rintro n rfl; simp at h4
  · rintro d rfl; simp at h4

private def spareRunB (x : Nat) : Rsp Server → List (Rsp.In Server) → Bool
  | _, [] => true
  | r, i :: is => match r.step Server.dev i with
    | .ok r1 => spareB x r i r1 && spareRunB x r1 is
    | .ub _ => false

private theorem spareRunB_ok {x : Nat} {is : List (Rsp.In Server)} : ∀ {r : Rsp Server}, spareRunB x r is = true → ∃ r', SparesRun x r is r' := by
  induction is with
  | nil => exact fun _ => ⟨_, .nil _⟩
  | cons i is ih =>
    intro r h
    unfold spareRunB at h
    cases hs : r.step Server.dev i with
    | ub _ => rw [hs] at h; cases h
    | ok r1 =>
      rw [hs] at h
      simp only [Bool.and_eq_true] at h
      obtain ⟨r', hr⟩ := ih h.2
      exact ⟨r', .cons hs (spareB_ok h.1) hr⟩

private def afterUpload : Rsp Server :=
  match demoRsp.run Server.dev (sendObject demoAnn demoAnnData ++ sendObject demoPut demoPutData) with
  | .ok r => r
  | .ub _ => demoRsp

/-- A folder "d". -/
def demoDir : ObjInfo := { sampleInfo with size := 0, format := ASSOC, fileName := [100] }

/-- The hypotheses of C88 are met: file 1 was uploaded; another file is uploaded as object 2, read and deleted, file 1 is renamed, a
transaction is cancelled, a folder is made and file 1 copied to it. -/
theorem C88_witness : AtRest 1 afterUpload ∧ ∃ r', SparesRun 1 afterUpload
    (sendObject (Toy.cmd 0x100C 7 [0x00010001, 0xFFFFFFFF]) [dataContainer 0x100C 7 (encs (objInfoVals { demoFile with fileName := [99] }))] ++
     sendObject (Toy.cmd 0x100D 8 []) [Toy.dat 0x100D 8 [1, 2, 3]] ++ ask (Toy.cmd 0x1009 9 [2]) ++
     sendObject (Toy.cmd 0x9804 10 [1, 0xDC07]) [Toy.dat 0x9804 10 (enc (.str [100]))] ++ ask (Toy.cmd 0x100B 11 [2]) ++
     [.packet (Toy.cmd 0x100C 12 [0x00010001, 0xFFFFFFFF]) true true [], .ev .cancel] ++
     sendObject (Toy.cmd 0x100C 13 [0x00010001, 0xFFFFFFFF]) [dataContainer 0x100C 13 (encs (objInfoVals { demoDir with fileName := [101] }))] ++
     ask (Toy.cmd 0x101A 14 [1, 0x00010001, 3])) r' := by
  refine ⟨⟨by decide +kernel, by decide, ?_, ?_, ?_, ?_⟩, spareRunB_ok (by decide +kernel)⟩
  · have : afterUpload.sendSeq.isNone = true := by decide +kernel
    intro s e; rw [e] at this; cases this
  · have : afterUpload.propList.isNone = true := by decide +kernel
    intro s e; rw [e] at this; cases this
  · have : afterUpload.edit.isNone = true := by decide +kernel
    intro s e; rw [e] at this; cases this
  · have : afterUpload.dev.dataFile.isNone = true := by decide +kernel
    intro it p n _ _ e; rw [e] at this; cases this

/-- Cancelling the announcement of an object deletes an object announced earlier (mtpresponder.cpp:2792-2816: the sequence begun by
the previous SendObjectInfo is still there if no data followed, as for folders). The host uploads file 1, creates folder 2, moves
the file into the folder, begins to announce another object and cancels: folder and file are gone, although the host was told OK
four times and never asked to delete anything. -/
theorem C88_cancelled_announcement_violated :
    (match demoRsp.run Server.dev (sendObject demoAnn demoAnnData ++ sendObject demoPut demoPutData ++
      sendObject (Toy.cmd 0x100C 7 [0x00010001, 0xFFFFFFFF]) [dataContainer 0x100C 7 (encs (objInfoVals demoDir))] ++
      ask (Toy.cmd 0x1019 8 [1, 0x00010001, 2]) ++ ask (Toy.cmd 0x1009 9 [1])) with
    | .ok r => (dataOf r.out, responses r.out, r.dev.files)
    | .ub _ => ([], [], [])) =
    ([7, 8, 9], [.response .ok 5 [0x00010001, 0, 1], .response .ok 6 [], .response .ok 7 [0x00010001, 0, 2], .response .ok 8 [],
      .response .ok 9 []], [("/s/d/ab", [7, 8, 9])]) ∧
    (match demoRsp.run Server.dev (sendObject demoAnn demoAnnData ++ sendObject demoPut demoPutData ++
      sendObject (Toy.cmd 0x100C 7 [0x00010001, 0xFFFFFFFF]) [dataContainer 0x100C 7 (encs (objInfoVals demoDir))] ++
      ask (Toy.cmd 0x1019 8 [1, 0x00010001, 2]) ++ [.packet (Toy.cmd 0x100C 9 [0x00010001, 0xFFFFFFFF]) true true [], .ev .cancel] ++
      ask (Toy.cmd 0x1009 10 [1])) with
    | .ok r => (dataOf r.out, responses r.out, r.dev.files)
    | .ub _ => ([], [], [])) =
    ([], [.response .ok 5 [0x00010001, 0, 1], .response .ok 6 [], .response .ok 7 [0x00010001, 0, 2], .response .ok 8 [],
      .response .invalidObjectHandle 10 []], []) := by
  decide +kernel

end Props
