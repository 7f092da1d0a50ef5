import Verif.Props.Server
/-! Property theorems C99: folders a host makes. -/
namespace Props
open Mtp Spec
open Mtp.Server (New)

/-- The objects other than the new one. -/
theorem new_others {s s' : Server} {p y : Nat} {o : ObjInfo} (nw : New s s' p o y) (w : ServerOk s) (x : Nat) (hx : x ≠ y) :
    s'.tree.has x = s.tree.has x ∧ contents s' x = contents s x ∧ s'.infoOf x = s.infoOf x := by
  obtain ⟨pit, hp, _, _, ⟨v, hget⟩, _⟩ := nw.parent
  refine ⟨?_, nw.old w x hx⟩
  have hgx := hget x
  rw [if_neg hx] at hgx
  unfold Tree.has
  rw [hgx]
  by_cases e : x = p
  · rw [if_pos e, e, hp]; rfl
  · rw [if_neg e]

/-- C99. A host makes a folder (SendObjectInfo of an association; no data follows): answered OK with storage, folder and a new handle;
every other object, what it holds and what is known about it is as before; GetObjectInfo tells the dataset announced with its place
and, as both dates, when the folder was made. Missing: the dates announced are not told. -/
theorem C99_made_partial (r : Rsp Server) (ho : Open r) (w : ServerOk r.dev) (o : ObjInfo) (q : List UInt8) (bs : List (List UInt8))
    (hm : MakingFolder r.dev o q bs) :
    ∃ r1 h, Answered r r1 (sendObject q bs) q .ok [r.dev.sid, folderOf q, h] ∧
      r.dev.tree.has h = false ∧ ServerOk r1.dev ∧ contents r1.dev h = none ∧
      (∀ x, x ≠ h → r1.dev.tree.has x = r.dev.tree.has x ∧ contents r1.dev x = contents r.dev x ∧ r1.dev.infoOf x = r.dev.infoOf x) ∧
      ∀ q3, Asking q3 0x1008 → cParam q3 0 = h →
        ∃ r3 p, Answered r1 r3 (ask q3) q3 .ok [] ∧ dataOf r3.out = dataOf r1.out ++ p ∧
          readObjInfo 0 (dataContainer 0x1008 0 p) =
            some (toldOf r.dev.sid (folderOf q) o (r.dev.times.text (r.dev.times.clock r.dev.calls))) := by
  obtain ⟨r1, h, a1, _, _, nw⟩ := Server.offer_taken r ho w q hm.announce o hm.fits bs hm.dataset hm.size hm.offer
  have w1 := nw.ok w
  refine ⟨r1, h, a1, has_false.mpr nw.fresh, w1, ?_, new_others nw w, ?_⟩
  · obtain ⟨pit, _, _, _, ⟨v, hget⟩, _⟩ := nw.parent
    unfold contents
    rw [hget, if_pos rfl]
    exact if_pos hm.folder
  · intro q3 hq3 hp3
    have hi := info_new nw hm.offer.name
    rw [show r.dev.newDate (objInfoReceived o) = r.dev.times.text (r.dev.times.clock r.dev.calls) from by
      unfold Server.newDate
      rw [if_pos (show (objInfoReceived o).format = ASSOC from hm.folder)]] at hi
    have hp : folderOf q < 2 ^ 32 := by
      unfold folderOf
      split
      · decide
      · exact param_lt ..
    obtain ⟨dc, dl⟩ := Server.text_cut r.dev.times (r.dev.times.clock r.dev.calls)
    generalize r.dev.times.text (r.dev.times.clock r.dev.calls) = d at dc dl hi ⊢
    obtain ⟨r3, p, b1, b2, _, b4⟩ := Server.get_info r1 a1.again q3 hq3 _ (by rw [hp3]; exact hi)
      (told_fits hm.fits (sid_lt hm.offer (param_lt ..)) hp)
      (show o.size % 2 ^ 32 < 2 ^ 32 from Nat.mod_lt _ (by decide))
      ⟨received_short _, dl, dl⟩
    refine ⟨r3, p, b1, b2, ?_⟩
    rw [b4]
    unfold toldOf objInfoReceived
    simp only [Server.cut_received, dc]

theorem new_not_root {s s' : Server} {p y : Nat} {o : ObjInfo} (nw : New s s' p o y) (w : ServerOk s) : y ≠ 0 := by
  rintro rfl
  obtain ⟨ri, hr, _⟩ := w.wf.root
  rw [nw.fresh] at hr
  cases hr

/-- C99. The new folder is listed in the folder it was made in, and nothing is listed in it. -/
theorem C99_listed (r : Rsp Server) (ho : Open r) (w : ServerOk r.dev) (o : ObjInfo) (q : List UInt8) (bs : List (List UInt8))
    (hm : MakingFolder r.dev o q bs) (hall : r.dev.sid ≠ ALL) :
    ∃ r1 h, Answered r r1 (sendObject q bs) q .ok [r.dev.sid, folderOf q, h] ∧
      (r1.dev.tree.asked < 2 ^ 26 → ∀ q3, Asking q3 0x1007 → cParam q3 0 = r.dev.sid → cParam q3 1 = 0 →
        (cParam q3 2 = (if folderOf q = 0 then ALL else folderOf q) →
          ∃ r3 p l, Answered r1 r3 (ask q3) q3 .ok [] ∧ dataOf r3.out = dataOf r1.out ++ p ∧
            readHandles 0x1007 0 (dataContainer 0x1007 0 p) = some l ∧ l.Pairwise (· < ·) ∧
            ∀ x, x ∈ l ↔ x = h ∨ Asked r.dev.tree 0 (cParam q3 2) x) ∧
        (cParam q3 2 = h → ∃ r3 p, Answered r1 r3 (ask q3) q3 .ok [] ∧ dataOf r3.out = dataOf r1.out ++ p ∧
          readHandles 0x1007 0 (dataContainer 0x1007 0 p) = some [])) := by
  obtain ⟨r1, h, a1, _, _, nw⟩ := Server.offer_taken r ho w q hm.announce o hm.fits bs hm.dataset hm.size hm.offer
  have w1 := nw.ok w
  have h0 : h ≠ 0 := new_not_root nw w
  obtain ⟨pit, hp, hpf, _, ⟨v, hget⟩, _⟩ := nw.parent
  have hne : folderOf q ≠ ALL := by
    unfold folderOf
    split
    · decide
    · assumption
  have hph : folderOf q ≠ h := by
    intro e
    have := nw.fresh
    rw [← e] at this
    rw [show r.dev.tree.get (folderOf q) = some pit from hp] at this
    cases this
  refine ⟨r1, h, a1, fun hb q3 hq3 hs3 hf3 => ⟨fun ha3 => ?_, fun ha3 => ?_⟩⟩
  · obtain ⟨r3, p, l, b1, b2, _, b4, b5, b6⟩ := Server.get_handles r1 a1.again w1 q3 hq3 (hs3.trans nw.sid.symm)
      (by rw [nw.sid]; exact hall) hb hf3 (by
        rw [ha3]
        split
        · exact Or.inr (Or.inl rfl)
        · exact Or.inr (Or.inr ⟨_, (hget _).trans ((if_neg hph).trans (if_pos rfl)), hpf⟩))
    refine ⟨r3, p, l, b1, b2, b4, b5, fun x => ?_⟩
    rw [b6]
    by_cases e : x = h
    · subst e
      refine ⟨fun _ => Or.inl rfl, fun _ => ⟨_, (hget x).trans (if_pos rfl), h0, Or.inl rfl, ?_⟩⟩
      rw [ha3]
      split
      · next e => exact Or.inr (Or.inl ⟨rfl, congrArg some e⟩)
      · next e => exact Or.inr (Or.inr ⟨e, hne, rfl⟩)
    · rw [or_iff_right e]
      have hg := hget x
      rw [if_neg e] at hg
      by_cases e2 : x = folderOf q
      · rw [if_pos e2] at hg
        constructor
        · rintro ⟨it, g1, g2, g3, g4⟩
          rw [hg] at g1
          cases g1
          exact ⟨pit, by rw [e2]; exact hp, g2, g3, g4⟩
        · rintro ⟨it, g1, g2, g3, g4⟩
          rw [e2, show r.dev.tree.get (folderOf q) = some pit from hp] at g1
          cases g1
          exact ⟨_, hg, g2, g3, g4⟩
      · rw [if_neg e2] at hg
        unfold Asked
        rw [hg]
  · obtain ⟨r3, p, l, b1, b2, _, b4, b5, b6⟩ := Server.get_handles r1 a1.again w1 q3 hq3 (hs3.trans nw.sid.symm)
      (by rw [nw.sid]; exact hall) hb hf3 (Or.inr (Or.inr ⟨_, by rw [ha3, hget, if_pos rfl], hm.folder⟩))
    refine ⟨r3, p, b1, b2, ?_⟩
    rw [b4]
    congr 1
    refine List.eq_nil_iff_forall_not_mem.mpr fun x hx => ?_
    obtain ⟨it, g1, g2, _, g4⟩ := (b6 x).mp hx
    rw [ha3] at g4
    rcases g4 with g4 | ⟨g4, _⟩ | ⟨_, _, g4⟩
    · exact h0 g4
    · exact nw.notAll g4
    · obtain ⟨pp, ppit, k1, _, k2, k3, _⟩ := w1.wf.parent x it g1 g2
      rw [g4] at k1
      cases k1
      rw [hget, if_pos rfl] at k2
      cases k2
      simp at k3

/-- Nothing is in the way in a new folder. -/
theorem new_folder_free {s s' : Server} {p y : Nat} {o : ObjInfo} (nw : New s s' p o y) (n : Path) :
    ∀ it, s'.tree.get y = some it → AMap.get s'.tree.paths (join it.path n) = none := by
  intro it hy
  cases e : AMap.get s'.tree.paths (join it.path n) with
  | none => rfl
  | some x =>
    obtain ⟨ix, k1, k2⟩ := nw.wf.ofPath _ _ e
    have hb : Below s'.tree y x := (nw.wf.below_iff hy k1).mpr (Or.inr ⟨n, k2⟩)
    obtain ⟨pit, _, _, _, ⟨v, hget⟩, _⟩ := nw.parent
    have hxy : x ≠ y := by
      rintro rfl
      rw [hy] at k1
      cases k1
      have := congrArg List.length k2
      rw [join_length] at this
      omega
    obtain ⟨k, hk, _⟩ := Below.step_down nw.wf hb hxy hy
    rw [hget, if_pos rfl] at hy
    cases hy
    cases hk

/-- C99. The new folder can be filled at once: nothing is in the way of any file name in it, and when a file is uploaded there, exactly
that file is listed in it, and GetObject gives back its bytes. -/
theorem C99_filled (r : Rsp Server) (ho : Open r) (w : ServerOk r.dev) (hw : Willing r.dev) (o : ObjInfo) (q : List UInt8)
    (bs : List (List UInt8)) (hm : MakingFolder r.dev o q bs) (hall : r.dev.sid ≠ ALL) :
    ∃ r1 h, Answered r r1 (sendObject q bs) q .ok [r.dev.sid, folderOf q, h] ∧
      (∀ n it, r1.dev.tree.get h = some it → it.fmt = ASSOC ∧ AMap.get r1.dev.tree.paths (join it.path n) = none) ∧
      ∀ (o2 : ObjInfo) (data q1 : List UInt8) (bs1 : List (List UInt8)) (q2 : List UInt8) (ds : List (List UInt8)),
        Uploading r1.dev o2 data q1 bs1 q2 ds → cParam q1 1 = h →
        ∃ r2 y r3, Answered r1 r2 (sendObject q1 bs1) q1 .ok [r.dev.sid, h, y] ∧ Answered r2 r3 (sendObject q2 ds) q2 .ok [] ∧
          (r3.dev.tree.asked < 2 ^ 26 → ∀ q3, Asking q3 0x1007 → cParam q3 0 = r.dev.sid → cParam q3 1 = 0 → cParam q3 2 = h →
            ∃ r4 p, Answered r3 r4 (ask q3) q3 .ok [] ∧ dataOf r4.out = dataOf r3.out ++ p ∧
              readHandles 0x1007 0 (dataContainer 0x1007 0 p) = some [y]) ∧
          ∀ q4, Asking q4 0x1009 → cParam q4 0 = y →
            ∃ r4, Answered r3 r4 (ask q4) q4 .ok [] ∧ dataOf r4.out = dataOf r3.out ++ data := by
  obtain ⟨r1, h, a1, _, hios, nw⟩ := Server.offer_taken r ho w q hm.announce o hm.fits bs hm.dataset hm.size hm.offer
  have w1 := nw.ok w
  have h0 : h ≠ 0 := new_not_root nw w
  obtain ⟨pit, hp, hpf, _, ⟨v, hget⟩, _⟩ := nw.parent
  refine ⟨r1, h, a1, fun n it hi => ⟨?_, new_folder_free nw n it hi⟩, ?_⟩
  · rw [hget, if_pos rfl] at hi
    cases hi
    exact hm.folder
  intro o2 data q1 bs1 q2 ds hu hpar
  obtain ⟨r2, y, r3, b1, hnew, b2, hw3, w3, hc3, hsid, ⟨d, _, hi3⟩, _, ⟨it, hy, _, hyp⟩, hothers⟩ :=
    uploaded r1 a1.again w1 (fun a b => by rw [hios]; exact hw a b) o2 data q1 bs1 q2 ds hu
  have hf : folderOf q1 = h := by
    unfold folderOf
    rw [hpar, if_neg nw.notAll]
  rw [hf] at b1 hyp
  rw [nw.sid] at b1 hsid
  have hh1 : r1.dev.tree.has h = true := has_iff.mpr ⟨_, by rw [hget, if_pos rfl]⟩
  have hyh : y ≠ h := by rintro rfl; rw [hh1] at hnew; cases hnew
  have hy0 : y ≠ 0 := by
    rintro rfl
    obtain ⟨ri, hr, _⟩ := w1.wf.root
    rw [has_iff.mpr ⟨ri, hr⟩] at hnew
    cases hnew
  refine ⟨r2, y, r3, b1, b2, ?_, ?_⟩
  · intro hb q3 hq3 hs3 hf3 ha3
    obtain ⟨hit, hh3, hfold⟩ : ∃ hit, r3.dev.tree.get h = some hit ∧ hit.fmt = ASSOC := by
      obtain ⟨pp, ppit, k1, _, k2, _⟩ := w3.wf.parent y it hy hy0
      rw [hyp] at k1
      cases k1
      exact ⟨ppit, k2, w3.folders y it _ ppit hy hyp k2⟩
    obtain ⟨r4, p, l, c1, c2, _, c4, c5, c6⟩ := Server.get_handles r3 b2.again w3 q3 hq3 (hs3.trans hsid.symm)
      (by rw [hsid]; exact hall) hb hf3 (Or.inr (Or.inr ⟨hit, by rw [ha3]; exact hh3, hfold⟩))
    refine ⟨r4, p, c1, c2, ?_⟩
    rw [c4]
    congr 1
    have hmem : ∀ x, x ∈ l ↔ x = y := by
      intro x
      rw [c6, ha3]
      constructor
      · rintro ⟨ix, g1, g2, _, g4⟩
        refine Classical.byContradiction fun hxy => ?_
        have hxp : ix.parent = some h := by
          rcases g4 with g4 | ⟨g4, _⟩ | ⟨_, _, g4⟩
          · exact absurd g4 h0
          · exact absurd g4 nw.notAll
          · exact g4
        obtain ⟨pp, ppit, k1, k2, k3, _⟩ := w3.wf.parent x ix g1 g2
        rw [hxp] at k1
        cases k1
        obtain ⟨e1, _, e3⟩ := hothers x hxy
        rw [has_iff.mpr ⟨ix, g1⟩] at e1
        obtain ⟨ix1, m1⟩ := has_iff.mp e1.symm
        have hpar1 : ix1.par = h := by
          obtain ⟨o3, n3⟩ := Option.isSome_iff_exists.mp ((w3.known x).trans (has_iff.mpr ⟨ix, g1⟩))
          obtain ⟨o1, n1⟩ := Option.isSome_iff_exists.mp ((w1.known x).trans e1.symm)
          unfold Server.infoOf at e3
          rw [g1, n3, m1, n1] at e3
          have := congrArg (fun z => z.2.parent) e3
          simp only at this
          rw [← this, k2]
        obtain ⟨pp, ppit1, j1, j2, j3, j4, _⟩ := w1.wf.parent x ix1 m1 g2
        rw [hpar1] at j2
        subst j2
        rw [hget, if_pos rfl] at j3
        cases j3
        simp at j4
      · rintro rfl
        exact ⟨it, hy, hy0, Or.inl rfl, Or.inr (Or.inr ⟨h0, nw.notAll, hyp⟩)⟩
    have hnd : l.Nodup := c5.imp fun h => Nat.ne_of_lt h
    cases l with
    | nil => exact absurd ((hmem y).mpr rfl) (by simp)
    | cons a l =>
      have ea := (hmem a).mp (by simp)
      subst ea
      cases l with
      | nil => rfl
      | cons b l =>
        have eb := (hmem b).mp (by simp)
        subst eb
        simp at hnd
  · intro q4 hq4 hp4
    have hsize : r3.dev.sizeOf y = data.length := by
      have h1 := hu.size
      have h2 := hu.small
      rw [Server.size_info hi3]
      show o2.size % 2 ^ 32 = _
      omega
    obtain ⟨r4, c1, c2, _⟩ := Server.get_object r3 b2.again hw3 q4 hq4 y hp4 data hc3 hsize hu.small
    exact ⟨r4, c1, c2⟩

/-- The folder "d". -/
def demoFolder : ObjInfo := { demoFile with size := 0, format := ASSOC, fileName := [100] }

/-- The hypotheses of C99 are met, and so are those of the upload into the folder; the history as the host sees it. -/
theorem C99_witness : Open demoRsp ∧ ServerOk demoRsp.dev ∧ Willing demoRsp.dev ∧ demoRsp.dev.sid ≠ ALL ∧
    MakingFolder demoRsp.dev demoFolder demoAnn [dataContainer 0x100C 5 (encs (objInfoVals demoFolder))] ∧
    (match demoRsp.run Server.dev (sendObject demoAnn [dataContainer 0x100C 5 (encs (objInfoVals demoFolder))] ++
        sendObject (Toy.cmd 0x100C 7 [0x00010001, 1]) [dataContainer 0x100C 7 (encs (objInfoVals demoFile))] ++
        sendObject demoPut demoPutData ++ ask (Toy.cmd 0x1007 8 [0x00010001, 0, 1]) ++ ask (Toy.cmd 0x1009 9 [2])) with
      | .ok r => (responses r.out, dataOf r.out, r.dev.files)
      | .ub _ => ([], [], [])) =
      ([.response .ok 5 [0x00010001, 0, 1], .response .ok 7 [0x00010001, 1, 2], .response .ok 6 [], .response .ok 8 [], .response .ok 9 []],
        [1, 0, 0, 0, 2, 0, 0, 0, 7, 8, 9], [("/s/d/ab", [7, 8, 9])]) := by
  obtain ⟨h1, h2, h3, h4⟩ := C82_witness
  refine ⟨h1, h2, h3, by decide +kernel, ⟨by unfold ObjInfoFits demoFolder demoFile sampleInfo; decide, rfl, by decide +kernel, h4.announce, ?_, ?_⟩,
    by decide +kernel⟩
  · refine ⟨by decide +kernel, by decide +kernel, ⟨⟨['/', 's'], ['s'], ASSOC, 0, none, [], 1⟩, by decide +kernel, rfl, by decide +kernel,
      by decide +kernel⟩, rfl, by decide +kernel⟩
  · exact ⟨⟨_, rfl, by decide +kernel⟩, by decide +kernel⟩

/-- C99 is violated when a file has that name: the host is told OK with the handle of the file, as if it were the folder; nothing can be
uploaded into it, and nothing is listed in it. -/
theorem C99_file_there_violated : (match demoRsp.run Server.dev (sendObject demoAnn demoAnnData ++ sendObject demoPut demoPutData ++
      sendObject (Toy.cmd 0x100C 7 [0x00010001, 0xFFFFFFFF]) [dataContainer 0x100C 7 (encs (objInfoVals { demoFile with size := 0, format := ASSOC }))] ++
      sendObject (Toy.cmd 0x100C 8 [0x00010001, 1]) [dataContainer 0x100C 8 (encs (objInfoVals demoFile))] ++
      ask (Toy.cmd 0x1007 9 [0x00010001, 0, 1])) with
    | .ok r => responses r.out
    | .ub _ => []) =
    [.response .ok 5 [0x00010001, 0, 1], .response .ok 6 [], .response .ok 7 [0x00010001, 0, 1], .response .accessDenied 8 [],
      .response .invalidParentObject 9 []] := by
  decide +kernel

end Props
