import Verif.Lemmas.ServerOffer
import Verif.Props.Download
/-! Answers of the server to a host. -/
namespace Mtp
open Spec
namespace Server

theorem cut_keep {s : QStr} (h0 : ∀ c ∈ s, c ≠ 0) (hl : s.length ≤ 254) : cut s = s := by
  unfold cut
  have : ∀ l : QStr, (∀ c ∈ l, c ≠ 0) → l.takeWhile (fun c => c != 0) = l := by
    intro l
    induction l with
    | nil => intro _; rfl
    | cons a l ih =>
      intro h
      rw [List.takeWhile_cons_of_pos (by simpa using h a (by simp)), ih (fun c hc => h c (by simp [hc]))]
  rw [this s h0, List.take_of_length_le hl]

theorem cut_ne {s : QStr} : ∀ c ∈ cut s, c ≠ 0 := by
  intro c hc
  unfold cut at hc
  have h1 := List.mem_of_mem_take hc
  have : ∀ l : QStr, c ∈ l.takeWhile (fun c => c != 0) → c ≠ 0 := by
    intro l
    induction l with
    | nil => intro h; cases h
    | cons a l ih =>
      intro h
      rw [List.takeWhile_cons] at h
      split at h
      · next ha =>
        rcases List.mem_cons.mp h with rfl | h
        · simpa using ha
        · exact ih h
      · cases h
  exact this s h1

theorem cut_len (s : QStr) : (cut s).length ≤ 254 := by
  unfold cut
  rw [List.length_take]
  omega

theorem swap_ne {u : UInt16} (h : u ≠ 0) : (u >>> 8) ||| (u <<< 8) ≠ 0 := by
  intro e
  rw [UInt16.or_eq_zero_iff] at e
  have e1 := congrArg UInt16.toNat e.1
  have e2 := congrArg UInt16.toNat e.2
  simp only [UInt16.toNat_shiftRight, UInt16.toNat_shiftLeft, Nat.shiftRight_eq_div_pow, Nat.shiftLeft_eq] at e1 e2
  have h8 : (8 : UInt16).toNat % 16 = 8 := rfl
  have h0 : (0 : UInt16).toNat = 0 := rfl
  rw [h8, h0] at e1 e2
  apply h
  apply UInt16.toNat_inj.mp
  rw [h0]
  have := u.toNat_lt
  omega

/-- A received text is transmitted as it is. -/
theorem cut_received (s : QStr) : cut (bom (cut s)) = bom (cut s) := by
  have h0 := cut_ne (s := s)
  have hl := cut_len s
  generalize cut s = c at *
  cases c with
  | nil => rfl
  | cons a c =>
    have h1 : ∀ u ∈ c, u ≠ 0 := fun u hu => h0 u (by simp [hu])
    have h2 : c.length ≤ 254 := by rw [List.length_cons] at hl; omega
    simp only [bom]
    split
    · exact cut_keep h1 h2
    · split
      · refine cut_keep ?_ (by rw [List.length_map]; exact h2)
        intro u hu
        obtain ⟨v, hv, rfl⟩ := List.mem_map.mp hu
        exact swap_ne (h1 v hv)
      · exact cut_keep h0 hl

/-- Usable names come back as they were. -/
theorem fromPath_toPath {n : QStr} (h : plain n = true) : fromPath (toPath n) = n := by
  unfold plain at h
  simp only [Bool.and_eq_true, List.all_eq_true] at h
  have h2 := h.2
  clear h
  unfold fromPath toPath
  induction n with
  | nil => rfl
  | cons u n ih =>
    simp only [List.map_cons]
    rw [ih (fun x hx => h2 x (by simp [hx]))]
    have hu := h2 u (by simp)
    simp only [Bool.and_eq_true, decide_eq_true_eq, Bool.not_eq_true', Bool.and_eq_false_iff, decide_eq_false_iff_not] at hu
    have hlt := u.toNat_lt
    have hv : (u.toNat).isValidChar := by
      unfold Nat.isValidChar
      have := hu.2
      omega
    have : (Char.ofNat u.toNat).toNat = u.toNat := by
      unfold Char.ofNat
      rw [dif_pos hv]
      rfl
    rw [this]
    congr 1
    exact UInt16.toNat_inj.mp (by rw [UInt16.toNat_ofNat_of_lt' (by omega)])

/-- GetObject. -/
theorem get_object (r : Rsp Server) (ho : Open r) (hw : Willing r.dev) (q : List UInt8) (hq : Asking q 0x1009) (h : Nat)
    (hh : cParam q 0 = h) (c : List UInt8) (hc : contents r.dev h = some c) (hs : r.dev.sizeOf h = c.length)
    (hm : c.length ≤ 0xFFFFFFFF - 12) :
    ∃ r', Answered r r' (ask q) q .ok [] ∧ dataOf r'.out = dataOf r.out ++ c ∧ r'.dev = r.dev.tickCall := by
  obtain ⟨it, hg, hn, hf⟩ : ∃ it, r.dev.tree.get h = some it ∧ it.fmt ≠ ASSOC ∧
      AMap.get r.dev.files (String.ofList it.path) = some c := by
    unfold contents at hc
    cases e : r.dev.tree.get h with
    | none => rw [e] at hc; cases hc
    | some it =>
      rw [e] at hc
      simp only at hc
      split at hc
      · cases hc
      · next hn => exact ⟨it, rfl, hn, hc⟩
  have hv := view_item r.dev h
  rw [hg] at hv
  have hres := Props.C31_download_succeeds r.dev.view (r.dev.ios r.dev.calls)
    (fun i => ⟨(hw r.dev.calls i).1, (hw r.dev.calls i).2.1⟩) h _ c hv hf (by simp [hn]) hs hm
  have hdat := Props.C31_download_exact_partial r.dev.view (r.dev.ios r.dev.calls) (fun _ => true) h _ c hv hf hs hm rfl _ hres
  have hqu : query r.dev 0x1009 (cParams q) = (r.dev.tickCall,
      downloadReply (getObject r.dev.view (r.dev.ios r.dev.calls) (fun _ => true) h) false) := by
    unfold query
    simp only [show (cParams q).getD 0 0 = h from hh]
    rfl
  obtain ⟨r', a1, a2, a3⟩ := query_answer r ho q 0x1009 hq _ rfl rfl .ok [] (by
    rw [hqu]
    unfold downloadReply
    simp only [hres, Option.map_some, Bool.false_eq_true, if_false])
  refine ⟨r', a1, ?_, by rw [a2, hqu]⟩
  rw [a3, hqu]
  congr 1
  show ((List.map (fun f : Frame => (f.payload, f.last)) _).map (·.1)).flatten = c
  rw [List.map_map]
  exact hdat.2.2

/-- … as the storage sees it. -/
theorem object_reply (s : Server) (hw : Willing s) (q : List UInt8) (h : Nat) (hh : cParam q 0 = h) (c : List UInt8)
    (hc : contents s h = some c) (hs : s.sizeOf h = c.length) (hm : c.length ≤ 0xFFFFFFFF - 12) :
    (query s 0x1009 (cParams q)).1 = s.tickCall ∧ (query s 0x1009 (cParams q)).2.response = some (.ok, []) ∧
      ((query s 0x1009 (cParams q)).2.frames.map (·.1)).flatten = c := by
  obtain ⟨it, hg, hn, hf⟩ : ∃ it, s.tree.get h = some it ∧ it.fmt ≠ ASSOC ∧ AMap.get s.files (String.ofList it.path) = some c := by
    unfold contents at hc
    cases e : s.tree.get h with
    | none => rw [e] at hc; cases hc
    | some it =>
      rw [e] at hc
      simp only at hc
      split at hc
      · cases hc
      · next hn => exact ⟨it, rfl, hn, hc⟩
  have hv := view_item s h
  rw [hg] at hv
  have hres := Props.C31_download_succeeds s.view (s.ios s.calls)
    (fun i => ⟨(hw s.calls i).1, (hw s.calls i).2.1⟩) h _ c hv hf (by simp [hn]) hs hm
  have hdat := Props.C31_download_exact_partial s.view (s.ios s.calls) (fun _ => true) h _ c hv hf hs hm rfl _ hres
  have hqu : query s 0x1009 (cParams q) = (s.tickCall, downloadReply (getObject s.view (s.ios s.calls) (fun _ => true) h) false) := by
    unfold query
    simp only [show (cParams q).getD 0 0 = h from hh]
    rfl
  rw [hqu]
  refine ⟨rfl, ?_, ?_⟩
  · unfold downloadReply
    simp only [hres, Option.map_some, Bool.false_eq_true, if_false]
  · show ((List.map (fun f : Frame => (f.payload, f.last)) _).map (·.1)).flatten = c
    rw [List.map_map]
    exact hdat.2.2

/-- A request for an object that does not exist. -/
theorem get_object_gone (r : Rsp Server) (ho : Open r) (q : List UInt8) (hq : Asking q 0x1009)
    (hh : r.dev.tree.has (cParam q 0) = false) :
    ∃ r', Answered r r' (ask q) q .invalidObjectHandle [] ∧ dataOf r'.out = dataOf r.out ∧ r'.dev = r.dev.tickCall := by
  have hv := view_item r.dev (cParam q 0)
  rw [has_false.mp hh] at hv
  have hqu : query r.dev 0x1009 (cParams q) = (r.dev.tickCall,
      downloadReply (getObject r.dev.view (r.dev.ios r.dev.calls) (fun _ => true) (cParam q 0)) false) := rfl
  have hd : getObject r.dev.view (r.dev.ios r.dev.calls) (fun _ => true) (cParam q 0) = ⟨[], some (.invalidObjectHandle, 0)⟩ := by
    unfold getObject getObjectCommon
    rw [hv]
    rfl
  rw [hd] at hqu
  obtain ⟨r', a1, a2, a3⟩ := query_answer r ho q 0x1009 hq _ rfl rfl .invalidObjectHandle [] (by
    rw [hqu]
    rfl)
  refine ⟨r', a1, ?_, by rw [a2, hqu]⟩
  rw [a3, hqu]
  simp [downloadReply]

theorem payload_container {op tid : Nat} {bytes p : List UInt8} (h : payload op tid bytes = some p) :
    bytes = dataContainer op tid p ∧ p = bytes.drop 12 := by
  unfold payload at h
  split at h
  · next e =>
    cases h
    refine ⟨?_, rfl⟩
    have hl : 12 ≤ bytes.length := by
      have := congrArg List.length e
      rw [header_length, List.length_take] at this
      omega
    unfold dataContainer
    rw [List.length_drop, show 12 + (bytes.length - 12) = bytes.length by omega, ← e, List.take_append_drop]
  · cases h

/-- GetObjectInfo. -/
theorem get_info (r : Rsp Server) (ho : Open r) (q : List UInt8) (hq : Asking q 0x1008) (o : ObjInfo)
    (hi : r.dev.infoOf (cParam q 0) = (.ok, o)) (hf : ObjInfoFits o) (hsz : o.size < 2 ^ 32)
    (hn : o.fileName.length ≤ 2 ^ 20 ∧ o.captureDate.length ≤ 2 ^ 20 ∧ o.modDate.length ≤ 2 ^ 20) :
    ∃ r' p, Answered r r' (ask q) q .ok [] ∧ dataOf r'.out = dataOf r.out ++ p ∧ r'.dev = r.dev ∧
      readObjInfo 0 (dataContainer 0x1008 0 p) = some { o with fileName := cut o.fileName, captureDate := cut o.captureDate, modDate := cut o.modDate, keywords := cut o.keywords } := by
  obtain ⟨bytes, e, hr⟩ := Props.C70_object_info_partial o hf hsz 96 0 (by decide) hn
  have hqu : query r.dev 0x1008 (cParams q) = (r.dev, oneFrame (getObjectInfo (r.dev.infoOf (cParam q 0)) 96 0)) := rfl
  rw [hi, e] at hqu
  obtain ⟨p, hp⟩ : ∃ p, payload 0x1008 0 bytes = some p := by
    cases hp : payload 0x1008 0 bytes with
    | some p => exact ⟨p, rfl⟩
    | none =>
      unfold readObjInfo readDataset at hr
      rw [hp] at hr
      cases hr
  obtain ⟨p1, p2⟩ := payload_container hp
  obtain ⟨r', a1, a2, a3⟩ := query_answer r ho q 0x1008 hq _ rfl rfl .ok [] (by rw [hqu]; rfl)
  refine ⟨r', p, a1, ?_, by rw [a2, hqu], by rw [← p1]; exact hr⟩
  rw [a3, hqu]
  simp [oneFrame, p2]

/-- ... about an object that does not exist. -/
theorem get_info_gone (r : Rsp Server) (ho : Open r) (q : List UInt8) (hq : Asking q 0x1008)
    (hh : r.dev.tree.has (cParam q 0) = false) :
    ∃ r', Answered r r' (ask q) q .invalidObjectHandle [] ∧ dataOf r'.out = dataOf r.out ∧ r'.dev = r.dev := by
  have hi : ∃ o, r.dev.infoOf (cParam q 0) = (.invalidObjectHandle, o) := by
    unfold infoOf
    rw [has_false.mp hh]
    exact ⟨_, rfl⟩
  obtain ⟨o, hi⟩ := hi
  have hqu : query r.dev 0x1008 (cParams q) = (r.dev, oneFrame (getObjectInfo (r.dev.infoOf (cParam q 0)) 96 0)) := rfl
  rw [hi] at hqu
  obtain ⟨r', a1, a2, a3⟩ := query_answer r ho q 0x1008 hq _ rfl rfl .invalidObjectHandle [] (by rw [hqu]; rfl)
  refine ⟨r', a1, ?_, by rw [a2, hqu]⟩
  rw [a3, hqu]
  simp [oneFrame, getObjectInfo]

/-- GetObjectHandles for this storage, any format. -/
theorem get_handles (r : Rsp Server) (ho : Open r) (hok : ServerOk r.dev) (q : List UInt8) (hq : Asking q 0x1007)
    (hs : cParam q 0 = r.dev.sid) (hs1 : r.dev.sid ≠ ALL) (hb : r.dev.tree.asked < 2 ^ 26) (hfm : cParam q 1 = 0)
    (ha : cParam q 2 = 0 ∨ cParam q 2 = ALL ∨ ∃ it, r.dev.tree.get (cParam q 2) = some it ∧ it.fmt = ASSOC) :
    ∃ r' p l, Answered r r' (ask q) q .ok [] ∧ dataOf r'.out = dataOf r.out ++ p ∧ r'.dev = r.dev ∧
      readHandles 0x1007 0 (dataContainer 0x1007 0 p) = some l ∧ l.Pairwise (· < ·) ∧
      ∀ x, x ∈ l ↔ Props.Asked r.dev.tree 0 (cParam q 2) x := by
  have hss : AMap.get [(r.dev.sid, r.dev.tree)] (cParam q 0) = some r.dev.tree := by
    rw [hs]
    simp [AMap.get]
  obtain ⟨bytes, l, e, h1, h2, h3⟩ := Props.C70_handles_partial [(r.dev.sid, r.dev.tree)] r.dev.fmts 0 (cParam q 0) 0 (cParam q 2)
    r.dev.tree (by rw [hs]; exact hs1) hss hok.wf hok.issued hb (by decide) (Or.inr (by decide)) (by
      unfold handlesCheck
      rw [if_neg (by rw [hss]; simp), if_neg (by simp), if_neg]
      rintro ⟨b1, b2, b3⟩
      rcases ha with ha | ha | ⟨it, ha, _⟩
      · exact b1 ha
      · exact b2 ha
      · simp only [List.all_cons, List.all_nil, Bool.and_true, Bool.not_eq_true'] at b3
        rw [has_false.mp b3] at ha
        cases ha) ha
  have hqu : query r.dev 0x1007 (cParams q) = (r.dev, oneFrame (getObjectHandles [(r.dev.sid, r.dev.tree)] r.dev.fmts 0
    (cParam q 0) (cParam q 1) (cParam q 2))) := rfl
  rw [hfm, e] at hqu
  obtain ⟨p, hp⟩ : ∃ p, payload 0x1007 0 bytes = some p := by
    cases hp : payload 0x1007 0 bytes with
    | some p => exact ⟨p, rfl⟩
    | none =>
      unfold readHandles readDataset at h1
      rw [hp] at h1
      cases h1
  obtain ⟨p1, p2⟩ := payload_container hp
  obtain ⟨r', a1, a2, a3⟩ := query_answer r ho q 0x1007 hq _ rfl rfl .ok [] (by rw [hqu]; rfl)
  refine ⟨r', p, l, a1, ?_, by rw [a2, hqu], by rw [← p1]; exact h1, h2, h3⟩
  rw [a3, hqu]
  simp [oneFrame, p2]

theorem New.info {s s' : Server} {p y : Nat} {o : ObjInfo} (nw : New s s' p o y) :
    s'.infoOf y = (.ok, { o with storageId := s.sid, fileName := fromPath (toPath o.fileName), parent := p, captureDate := s.newDate o, modDate := s.newDate o }) := by
  obtain ⟨pit, _, _, _, ⟨v, hget⟩, _⟩ := nw.parent
  unfold infoOf
  rw [hget, if_pos rfl, nw.infos, AMap.get_insert, if_pos rfl]
  rfl

theorem size_info {s : Server} {h : Nat} {o : ObjInfo} (e : s.infoOf h = (.ok, o)) : s.sizeOf h = o.size := by
  unfold infoOf at e
  unfold sizeOf
  split at e
  · next e1 e2 =>
    rw [e2]
    simp only [Prod.mk.injEq, true_and] at e
    subst e
    rfl
  · cases e

theorem info_has {s : Server} {h : Nat} {o : ObjInfo} (e : s.infoOf h = (.ok, o)) : s.tree.has h = true := by
  unfold infoOf at e
  split at e
  · next e1 e2 => exact has_iff.mpr ⟨_, e1⟩
  · cases e

/-- An announcement that can be granted. -/
theorem offer_taken_left (r : Rsp Server) (ho : Open r) (hok : ServerOk r.dev) (q : List UInt8) (hq : Asking q 0x100C)
    (o : ObjInfo) (hf : ObjInfoFits o) (bs : List (List UInt8))
    (hc : CarriesDataset bs (dataContainer 0x100C (cTid q) (encs (objInfoVals o)))) (hsz : o.size % 2 ^ 32 ≠ 0xFFFFFFFF)
    (hof : Offer r.dev (cParam q 0) (cParam q 1) o) :
    ∃ r' h, Answered r r' (sendObject q bs) q .ok [r.dev.sid, if cParam q 1 = ALL then 0 else cParam q 1, h] ∧
      Spec.Announced r' h (o.size % 2 ^ 32) ∧ r'.dev.ios = r.dev.ios ∧
      New r.dev r'.dev (if cParam q 1 = ALL then 0 else cParam q 1) { objInfoReceived o with parent := cParam q 1 } h ∧
      r'.dev.tree.asked < 0xFFFFFFFF := by
  obtain ⟨⟨b, hb, hb12⟩, hfl⟩ := hc
  obtain ⟨bs', rfl⟩ : ∃ bs', bs = b :: bs' := by
    cases bs with
    | nil => cases hb
    | cons a l => simp only [List.head?_cons, Option.mem_def, Option.some.injEq] at hb; subst hb; exact ⟨l, rfl⟩
  obtain ⟨r', c, ps, h, e1, e2, e3⟩ := send_info r ho q hq o hf b bs' hb12 hfl hsz
  obtain ⟨pit, f1, f2, f3, f4⟩ := hof.folder
  obtain ⟨s', y, g1, g2, g3⟩ := addItem_granted hok { objInfoReceived o with parent := cParam q 1 } (cParam q 1)
    (plain_slash hof.name) f1 f2 f3 f4 hof.granted hof.handles
  have hl := addItem_left r.dev { objInfoReceived o with parent := cParam q 1 } (cParam q 1) f1 f2
  rw [g1] at hl
  have hl := Nat.lt_of_le_of_lt hl hof.handles
  have hadd : r.dev.addInfo (cParams q) (dataContainer 0x100C (cTid q) (encs (objInfoVals o))) =
      (s', .ok, [r.dev.sid, ((s'.tree.get y).bind (·.parent)).getD 0, y], y) := by
    unfold addInfo
    rw [(info_decoded (cTid q) o hf).2]
    unfold announce
    simp only
    rw [show (if (cParams q).getD 0 0 = 0 then 0x00010001 else (cParams q).getD 0 0) = r.dev.sid from hof.storage,
      if_neg (by rintro (h | h); exact h rfl; rw [show plain (objInfoReceived o).fileName = true from hof.name] at h; cases h)]
    rw [show (cParams q).getD 1 0 = cParam q 1 from rfl, g1]
  rw [hadd] at e1
  simp only [Prod.mk.injEq] at e1
  obtain ⟨k1, k2, k3, k4⟩ := e1
  subst k2; subst k3; subst k4; subst k1
  obtain ⟨pit', _, _, _, ⟨v, hget⟩, _⟩ := g2.parent
  have hpar : ((r'.dev.tree.get y).bind (·.parent)).getD 0 = if cParam q 1 = ALL then 0 else cParam q 1 := by
    rw [hget, if_pos rfl]
    rfl
  rw [hpar, if_pos rfl] at e2
  exact ⟨r', y, e2, e3 rfl, g3, g2, hl⟩

theorem offer_taken (r : Rsp Server) (ho : Open r) (hok : ServerOk r.dev) (q : List UInt8) (hq : Asking q 0x100C)
    (o : ObjInfo) (hf : ObjInfoFits o) (bs : List (List UInt8))
    (hc : CarriesDataset bs (dataContainer 0x100C (cTid q) (encs (objInfoVals o)))) (hsz : o.size % 2 ^ 32 ≠ 0xFFFFFFFF)
    (hof : Offer r.dev (cParam q 0) (cParam q 1) o) :
    ∃ r' h, Answered r r' (sendObject q bs) q .ok [r.dev.sid, if cParam q 1 = ALL then 0 else cParam q 1, h] ∧
      Spec.Announced r' h (o.size % 2 ^ 32) ∧ r'.dev.ios = r.dev.ios ∧
      New r.dev r'.dev (if cParam q 1 = ALL then 0 else cParam q 1) { objInfoReceived o with parent := cParam q 1 } h := by
  obtain ⟨r', h, a, b, c, d, _⟩ := offer_taken_left r ho hok q hq o hf bs hc hsz hof
  exact ⟨r', h, a, b, c, d⟩

end Server
end Mtp
