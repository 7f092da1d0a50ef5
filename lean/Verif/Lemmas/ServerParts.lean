import Verif.Lemmas.ServerAnswers
/-! Parts of objects, counts, and unknown objects. -/
namespace Mtp
open Spec
namespace Server

theorem param_lt (q : List UInt8) (i : Nat) : cParam q i < 2 ^ 32 := by
  have key : ∀ v ∈ cParams q, v < 2 ^ 32 := by
    intro v hv
    unfold cParams at hv
    obtain ⟨j, _, rfl⟩ := List.mem_map.mp hv
    split
    · exact rd_lt 4 _ q
    · decide
  unfold cParam
  rw [List.getD_eq_getElem?_getD]
  cases e : (cParams q)[i]? with
  | none => decide
  | some v => exact key v (List.mem_of_getElem? e)

theorem contents_item {s : Server} {h : Nat} {c : List UInt8} (hc : contents s h = some c) : ∃ it, s.tree.get h = some it ∧
    it.fmt ≠ ASSOC ∧ AMap.get s.files (String.ofList it.path) = some c ∧
    AMap.get s.view.items h = some ⟨String.ofList it.path, false, s.sizeOf h⟩ := by
  unfold contents at hc
  cases e : s.tree.get h with
  | none => rw [e] at hc; cases hc
  | some it =>
    rw [e] at hc
    simp only at hc
    split at hc
    · cases hc
    · next hn =>
      have hv := view_item s h
      rw [e] at hv
      refine ⟨it, rfl, hn, hc, hv.trans ?_⟩
      simp [hn]

/-- A download's reply. -/
theorem download_answer (r : Rsp Server) (ho : Open r) (q : List UInt8) (code : Nat) (hq : Asking q code)
    (hk : opKind code = some (.query [])) (hd : hasDataPhase code = false) (d : Download) (b : Bool)
    (hqu : query r.dev code (cParams q) = (r.dev.tickCall, downloadReply d b)) (c : Resp) (n : Nat)
    (he : d.response = some (c, n)) :
    ∃ r', Answered r r' (ask q) q c (if b then [n] else []) ∧ dataOf r'.out = dataOf r.out ++ (d.frames.map (·.payload)).flatten ∧
      r'.dev = r.dev.tickCall := by
  obtain ⟨r', a1, a2, a3⟩ := query_answer r ho q code hq _ hk hd c (if b then [n] else []) (by
    rw [hqu]
    unfold downloadReply
    simp only [he, Option.map_some])
  refine ⟨r', ?_, ?_, by rw [a2, hqu]⟩
  · cases b <;> exact a1
  · rw [a3, hqu]
    congr 1
    show ((List.map (fun f : Frame => (f.payload, f.last)) _).map (·.1)).flatten = _
    rw [List.map_map]
    rfl

/-- GetPartialObject. -/
theorem get_partial (r : Rsp Server) (ho : Open r) (hw : Willing r.dev) (q : List UInt8) (hq : Asking q 0x101B) (c : List UInt8)
    (hc : contents r.dev (cParam q 0) = some c) (hs : r.dev.sizeOf (cParam q 0) = c.length) (hm : c.length < 2 ^ 63)
    (hoff : cParam q 1 ≤ c.length) :
    ∃ r', Answered r r' (ask q) q .ok [((c.drop (cParam q 1)).take (cParam q 2)).length] ∧
      dataOf r'.out = dataOf r.out ++ (c.drop (cParam q 1)).take (cParam q 2) ∧ r'.dev = r.dev.tickCall := by
  obtain ⟨it, hg, hn, hf, hv⟩ := contents_item hc
  have hres := (Props.C32_partial_succeeds r.dev.view (r.dev.ios r.dev.calls)
    (fun i => ⟨(hw r.dev.calls i).1, (hw r.dev.calls i).2.1⟩) _ _ c hv hf rfl hs hm (cParam q 2) (param_lt ..)).1
    (cParam q 1) (param_lt ..) hoff
  have hdat := (Props.C32_partial_exact r.dev.view (r.dev.ios r.dev.calls) (fun _ => true) _ _ _ (param_lt ..) (param_lt ..) _ c hv hf hs
    rfl _ hres).2.1.2.2
  obtain ⟨r', a1, a2, a3⟩ := download_answer r ho q 0x101B hq rfl rfl _ true rfl .ok _ hres
  exact ⟨r', a1, a2.trans (congrArg _ hdat), a3⟩

/-- GetPartialObject64. -/
theorem get_partial64 (r : Rsp Server) (ho : Open r) (hw : Willing r.dev) (q : List UInt8) (hq : Asking q 0x95C1) (c : List UInt8)
    (hc : contents r.dev (cParam q 0) = some c) (hs : r.dev.sizeOf (cParam q 0) = c.length) (hm : c.length < 2 ^ 63)
    (hoff : cParam q 2 * 2 ^ 32 + cParam q 1 ≤ c.length) :
    ∃ r', Answered r r' (ask q) q .ok [] ∧
      dataOf r'.out = dataOf r.out ++ (c.drop (cParam q 2 * 2 ^ 32 + cParam q 1)).take (cParam q 3) ∧ r'.dev = r.dev.tickCall := by
  obtain ⟨it, hg, hn, hf, hv⟩ := contents_item hc
  have hres := (Props.C32_partial_succeeds r.dev.view (r.dev.ios r.dev.calls)
    (fun i => ⟨(hw r.dev.calls i).1, (hw r.dev.calls i).2.1⟩) _ _ c hv hf rfl hs hm (cParam q 3) (param_lt ..)).2
    (cParam q 1) (cParam q 2) (param_lt ..) (param_lt ..) hoff
  have hdat := (Props.C32_partial64_exact r.dev.view (r.dev.ios r.dev.calls) (fun _ => true) _ _ _ _ (param_lt ..) (param_lt ..)
    (param_lt ..) _ c hv hf hs rfl _ hres).2.1.2.2
  obtain ⟨r', a1, a2, a3⟩ := download_answer r ho q 0x95C1 hq rfl rfl _ false rfl .ok _ hres
  exact ⟨r', a1, a2.trans (congrArg _ hdat), a3⟩

/-- ... from beyond the end. -/
theorem get_partial_beyond (r : Rsp Server) (ho : Open r) (q : List UInt8) (c : List UInt8)
    (hc : contents r.dev (cParam q 0) = some c) (hs : r.dev.sizeOf (cParam q 0) = c.length) :
    (Asking q 0x101B → c.length < cParam q 1 → ∃ r', Answered r r' (ask q) q .invalidParameter [0] ∧ dataOf r'.out = dataOf r.out) ∧
    (Asking q 0x95C1 → c.length < cParam q 2 * 2 ^ 32 + cParam q 1 →
      ∃ r', Answered r r' (ask q) q .invalidParameter [] ∧ dataOf r'.out = dataOf r.out) := by
  obtain ⟨it, hg, hn, hf, hv⟩ := contents_item hc
  have key : ∀ off size, c.length < off → getObjectCommon r.dev.view (r.dev.ios r.dev.calls) (fun _ => true) (cParam q 0) off size =
      { frames := [], response := some (.invalidParameter, 0) } := by
    intro off size h
    exact Props.C32_past_end_refused _ _ _ _ _ _ _ hv rfl (by show off > r.dev.sizeOf _; omega)
  have u : ∀ i, u32 (cParam q i) = cParam q i := fun i => by
    have := param_lt q i
    unfold u32; omega
  refine ⟨fun hq h => ?_, fun hq h => ?_⟩
  · have := key (u32 (cParam q 1)) (u32 (cParam q 2)) (by rw [u]; exact h)
    obtain ⟨r', a1, a2, a3⟩ := download_answer r ho q 0x101B hq rfl rfl _ true rfl .invalidParameter 0
      (congrArg Download.response this)
    refine ⟨r', a1, a2.trans ?_⟩
    exact (congrArg (fun d : Download => dataOf r.out ++ (d.frames.map (·.payload)).flatten) this).trans (by simp)
  · have := key (u32 (cParam q 2) * 4294967296 + u32 (cParam q 1)) (u32 (cParam q 3)) (by rw [u, u]; exact h)
    obtain ⟨r', a1, a2, a3⟩ := download_answer r ho q 0x95C1 hq rfl rfl _ false rfl .invalidParameter 0
      (congrArg Download.response this)
    refine ⟨r', a1, a2.trans ?_⟩
    exact (congrArg (fun d : Download => dataOf r.out ++ (d.frames.map (·.payload)).flatten) this).trans (by simp)

/-- Parts of an unknown object. -/
theorem get_partial_gone (r : Rsp Server) (ho : Open r) (q : List UInt8) (hh : r.dev.tree.has (cParam q 0) = false) :
    (Asking q 0x101B → ∃ r', Answered r r' (ask q) q .invalidObjectHandle [0] ∧ dataOf r'.out = dataOf r.out) ∧
    (Asking q 0x95C1 → ∃ r', Answered r r' (ask q) q .invalidObjectHandle [] ∧ dataOf r'.out = dataOf r.out) := by
  have hv := view_item r.dev (cParam q 0)
  rw [has_false.mp hh] at hv
  have key : ∀ off size, getObjectCommon r.dev.view (r.dev.ios r.dev.calls) (fun _ => true) (cParam q 0) off size =
      { frames := [], response := some (.invalidObjectHandle, 0) } := by
    intro off size
    unfold getObjectCommon
    rw [hv]
    rfl
  refine ⟨fun hq => ?_, fun hq => ?_⟩
  · have := key (u32 (cParam q 1)) (u32 (cParam q 2))
    obtain ⟨r', a1, a2, a3⟩ := download_answer r ho q 0x101B hq rfl rfl _ true rfl .invalidObjectHandle 0
      (congrArg Download.response this)
    refine ⟨r', a1, a2.trans ?_⟩
    exact (congrArg (fun d : Download => dataOf r.out ++ (d.frames.map (·.payload)).flatten) this).trans (by simp)
  · have := key (u32 (cParam q 2) * 4294967296 + u32 (cParam q 1)) (u32 (cParam q 3))
    obtain ⟨r', a1, a2, a3⟩ := download_answer r ho q 0x95C1 hq rfl rfl _ false rfl .invalidObjectHandle 0
      (congrArg Download.response this)
    refine ⟨r', a1, a2.trans ?_⟩
    exact (congrArg (fun d : Download => dataOf r.out ++ (d.frames.map (·.payload)).flatten) this).trans (by simp)

/-- GetObjectHandles and GetNumObjects for this storage, any format. -/
theorem handles_count (s : Server) (hok : ServerOk s) (hs1 : s.sid ≠ ALL) (fmt assoc : Nat) (hfm : fmt = 0 ∨ fmt ∈ s.fmts)
    (hf16 : fmt < 65536) (hun : assoc = 0 ∨ fmt ≠ UNDEF)
    (ha : assoc = 0 ∨ assoc = ALL ∨ ∃ it, s.tree.get assoc = some it ∧ it.fmt = ASSOC) :
    (handlesReply [(s.sid, s.tree)] s.fmts s.sid fmt assoc).1 = .ok ∧
    (handlesReply [(s.sid, s.tree)] s.fmts s.sid fmt assoc).2.Pairwise (· < ·) ∧
    (∀ x, x ∈ (handlesReply [(s.sid, s.tree)] s.fmts s.sid fmt assoc).2 ↔ Props.Asked s.tree fmt assoc x) ∧
    countReply [(s.sid, s.tree)] s.fmts s.sid fmt assoc = (.ok, (handlesReply [(s.sid, s.tree)] s.fmts s.sid fmt assoc).2.length) := by
  have hss : AMap.get [(s.sid, s.tree)] s.sid = some s.tree := by simp [AMap.get]
  refine Props.C22_reply_one_partial _ _ _ _ _ s.tree hs1 hss hok.wf hf16 hun ?_ ha
  unfold handlesCheck
  rw [if_neg (by rw [hss]; simp), if_neg, if_neg]
  · rintro ⟨b1, b2, b3⟩
    rcases ha with ha | ha | ⟨it, ha, _⟩
    · exact b1 ha
    · exact b2 ha
    · simp only [List.all_cons, List.all_nil, Bool.and_true, Bool.not_eq_true'] at b3
      rw [has_false.mp b3] at ha
      cases ha
  · rintro ⟨b1, b2⟩
    rcases hfm with h | h
    · exact b1 h
    · exact b2 (by rw [Nat.mod_eq_of_lt hf16]; exact h)

theorem get_count (r : Rsp Server) (ho : Open r) (hok : ServerOk r.dev) (q : List UInt8) (hq : Asking q 0x1006)
    (hs : cParam q 0 = r.dev.sid) (hs1 : r.dev.sid ≠ ALL) (hfm : cParam q 1 = 0 ∨ cParam q 1 ∈ r.dev.fmts)
    (hf16 : cParam q 1 < 65536) (hun : cParam q 2 = 0 ∨ cParam q 1 ≠ UNDEF)
    (ha : cParam q 2 = 0 ∨ cParam q 2 = ALL ∨ ∃ it, r.dev.tree.get (cParam q 2) = some it ∧ it.fmt = ASSOC) :
    ∃ (r' : Rsp Server) (l : List Nat), Answered r r' (ask q) q .ok [l.length] ∧ dataOf r'.out = dataOf r.out ∧ r'.dev = r.dev ∧
      l.Pairwise (· < ·) ∧ ∀ x, x ∈ l ↔ Props.Asked r.dev.tree (cParam q 1) (cParam q 2) x := by
  obtain ⟨h1, h2, h3, h4⟩ := handles_count r.dev hok hs1 (cParam q 1) (cParam q 2) hfm hf16 hun ha
  have hqu : query r.dev 0x1006 (cParams q) = (r.dev, ⟨[], some ((countReply [(r.dev.sid, r.dev.tree)] r.dev.fmts (cParam q 0) (cParam q 1) (cParam q 2)).1,
    [(countReply [(r.dev.sid, r.dev.tree)] r.dev.fmts (cParam q 0) (cParam q 1) (cParam q 2)).2])⟩) := rfl
  rw [hs, h4] at hqu
  obtain ⟨r', a1, a2, a3⟩ := query_answer r ho q 0x1006 hq _ rfl rfl .ok _ (by rw [hqu])
  refine ⟨r', _, a1, ?_, by rw [a2, hqu], h2, h3⟩
  rw [a3, hqu]
  simp

end Server
end Mtp
