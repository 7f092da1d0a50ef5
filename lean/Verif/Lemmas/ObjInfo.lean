import Verif.Lemmas.Rx
import Verif.Spec.ObjInfo
namespace Mtp

theorem putObjInfo_eq (t : Tx) (o : ObjInfo) : t.putObjInfo o = t.puts (Spec.objInfoVals o) := by
  have hb : ∀ x : Res Tx, (x >>= fun t' => Res.ok t') = x := by
    intro x; cases x <;> rfl
  simp only [Tx.putObjInfo, Spec.objInfoVals, Tx.puts, Tx.put, hb, u32, Nat.reducePow]

theorem objInfo_fits (o : ObjInfo) (h : Spec.ObjInfoFits o) :
    ∀ v ∈ Spec.objInfoVals o, Spec.Fits v := by
  unfold Spec.ObjInfoFits at h
  simp only [Spec.objInfoVals, List.forall_mem_cons, Spec.Fits]
  simp only [List.mem_cons, List.not_mem_nil, or_false, true_and, and_true]
  simp only [Nat.reducePow, Nat.reduceEqDiff, or_true, true_or, true_and, false_or, or_false, and_true] at h ⊢
  refine ⟨?_, ?_, ?_, ?_, ?_, ?_, ?_, ?_, ?_, ?_, ?_, ?_, ?_, ?_, ?_, ?_⟩ <;> first | omega | simp

theorem gets_int_cons {r : Rx} {w v : Nat} {ts : List Ty} {vs : List Val} {out : Rx}
    (h : r.gets (.int w :: ts) = .ok (.int w v :: vs, out)) :
    ∃ r1, r.getInt w = .ok (v, r1) ∧ r1.gets ts = .ok (vs, out) := by
  simp only [Rx.gets, Rx.get] at h
  cases h1 : r.getInt w with
  | ub u => simp [h1] at h
  | ok p =>
    simp only [h1, Res.bind_ok, Res.pure_eq] at h
    cases h2 : p.2.gets ts with
    | ub u => simp [h2] at h
    | ok q =>
      simp only [h2, Res.bind_ok, Res.ok.injEq, Prod.mk.injEq, List.cons.injEq, Val.int.injEq,
        true_and] at h
      obtain ⟨⟨h3, h4⟩, h5⟩ := h
      subst h3; subst h4; subst h5
      exact ⟨p.2, rfl, h2⟩

theorem gets_str_cons {r : Rx} {s : QStr} {ts : List Ty} {vs : List Val} {out : Rx}
    (h : r.gets (.str :: ts) = .ok (.str s :: vs, out)) :
    ∃ r1, r.getStr = .ok (s, r1) ∧ r1.gets ts = .ok (vs, out) := by
  simp only [Rx.gets, Rx.get] at h
  cases h1 : r.getStr with
  | ub u => simp [h1] at h
  | ok p =>
    simp only [h1, Res.bind_ok, Res.pure_eq] at h
    cases h2 : p.2.gets ts with
    | ub u => simp [h2] at h
    | ok q =>
      simp only [h2, Res.bind_ok, Res.ok.injEq, Prod.mk.injEq, List.cons.injEq, Val.str.injEq] at h
      obtain ⟨⟨h3, h4⟩, h5⟩ := h
      subst h3; subst h4; subst h5
      exact ⟨p.2, rfl, h2⟩

theorem getObjInfo_at {r : Rx} {pre post : List UInt8} {o : ObjInfo} (hf : Spec.ObjInfoFits o)
    (h : r.At pre (Spec.encs (Spec.objInfoVals o) ++ post)) :
    r.getObjInfo = .ok (Spec.objInfoReceived o,
      { r with off := pre.length + (Spec.encs (Spec.objInfoVals o)).length }) := by
  have hg := Rx.gets_at (objInfo_fits o hf) h
  generalize hR : (pre.length + (Spec.encs (Spec.objInfoVals o)).length) = n at *
  have key : ∀ (r : Rx) (vs : List Val) (out : Rx),
      r.gets ((Spec.objInfoVals o).map Val.ty) = .ok ((Spec.objInfoVals o).map Spec.received, out) →
      r.getObjInfo = .ok (Spec.objInfoReceived o, out) := by
    intro r _ out h
    simp only [Spec.objInfoVals, List.map_cons, List.map_nil, Val.ty, Spec.received] at h
    unfold Rx.getObjInfo
    obtain ⟨r0, e0, h⟩ := gets_int_cons h
    simp only [e0, Res.bind_ok]
    obtain ⟨r1, e1, h⟩ := gets_int_cons h
    simp only [e1, Res.bind_ok]
    obtain ⟨r2, e2, h⟩ := gets_int_cons h
    simp only [e2, Res.bind_ok]
    obtain ⟨r3, e3, h⟩ := gets_int_cons h
    simp only [e3, Res.bind_ok]
    obtain ⟨r4, e4, h⟩ := gets_int_cons h
    simp only [e4, Res.bind_ok]
    obtain ⟨r5, e5, h⟩ := gets_int_cons h
    simp only [e5, Res.bind_ok]
    obtain ⟨r6, e6, h⟩ := gets_int_cons h
    simp only [e6, Res.bind_ok]
    obtain ⟨r7, e7, h⟩ := gets_int_cons h
    simp only [e7, Res.bind_ok]
    obtain ⟨r8, e8, h⟩ := gets_int_cons h
    simp only [e8, Res.bind_ok]
    obtain ⟨r9, e9, h⟩ := gets_int_cons h
    simp only [e9, Res.bind_ok]
    obtain ⟨r10, e10, h⟩ := gets_int_cons h
    simp only [e10, Res.bind_ok]
    obtain ⟨r11, e11, h⟩ := gets_int_cons h
    simp only [e11, Res.bind_ok]
    obtain ⟨r12, e12, h⟩ := gets_int_cons h
    simp only [e12, Res.bind_ok]
    obtain ⟨r13, e13, h⟩ := gets_int_cons h
    simp only [e13, Res.bind_ok]
    obtain ⟨r14, e14, h⟩ := gets_int_cons h
    simp only [e14, Res.bind_ok]
    obtain ⟨r15, e15, h⟩ := gets_str_cons h
    simp only [e15, Res.bind_ok]
    obtain ⟨r16, e16, h⟩ := gets_str_cons h
    simp only [e16, Res.bind_ok]
    obtain ⟨r17, e17, h⟩ := gets_str_cons h
    simp only [e17, Res.bind_ok]
    obtain ⟨r18, e18, h⟩ := gets_str_cons h
    simp only [e18, Res.bind_ok]
    simp only [Rx.gets, Res.ok.injEq, Prod.mk.injEq, true_and] at h
    subst h
    rfl
  exact key r [] _ hg

end Mtp
