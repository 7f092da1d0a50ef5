import Verif.Props.ServerProps
import Verif.Props.ServerSet
import Verif.Props.PropList
import Verif.Props.Folders
/-! C108: lists of properties of many objects, end to end. -/
namespace Props
open Mtp Spec

/-- The folder whose objects a list request with first parameter `p` is about: 0xFFFFFFFF for the root level, 0 for everywhere. -/
def scope (p : Nat) : Nat := if p = 0 then ALL else if p = ALL then 0 else p

/-- The objects GetObjectPropList request `q` is about: depth 0, the object named; otherwise the objects with the format (if one is
given) in the folder named (first parameter 0: at the root level; 0xFFFFFFFF: everywhere), each once. -/
def Selects (t : Tree) (q : List UInt8) (hs : List Nat) : Prop :=
  cParam q 4 = 0 ∧ hs = [cParam q 0] ∨
  (cParam q 4 = 1 ∨ cParam q 4 = ALL) ∧ hs.Nodup ∧ ∀ x, x ∈ hs ↔ Asked t (cParam q 1 % 65536) (scope (cParam q 0)) x

/-- A request the device can carry out: about an object that exists, or about the objects in a folder, at the root level or
everywhere; not about objects of undefined format in one folder. -/
def Listable (t : Tree) (q : List UInt8) : Prop :=
  cParam q 4 = 0 ∧ cParam q 0 ≠ 0 ∧ t.has (cParam q 0) = true ∨
  (cParam q 4 = 1 ∨ cParam q 4 = ALL) ∧ (cParam q 0 = ALL ∨ cParam q 1 % 65536 ≠ UNDEF) ∧
    (cParam q 0 = 0 ∨ cParam q 0 = ALL ∨ ∃ it, t.get (cParam q 0) = some it ∧ it.fmt = ASSOC)

/-- The storage has at most `n` objects. -/
def AtMost (t : Tree) (n : Nat) : Prop := ∀ l : List Nat, l.Nodup → (∀ x ∈ l, t.has x = true) → l.length ≤ n

/-- What the request is about. -/
private theorem selected (d : PServer) (w : ServerOk d.srv) (q : List UInt8) (hl : Listable d.srv.tree q) :
    ∃ hs, Selects d.srv.tree q hs ∧ Asks d.view (cParam q 0) (cParam q 1) (cParam q 4) hs ∧ hs.Nodup ∧
      ∀ h ∈ hs, d.srv.tree.has h = true := by
  rcases hl with ⟨h1, h2, h3⟩ | ⟨h1, h2, h3⟩
  · exact ⟨[cParam q 0], Or.inl ⟨h1, rfl⟩, Or.inl ⟨h1, h2, rfl⟩, by simp, by simpa using h3⟩
  · have hsc : scope (cParam q 0) = 0 ∨ cParam q 1 % 65536 ≠ UNDEF := by
      rcases h2 with h2 | h2
      · left; rw [h2]; rfl
      · exact Or.inr h2
    have hsa : scope (cParam q 0) = 0 ∨ scope (cParam q 0) = ALL ∨ ∃ it, d.srv.tree.get (scope (cParam q 0)) = some it ∧ it.fmt = ASSOC := by
      unfold scope
      by_cases c1 : cParam q 0 = 0
      · rw [if_pos c1]; exact Or.inr (Or.inl rfl)
      · rw [if_neg c1]
        by_cases c2 : cParam q 0 = ALL
        · rw [if_pos c2]; exact Or.inl rfl
        · rw [if_neg c2]
          exact Or.inr (Or.inr ((h3.resolve_left c1).resolve_left c2))
    obtain ⟨k1, k2, k3⟩ := C22_storage_partial w.wf (cParam q 1 % 65536) (scope (cParam q 0)) hsc hsa
    have he : d.view.handles (u16 (cParam q 1)) (scope (cParam q 0)) =
        (.ok, (d.srv.tree.handles (cParam q 1 % 65536) (scope (cParam q 0))).2) := by
      show factoryHandles [(d.srv.sid, d.srv.tree)] ALL (cParam q 1 % 65536) (scope (cParam q 0)) = _
      unfold factoryHandles
      rw [if_pos rfl]
      unfold allHandles
      generalize d.srv.tree.handles (cParam q 1 % 65536) (scope (cParam q 0)) = x at k1
      obtain ⟨a, b⟩ := x
      simp only at k1
      subst k1
      simp
    refine ⟨_, Or.inr ⟨h1, k2, k3⟩, Or.inr ⟨h1, he⟩, k2, fun h hh => ?_⟩
    obtain ⟨it, e, _⟩ := (k3 h).mp hh
    exact has_iff.mpr ⟨it, e⟩

/-- The value of a property that is told is of the standard's type and short. -/
private theorem prop_typed {s : Server} {h p : Nat} {v : Val} (ht : ∃ o, s.infoOf h = (.ok, o) ∧ ObjInfoFits o)
    (hid : p = 0xDC41 → ∀ it, s.tree.get h = some it → it.puoid < 256 ^ 16) (c : DevCaps) (cat : Cat) (hm : p ∈ propsSupported c cat)
    (hv : s.prop h p = some v) : Typed (stdType p) v ∧ (enc v).length ≤ 511 := by
  obtain ⟨o, hi, hof⟩ := ht
  obtain ⟨f1, f2, f3, f4, f5, f6, f7, f8, f9, f10, f11, f12, f13⟩ := hof
  have hint : ∀ {w n : Nat}, w ∈ [1, 2, 4, 8, 16] → typeOf (stdType p) = some (.int w) → n < 256 ^ w → v = .int w n →
      Typed (stdType p) v ∧ (enc v).length ≤ 511 := by
    rintro w n hw ht hn rfl
    refine ⟨⟨⟨hw, hn⟩, ht⟩, ?_⟩
    rw [Mtp.enc_int_length]
    simp only [List.mem_cons, List.not_mem_nil, or_false] at hw
    omega
  have hstr : ∀ {x : QStr}, typeOf (stdType p) = some .str → v = .str x → Typed (stdType p) v ∧ (enc v).length ≤ 511 := by
    rintro x ht rfl
    exact ⟨⟨trivial, ht⟩, convert_short (dt := 0xFFFF) (ty := .str) (by decide) (.str x) trivial⟩
  have hcodes : p ∈ toldProps ++ [0xDC4F, 0xDC81, 0xDC83, 0xDC84, 0xDE9B, 0xDC86] ∨ o.prop (((s.tree.get h).map (·.puoid)).getD 0) p = none := by
    have key : ∀ k, ∀ r ∈ rowsOf k, r.code ∈ toldProps ++ [0xDC4F, 0xDC81, 0xDC83, 0xDC84, 0xDE9B, 0xDC86] ∨
        r.code ∈ [0xDC44, 0xDC87, 0xDC88, 0xDC46, 0xDC9A, 0xDC8B, 0xDC8C, 0xDC91, 0xDC89, 0xDE92, 0xDE93, 0xDE94, 0xDE99, 0xDE9A, 0xDC9D,
          0xDE9C, 0xDE9D] := by
      intro k
      cases k <;> decide
    have hk : ∃ k, ∃ r ∈ rowsOf k, r.code = p := by
      rcases (supported_mem c cat p).mp hm with hm | hm
      · obtain ⟨r, hr, e⟩ := List.mem_map.mp hm; exact ⟨_, r, hr, e⟩
      · obtain ⟨r, hr, e⟩ := List.mem_map.mp hm; exact ⟨_, r, hr, e⟩
    obtain ⟨k, r, hr, e⟩ := hk
    rcases key k r hr with g | g
    · exact Or.inl (e ▸ g)
    · right
      rw [e] at g
      simp only [List.mem_cons, List.not_mem_nil, or_false] at g
      rcases g with g | g | g | g | g | g | g | g | g | g | g | g | g | g | g | g | g <;> subst g <;> rfl
  unfold Server.prop at hv
  rw [hi] at hv
  simp only at hv
  rcases hcodes with g | g
  · simp only [toldProps, List.cons_append, List.nil_append, List.mem_cons, List.not_mem_nil, or_false] at g
    rcases g with g | g | g | g | g | g | g | g | g | g | g | g | g | g | g <;> subst g <;> simp [ObjInfo.prop] at hv
    · exact hint (w := 4) (by decide) (by decide) f1 hv.symm
    · exact hint (w := 2) (by decide) (by decide) f2 hv.symm
    · exact hint (w := 2) (by decide) (by decide) f3 hv.symm
    · exact hint (w := 8) (by decide) (by decide) f4 hv.symm
    · exact hstr (by decide) hv.symm
    · exact hstr (by decide) hv.symm
    · exact hstr (by decide) hv.symm
    · exact hint (w := 4) (by decide) (by decide) f12 hv.symm
    · refine hint (w := 16) (by decide) (by decide) ?_ hv.symm
      cases e : s.tree.get h with
      | none => decide
      | some it => exact hid rfl it e
    · exact hint (w := 1) (by decide) (by decide) (by decide) hv.symm
    · exact hint (w := 2) (by decide) (by decide) (by decide) hv.symm
    · exact hint (w := 4) (by decide) (by decide) (by decide) hv.symm
    · exact hint (w := 4) (by decide) (by decide) (by decide) hv.symm
    · exact hint (w := 4) (by decide) (by decide) (by decide) hv.symm
    · rw [← hv]; exact ⟨⟨⟨by decide, by simp⟩, by decide⟩, by decide⟩
  · rw [g] at hv; cases hv


/-- The single request for a property the device describes. -/
private theorem says_of {r : Rsp PServer} {P : Nat → Nat → Prop} (hc : PServer.Coh P r.dev) (ho : Open r) (hcaps : r.dev.srv.caps.WF)
    {h p : Nat} {v : Val} (hP : P h p) (hh : r.dev.srv.tree.has h = true)
    (hm : p ∈ propsSupported r.dev.srv.caps (r.dev.srv.caps.category (u16 (r.dev.srv.infoOf h).2.format)))
    (hv : r.dev.srv.prop h p = some v) (ht : Typed (stdType p) v ∧ (enc v).length ≤ 511) : Says r h p (shown v) := by
  obtain ⟨d0, e1, e2, e3, e4, _⟩ := desc_supported _ _ p hm
  obtain ⟨d, d1, d2⟩ : ∃ d, Described r.dev.srv.caps (r.dev.srv.infoOf h).2.format p d ∧ d.dtype = stdType p := by
    rcases desc_of r.dev.srv.caps hcaps (r.dev.srv.infoOf h).2.format p e4 with ⟨d, _, g, _, _, _, _, e⟩ | ⟨g, _⟩
    · exact ⟨d, g, e⟩
    · have hu : u16 p = p := by unfold u16; omega
      rw [hu, e1] at g
      cases g
  intro q hq hp1 hp2
  obtain ⟨r2, b2, a1, a2, a3, a4⟩ := PServer.get_value r ho hc.ok hcaps q hq
    (by rw [hp1]; exact hh) (by rw [hp2]; exact e4) d (by rw [hp1, hp2]; exact d1) v (by rw [d2]; exact ht.1) (by omega)
    (by rw [hp1, hp2]; exact hv) (fun w hw => by
      rw [hp1, hp2] at hw
      rw [hc.told h p w hP hh hw]
      exact hv)
  exact ⟨r2, b2, a1, a2, by rw [← d2]; exact a3⟩

private theorem sum_le {α : Type} (l : List α) (f : α → Nat) (k : Nat) (h : ∀ x ∈ l, f x ≤ k) : (l.map f).sum ≤ l.length * k := by
  induction l with
  | nil => simp
  | cons a l ih =>
    have := ih fun x hx => h x (List.mem_cons_of_mem _ hx)
    have := h a List.mem_cons_self
    simp only [List.map_cons, List.sum_cons, List.length_cons, Nat.add_mul, Nat.one_mul]
    omega

/-- The answer to the request, if what is cached is true. -/
private theorem list_answer {r : Rsp PServer} {P : Nat → Nat → Prop} (hc : PServer.Coh P r.dev) (ho : Open r)
    (hb : r.dev.srv.tree.asked < 0xFFFFFFFF)
    (q : List UInt8) (hq : Asking q 0x9805) (hl : Listable r.dev.srv.tree q) (prop : Nat) (hprop : cParam q 2 % 65536 = prop) (hp0 : prop ≠ 0)
    (hfit : ∀ h, r.dev.srv.tree.has h = true → h ≠ 0 → ∃ o, r.dev.srv.infoOf h = (.ok, o) ∧ ObjInfoFits o)
    (hid : ∀ h p, Wants r.dev.srv.caps (r.dev.srv.infoOf h).2.format prop p → p = 0xDC41 →
      ∀ it, r.dev.srv.tree.get h = some it → it.puoid < 256 ^ 16)
    (hkind : prop = 0xFFFF ∨ ∀ cat, prop ∈ propsSupported r.dev.srv.caps cat)
    (hP : ∀ h p, Wants r.dev.srv.caps (r.dev.srv.infoOf h).2.format prop p → P h p) (n k : Nat) (hn : AtMost r.dev.srv.tree n)
    (hk : ∀ cat, (asked r.dev.srv.caps cat prop).length ≤ k) (hnk : n * (k * 519) ≤ 2 ^ 30) :
    ∃ hs groups r' b, Selects r.dev.srv.tree q hs ∧ (∀ h ∈ hs, r.dev.srv.tree.has h = true ∧ h ≠ 0) ∧
      AnsweredBy PServer.dev r r' (ask q) q .ok [] ∧
      dataOf r'.out = dataOf r.out ++ b ∧ readPropList 0 (dataContainer 0x9805 0 b) = some groups.flatten ∧
      Each (Complete r.dev.view prop) hs groups ∧ r'.dev.srv = r.dev.srv := by
  obtain ⟨hs, s1, s2, s3, s4⟩ := selected r.dev hc.ok q hl
  have s5 : ∀ h ∈ hs, h ≠ 0 := by
    intro h hm h0
    subst h0
    rcases s1 with ⟨a, rfl⟩ | ⟨_, _, a⟩
    · rcases hl with ⟨_, b, _⟩ | ⟨b, _⟩
      · exact b (by simpa using (List.mem_singleton.mp hm).symm)
      · rw [a] at b; revert b; decide
    · obtain ⟨_, _, g, _⟩ := (a 0).mp hm
      exact g rfl
  have hlt : prop < 65536 := by omega
  have hwant : ∀ h p, Wants r.dev.srv.caps (r.dev.srv.infoOf h).2.format prop p →
      p ∈ propsSupported r.dev.srv.caps (r.dev.srv.caps.category (u16 (r.dev.srv.infoOf h).2.format)) := by
    intro h p hw
    have hw := (asked_wants ..).mpr hw
    refine (wantedCodes_ok r.dev.srv.caps _ prop ?_).2 p hw
    rcases hkind with g | g
    · exact Or.inl g
    · exact Or.inr (g _)
  have htyped : ∀ h ∈ hs, ∀ p, Wants r.dev.srv.caps (r.dev.srv.infoOf h).2.format prop p → ∀ v, r.dev.srv.prop h p = some v →
      Typed (stdType p) v ∧ (enc v).length ≤ 511 := fun h hm p hw v hv =>
    prop_typed (hfit h (s4 h hm) (s5 h hm)) (hid h p hw) _ _ (hwant h p hw) hv
  have hpar : ∀ h, r.dev.srv.tree.has h = true → r.dev.fac.store.has (r.dev.fac.store.parent h) = true ∨ h = 0 := by
    intro h hh
    by_cases h0 : h = 0
    · exact Or.inr h0
    · left
      obtain ⟨it, o, e1, e2, e3, _⟩ := PServer.infoOf_has hc.ok hh
      obtain ⟨p, pit, f1, f2, f3, _⟩ := hc.ok.wf.parent _ it e1 h0
      show r.dev.srv.tree.has (r.dev.srv.infoOf h).2.parent = true
      rw [e2]
      show r.dev.srv.tree.has o.parent = true
      rw [e3, f2]
      exact has_iff.mpr ⟨pit, f3⟩
  have hcoh : Fac.CohOn (fun h p => P h p ∧ r.dev.srv.tree.has h = true) r.dev.view.fac := fun h p v hp e => hc.told h p v hp.1 hp.2 e
  have hsize : (hs.map (sizeFor r.dev.view prop)).sum ≤ 2 ^ 30 := by
    have h1 : ∀ h ∈ hs, sizeFor r.dev.view prop h ≤ k * 519 := by
      intro h hm
      unfold sizeFor
      refine Nat.le_trans (sum_le _ _ 519 fun p hp => ?_) (Nat.mul_le_mul_right _ (hk _))
      have hw := (asked_wants ..).mp hp
      cases e : r.dev.view.fac.store.val h p with
      | none => simp
      | some v =>
        have := (htyped h hm p hw v e).2
        show 8 + (enc v).length ≤ 519
        omega
    have h2 := sum_le hs _ _ h1
    have h3 : hs.length ≤ n := hn hs s3 s4
    exact Nat.le_trans h2 (Nat.le_trans (Nat.mul_le_mul_right _ h3) hnk)
  obtain ⟨f, bytes, groups, e1, e2, e3, e4⟩ := list_true r.dev.view hcoh 0 (cParam q 0) (cParam q 1) prop (cParam q 4) hs s2 hlt hp0
    (fun h hm p hw => ⟨hP h p hw, s4 h hm⟩)
    (fun h hm => ⟨by have := PServer.has_issued hc.ok (s4 h hm); omega, s4 h hm, hpar h (s4 h hm), by
        rcases hkind with g | g
        · exact Or.inl g
        · exact Or.inr (g _), fun p hw v hv => (htyped h hm p hw v hv).1⟩) hsize
  obtain ⟨p, hpay⟩ : ∃ p, payload 0x9805 0 bytes = some p := by
    cases hpay : payload 0x9805 0 bytes with
    | some p => exact ⟨p, rfl⟩
    | none =>
      unfold readPropList at e2
      rw [hpay] at e2
      cases e2
  obtain ⟨p1, p2⟩ := Server.payload_container hpay
  have hu : getObjectPropList r.dev.view 0 (cParam q 0) (cParam q 1) (cParam q 2) (cParam q 4) =
      getObjectPropList r.dev.view 0 (cParam q 0) (cParam q 1) prop (cParam q 4) := by
    have : u16 (cParam q 2) = u16 prop := by unfold u16; omega
    unfold getObjectPropList
    rw [this]
  have hqu : PServer.dev.query r.dev 0x9805 (cParams q) =
      r.dev.answer (getObjectPropList r.dev.view 0 (cParam q 0) (cParam q 1) (cParam q 2) (cParam q 4)) := rfl
  rw [hu, e1] at hqu
  obtain ⟨r', a1, a2, a3⟩ := Server.query_answer_by PServer.dev r ho q 0x9805 hq _ rfl rfl .ok [] (by rw [hqu]; rfl)
  refine ⟨hs, groups, r', p, s1, fun h hm => ⟨s4 h hm, s5 h hm⟩, a1, ?_, by rw [← p1]; exact e2, e3, by rw [a2, hqu]; rfl⟩
  rw [a3, hqu]
  simp [PServer.answer, Server.oneFrame, p2]

/-- The list request is no spoiling operation. -/
private theorem talked_list {avoid : List Nat} (hav : 0x9805 ∉ avoid) {r0 r r' : Rsp PServer} (ht : Talked avoid r0 r) {q : List UInt8}
    (hq : Asking q 0x9805) {c : Resp} {ps : List Nat} (ha : AnsweredBy PServer.dev r r' (ask q) q c ps) : Talked avoid r0 r' :=
  talked_run _ _ _ ht (by
    intro i hi
    simp only [ask, List.mem_singleton] at hi
    subst hi
    intro _ _
    rw [hq.code]; exact hav) ha.run

/-- C108. After every history of a freshly started device without operations that spoil property `p`: GetObjectPropList for `p` is
answered with OK and a list with one element for each object asked about, in turn, with the property's code and standard type; its value
is the one GetObjPropValue tells, and that is the one in the ObjectInfo dataset. Missing: histories with spoiling operations (C100). -/
theorem C108_one_partial (r0 r : Rsp PServer) (hf : Fresh r0) (p : Nat) (hp : p ∈ toldProps) (hid : p ≠ 0xDC41)
    (ht : Talked (spoiling p) r0 r) (hb : r.dev.srv.tree.asked < 0xFFFFFFFF) (hcaps : r.dev.srv.caps.WF) (ho : Open r)
    (hi : ∀ h, r.dev.srv.tree.has h = true → h ≠ 0 → Tellable r.dev.srv h) (hn : AtMost r.dev.srv.tree (2 ^ 20))
    (q : List UInt8) (hq : Asking q 0x9805) (hl : Listable r.dev.srv.tree q) (hpq : cParam q 2 % 65536 = p) :
    ∃ (hs : List Nat) (r' : Rsp PServer) (b : List UInt8) (es : List Elem), Selects r.dev.srv.tree q hs ∧
      AnsweredBy PServer.dev r r' (ask q) q .ok [] ∧ dataOf r'.out = dataOf r.out ++ b ∧
      readPropList 0 (dataContainer 0x9805 0 b) = some es ∧ es.map (·.handle) = hs ∧ r'.dev.srv = r.dev.srv ∧
      ∀ e ∈ es, e.code = p ∧ e.dtype = stdType p ∧ Says r' e.handle p e.val ∧ SaysSame r' e.handle p := by
  have hc := PServer.talked_coh hp (Q := fun _ => True) hf.req hf.list ht hb (hf.coh _)
  have hmem : ∀ cat, p ∈ propsSupported r.dev.srv.caps cat := fun cat =>
    (supported_mem _ _ _).mpr (Or.inl (PServer.told_common hp).1)
  have hpne : p ≠ 0xFFFF ∧ p ≠ 0 := by
    have : ∀ p ∈ toldProps, p ≠ 0xFFFF ∧ p ≠ 0 := by decide
    exact this p hp
  have hw : ∀ f c, Wants r.dev.srv.caps f p c → c = p := by
    intro f c h
    unfold Wants at h
    rwa [if_neg hpne.1] at h
  obtain ⟨hs, groups, r', b, s1, s2, a1, a2, a3, a4, a5⟩ := list_answer hc ho hb q hq hl p hpq hpne.2
    (fun h hh h0 => by obtain ⟨o, x, y, _⟩ := hi h hh h0; exact ⟨o, x, y⟩)
    (fun h c hc he => by rw [hw _ _ hc] at he; exact absurd he hid) (Or.inr hmem) (fun h c hc => ⟨trivial, hw _ _ hc⟩) (2 ^ 20) 1 hn
    (fun cat => by unfold asked; rw [if_neg hpne.1]; simp) (by decide)
  have ht' : Talked (spoiling p) r0 r' := talked_list (by
    have : ∀ p ∈ toldProps, 0x9805 ∉ spoiling p := by decide
    exact this p hp) ht hq a1
  have hc' := PServer.talked_coh hp (Q := fun _ => True) hf.req hf.list ht' (by rw [a5]; exact hb) (hf.coh _)
  have hall : ∀ h ∈ hs, ∀ g, Complete r.dev.view p h g → g.map (·.handle) = [h] ∧
      ∀ e ∈ g, e.code = p ∧ e.dtype = stdType p ∧ Says r' e.handle p e.val ∧ SaysSame r' e.handle p := by
    intro h hm g ⟨g1, g2, g3⟩
    obtain ⟨hh, h0⟩ := s2 h hm
    have hel : ∀ e ∈ g, e.handle = h ∧ e.code = p ∧ e.dtype = stdType p ∧ ∃ v, r.dev.srv.prop h p = some v ∧ e.val = shown v := by
      intro e he
      obtain ⟨b1, b2, b3, v, b4, b5⟩ := (g3 e).mp he
      have hb2 := hw _ _ b2
      exact ⟨b1, hb2, by rw [← hb2]; exact b3, v, by rw [← hb2]; exact b4, b5⟩
    obtain ⟨o, t1, t2, t3⟩ := hi h hh h0
    refine ⟨?_, fun e he => ?_⟩
    · -- exactly one
      have hlen : g.length = 1 := by
        have hv : ∃ v, r.dev.srv.prop h p = some v := by
          unfold Server.prop
          rw [t1]
          simp only [toldProps, List.mem_cons, List.not_mem_nil, or_false] at hp
          rcases hp with g | g | g | g | g | g | g | g | g <;> subst g <;> exact ⟨_, rfl⟩
        obtain ⟨v, hv⟩ := hv
        have hin : (⟨h, p, stdType p, shown v⟩ : Elem) ∈ g := (g3 _).mpr ⟨rfl, by unfold Wants; rw [if_neg hpne.1], rfl, v, hv, rfl⟩
        have hle : (g.map (·.code)).length ≤ [p].length := g2.length_le_of_subset (by
          intro c hc
          obtain ⟨e, he, rfl⟩ := List.mem_map.mp hc
          rw [(hel e he).2.1]; simp)
        have := List.length_pos_of_mem hin
        simp only [List.length_map, List.length_singleton] at hle
        omega
      match g, hlen with
      | [e], _ => simp [(hel e (by simp)).1]
    · obtain ⟨b1, b2, b3, v, b4, b5⟩ := hel e he
      refine ⟨b2, b3, ?_, ?_⟩
      · rw [b1, b5]
        exact says_of hc' a1.again (by rw [a5]; exact hcaps) ⟨trivial, rfl⟩ (by rw [a5]; exact hh) (by rw [a5]; exact hmem _)
          (by rw [a5]; exact b4) (prop_typed ⟨o, t1, t2⟩ (fun x => absurd x hid) _ _ (hmem .common) b4)
      · rw [b1]
        exact C100_told_partial r0 r' hf p hp hid ht' (by rw [a5]; exact hb) (by rw [a5]; exact hcaps) a1.again h
          (by rw [a5]; exact ⟨o, t1, t2, t3⟩)
  refine ⟨hs, r', b, groups.flatten, s1, a1, a2, a3, ?_, a5, ?_⟩
  · clear a3 s1
    induction a4 with
    | nil => rfl
    | cons h1 _ ih =>
      rw [List.flatten_cons, List.map_append, (hall _ List.mem_cons_self _ h1).1,
        ih (fun h hm => s2 h (List.mem_cons_of_mem _ hm)) (fun h hm => hall h (List.mem_cons_of_mem _ hm))]
      rfl
  · clear a3 s1
    induction a4 with
    | nil => intro e he; cases he
    | cons h1 _ ih =>
      intro e he
      rw [List.flatten_cons] at he
      rcases List.mem_append.mp he with he | he
      · exact (hall _ List.mem_cons_self _ h1).2 e he
      · exact ih (fun h hm => s2 h (List.mem_cons_of_mem _ hm)) (fun h hm => hall h (List.mem_cons_of_mem _ hm)) e he


/-- The properties the device has values for (thumbnails apart): those that are told, whether the object may be consumed, and for
images and videos their encoding and size. -/
def valued : List Nat := toldProps ++ [0xDC4F, 0xDC81, 0xDC83, 0xDC84, 0xDE9B]

/-- The operations that spoil some property. -/
def spoilers : List Nat := [0x9808, 0x100D, 0x95C2, 0x95C3, 0x101A, 0x9804, 0x9806]

/-- All properties of object `h` with their values, each once, as they are told. -/
structure TellsAll (r r' : Rsp PServer) (h : Nat) (g : List Elem) : Prop where
  once : (g.map (·.code)).Nodup
  codes : ∀ p, p ∈ g.map (·.code) ↔
    p ∈ propsSupported r.dev.srv.caps (r.dev.srv.caps.category (u16 (r.dev.srv.infoOf h).2.format)) ∧ p ∈ valued
  told : ∀ e ∈ g, e.handle = h ∧ e.dtype = stdType e.code ∧ Says r' h e.code e.val

private theorem valued_iff {s : Server} {h : Nat} {o : ObjInfo} (hi : s.infoOf h = (.ok, o)) (c : DevCaps) (cat : Cat) {p : Nat}
    (hm : p ∈ propsSupported c cat) : p ∈ valued ↔ p ≠ 0xDC86 ∧ ∃ v, s.prop h p = some v := by
  have key : ∀ k, ∀ r ∈ rowsOf k, r.code ∈ valued ++ [0xDC86] ∨
      r.code ∈ [0xDC44, 0xDC87, 0xDC88, 0xDC46, 0xDC9A, 0xDC8B, 0xDC8C, 0xDC91, 0xDC89, 0xDE92, 0xDE93, 0xDE94, 0xDE99, 0xDE9A, 0xDC9D,
        0xDE9C, 0xDE9D] := by
    intro k
    cases k <;> decide
  have hk : ∃ k, ∃ r ∈ rowsOf k, r.code = p := by
    rcases (supported_mem c cat p).mp hm with hm | hm
    · obtain ⟨r, hr, e⟩ := List.mem_map.mp hm; exact ⟨_, r, hr, e⟩
    · obtain ⟨r, hr, e⟩ := List.mem_map.mp hm; exact ⟨_, r, hr, e⟩
  obtain ⟨k, r, hr, e⟩ := hk
  unfold Server.prop
  rw [hi]
  rcases key k r hr with g | g
  · rw [e] at g
    simp only [valued, toldProps, List.cons_append, List.nil_append, List.mem_cons, List.not_mem_nil, or_false] at g
    rcases g with g | g | g | g | g | g | g | g | g | g | g | g | g | g | g <;> subst g <;>
      simp [valued, toldProps, ObjInfo.prop]
  · rw [e] at g
    simp only [List.mem_cons, List.not_mem_nil, or_false] at g
    rcases g with g | g | g | g | g | g | g | g | g | g | g | g | g | g | g | g | g <;> subst g <;>
      simp [valued, toldProps, ObjInfo.prop]

private theorem all_fair : PServer.Fair (· ∉ spoilers) (fun _ _ => True) where
  list h := absurd (by decide) h
  data h := by rcases h with h | h | h | h <;> exact absurd (by decide) h
  sets h := by rcases h with h | h <;> exact absurd (by decide) h

private theorem asked_short (c : DevCaps) (cat : Cat) : (asked c cat 0xFFFF).length ≤ 27 := by
  unfold asked
  rw [if_pos rfl]
  refine Nat.le_trans (List.length_filter_le ..) ?_
  refine Nat.le_trans ((supported_nodup c cat).length_le_of_subset (l₂ := (rowsOf .common).map (·.code) ++ (rowsOf cat).map (·.code)) ?_) ?_
  · intro x hx
    exact List.mem_append.mpr ((supported_mem c cat x).mp hx)
  · cases cat <;> decide

/-- C108. After every history of a freshly started device without operations that spoil properties: GetObjectPropList for all properties
is answered with OK and a list in which the objects asked about come in turn; for each, every property its format supports and the device
has a value for, but the thumbnail, is there exactly once, with its standard type and the value GetObjPropValue tells. Missing: histories
with spoiling operations (C100). -/
theorem C108_all_partial (r0 r : Rsp PServer) (hf : Fresh r0) (ht : Talked spoilers r0 r) (hb : r.dev.srv.tree.asked < 0xFFFFFFFF)
    (hcaps : r.dev.srv.caps.WF) (ho : Open r) (hi : ∀ h, r.dev.srv.tree.has h = true → h ≠ 0 → Tellable r.dev.srv h)
    (hid : ∀ h it, r.dev.srv.tree.get h = some it → it.puoid < 2 ^ 128) (hn : AtMost r.dev.srv.tree (2 ^ 16))
    (q : List UInt8) (hq : Asking q 0x9805) (hl : Listable r.dev.srv.tree q) (hpq : cParam q 2 % 65536 = 0xFFFF) :
    ∃ (hs : List Nat) (r' : Rsp PServer) (b : List UInt8) (groups : List (List Elem)), Selects r.dev.srv.tree q hs ∧
      AnsweredBy PServer.dev r r' (ask q) q .ok [] ∧ dataOf r'.out = dataOf r.out ++ b ∧
      readPropList 0 (dataContainer 0x9805 0 b) = some groups.flatten ∧ r'.dev.srv = r.dev.srv ∧ Each (TellsAll r r') hs groups := by
  have coh : ∀ {r : Rsp PServer}, Talked spoilers r0 r → r.dev.srv.tree.asked < 0xFFFFFFFF → PServer.Coh (fun _ _ => True) r.dev :=
    fun ht hb => (PServer.talked_closed (PServer.closed_next all_fair) PServer.remove_next hf.req hf.list ht).2 hb (hf.coh _)
  have hc := coh ht hb
  obtain ⟨hs, groups, r', b, s1, s2, a1, a2, a3, a4, a5⟩ := list_answer hc ho hb q hq hl 0xFFFF hpq (by decide)
    (fun h hh h0 => by obtain ⟨o, x, y, _⟩ := hi h hh h0; exact ⟨o, x, y⟩)
    (fun h c _ _ it e => Nat.lt_of_lt_of_le (hid h it e) (by decide)) (Or.inl rfl) (fun _ _ _ => trivial) (2 ^ 16) 27 hn
    (asked_short _) (by decide)
  have ht' : Talked spoilers r0 r' := talked_list (by decide) ht hq a1
  have hc' := coh ht' (by rw [a5]; exact hb)
  refine ⟨hs, r', b, groups, s1, a1, a2, a3, a5, ?_⟩
  have hall : ∀ h ∈ hs, ∀ g, Complete r.dev.view 0xFFFF h g → TellsAll r r' h g := by
    intro h hm g ⟨g1, g2, g3⟩
    obtain ⟨hh, h0⟩ := s2 h hm
    obtain ⟨o, t1, t2, t3⟩ := hi h hh h0
    refine ⟨g2, fun p => ?_, fun e he => ?_⟩
    · constructor
      · intro hp
        obtain ⟨e, he, rfl⟩ := List.mem_map.mp hp
        obtain ⟨_, b2, _, v, b4, _⟩ := (g3 e).mp he
        unfold Wants at b2
        rw [if_pos rfl] at b2
        exact ⟨b2.1, (valued_iff t1 _ _ b2.1).mpr ⟨b2.2, v, b4⟩⟩
      · rintro ⟨b1, b2⟩
        obtain ⟨c1, v, c2⟩ := (valued_iff t1 _ _ b1).mp b2
        exact List.mem_map.mpr ⟨⟨h, p, stdType p, shown v⟩, (g3 _).mpr ⟨rfl, by unfold Wants; rw [if_pos rfl]; exact ⟨b1, c1⟩, rfl, v, c2, rfl⟩, rfl⟩
    · obtain ⟨b1, b2, b3, v, b4, b5⟩ := (g3 e).mp he
      unfold Wants at b2
      rw [if_pos rfl] at b2
      refine ⟨b1, b3, ?_⟩
      rw [b5]
      exact says_of hc' a1.again (by rw [a5]; exact hcaps) trivial (by rw [a5]; exact hh) (by rw [a5]; exact b2.1)
          (by rw [a5]; exact b4) (prop_typed ⟨o, t1, t2⟩ (fun _ it e => Nat.lt_of_lt_of_le (hid h it e) (by decide)) _ _ b2.1 b4)
  clear a3 s1
  induction a4 with
  | nil => exact .nil
  | cons h1 _ ih =>
    exact .cons (hall _ List.mem_cons_self _ h1)
      (ih (fun h hm => s2 h (List.mem_cons_of_mem _ hm)) (fun h hm => hall h (List.mem_cons_of_mem _ hm)))


/-- Requests that cannot be carried out, and how they are answered: a depth other than 0, 1 and 0xFFFFFFFF; a property group; an object or
a folder that is not there. -/
inductive Unlistable (t : Tree) (q : List UInt8) : Resp → Prop
  | depth : 1 < cParam q 4 → cParam q 4 < ALL → Unlistable t q .byDepthUnsupported
  | group : cParam q 0 ≠ 0 ∨ cParam q 4 ≠ 0 → (cParam q 4 ≤ 1 ∨ cParam q 4 = ALL) → cParam q 2 % 65536 = 0 → Unlistable t q .byGroupUnsupported
  | object : cParam q 4 = 0 → cParam q 0 ≠ 0 → t.has (cParam q 0) = false → cParam q 2 % 65536 ≠ 0 → Unlistable t q .invalidObjectHandle
  | folder : (cParam q 4 = 1 ∨ cParam q 4 = ALL) → cParam q 0 ≠ 0 → cParam q 0 ≠ ALL →
      (∀ it, t.get (cParam q 0) = some it → it.fmt ≠ ASSOC) → cParam q 2 % 65536 ≠ 0 → Unlistable t q .invalidParentObject

private theorem no_object (sv : PropServer) (tid p0 p1 p2 : Nat) (h0 : p0 ≠ 0) (hp : u16 p2 ≠ 0) (hh : sv.fac.store.has p0 = false) :
    getObjectPropList sv tid p0 p1 p2 0 = .ok (sv.fac, none, .invalidObjectHandle) := by
  obtain ⟨t, en1, en2, en3, en4⟩ := Tx.new_holds 2 0x9805 tid (16384 - 12) (by decide)
  obtain ⟨t1, ep1, ep2, ep3⟩ := Tx.puts_holds (vs := [.int 4 (u32 1)]) en2 (by
    intro v hv
    simp only [List.mem_singleton] at hv
    subst hv
    exact ⟨by decide, by decide⟩) (by rw [header_length]; decide)
  have hput1 : t.putInt 4 (u32 1) = .ok t1 := by
    simp only [Tx.puts, Tx.put] at ep1
    cases hh : t.putInt 4 (u32 1) with
    | ub u => rw [hh] at ep1; simp at ep1
    | ok x => rw [hh] at ep1; simpa using ep1
  simp [getObjectPropList, hp, h0, category_supported, en1, hput1, propListLoop, hh]

/-- C108. A request that cannot be carried out is answered so, with no element, and changes nothing: no dataset at all or an empty list. A
request about no object at all (handle 0, depth 0) is answered with OK and an empty list. -/
theorem C108_refused (r : Rsp PServer) (ho : Open r) (q : List UInt8) (hq : Asking q 0x9805) :
    (∀ c, Unlistable r.dev.srv.tree q c → ∃ (r' : Rsp PServer) (b : List UInt8), AnsweredBy PServer.dev r r' (ask q) q c [] ∧
      dataOf r'.out = dataOf r.out ++ b ∧ r'.dev = r.dev ∧ (b = [] ∨ readPropList 0 (dataContainer 0x9805 0 b) = some [])) ∧
    (cParam q 0 = 0 → cParam q 4 = 0 → ∃ (r' : Rsp PServer) (b : List UInt8), AnsweredBy PServer.dev r r' (ask q) q .ok [] ∧
      dataOf r'.out = dataOf r.out ++ b ∧ r'.dev = r.dev ∧ readPropList 0 (dataContainer 0x9805 0 b) = some []) := by
  obtain ⟨n1, n2, n3, n4⟩ := C60_no_elements r.dev.view 0 (cParam q 0) (cParam q 1) (cParam q 2) (cParam q 4)
  have hqu : PServer.dev.query r.dev 0x9805 (cParams q) =
      r.dev.answer (getObjectPropList r.dev.view 0 (cParam q 0) (cParam q 1) (cParam q 2) (cParam q 4)) := rfl
  have none_case : ∀ c, getObjectPropList r.dev.view 0 (cParam q 0) (cParam q 1) (cParam q 2) (cParam q 4) = .ok (r.dev.view.fac, none, c) →
      ∃ (r' : Rsp PServer), AnsweredBy PServer.dev r r' (ask q) q c [] ∧ dataOf r'.out = dataOf r.out ++ [] ∧ r'.dev = r.dev := by
    intro c e
    rw [e] at hqu
    obtain ⟨r', a1, a2, a3⟩ := Server.query_answer_by PServer.dev r ho q 0x9805 hq _ rfl rfl c [] (by rw [hqu]; rfl)
    refine ⟨r', a1, ?_, by rw [a2, hqu]; rfl⟩
    rw [a3, hqu]
    simp [PServer.answer, Server.oneFrame]
  have some_case : ∀ c bytes, getObjectPropList r.dev.view 0 (cParam q 0) (cParam q 1) (cParam q 2) (cParam q 4) =
        .ok (r.dev.view.fac, some bytes, c) → readPropList 0 bytes = some [] →
      ∃ (r' : Rsp PServer) (b : List UInt8), AnsweredBy PServer.dev r r' (ask q) q c [] ∧ dataOf r'.out = dataOf r.out ++ b ∧ r'.dev = r.dev ∧
        readPropList 0 (dataContainer 0x9805 0 b) = some [] := by
    intro c bytes e e2
    rw [e] at hqu
    obtain ⟨p, hpay⟩ : ∃ p, payload 0x9805 0 bytes = some p := by
      cases hpay : payload 0x9805 0 bytes with
      | some p => exact ⟨p, rfl⟩
      | none =>
        unfold readPropList at e2
        rw [hpay] at e2
        cases e2
    obtain ⟨p1, p2⟩ := Server.payload_container hpay
    obtain ⟨r', a1, a2, a3⟩ := Server.query_answer_by PServer.dev r ho q 0x9805 hq _ rfl rfl c [] (by rw [hqu]; rfl)
    refine ⟨r', p, a1, ?_, by rw [a2, hqu]; rfl, by rw [← p1]; exact e2⟩
    rw [a3, hqu]
    simp [PServer.answer, Server.oneFrame, p2]
  refine ⟨fun c hc => ?_, fun h1 h2 => ?_⟩
  · cases hc with
    | depth h1 h2 =>
      obtain ⟨r', a1, a2, a3⟩ := none_case _ (n2 ⟨h1, h2⟩)
      exact ⟨r', [], a1, a2, a3, Or.inl rfl⟩
    | group h1 h2 h3 =>
      obtain ⟨r', a1, a2, a3⟩ := none_case _ (n3 ⟨h1, h2.imp_right fun h => Nat.le_of_eq h.symm, h3⟩)
      exact ⟨r', [], a1, a2, a3, Or.inl rfl⟩
    | object h1 h2 h3 h4 =>
      obtain ⟨r', a1, a2, a3⟩ := none_case .invalidObjectHandle (by rw [h1]; exact no_object _ _ _ _ _ h2 h4 h3)
      exact ⟨r', [], a1, a2, a3, Or.inl rfl⟩
    | folder h1 h2 h3 h4 h5 =>
      obtain ⟨b, e1, e2⟩ := n4 .invalidParentObject [] h1 h5 (by decide) (by
        rw [if_neg h2, if_neg (show ¬ cParam q 0 = 4294967295 from h3)]
        show factoryHandles [(r.dev.srv.sid, r.dev.srv.tree)] ALL (u16 (cParam q 1)) (cParam q 0) = _
        unfold factoryHandles
        rw [if_pos rfl]
        unfold allHandles Tree.handles
        simp only [if_neg h2, if_neg h3]
        cases e : r.dev.srv.tree.get (cParam q 0) with
        | none => rfl
        | some it => simp only; rw [if_pos (h4 it e)])
      obtain ⟨r', b', a1, a2, a3, a4⟩ := some_case _ _ e1 e2
      exact ⟨r', b', a1, a2, a3, Or.inr a4⟩
  · obtain ⟨b, e1, e2⟩ := n1 ⟨h1, h2⟩
    exact some_case _ _ e1 e2

/-! A device with the file "ab", just uploaded. -/

private theorem atMost_items (t : Tree) (n : Nat) (h : t.items.length ≤ n) : AtMost t n := by
  intro l hl hh
  refine Nat.le_trans (hl.length_le_of_subset (l₂ := t.items.map (·.1)) fun x hx => ?_) (by rw [List.length_map]; exact h)
  obtain ⟨it, e⟩ := has_iff.mp (hh x hx)
  exact List.mem_map.mpr ⟨(x, it), AMap.mem_of_get e, rfl⟩

/-- The hypotheses of C108 are met: a file is uploaded. Its name is asked for, and all its properties, with all objects of the root
level. -/
theorem C108_witness : Fresh demoPRsp ∧ demoPRsp.dev.srv.caps.WF ∧
    (∃ r, demoPRsp.run PServer.dev (sendObject demoAnn demoAnnData ++ sendObject demoPut demoPutData) = .ok r ∧
      AtMost r.dev.srv.tree (2 ^ 16) ∧ Listable r.dev.srv.tree (Toy.cmd 0x9805 7 [0, 0, 0xDC07, 0, 1]) ∧
      Asking (Toy.cmd 0x9805 7 [0, 0, 0xDC07, 0, 1]) 0x9805 ∧ cParam (Toy.cmd 0x9805 7 [0, 0, 0xFFFFFFFF, 0, 1]) 2 % 65536 = 0xFFFF) ∧
    gets (sendObject demoAnn demoAnnData ++ sendObject demoPut demoPutData ++ ask (Toy.cmd 0x9805 7 [0, 0, 0xDC07, 0, 1])) =
      ([.response .ok 5 [0x00010001, 0, 1], .response .ok 6 [], .response .ok 7 []],
        [1, 0, 0, 0] ++ [1, 0, 0, 0, 0x07, 0xDC, 0xFF, 0xFF, 3, 97, 0, 98, 0, 0, 0]) := by
  refine ⟨⟨demoEmpty_ok, fun h p => by simp [demoPRsp, Cache.get, AMap.get], rfl, rfl⟩, ⟨by decide, by decide, by decide, by decide⟩,
    ⟨_, rfl, atMost_items _ _ (by decide +kernel), Or.inr ⟨Or.inl (by decide +kernel), Or.inr (by decide +kernel), Or.inl (by decide +kernel)⟩,
      ⟨by decide +kernel, by decide +kernel⟩, by decide +kernel⟩, by decide +kernel⟩

/-- Objects and property codes of the list the host gets for `is`. -/
def getsList (is : List (Rsp.In PServer)) : Option (List (Nat × Nat)) :=
  (readPropList 0 (dataContainer 0x9805 0 (gets is).2)).map (List.map fun (e : Elem) => (e.handle, e.code))

/-- The folder "d" at the root level, in it a folder "d" (object 2), and in that another one (object 3). -/
def demoNested : List (Rsp.In PServer) :=
  sendObject demoAnn [dataContainer 0x100C 5 (encs (objInfoVals demoFolder))] ++
  sendObject (Toy.cmd 0x100C 7 [0x00010001, 1]) [dataContainer 0x100C 7 (encs (objInfoVals demoFolder))] ++
  sendObject (Toy.cmd 0x100C 8 [0x00010001, 2]) [dataContainer 0x100C 8 (encs (objInfoVals demoFolder))]

/-- All properties of a folder that was created (no spoiling operation): all the common ones but the name (0xDC44), which has no value. -/
example : getsList (sendObject demoAnn [dataContainer 0x100C 5 (encs (objInfoVals demoFolder))] ++ ask (Toy.cmd 0x9805 7 [0, 0, 0xFFFFFFFF, 0, 1])) =
    some ([0xDC01, 0xDC02, 0xDC03, 0xDC04, 0xDC07, 0xDC08, 0xDC09, 0xDC0B, 0xDC41, 0xDC4F].map fun p => (1, p)) := by
  decide +kernel

/-- C108 is violated for whole subtrees: a request about everything below a folder (depth 0xFFFFFFFF) is answered with OK
and a list of the objects directly in it only. -/
theorem C108_depth_violated :
    getsList (demoNested ++ ask (Toy.cmd 0x9805 9 [1, 0, 0xDC0B, 0, 0xFFFFFFFF])) = some [(2, 0xDC0B)] ∧
    getsList (demoNested ++ ask (Toy.cmd 0x9805 9 [2, 0, 0xDC0B, 0, 0xFFFFFFFF])) = some [(3, 0xDC0B)] ∧
    (gets (demoNested ++ ask (Toy.cmd 0x9805 9 [1, 0, 0xDC0B, 0, 0xFFFFFFFF]))).1.getLast? = some (.response .ok 9 []) := by
  decide +kernel

end Props
