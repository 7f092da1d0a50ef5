import Verif.Lemmas.PropList
import Verif.Props.PropPod
/-! C60: property lists. -/
namespace Props
open Mtp Spec

/-- The objects a request with these parameters is about. -/
def Asks (sv : PropServer) (p0 p1 p4 : Nat) (hs : List Nat) : Prop :=
  (p4 = 0 ∧ p0 ≠ 0 ∧ hs = [p0]) ∨
  ((p4 = 1 ∨ p4 = 0xFFFFFFFF) ∧
    sv.handles (u16 p1) (if p0 = 0 then 0xFFFFFFFF else if p0 = 0xFFFFFFFF then 0 else p0) = (.ok, hs))

/-- The properties meant by a property parameter for an object of a format: all that are advertised, except the thumbnail, or
the one named. -/
def Wants (c : DevCaps) (fmt prop p : Nat) : Prop :=
  if prop = 0xFFFF then p ∈ propsSupported c (c.category (u16 fmt)) ∧ p ≠ 0xDC86 else p = prop

/-- The list `g` has exactly one element for each property wanted of object `h` that has a value, with the type of the standard and
the value the storage holds, and no other element. -/
def Complete (sv : PropServer) (prop h : Nat) (g : List Elem) : Prop :=
  g.Nodup ∧ (g.map (·.code)).Nodup ∧
  ∀ e, e ∈ g ↔ e.handle = h ∧ Wants sv.caps (sv.format h) prop e.code ∧ e.dtype = stdType e.code ∧
    ∃ v, sv.fac.store.val h e.code = some v ∧ e.val = shown v

/-- Bytes of the elements for an object. -/
def sizeFor (sv : PropServer) (prop h : Nat) : Nat :=
  ((asked sv.caps (sv.caps.category (u16 (sv.format h))) prop).map fun p =>
    match sv.fac.store.val h p with
    | some v => 8 + (enc v).length
    | none => 0).sum

theorem asked_wants (c : DevCaps) (fmt prop p : Nat) : p ∈ asked c (c.category (u16 fmt)) prop ↔ Wants c fmt prop p := by
  unfold asked Wants
  split <;> simp

theorem asked_nodup (c : DevCaps) (cat : Cat) (prop : Nat) : (asked c cat prop).Nodup := by
  unfold asked
  split
  · exact (supported_nodup c cat).filter _
  · simp

theorem complete_of (sv : PropServer) (prop h : Nat) (g : List Elem)
    (hp : g.Perm (expectElems sv.caps sv.format prop sv.fac.store h)) : Complete sv prop h (g.map shownElem) := by
  have hcodes : ((expectElems sv.caps sv.format prop sv.fac.store h).map (·.code)).Nodup := by
    unfold expectElems elemsFor
    rw [List.map_filterMap, List.filterMap_map]
    have hn := asked_nodup sv.caps (sv.caps.category (u16 (sv.format h))) prop
    refine List.Pairwise.filterMap _ ?_ hn
    intro a b hab x hx y hy
    simp only [Function.comp, Option.map_eq_some_iff] at hx hy
    obtain ⟨e1, ⟨v1, _, rfl⟩, rfl⟩ := hx
    obtain ⟨e2, ⟨v2, _, rfl⟩, rfl⟩ := hy
    exact hab
  have hc : ((g.map shownElem).map (·.code)).Nodup := by
    have e : (g.map shownElem).map (·.code) = g.map (·.code) := by
      rw [List.map_map]; rfl
    rw [e]
    exact (hp.map _).nodup_iff.mpr hcodes
  refine ⟨?_, hc, ?_⟩
  · have : (g.map shownElem).Pairwise (fun a b => a.code ≠ b.code) := List.pairwise_map.mp hc
    exact this.imp (fun h e => h (by rw [e]))
  · intro e
    simp only [List.mem_map, hp.mem_iff, expectElems, elemsFor, List.mem_filterMap, List.mem_map, ← asked_wants]
    constructor
    · rintro ⟨e', ⟨q, ⟨p, hpm, rfl⟩, he⟩, rfl⟩
      simp only [Option.map_eq_some_iff] at he
      obtain ⟨v, hv, rfl⟩ := he
      exact ⟨rfl, hpm, rfl, v, hv, rfl⟩
    · rintro ⟨h1, h2, h3, v, h4, h5⟩
      refine ⟨⟨h, e.code, stdType e.code, v⟩, ⟨(e.code, some v), ⟨e.code, h2, by rw [h4]⟩, rfl⟩, ?_⟩
      cases e
      simp only at h1 h3 h5
      simp [shownElem, h1, h3, h5]

theorem each_map {α β γ : Type} {R : α → β → Prop} {R' : α → γ → Prop} (f : β → γ) (h : ∀ a b, R a b → R' a (f b))
    {as : List α} {bs : List β} (hr : Each R as bs) : Each R' as (bs.map f) := by
  induction hr with
  | nil => exact .nil
  | cons h1 _ ih => exact .cons (h _ _ h1) ih

theorem each_perm {hs : List Nat} {groups : List (List Elem)} {f : Nat → List Elem}
    (h : Each (fun h g => g.Perm (f h)) hs groups) : groups.flatten.Perm (hs.flatMap f) := by
  induction h with
  | nil => simp
  | cons h1 _ ih =>
    rw [List.flatten_cons, List.flatMap_cons]
    exact h1.append ih

theorem encs_append (a b : List Val) : encs (a ++ b) = encs a ++ encs b := by simp [encs]

theorem expect_size (sv : PropServer) (prop h : Nat) :
    (encs ((expectElems sv.caps sv.format prop sv.fac.store h).flatMap elemVals)).length = sizeFor sv prop h := by
  unfold expectElems sizeFor elemsFor
  generalize asked sv.caps (sv.caps.category (u16 (sv.format h))) prop = l
  induction l with
  | nil => rfl
  | cons p l ih =>
    simp only [List.map_cons, List.filterMap_cons, List.sum_cons]
    cases hv : sv.fac.store.val h p with
    | none => simpa using ih
    | some v =>
      simp only [Option.map_some, List.flatMap_cons, encs_append, List.length_append, ih]
      simp [elemVals, encs, enc, intBytes_length]
      omega

theorem expects_size (sv : PropServer) (prop : Nat) (hs : List Nat) :
    (encs ((hs.flatMap (expectElems sv.caps sv.format prop sv.fac.store)).flatMap elemVals)).length =
      (hs.map (sizeFor sv prop)).sum := by
  induction hs with
  | nil => rfl
  | cons h hs ih =>
    simp only [List.flatMap_cons, List.flatMap_append, encs_append, List.length_append, List.map_cons, List.sum_cons, ih,
      expect_size]

theorem elems_le_size (es : List Elem) : es.length ≤ (encs (es.flatMap elemVals)).length := by
  induction es with
  | nil => simp
  | cons e es ih =>
    simp only [List.flatMap_cons, encs_append, List.length_append, List.length_cons]
    have : 8 ≤ (encs (elemVals e)).length := by simp [elemVals, encs, enc, intBytes_length]; omega
    omega

theorem inv_of_history {V : Type} (st : Store V) (next : Nat) (ops : List (Fac.Op V))
    (hlive : ∀ h, st.has h = true → h < next) (hkids : ∀ p, ∀ k ∈ st.kids p, k < next)
    (ha : ∀ op ∈ ops, Fac.Announced op) : Fac.Inv (ops.foldl Fac.step (Fac.init st next)) := by
  have key : ∀ (ops : List (Fac.Op V)) (s : Fac V), Fac.Inv s → (∀ op ∈ ops, Fac.Announced op) →
      Fac.Inv (ops.foldl Fac.step s) := by
    intro ops
    induction ops with
    | nil => intro s hs _; exact hs
    | cons op ops ih =>
      intro s hs ha
      exact ih _ (hs.step op (ha op (by simp))) (fun o ho => ha o (by simp [ho]))
  exact key ops _ ⟨fun h p v _ e => by simp [Fac.init, Cache.get, AMap.get] at e,
     fun h p v e => by simp [Fac.init, Cache.get, AMap.get] at e, hlive, hkids⟩ ha

/-- The answer to a request about objects of which what is cached about the properties asked for is true. -/
theorem list_true (sv : PropServer) {P : Nat → Nat → Prop} (hi : Fac.CohOn P sv.fac)
    (tid p0 p1 p2 p4 : Nat) (hs : List Nat) (hasks : Asks sv p0 p1 p4 hs) (hp : p2 < 2 ^ 16) (hp0 : p2 ≠ 0)
    (hP : ∀ h ∈ hs, ∀ p, Wants sv.caps (sv.format h) p2 p → P h p)
    (hh : ∀ h ∈ hs, h < 2 ^ 32 ∧ sv.fac.store.has h = true ∧ (sv.fac.store.has (sv.fac.store.parent h) = true ∨ h = 0) ∧
      (p2 = 0xFFFF ∨ p2 ∈ propsSupported sv.caps (sv.caps.category (u16 (sv.format h)))) ∧
      ∀ p, Wants sv.caps (sv.format h) p2 p → ∀ v, sv.fac.store.val h p = some v → Typed (stdType p) v)
    (hsz : (hs.map (sizeFor sv p2)).sum ≤ 2 ^ 30) :
    ∃ s' bytes groups, getObjectPropList sv tid p0 p1 p2 p4 = .ok (s', some bytes, .ok) ∧
      Spec.readPropList tid bytes = some groups.flatten ∧ Each (Complete sv p2) hs groups ∧ s'.store = sv.fac.store := by
  have hu : u16 p2 = p2 := by unfold u16; omega
  have hsize := expects_size sv p2 hs
  have hcnt := elems_le_size (hs.flatMap (expectElems sv.caps sv.format p2 sv.fac.store))
  have hgood : ∀ h ∈ hs, GoodObj sv.caps sv.format p2 sv.fac.store h := by
    intro h hm
    obtain ⟨_, a, b, c, d⟩ := hh h hm
    exact ⟨a, b, c, fun p hp => d p ((asked_wants ..).mp hp)⟩
  -- the elements are well formed
  obtain ⟨t, en1, en2, en3, en4⟩ := Tx.new_holds 2 0x9805 tid (16384 - 12) (by decide)
  have hfit1 : ∀ v ∈ [Val.int 4 (u32 hs.length)], Fits v := by
    intro v hv
    simp only [List.mem_singleton] at hv
    subst hv
    exact ⟨by decide, by unfold u32; have := Nat.mod_lt hs.length (by decide : 4294967296 > 0); simpa using this⟩
  obtain ⟨t1, ep1, ep2, ep3⟩ := Tx.puts_holds en2 hfit1 (by
    rw [header_length]; simp [encs, enc, intBytes_length])
  obtain ⟨s', groups, g1, g2, g3⟩ := loop_eq sv.caps sv.format p2 hs sv.fac t1 0 hi (fun h hm p hp => hP h hm p ((asked_wants ..).mp hp)) hgood (by omega)
  have hperm := each_perm g1
  have hok : ∀ e ∈ groups.flatten, ElemOk e := by
    intro e he
    obtain ⟨h, hm, he⟩ := List.mem_flatMap.mp (hperm.mem_iff.mp he)
    obtain ⟨q, hq1, hq2⟩ := List.mem_filterMap.mp he
    obtain ⟨p, hp1, rfl⟩ := List.mem_map.mp hq1
    simp only [Option.map_eq_some_iff] at hq2
    obtain ⟨v, hv, rfl⟩ := hq2
    obtain ⟨b1, _, _, b4, b5⟩ := hh h hm
    obtain ⟨d, _, _, _, c1, c2⟩ := desc_supported sv.caps _ p ((wantedCodes_ok sv.caps _ p2 b4).2 p hp1)
    exact ⟨b1, c1, c2, b5 p ((asked_wants ..).mp hp1) v hv⟩
  have hfit : ∀ v ∈ groups.flatten.flatMap elemVals, Fits v := by
    intro v hv
    obtain ⟨e, he, hv⟩ := List.mem_flatMap.mp hv
    obtain ⟨o1, o2, o3, o4⟩ := hok e he
    simp only [elemVals, List.mem_cons, List.not_mem_nil, or_false] at hv
    rcases hv with rfl | rfl | rfl | rfl
    · exact ⟨by decide, by simpa using o1⟩
    · exact ⟨by decide, by simpa using o2⟩
    · exact ⟨by decide, by simpa using o3⟩
    · exact o4.1
  have hbl : (encs (groups.flatten.flatMap elemVals)).length = (hs.map (sizeFor sv p2)).sum := by
    rw [← hsize]
    exact ((hperm.flatMap_right elemVals).flatMap_right enc).length_eq
  have hgl : groups.flatten.length = (hs.flatMap (expectElems sv.caps sv.format p2 sv.fac.store)).length := hperm.length_eq
  have hl1 : (encs [Val.int 4 (u32 hs.length)]).length = 4 := by simp [encs, enc, intBytes_length]
  obtain ⟨t2, eq1, eq2, eq3⟩ := Tx.puts_holds ep2 hfit (by
    rw [List.length_append, header_length, hl1]; omega)
  rw [List.append_assoc] at eq2
  -- the count is written over the number of handles
  obtain ⟨m', es1, es2, es3⟩ := store_inside (src := leBytes 4 groups.flatten.length) (off := 12) eq2.bytes (by
    simp only [List.length_append, header_length, hl1, leBytes_length]; omega)
  have hall : List.take 12 (Spec.header 0 2 0x9805 tid ++ (encs [Val.int 4 (u32 hs.length)] ++ encs (groups.flatten.flatMap elemVals))) ++
      leBytes 4 groups.flatten.length ++
      List.drop (12 + (leBytes 4 groups.flatten.length).length) (Spec.header 0 2 0x9805 tid ++
        (encs [Val.int 4 (u32 hs.length)] ++ encs (groups.flatten.flatMap elemVals))) =
      Spec.header 0 2 0x9805 tid ++ (intBytes 4 groups.flatten.length ++ encs (groups.flatten.flatMap elemVals)) := by
    have hh := header_length 0 2 0x9805 tid
    rw [List.take_append_of_le_length (by omega), List.take_of_length_le (by omega), leBytes_length, leBytes_eq,
      List.drop_append, hh, List.drop_of_length_le (by omega), List.nil_append, List.append_assoc]
    congr 2
  rw [hall] at es3
  have hholds : Tx.Holds { t2 with mem := m' } (Spec.header 0 2 0x9805 tid ++
      (intBytes 4 groups.flatten.length ++ encs (groups.flatten.flatMap elemVals))) := by
    have hlen : (Spec.header 0 2 0x9805 tid ++ (intBytes 4 groups.flatten.length ++ encs (groups.flatten.flatMap elemVals))).length =
        (Spec.header 0 2 0x9805 tid ++ (encs [Val.int 4 (u32 hs.length)] ++ encs (groups.flatten.flatMap elemVals))).length := by
      simp only [List.length_append, hl1, intBytes_length]
    exact ⟨by show m'.length = t2.cap; rw [es2]; exact eq2.memcap, eq2.caplt, by rw [hlen]; exact eq2.offeq, eq2.offle,
      by rw [hlen]; exact es3⟩
  obtain ⟨t3, eb⟩ := Tx.buffer_holds hholds (by show t2.computeLen = true; rw [eq3.1, ep3.1, en3])
  have hx : t2.extraLarge = false := by rw [eq3.2, ep3.2, en4]
  refine ⟨s', ?_, groups.map (List.map shownElem), ?_, ?_, each_map (List.map shownElem) (fun h g hg => complete_of sv p2 h g hg) g1, g2⟩
  · exact Spec.header (12 + (intBytes 4 groups.flatten.length ++ encs (groups.flatten.flatMap elemVals)).length) 2 0x9805 tid ++
      (intBytes 4 groups.flatten.length ++ encs (groups.flatten.flatMap elemVals))
  · have hput1 : t.putInt 4 (u32 hs.length) = .ok t1 := by
      simp only [Tx.puts, Tx.put] at ep1
      cases hh : t.putInt 4 (u32 hs.length) with
      | ub u => rw [hh] at ep1; simp at ep1
      | ok x => rw [hh] at ep1; simpa using ep1
    have hrun : (Tx.new 2 0x9805 tid (16384 - 12) >>= fun t => t.putInt 4 (u32 hs.length) >>= fun t =>
        propListLoop sv.caps sv.format p2 hs sv.fac t 0 >>= fun q =>
          if q.2.1 = .ok then
            Mem.store q.2.2.1.mem 12 (leBytes 4 q.2.2.2) >>= fun m =>
              Tx.buffer { q.2.2.1 with mem := m } >>= fun b => pure (q.1, some b.1, Resp.ok)
          else pure (q.1, none, q.2.1)) =
        .ok (s', some (Spec.header (12 + (intBytes 4 groups.flatten.length ++ encs (groups.flatten.flatMap elemVals)).length) 2 0x9805 tid ++
      (intBytes 4 groups.flatten.length ++ encs (groups.flatten.flatMap elemVals))), .ok) := by
      rw [en1]
      simp only [Res.bind_ok, hput1, g3, eq1, if_true, Nat.zero_add, es1]
      show (Tx.buffer { t2 with mem := m' } >>= fun b => pure (s', some b.1, Resp.ok)) = _
      rw [eb]
      simp only [hx, Res.bind_ok]
      rfl
    unfold getObjectPropList
    simp only [hu, category_supported, and_false, if_false, hp0]
    rcases hasks with ⟨a1, a2, a3⟩ | ⟨a1, a2⟩
    · subst a1 a3
      simp only [a2, false_and, if_false, if_true, Nat.not_lt_zero, Nat.lt_irrefl]
      exact hrun
    · have d0 : p4 ≠ 0 := by omega
      have d1 : ¬ (1 < p4 ∧ p4 < 0xFFFFFFFF) := by omega
      simp only [d0, and_false, if_false, d1, a2, if_true]
      exact hrun
  · unfold Spec.readPropList
    rw [payload_of]
    have e1 := takeInt_at 4 groups.flatten.length (encs (groups.flatten.flatMap elemVals)) (by
      have : groups.flatten.length < 4294967296 := by omega
      simpa using this)
    have e2 := takeElems_at groups.flatten hok []
    rw [List.append_nil] at e2
    show (takeInt 4 (intBytes 4 groups.flatten.length ++ encs (groups.flatten.flatMap elemVals)) >>= fun q =>
      match takeElems q.1 q.2 with | some (es, []) => some es | _ => none) = _
    rw [e1]
    show (match takeElems groups.flatten.length (encs (groups.flatten.flatMap elemVals)) with
      | some (es, []) => some es | _ => none) = _
    rw [e2, List.map_flatten]

/-- C60. After any history of announced changes that have all been delivered, and for every request about objects that exist,
have values of the types of the standard and support the property asked for: the response is OK and the host reads a list of
as many elements as announced, filling the container: for each object in turn, exactly one element per property asked for that
has a value, with that value. (The list is under a gigabyte.) Missing: objects of which some do not support the property
(`C60_mixed_violated`), the form of the request for all objects of the standard (`C60_all_objects_violated`). -/
theorem C60_elements_partial (sv : PropServer) (st : Store (Option Val)) (next : Nat) (ops : List (Fac.Op (Option Val)))
    (hlive : ∀ h, st.has h = true → h < next) (hkids : ∀ p, ∀ k ∈ st.kids p, k < next)
    (ha : ∀ op ∈ ops, Fac.Announced op) (hf : sv.fac = ops.foldl Fac.step (Fac.init st next)) (hq : sv.fac.queue = [])
    (tid p0 p1 p2 p4 : Nat) (hs : List Nat) (hasks : Asks sv p0 p1 p4 hs) (hp : p2 < 2 ^ 16) (hp0 : p2 ≠ 0)
    (hh : ∀ h ∈ hs, h < 2 ^ 32 ∧ sv.fac.store.has h = true ∧ (sv.fac.store.has (sv.fac.store.parent h) = true ∨ h = 0) ∧
      (p2 = 0xFFFF ∨ p2 ∈ propsSupported sv.caps (sv.caps.category (u16 (sv.format h)))) ∧
      ∀ p v, sv.fac.store.val h p = some v → Typed (stdType p) v)
    (hsz : (hs.map (sizeFor sv p2)).sum ≤ 2 ^ 30) :
    ∃ s' bytes groups, getObjectPropList sv tid p0 p1 p2 p4 = .ok (s', some bytes, .ok) ∧
      Spec.readPropList tid bytes = some groups.flatten ∧ Each (Complete sv p2) hs groups ∧ s'.store = sv.fac.store := by
  have hi : Fac.Inv sv.fac := by rw [hf]; exact inv_of_history st next ops hlive hkids ha
  refine list_true sv (P := fun h _ => sv.fac.store.has h = true) ?_ tid p0 p1 p2 p4 hs hasks hp hp0 (fun h hm _ _ => (hh h hm).2.1)
    (fun h hm => ?_) hsz
  · intro h p v hs e
    refine (hi.coh h p v hs e).resolve_right ?_
    rw [hq]; simp [Fac.Pending]
  · obtain ⟨a, b, c, d, e⟩ := hh h hm
    exact ⟨a, b, c, d, fun p _ v => e p v⟩

/-- C60. A request for nothing in particular, one for unsupported depths or groups, and one whose objects cannot be listed carry
no element: an empty list or no dataset at all. -/
theorem C60_no_elements (sv : PropServer) (tid p0 p1 p2 p4 : Nat) :
    (p0 = 0 ∧ p4 = 0 → ∃ b, getObjectPropList sv tid p0 p1 p2 p4 = .ok (sv.fac, some b, .ok) ∧ Spec.readPropList tid b = some []) ∧
    (1 < p4 ∧ p4 < 0xFFFFFFFF → getObjectPropList sv tid p0 p1 p2 p4 = .ok (sv.fac, none, .byDepthUnsupported)) ∧
    ((p0 ≠ 0 ∨ p4 ≠ 0) ∧ (p4 ≤ 1 ∨ 0xFFFFFFFF ≤ p4) ∧ u16 p2 = 0 →
      getObjectPropList sv tid p0 p1 p2 p4 = .ok (sv.fac, none, .byGroupUnsupported)) ∧
    (∀ r hs, p4 = 1 ∨ p4 = 0xFFFFFFFF → u16 p2 ≠ 0 → r ≠ .ok →
      sv.handles (u16 p1) (if p0 = 0 then 0xFFFFFFFF else if p0 = 0xFFFFFFFF then 0 else p0) = (r, hs) →
      ∃ b, getObjectPropList sv tid p0 p1 p2 p4 = .ok (sv.fac, some b, r) ∧ Spec.readPropList tid b = some []) := by
  have hfit : ∀ v ∈ [Val.int 4 0], Fits v := by
    intro v hv
    simp only [List.mem_singleton] at hv
    subst hv
    exact ⟨by decide, by decide⟩
  obtain ⟨t, t1, t2, e1, e2, e3⟩ := sent_bytes 0x9805 tid 4 [.int 4 0] hfit (by decide) (by decide)
  have he : emptyPropList tid = .ok (Spec.header (12 + (encs [Val.int 4 0]).length) 2 0x9805 tid ++ encs [Val.int 4 0]) := by
    have hp : t.putInt 4 0 = .ok t1 := by
      simp only [Tx.puts, Tx.put] at e2
      cases hh : t.putInt 4 0 with
      | ub u => rw [hh] at e2; simp at e2
      | ok x => rw [hh] at e2; simpa using e2
    unfold emptyPropList
    simp only [e1, hp, e3, Res.bind_ok, Res.pure_eq]
  have hr : Spec.readPropList tid (Spec.header (12 + (encs [Val.int 4 0]).length) 2 0x9805 tid ++ encs [Val.int 4 0]) = some [] := by
    unfold Spec.readPropList
    rw [payload_of]
    decide
  refine ⟨?_, ?_, ?_, ?_⟩
  · rintro ⟨rfl, rfl⟩
    exact ⟨_, by simp only [getObjectPropList, and_self, if_true, he, Res.bind_ok, Res.pure_eq], hr⟩
  · intro h
    have h0 : ¬ (p0 = 0 ∧ p4 = 0) := by omega
    simp only [getObjectPropList, h0, if_false, h, and_self, if_true]
  · rintro ⟨h, h', h''⟩
    have h0 : ¬ (p0 = 0 ∧ p4 = 0) := by omega
    have h1 : ¬ (1 < p4 ∧ p4 < 0xFFFFFFFF) := by omega
    simp only [getObjectPropList, h0, if_false, h1, h'', if_true]
  · intro r hs h hp hne hh
    have h0 : p4 ≠ 0 := by omega
    have h1 : ¬ (1 < p4 ∧ p4 < 0xFFFFFFFF) := by omega
    refine ⟨_, ?_, hr⟩
    simp only [getObjectPropList, h0, and_false, if_false, h1, hp, category_supported, hh, hne, he, Res.bind_ok, Res.pure_eq]

/-- Values of the demonstration objects: storage id, format and name; images have a width. -/
def demoVals (h p : Nat) : Option Val :=
  if p = 0xDC01 then some (.int 4 0x10001)
  else if p = 0xDC02 then some (.int 2 (if h = 1 then 0x3801 else 0x3000))
  else if p = 0xDC07 then some (.str [0x61, 0x30 + UInt16.ofNat h])
  else if p = 0xDC87 ∧ h = 1 then some (.int 4 640)
  else none

/-- A folder 0 with an image 1 and a document 2. -/
def demoPropStore : Store (Option Val) :=
  { has := fun h => decide (h ≤ 2), parent := fun _ => 0, kids := fun h => if h = 0 then [2, 1] else [], val := demoVals }

/-- A server for them. -/
def demoServer : PropServer :=
  { caps := demoCaps, fac := Fac.init demoPropStore 3, format := fun h => if h = 1 then 0x3801 else 0x3000,
    handles := fun _ par => (.ok, if par = 0xFFFFFFFF then [1, 2] else []) }

/-- Witness: the hypotheses of `C60_elements_partial` are met by a request for all properties of both objects. -/
theorem C60_witness :
    Asks demoServer 0 0 1 [1, 2] ∧
    (∀ h ∈ [1, 2], h < 2 ^ 32 ∧ demoServer.fac.store.has h = true ∧
      (demoServer.fac.store.has (demoServer.fac.store.parent h) = true ∨ h = 0) ∧
      ∀ p v, demoServer.fac.store.val h p = some v → Typed (stdType p) v) ∧
    ([1, 2].map (sizeFor demoServer 0xFFFF)).sum = 86 := by
  refine ⟨Or.inr ⟨Or.inl rfl, rfl⟩, ?_, by decide +kernel⟩
  intro h hh
  have hh' : h = 1 ∨ h = 2 := by simpa using hh
  refine ⟨by omega, by rcases hh' with rfl | rfl <;> rfl, Or.inl rfl, ?_⟩
  intro p v hv
  have hv : demoVals h p = some v := hv
  unfold demoVals at hv
  split at hv
  · next e => subst e; cases hv; exact ⟨⟨by decide, by decide⟩, by decide⟩
  · split at hv
    · next e =>
      subst e; cases hv
      exact ⟨⟨by decide, by split <;> decide⟩, (by decide : typeOf (stdType 0xDC02) = some (.int 2))⟩
    · split at hv
      · next e =>
        subst e; cases hv
        exact ⟨trivial, (by decide : typeOf (stdType 0xDC07) = some .str)⟩
      · split at hv
        · next e =>
          have hv := Option.some.inj hv
          subst hv
          rw [e.1]
          exact ⟨⟨by decide, by decide⟩, by decide⟩
        · cases hv

/-- C60 is violated for objects of different kinds: asked for the width of everything in a folder with an image and a document,
the device sends nothing, although the image has a width. -/
theorem C60_mixed_violated :
    (∃ s, getObjectPropList demoServer 1 0 0 0xDC87 1 = .ok (s, none, .invalidObjectPropCode)) ∧
    demoServer.fac.store.val 1 0xDC87 = some (.int 4 640) := by
  refine ⟨?_, rfl⟩
  have h : (match getObjectPropList demoServer 1 0 0 0xDC87 1 with
    | .ok (_, none, .invalidObjectPropCode) => true | _ => false) = true := by decide +kernel
  split at h
  · next s e => exact ⟨s, e⟩
  · cases h

/-- C60 is violated for the standard's way to ask for all objects (handle 0xFFFFFFFF, depth 0): no object has that handle, and
the request is refused, on every device and for every property. -/
theorem C60_all_objects_violated (sv : PropServer) (tid p1 p2 : Nat) (hp : u16 p2 ≠ 0)
    (hh : sv.fac.store.has 0xFFFFFFFF = false) :
    getObjectPropList sv tid 0xFFFFFFFF p1 p2 0 = .ok (sv.fac, none, .invalidObjectHandle) := by
  obtain ⟨t, en1, en2, en3, en4⟩ := Tx.new_holds 2 0x9805 tid (16384 - 12) (by decide)
  obtain ⟨t1, ep1, ep2, ep3⟩ := Tx.puts_holds (vs := [.int 4 (u32 1)]) en2 (by
    intro v hv
    simp only [List.mem_singleton] at hv
    subst hv
    exact ⟨by decide, by decide⟩) (by rw [header_length]; decide)
  have hput1 : t.putInt 4 (u32 1) = .ok t1 := by
    simp only [Tx.puts, Tx.put] at ep1
    cases hh : t.putInt 4 (u32 1) with
    | ub u => rw [hh] at ep1; simp at ep1
    | ok x => rw [hh] at ep1; simpa using ep1
  simp [getObjectPropList, hp, category_supported, en1, hput1, propListLoop, hh]

end Props
