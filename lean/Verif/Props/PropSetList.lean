import Verif.Props.PropSet
/-! C64, C65: property lists from the host. -/
namespace Props
open Mtp Spec

/-- What a host is told about a property of an existing object as long as nothing else happens: the remembered value, or the one in
the storage. -/
def told (s : Fac (Option Val)) (h p : Nat) : Option Val := (s.cache.get h p).getD (s.store.val h p)

/-- The element can be set: its object exists, the device describes its property as settable, and if it is a file name, the
storage accepts it. -/
structure CanSet (env : NameEnv) (sv : PropServer) (s : Fac (Option Val)) (e : Elem) : Prop where
  object : s.store.has e.handle = true
  settable : ∃ d, Described sv.caps (sv.format e.handle) e.code d ∧ d.getSet = true
  name : e.code = 0xDC07 → GoodName env s e.handle (nameIn e.val)

/-- The element has been set and nothing else has changed. -/
structure WasSet (s : Fac (Option Val)) (e : Elem) (s' : Fac (Option Val)) : Prop where
  told : ∀ h p, told s' h p = if h = e.handle ∧ p = e.code then some (received e.val) else told s h p
  objects : s'.store.has = s.store.has ∧ s'.store.parent = s.store.parent ∧ s'.store.kids = s.store.kids
  storage : ∀ h p, (h, p) ≠ (e.handle, e.code) → s'.store.val h p = s.store.val h p

/-- Why an element cannot be set, with the response for it. -/
inductive Refuses (env : NameEnv) (sv : PropServer) (s : Fac (Option Val)) (e : Elem) : Resp → Prop
  | noObject : s.store.has e.handle = false → Refuses env sv s e .invalidObjectHandle
  | noProperty : s.store.has e.handle = true →
      (∀ tid, getObjPropDesc sv.caps tid e.code (sv.format e.handle) = .ok (none, .invalidObjectPropCode)) →
      Refuses env sv s e .invalidObjectPropCode
  | readOnly (d : ObjPropDesc) : s.store.has e.handle = true → Described sv.caps (sv.format e.handle) e.code d →
      d.getSet = false → Refuses env sv s e .accessDenied
  | badName : s.store.has e.handle = true → e.code = 0xDC07 → ¬ GoodName env s e.handle (nameIn e.val) →
      Refuses env sv s e .invalidObjectPropValue

theorem Refuses.ne_ok {env : NameEnv} {sv : PropServer} {s : Fac (Option Val)} {e : Elem} {r : Resp} (h : Refuses env sv s e r) :
    r ≠ .ok := by
  cases h <;> decide

/-- The elements have been set one after the other. -/
inductive SetAll (env : NameEnv) (sv : PropServer) : Fac (Option Val) → List Elem → Fac (Option Val) → Prop
  | nil (s : Fac (Option Val)) : SetAll env sv s [] s
  | cons {s s1 s' : Fac (Option Val)} {e : Elem} {es : List Elem} :
      CanSet env sv s e → WasSet s e s1 → SetAll env sv s1 es s' → SetAll env sv s (e :: es) s'

theorem told_add (s : Fac (Option Val)) (h p : Nat) (v : Option Val) (st : Store (Option Val))
    (hst : ∀ h' p', (h', p') ≠ (h, p) → st.val h' p' = s.store.val h' p') (h' p' : Nat) :
    told { s with store := st, cache := s.cache.addList h [(p, v)] } h' p' = if h' = h ∧ p' = p then v else told s h' p' := by
  unfold told
  show ((s.cache.add h p v).get h' p').getD (st.val h' p') = _
  rw [Cache.get_add]
  by_cases e : h' = h ∧ p' = p
  · obtain ⟨rfl, rfl⟩ := e
    simp
  · rw [if_neg (by rintro ⟨rfl, rfl⟩; exact e ⟨rfl, rfl⟩), if_neg e, hst h' p' (by rintro ⟨⟩; exact e ⟨rfl, rfl⟩)]

theorem elemSet_cases (env : NameEnv) (sv : PropServer) (hw : sv.caps.WF) (s : Fac (Option Val)) (e : Elem) (he : SoundElem e)
    (hs : e.dtype = stdType e.code) (h0 : e.code = 0xDC07 → e.handle ≠ 0) :
    (∃ s', elemSet env sv.caps sv.format s e = .ok (s', .ok) ∧ CanSet env sv s e ∧ WasSet s e s') ∨
    (∃ r, elemSet env sv.caps sv.format s e = .ok (s, r) ∧ Refuses env sv s e r) := by
  unfold elemSet
  cases hh : s.store.has e.handle with
  | false => exact Or.inr ⟨_, rfl, .noObject hh⟩
  | true =>
    simp only [if_true, propDescOf, hh]
    rcases desc_of sv.caps hw (sv.format e.handle) e.code he.2.1 with ⟨d, d0, hd, e1, e2, e3, e4, e5⟩ | ⟨e1, e2⟩
    · simp only [e1]
      cases hg : d0.getSet with
      | false =>
        refine Or.inr ⟨_, rfl, .readOnly d hh hd ?_⟩
        rw [← e4, hg]
      | true =>
        simp only [if_true, e2]
        have hset : ∃ d, Described sv.caps (sv.format e.handle) e.code d ∧ d.getSet = true := ⟨d, hd, by rw [← e4, hg]⟩
        by_cases hc : e.code = 0xDC07
        · have hv : Typed 0xFFFF e.val := by
            have := he.2.2.2
            rw [hs, hc, std_name] at this
            exact this
          have := facSet_name env s e.handle (some (received e.val)) hh (h0 hc)
          rw [asName_str hv] at this
          rw [hc, this]
          by_cases hn : env.wellFormed (nameIn e.val) = true ∧ env.taken s.store e.handle (nameIn e.val) = false
          · rw [if_pos hn]
            refine Or.inl ⟨_, rfl, ⟨hh, hset, fun _ => hn⟩, ?_, ?_, ?_⟩
            · rw [hc]
              apply told_add
              intro h' p' hne
              split
              · simp only [Store.setVals, Fac.over, List.foldl_cons, List.foldl_nil]
                by_cases a : h' = e.handle
                · have b : p' ≠ 0xDC07 := fun b => hne (by rw [a, b])
                  simp [a, b]
                · simp [a]
              · rfl
            · dsimp only
              split <;> exact ⟨rfl, rfl, rfl⟩
            · intro h' p' hne
              rw [hc] at hne
              dsimp only
              split
              · simp only [Store.setVals, Fac.over, List.foldl_cons, List.foldl_nil]
                by_cases a : h' = e.handle
                · have b : p' ≠ 0xDC07 := fun b => hne (by rw [a, b])
                  simp [a, b]
                · simp [a]
              · rfl
          · rw [if_neg hn]
            exact Or.inr ⟨_, rfl, .badName hh hc hn⟩
        · rw [facSet_other env s e.handle e.code _ hh hc]
          refine Or.inl ⟨_, rfl, ⟨hh, hset, fun h => absurd h hc⟩, ?_, ⟨rfl, rfl, rfl⟩, fun _ _ _ => rfl⟩
          exact told_add s e.handle e.code _ s.store (fun _ _ _ => rfl)
    · simp only [e1]
      exact Or.inr ⟨_, rfl, .noProperty hh e2⟩

theorem setElems_at (env : NameEnv) (sv : PropServer) (hw : sv.caps.WF) (es : List Elem) :
    ∀ (s : Fac (Option Val)) (i : Nat) (rx : Rx) (pre : List UInt8),
    (∀ e ∈ es, SoundElem e ∧ e.dtype = stdType e.code ∧ (e.code = 0xDC07 → e.handle ≠ 0)) →
    rx.At pre (encs (es.flatMap elemData)) →
    (∃ s', setElems env sv.caps sv.format es.length i s rx = .ok (s', .ok, i + es.length) ∧ SetAll env sv s es s') ∨
    (∃ s' r front e back, setElems env sv.caps sv.format es.length i s rx = .ok (s', r, i + front.length + 1) ∧
      es = front ++ e :: back ∧ SetAll env sv s front s' ∧ Refuses env sv s' e r) := by
  induction es with
  | nil =>
    intro s i rx pre _ _
    exact Or.inl ⟨s, rfl, .nil s⟩
  | cons e es ih =>
    intro s i rx pre hok hat
    obtain ⟨k1, k2, k3⟩ := hok e List.mem_cons_self
    have hat' : rx.At pre (encs (elemData e) ++ encs (es.flatMap elemData)) := by
      rw [← encs_append']
      exact hat
    have key := setElem_at env sv.caps sv.format s k1 hat'
    simp only [List.length_cons, setElems]
    rcases elemSet_cases env sv hw s e k1 k2 k3 with ⟨s1, f1, f2, f3⟩ | ⟨r, f1, f2⟩
    · rw [f1] at key
      obtain ⟨r', g1, g2⟩ := key
      simp only [g1, Res.bind_ok, if_true]
      rcases ih s1 (i + 1) r' _ (fun e he => hok e (List.mem_cons_of_mem _ he)) g2 with
        ⟨s', w1, w2⟩ | ⟨s', r, front, e', back, w1, w2, w3, w4⟩
      · refine Or.inl ⟨s', ?_, .cons f2 f3 w2⟩
        rw [w1]
        simp only [Res.ok.injEq, Prod.mk.injEq, true_and]
        omega
      · refine Or.inr ⟨s', r, e :: front, e', back, ?_, by rw [w2]; rfl, .cons f2 f3 w3, w4⟩
        rw [w1]
        simp only [Res.ok.injEq, Prod.mk.injEq, true_and, List.length_cons]
        omega
    · rw [f1] at key
      have hne := f2.ne_ok
      have key' : ∃ r', setElem env sv.caps sv.format s rx = .ok (s, r, r') := by
        revert key
        cases r <;> first | exact absurd rfl hne | exact id
      obtain ⟨r', g1⟩ := key'
      simp only [g1, Res.bind_ok, hne, if_false]
      exact Or.inr ⟨s, r, [], e, es, rfl, rfl, .nil s, f2⟩

/-- C64. For every property list whose values have the types of the standard and that renames no storage root, delivered in any
packets: either every element could be set, each has been, in the order of the list, and the answer is a plain OK; or exactly
the elements before the first one that cannot be set have been set, and the answer gives the reason for that element with its
zero-based position. Missing: values of other types are taken as they are (`C64_type_violated`). -/
theorem C64_set_list_partial (env : NameEnv) (sv : PropServer) (hw : sv.caps.WF) (es : List Elem)
    (hes : ∀ e ∈ es, SoundElem e ∧ e.dtype = stdType e.code ∧ (e.code = 0xDC07 → e.handle ≠ 0))
    (hl : (listData es).length ≤ 2 ^ 30) (tid : Nat) (rx : Rx) (hrx : Arrives (dataContainer 0x9806 tid (listData es)) rx) :
    (∃ s', setObjectPropListData env sv rx = .ok (s', .ok, []) ∧ SetAll env sv sv.fac es s') ∨
    (∃ s' r front e back, setObjectPropListData env sv rx = .ok (s', r, [front.length]) ∧
      es = front ++ e :: back ∧ SetAll env sv sv.fac front s' ∧ Refuses env sv s' e r) := by
  have hat := arrives_at hrx hl
  have hn : es.length < 256 ^ 4 := by
    have hle : es.length ≤ (encs (es.flatMap elemData)).length := elems_le_size es
    simp only [listData, List.length_append] at hl
    have : es.length < 4294967296 := by omega
    simpa using this
  have hat0 : rx.At (header (12 + (listData es).length) 2 0x9806 tid) (intBytes 4 es.length ++ encs (es.flatMap elemData)) := hat
  have a1 := Rx.getInt_at hat0 hn
  have b1 := hat0.advance
  rw [intBytes_length] at b1
  unfold setObjectPropListData
  simp only [a1, Res.bind_ok]
  rcases setElems_at env sv hw es sv.fac 0 _ _ hes b1 with ⟨s', w1, w2⟩ | ⟨s', r, front, e, back, w1, w2, w3, w4⟩
  · left
    refine ⟨s', ?_, w2⟩
    simp only [w1, Res.bind_ok, if_true, Res.pure_eq]
  · right
    refine ⟨s', r, front, e, back, ?_, w2, w3, w4⟩
    simp only [w1, Res.bind_ok, w4.ne_ok, if_false, Res.pure_eq, Nat.zero_add, Nat.add_sub_cancel]

/-- A list that names object 1, tries to set the (read-only) size of object 2 and to name it. -/
def demoElems : List Elem :=
  [⟨1, 0xDC07, 0xFFFF, .str [0x62]⟩, ⟨2, 0xDC04, 0x0008, .int 8 5⟩, ⟨2, 0xDC07, 0xFFFF, .str [0x63]⟩]

/-- Witness: the list meets the hypotheses of `C64_set_list_partial`, and the answer is AccessDenied for position 1. -/
theorem C64_witness :
    (∀ e ∈ demoElems, SoundElem e ∧ e.dtype = stdType e.code ∧ (e.code = 0xDC07 → e.handle ≠ 0)) ∧
    (listData demoElems).length = 46 ∧
    (match demoRx 0x9806 (listData demoElems) with
      | .ok rx =>
        match setObjectPropListData demoNames demoServer rx with
        | .ok (s, r, ps) => some (told s 1 0xDC07, told s 2 0xDC07, r, ps)
        | _ => none
      | _ => none) = some (some (.str [0x62]), some (.str [0x61, 0x32]), .accessDenied, [1]) := by
  refine ⟨?_, by decide +kernel, by decide +kernel⟩
  intro e he
  simp only [demoElems, List.mem_cons, List.not_mem_nil, or_false] at he
  rcases he with rfl | rfl | rfl
  · exact ⟨⟨by decide, by decide, by decide, trivial, by decide⟩, by decide, by decide⟩
  · exact ⟨⟨by decide, by decide, by decide, ⟨by decide, by decide⟩, by decide⟩, by decide, by decide⟩
  · exact ⟨⟨by decide, by decide, by decide, trivial, by decide⟩, by decide, by decide⟩

/-- C64 is violated for values of a type that is not the property's: a number is taken as a file name, and the answer is OK. -/
theorem C64_type_violated :
    (match demoRx 0x9806 (listData [⟨1, 0xDC07, 0x0006, .int 4 42⟩]) with
      | .ok rx =>
        match setObjectPropListData demoNames demoServer rx with
        | .ok (s, r, ps) => some (s.store.val 1 0xDC07, r, ps)
        | _ => none
      | _ => none) = some (some (.str [0x34, 0x32]), .ok, []) := by decide +kernel

/-- An element of an announcement: it belongs to the object to come (handle 0), and its property is one the device describes for
the announced format. -/
def Belongs (c : DevCaps) (fmt : Nat) (e : Elem) : Prop := e.handle = 0 ∧ ∃ d, Described c fmt e.code d

/-- The element is the last file name of the list. -/
def LastName (es : List Elem) (k : Nat) (n : Val) : Prop :=
  ∃ front e back, es = front ++ e :: back ∧ k = front.length ∧ e.code = 0xDC07 ∧ e.val = n ∧ ∀ x ∈ back, x.code ≠ 0xDC07

/-- The list of codes and values kept for the end of the upload. -/
def keptOf (es : List Elem) : List Kept := es.map fun e => (e.code, some (received e.val))

theorem scanElem_at (c : DevCaps) (hw : c.WF) (fmt : Nat) (hf : fmt < 2 ^ 16) {rx : Rx} {pre post : List UInt8} {e : Elem}
    (he : SoundElem e) (h : rx.At pre (encs (elemData e) ++ post)) :
    (Belongs c fmt e ∧ ∃ rx', scanElem c (c.category fmt) rx = .ok (some (e.code, some (received e.val)), rx') ∧
      rx'.At (pre ++ encs (elemData e)) post) ∨
    (¬ Belongs c fmt e ∧ ∃ rx', scanElem c (c.category fmt) rx = .ok (none, rx')) := by
  obtain ⟨r1, r2, r3, r4, e1, e2, e3, e4, h4⟩ := Rx.elem_at he h
  have hu : u16 fmt = fmt := by unfold u16; omega
  have hu' : u16 e.code = e.code := by have := he.2.1; unfold u16; omega
  unfold scanElem
  simp only [e1, Res.bind_ok]
  by_cases hz : e.handle = 0
  · simp only [hz, ne_eq, not_true_eq_false, if_false, e2, Res.bind_ok]
    rcases desc_of c hw fmt e.code he.2.1 with ⟨d, d0, hd, f1, _⟩ | ⟨f1, f2⟩
    · rw [hu, hu'] at f1
      simp only [f1, not_true_eq_false, if_false, e3, e4, Res.bind_ok, Res.pure_eq]
      exact Or.inl ⟨⟨hz, d, hd⟩, r4, rfl, h4⟩
    · rw [hu, hu'] at f1
      refine Or.inr ⟨?_, r2, ?_⟩
      · rintro ⟨_, d, hd⟩
        obtain ⟨b, e, _⟩ := hd 0
        rw [f2 0] at e
        cases e
      · simp [f1]
  · refine Or.inr ⟨fun hb => hz hb.1, r1, ?_⟩
    simp [hz]

/-- The name and index of the last file name after `last` was seen. -/
def lastName : List Elem → Nat → Option (QStr × Nat) → Option (QStr × Nat)
  | [], _, last => last
  | e :: es, i, last => lastName es (i + 1) (if e.code = 0xDC07 then some (asName (some (received e.val)), i) else last)

theorem scanElems_at (c : DevCaps) (hw : c.WF) (fmt : Nat) (hf : fmt < 2 ^ 16) (es : List Elem) :
    ∀ (i : Nat) (rx : Rx) (pre : List UInt8) (last : Option (QStr × Nat)), (∀ e ∈ es, SoundElem e) →
    rx.At pre (encs (es.flatMap elemData)) →
    ((∀ e ∈ es, Belongs c fmt e) ∧
      scanElems c (c.category fmt) es.length i rx last = .ok (.inr (keptOf es, lastName es i last))) ∨
    (∃ front e back, es = front ++ e :: back ∧ (∀ x ∈ front, Belongs c fmt x) ∧ ¬ Belongs c fmt e ∧
      scanElems c (c.category fmt) es.length i rx last = .ok (.inl (i + front.length))) := by
  induction es with
  | nil =>
    intro i rx pre last _ _
    exact Or.inl ⟨by simp, rfl⟩
  | cons e es ih =>
    intro i rx pre last hok hat
    have hat' : rx.At pre (encs (elemData e) ++ encs (es.flatMap elemData)) := by
      rw [← encs_append']
      exact hat
    simp only [List.length_cons, scanElems]
    rcases scanElem_at c hw fmt hf (hok e List.mem_cons_self) hat' with ⟨hb, r', f1, f2⟩ | ⟨hb, r', f1⟩
    · simp only [f1, Res.bind_ok]
      rcases ih (i + 1) r' _ (if e.code = 0xDC07 then some (asName (some (received e.val)), i) else last)
        (fun x hx => hok x (List.mem_cons_of_mem _ hx)) f2 with ⟨g1, g2⟩ | ⟨front, x, back, g1, g2, g3, g4⟩
      · left
        refine ⟨?_, ?_⟩
        · intro x hx
          rcases List.mem_cons.mp hx with rfl | hx
          · exact hb
          · exact g1 x hx
        · simp only [g2, Res.bind_ok]
          rfl
      · right
        refine ⟨e :: front, x, back, by rw [g1]; rfl, ?_, g3, ?_⟩
        · intro y hy
          rcases List.mem_cons.mp hy with rfl | hy
          · exact hb
          · exact g2 y hy
        · simp only [g4, Res.bind_ok, List.length_cons, Res.ok.injEq, Sum.inl.injEq]
          omega
    · simp only [f1, Res.bind_ok]
      exact Or.inr ⟨[], e, es, rfl, by simp, hb, rfl⟩

theorem lastName_none (es : List Elem) : ∀ (i : Nat) (last : Option (QStr × Nat)), (∀ e ∈ es, e.code ≠ 0xDC07) →
    lastName es i last = last := by
  induction es with
  | nil => intro i last _; rfl
  | cons e es ih =>
    intro i last h
    unfold lastName
    rw [if_neg (h e List.mem_cons_self)]
    exact ih _ _ (fun x hx => h x (List.mem_cons_of_mem _ hx))

theorem lastName_some (front : List Elem) (e : Elem) (back : List Elem) (he : e.code = 0xDC07) (hb : ∀ x ∈ back, x.code ≠ 0xDC07) :
    ∀ (i : Nat) (last : Option (QStr × Nat)),
    lastName (front ++ e :: back) i last = some (asName (some (received e.val)), i + front.length) := by
  induction front with
  | nil =>
    intro i last
    simp only [List.nil_append, lastName, he, if_true, List.length_nil]
    exact lastName_none back _ _ hb
  | cons x front ih =>
    intro i last
    simp only [List.cons_append, lastName, ih, List.length_cons]
    congr 2
    omega

/-- The answer to an announcement as the standard wants it: what the device has to say about a list of elements. -/
inductive Verdict (c : DevCaps) (add : AddItem) (o : NewObj) (es : List Elem) : Mtp.Announced → Prop
  /-- an element that does not belong: refused with its position, nothing made -/
  | alien (front : List Elem) (e : Elem) (back : List Elem) : es = front ++ e :: back → (∀ x ∈ front, Belongs c o.format x) →
      ¬ Belongs c o.format e → Verdict c add o es ⟨.invalidDataset, [0, 0, 0, front.length], none⟩
  /-- no file name: refused, nothing made -/
  | nameless : (∀ e ∈ es, Belongs c o.format e) → (∀ e ∈ es, e.code ≠ 0xDC07) → Verdict c add o es ⟨.invalidDataset, [], none⟩
  /-- an empty file name: refused with its position, nothing made -/
  | emptyName (k : Nat) (v : Val) : (∀ e ∈ es, Belongs c o.format e) → LastName es k v → nameIn v = [] →
      Verdict c add o es ⟨.invalidDataset, [0, 0, 0, k], none⟩
  /-- the storage refuses the object: its reason, with the position of the file name -/
  | noRoom (k : Nat) (v : Val) (r : Resp) : (∀ e ∈ es, Belongs c o.format e) → LastName es k v → nameIn v ≠ [] →
      (add o.storage o.parent o.format o.size (nameIn v)).1 = r → r ≠ .ok → Verdict c add o es ⟨r, [0, 0, 0, k], none⟩
  /-- the object is made with the storage, parent, format and size announced and the last file name of the list; the answer
  tells where it is and its handle, and the values are kept -/
  | made (k : Nat) (v : Val) (st par h : Nat) : (∀ e ∈ es, Belongs c o.format e) → LastName es k v → nameIn v ≠ [] →
      add o.storage o.parent o.format o.size (nameIn v) = (.ok, st, par, h) →
      Verdict c add o es ⟨.ok, [st, par, h], some (o.storage, o.parent, o.format, o.size, nameIn v, h, keptOf es)⟩

theorem exists_last (es : List Elem) : (∀ e ∈ es, e.code ≠ 0xDC07) ∨
    ∃ front e back, es = front ++ e :: back ∧ e.code = 0xDC07 ∧ ∀ x ∈ back, x.code ≠ 0xDC07 := by
  induction es with
  | nil => left; simp
  | cons e es ih =>
    rcases ih with h | ⟨front, x, back, h1, h2, h3⟩
    · by_cases hc : e.code = 0xDC07
      · exact Or.inr ⟨[], e, es, rfl, hc, h⟩
      · left
        intro x hx
        rcases List.mem_cons.mp hx with rfl | hx
        · exact hc
        · exact h x hx
    · exact Or.inr ⟨e :: front, x, back, by rw [h1]; rfl, h2, h3⟩

/-- C65. For every announcement, with file names of string type, delivered in any packets, and whatever the storage does: the
answer is the one of `Verdict`. -/
theorem C65_announcement_partial (c : DevCaps) (hw : c.WF) (add : AddItem) (o : NewObj) (hf : o.format < 2 ^ 16) (es : List Elem)
    (hes : ∀ e ∈ es, SoundElem e ∧ (e.code = 0xDC07 → e.dtype = 0xFFFF)) (hl : (listData es).length ≤ 2 ^ 30)
    (tid : Nat) (rx : Rx) (hrx : Arrives (dataContainer 0x9808 tid (listData es)) rx) :
    ∃ a, sendObjectPropListData c add o rx = .ok a ∧ Verdict c add o es a := by
  have hat := arrives_at hrx hl
  have hn : es.length < 256 ^ 4 := by
    have hle : es.length ≤ (encs (es.flatMap elemData)).length := elems_le_size es
    simp only [listData, List.length_append] at hl
    have : es.length < 4294967296 := by omega
    simpa using this
  have hat0 : rx.At (header (12 + (listData es).length) 2 0x9808 tid) (intBytes 4 es.length ++ encs (es.flatMap elemData)) := hat
  have a1 := Rx.getInt_at hat0 hn
  have b1 := hat0.advance
  rw [intBytes_length] at b1
  unfold sendObjectPropListData
  simp only [a1, Res.bind_ok]
  rcases scanElems_at c hw o.format hf es 0 _ _ none (fun e he => (hes e he).1) b1 with
    ⟨g1, g2⟩ | ⟨front, e, back, g1, g2, g3, g4⟩
  · simp only [g2, Res.bind_ok]
    rcases exists_last es with hno | ⟨front, e, back, k1, k2, k3⟩
    · rw [lastName_none es 0 none hno]
      exact ⟨_, rfl, .nameless g1 hno⟩
    · have hlast : lastName es 0 none = some (nameIn e.val, front.length) := by
        obtain ⟨s1, s2⟩ := hes e (by rw [k1]; simp)
        have hv : Typed 0xFFFF e.val := by have := s1.2.2.2; rw [s2 k2] at this; exact this
        rw [k1, lastName_some front e back k2 k3, asName_str hv, Nat.zero_add]
      have hL : LastName es front.length e.val := ⟨front, e, back, k1, rfl, k2, rfl, k3⟩
      rw [hlast]
      simp only
      by_cases hz : nameIn e.val = []
      · rw [if_pos hz]
        exact ⟨_, rfl, .emptyName _ _ g1 hL hz⟩
      · rw [if_neg hz]
        cases ha : add o.storage o.parent o.format o.size (nameIn e.val) with
        | mk r q =>
          obtain ⟨st, par, h⟩ := q
          by_cases hr : r = .ok
          · subst hr
            exact ⟨_, rfl, .made _ _ st par h g1 hL hz ha⟩
          · refine ⟨⟨r, [0, 0, 0, front.length], none⟩, ?_, .noRoom _ _ r g1 hL hz (by rw [ha]) hr⟩
            cases r <;> first | exact absurd rfl hr | rfl
  · simp only [g4, Res.bind_ok, Nat.zero_add]
    exact ⟨_, rfl, .alien front e back g1 g2 g3⟩

/-- C65. The request phase: an announcement is taken further exactly if the storage and the parent named exist (0 leaves the choice
to the device, and a parent of 0xFFFFFFFF means the root) and the object is smaller than 4 GB; what was announced is kept. -/
theorem C65_request (storageOk handleOk : Nat → Resp) (p0 p1 p2 p3 p4 : Nat) :
    ((p0 = 0 ∨ storageOk p0 = .ok) ∧ (p1 = 0 ∨ p1 = 0xFFFFFFFF ∨ handleOk p1 = .ok) ∧ p3 = 0 →
      sendObjectPropListReq storageOk handleOk p0 p1 p2 p3 p4 = (.ok, some ⟨p0, p1, p4, p2 % 2 ^ 16⟩)) ∧
    (¬ ((p0 = 0 ∨ storageOk p0 = .ok) ∧ (p1 = 0 ∨ p1 = 0xFFFFFFFF ∨ handleOk p1 = .ok) ∧ p3 = 0) →
      (sendObjectPropListReq storageOk handleOk p0 p1 p2 p3 p4).1 ≠ .ok ∧
      (sendObjectPropListReq storageOk handleOk p0 p1 p2 p3 p4).2 = none) := by
  unfold sendObjectPropListReq
  constructor
  · rintro ⟨h1, h2, h3⟩
    have e1 : (if p0 ≠ 0 then storageOk p0 else Resp.ok) = .ok := by
      split
      · next h => exact h1.resolve_left h
      · rfl
    have e2 : (if p1 ≠ 0 ∧ p1 ≠ 0xFFFFFFFF then handleOk p1 else Resp.ok) = .ok := by
      split
      · next h => exact (h2.resolve_left h.1).resolve_left h.2
      · rfl
    simp only [e1, e2, h3]
    rfl
  · intro h
    by_cases a : (if p0 ≠ 0 then storageOk p0 else Resp.ok) = .ok
    · by_cases b : (if p1 ≠ 0 ∧ p1 ≠ 0xFFFFFFFF then handleOk p1 else Resp.ok) = .ok
      · by_cases hp : p3 = 0
        · exfalso
          apply h
          refine ⟨?_, ?_, hp⟩
          · by_cases z : p0 = 0
            · exact Or.inl z
            · right
              rw [if_pos z] at a
              exact a
          · by_cases z : p1 = 0
            · exact Or.inl z
            · by_cases z' : p1 = 0xFFFFFFFF
              · exact Or.inr (Or.inl z')
              · rw [if_pos ⟨z, z'⟩] at b
                exact Or.inr (Or.inr b)
        · simp only [a, b]
          simp [hp]
      · simp only [a]
        simp only [b, ne_eq, not_true_eq_false, not_false_eq_true, if_false, if_true, and_self]
    · simp only [a, ne_eq, not_false_eq_true, if_true, and_self]

/-- The elements that take effect at the end of the upload: not the file name, and not a display name equal to it. -/
def Effective (fileName : QStr) (e : Elem) : Prop := e.code ≠ 0xDC07 ∧ ¬ (e.code = 0xDC44 ∧ nameIn e.val = fileName)

theorem storageSet_quiet (env : NameEnv) (h : Nat) (l : List (Nat × Option Val)) (st : Store (Option Val))
    (hl : ∀ q ∈ l, q.1 ≠ 0xDC07) : storageSet env h st l = .ok (st, .ok) := by
  induction l with
  | nil => rfl
  | cons q l ih =>
    obtain ⟨p, v⟩ := q
    simp only [storageSet]
    rw [if_neg (hl (p, v) List.mem_cons_self)]
    exact ih (fun x hx => hl x (List.mem_cons_of_mem _ hx))

theorem filterMap_same {α β : Type} {f g : α → Option β} {l : List α} (h : ∀ x ∈ l, f x = g x) : l.filterMap f = l.filterMap g := by
  induction l with
  | nil => rfl
  | cons a l ih =>
    simp only [List.filterMap_cons, h a List.mem_cons_self, ih (fun x hx => h x (List.mem_cons_of_mem _ hx))]

/-- C65. When the upload of an announced object is complete, the host is told, for every element of the announcement that takes
effect and is the last one for its property, the value it sent; the properties of other objects are not touched. -/
theorem C65_values_kept (env : NameEnv) (c : DevCaps) (hw : c.WF) (fmt : Nat) (hf : fmt < 2 ^ 16) (s : Fac (Option Val)) (h : Nat)
    (hh : s.store.has h = true) (name : QStr) (hname : s.store.val h 0xDC07 = some (.str name)) (es : List Elem)
    (hb : ∀ e ∈ es, Belongs c fmt e) (hs : ∀ e ∈ es, SoundElem e ∧ e.dtype = stdType e.code) :
    ∃ s', applyKept env c fmt s h (keptOf es) = .ok s' ∧ s'.store = s.store ∧
      (∀ front e back, es = front ++ e :: back → Effective name e → (∀ x ∈ back, x.code ≠ e.code ∨ ¬ Effective name x) →
        told s' h e.code = some (received e.val)) ∧
      ∀ h', h' ≠ h → ∀ p, told s' h' p = told s h' p := by
  have hu : u16 fmt = fmt := by unfold u16; omega
  let keep : Elem → Option (Nat × Option Val) := fun e =>
    if e.code = 0xDC07 then none
    else if e.code = 0xDC44 ∧ nameIn e.val = name then none
    else some (e.code, some (received e.val))
  have hfn : asName (s.store.val h 0xDC07) = name := by rw [hname]; rfl
  have hkeep : keptSets c (c.category fmt) (some name) (keptOf es) = es.filterMap keep := by
    unfold keptSets keptOf
    rw [List.filterMap_map]
    apply filterMap_same
    intro e he
    obtain ⟨_, d, hd⟩ := hb e he
    obtain ⟨k1, k2⟩ := hs e he
    obtain ⟨d0, e1, e2, _⟩ := desc_found c hw fmt e.code k1.2.1 d hd
    have hu' : u16 e.code = e.code := by have := k1.2.1; unfold u16; omega
    rw [hu, hu'] at e1
    simp only [Function.comp, keep, e1, e2]
    by_cases a : e.code = 0xDC07
    · simp [a]
    · simp only [a, if_false]
      by_cases b : e.code = 0xDC44
      · have hv : Typed 0xFFFF e.val := by
          have := k1.2.2.2
          rw [k2, b] at this
          exact this
        simp only [b, asName_str hv, true_and, Option.some.injEq, eq_comm]
      · simp [b]
  have hquiet : ∀ q ∈ es.filterMap keep, q.1 ≠ 0xDC07 := by
    intro q hq
    obtain ⟨e, _, he⟩ := List.mem_filterMap.mp hq
    simp only [keep] at he
    split at he
    · cases he
    · next a =>
      split at he
      · cases he
      · cases he; exact a
  refine ⟨{ s with cache := s.cache.addList h (es.filterMap keep) }, ?_, rfl, ?_, ?_⟩
  · unfold applyKept
    simp only [hh, if_true, hfn, hkeep]
    unfold facSet
    simp only [hh, if_true, storageSet_quiet env h _ s.store hquiet, Res.bind_ok]
  · intro front e back hes he hback
    unfold told
    show ((s.cache.addList h (es.filterMap keep)).get h e.code).getD _ = _
    rw [Cache.get_addList, if_pos rfl]
    have hk : keep e = some (e.code, some (received e.val)) := by
      simp only [keep]
      rw [if_neg he.1, if_neg he.2]
    have hl : Spec.lastIn (es.filterMap keep) e.code = some (some (received e.val)) := by
      unfold Spec.lastIn
      rw [hes, List.filterMap_append, List.filterMap_cons_some hk, List.filter_append, List.filter_cons_of_pos (by simp)]
      have hz : (back.filterMap keep).filter (fun q => decide (q.1 = e.code)) = [] := by
        rw [List.filter_eq_nil_iff]
        intro q hq
        obtain ⟨x, hx, hxq⟩ := List.mem_filterMap.mp hq
        simp only [keep] at hxq
        rcases hback x hx with hne | hne
        · split at hxq
          · cases hxq
          · split at hxq
            · cases hxq
            · cases hxq; simpa using hne
        · exfalso
          apply hne
          split at hxq
          · cases hxq
          · next a =>
            split at hxq
            · cases hxq
            · next b => exact ⟨a, b⟩
      rw [hz]
      simp
    rw [hl]
    rfl
  · intro h' hne p
    unfold told
    show ((s.cache.addList h (es.filterMap keep)).get h' p).getD _ = _
    rw [Cache.get_addList, if_neg (fun a => hne a.symm)]

/-- An announcement of an audio file: name, artist, track. -/
def demoAnnounce : List Elem :=
  [⟨0, 0xDC07, 0xFFFF, .str [0x62]⟩, ⟨0, 0xDC46, 0xFFFF, .str [0x63]⟩, ⟨0, 0xDC8B, 0x0004, .int 2 3⟩]

/-- Witness: the announcement, for the format MP3, meets the hypotheses of `C65_announcement_partial` and is accepted. -/
theorem C65_witness :
    (∀ e ∈ demoAnnounce, SoundElem e ∧ e.dtype = stdType e.code ∧ (e.code = 0xDC07 → e.dtype = 0xFFFF)) ∧
    demoCaps.category 0x3009 = .audio ∧
    (match demoRx 0x9808 (listData demoAnnounce) with
      | .ok rx =>
        match sendObjectPropListData demoCaps (fun _ _ _ _ _ => (.ok, 0x10001, 0, 77)) ⟨0, 0, 5, 0x3009⟩ rx with
        | .ok a => some (a.resp, a.params, a.made.map fun m => m.2.2.2.2.1)
        | _ => none
      | _ => none) = some (.ok, [0x10001, 0, 77], some [0x62]) := by
  refine ⟨?_, by decide +kernel, by decide +kernel⟩
  intro e he
  simp only [demoAnnounce, List.mem_cons, List.not_mem_nil, or_false] at he
  rcases he with rfl | rfl | rfl
  · exact ⟨⟨by decide, by decide, by decide, trivial, by decide⟩, by decide, by decide⟩
  · exact ⟨⟨by decide, by decide, by decide, trivial, by decide⟩, by decide, by decide⟩
  · exact ⟨⟨by decide, by decide, by decide, ⟨by decide, by decide⟩, by decide⟩, by decide, by decide⟩

/-- C65 is violated for the form of refusals: a list without a file name is refused without saying which property is missing (the
standard wants four parameters), and a read-only property, such as the size, is taken and afterwards told to the host. -/
theorem C65_form_violated :
    (∀ (c : DevCaps) (add : AddItem) (o : NewObj) (tid : Nat) (rx : Rx), Arrives (dataContainer 0x9808 tid (listData [])) rx →
      ∃ a, sendObjectPropListData c add o rx = .ok a ∧ a.params = []) ∧
    (match demoRx 0x9808 (listData [⟨0, 0xDC07, 0xFFFF, .str [0x62]⟩, ⟨0, 0xDC04, 0x0008, .int 8 99⟩]) with
      | .ok rx =>
        match sendObjectPropListData demoCaps (fun _ _ _ _ _ => (.ok, 0x10001, 0, 1)) ⟨0, 0, 5, 0x3009⟩ rx with
        | .ok ⟨.ok, _, some (_, _, _, _, _, h, ks)⟩ =>
          match applyKept demoNames demoCaps 0x3009 demoServer.fac h ks with
          | .ok s => told s 1 0xDC04
          | _ => none
        | _ => none
      | _ => none) = some (.int 8 99) := by
  refine ⟨?_, by decide +kernel⟩
  intro c add o tid rx hrx
  have hat := arrives_at hrx (by decide)
  have hat0 : rx.At (header (12 + (listData []).length) 2 0x9808 tid) (intBytes 4 0 ++ []) := hat
  have a1 := Rx.getInt_at hat0 (by decide)
  unfold sendObjectPropListData
  simp only [a1, Res.bind_ok, scanElems]
  exact ⟨_, rfl, rfl⟩

end Props
