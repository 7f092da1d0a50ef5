import Verif.Lemmas.ServerSet
import Verif.Props.ServerProps
import Verif.Props.Names
/-! C107: setting properties of objects, end to end. -/
namespace Props
open Mtp Spec

/-- The storage lets object `h` be named `n`: no forbidden character, not only dots, no object of that name in its folder. (An
empty name is let through, too; the system does not carry it out.) -/
structure NameAllowed (s : Server) (h : Nat) (n : QStr) : Prop where
  chars : ∀ c ∈ Server.toPath n, ¬ BadChar c
  dots : Server.toPath n = [] ∨ ∃ c ∈ Server.toPath n, c ≠ '.'
  free : ∃ it p pit, s.tree.get h = some it ∧ it.parent = some p ∧ s.tree.get p = some pit ∧
    AMap.get s.tree.paths (join pit.path (Server.toPath n)) = none

/-- The device describes property `p` for objects of the format of object `h`, as settable or not (GetObjectPropDesc). -/
def DescribedAs (d : PServer) (h p : Nat) (settable : Bool) : Prop :=
  ∃ t, Described d.srv.caps (d.srv.infoOf h).2.format p t ∧ t.getSet = settable

/-- The element of a property list can be set: its object exists, the device describes its property as settable for objects of this
format, and if it is a file name, the storage lets the object have it. -/
structure Accepts (d : PServer) (e : Elem) : Prop where
  object : d.srv.tree.has e.handle = true
  settable : DescribedAs d e.handle e.code true
  name : e.code = 0xDC07 → NameAllowed d.srv e.handle (nameIn e.val)

/-- Why it cannot be set, with the response for it. -/
inductive Rejects (d : PServer) (e : Elem) : Resp → Prop
  | noObject : d.srv.tree.has e.handle = false → Rejects d e .invalidObjectHandle
  | noProperty : d.srv.tree.has e.handle = true →
      (∀ tid, getObjPropDesc d.srv.caps tid e.code (d.srv.infoOf e.handle).2.format = .ok (none, .invalidObjectPropCode)) →
      Rejects d e .invalidObjectPropCode
  | readOnly : d.srv.tree.has e.handle = true → DescribedAs d e.handle e.code false → Rejects d e .accessDenied
  | badName : d.srv.tree.has e.handle = true → e.code = 0xDC07 → ¬ NameAllowed d.srv e.handle (nameIn e.val) →
      Rejects d e .invalidObjectPropValue

/-- The element has been set: its value is told from now on, and what is told about all other properties is as before. A file name
that can be carried out (`Renamable`) has been: the object has it, and is otherwise, as all others, as before. Nothing else happened
to any object. -/
structure SetTo (d d' : PServer) (e : Elem) : Prop where
  told : ∀ h p, told d'.fac h p = if h = e.handle ∧ p = e.code then some (received e.val) else told d.fac h p
  cached : d'.cache.get e.handle e.code = some (some (received e.val))
  kept : ∀ h p, ¬ (h = e.handle ∧ p = e.code) → d'.cache.get h p = d.cache.get h p
  objects : Unchanged d.srv d'.srv ∧ (e.code = 0xDC07 → ¬ Renamable d.srv e.handle (nameIn e.val)) ∨
    e.code = 0xDC07 ∧ Placed d.srv d'.srv e.handle (d.srv.infoOf e.handle).2.parent (nameIn e.val)
  caps : d'.srv.caps = d.srv.caps

/-- The elements have been set one after the other. -/
inductive SetEach : PServer → List Elem → PServer → Prop
  | nil (d : PServer) : SetEach d [] d
  | cons {d d1 d' : PServer} {e : Elem} {es : List Elem} : Accepts d e → SetTo d d1 e → SetEach d1 es d' → SetEach d (e :: es) d'

/-- A value of the standard's type for its property; not a name for the root. -/
def Sendable (e : Elem) : Prop := SoundElem e ∧ e.dtype = stdType e.code ∧ (e.code = 0xDC07 → e.handle ≠ 0)

theorem Rejects.ne_ok {d : PServer} {e : Elem} {c : Resp} (h : Rejects d e c) : c ≠ .ok := by cases h <;> decide

theorem SetTo.ok {d d' : PServer} {e : Elem} (h : SetTo d d' e) : ServerOk d'.srv := by
  rcases h.objects with ⟨h, _⟩ | ⟨_, h⟩
  · exact h.ok
  · exact h.ok

private theorem nameValid_iff {s : Server} {h : Nat} {it pit : Item} {p : Nat} {n : QStr} (e1 : s.tree.get h = some it)
    (e2 : it.parent = some p) (e3 : s.tree.get p = some pit) :
    s.tree.nameValid (Server.toPath n) pit = true ↔ NameAllowed s h n := by
  unfold Tree.nameValid
  simp only [Bool.and_eq_true, Bool.not_eq_true', Option.isNone_iff_eq_none]
  constructor
  · rintro ⟨⟨h1, h2⟩, h3⟩
    refine ⟨fun c hc hb => ?_, ?_, it, p, pit, e1, e2, e3, h3⟩
    · rw [List.any_eq_true.mpr ⟨c, hc, (illegal_iff c).mpr hb⟩] at h1
      cases h1
    · by_cases hn : Server.toPath n = []
      · exact Or.inl hn
      · right
        simp only [hn, ne_eq, not_false_eq_true, decide_true, Bool.true_and, List.all_eq_false] at h2
        obtain ⟨c, hc, hd⟩ := h2
        exact ⟨c, hc, by simpa using hd⟩
  · rintro ⟨h1, h2, it', p', pit', f1, f2, f3, f4⟩
    rw [e1] at f1; cases f1
    rw [e2] at f2; cases f2
    rw [e3] at f3; cases f3
    refine ⟨⟨List.any_eq_false.mpr fun c hc hi => h1 c hc ((illegal_iff c).mp hi), ?_⟩, f4⟩
    rcases h2 with h2 | ⟨c, hc, hd⟩
    · rw [h2]; rfl
    · have : (Server.toPath n).all (· = '.') = false := by
        rw [List.all_eq_false]
        exact ⟨c, hc, by simpa using hd⟩
      rw [this, Bool.and_false]

private theorem rename_caps (s : Server) (h : Nat) (n : QStr) : (s.rename h n).1.caps = s.caps := by
  unfold Server.rename
  split
  · rfl
  · dsimp only
    split <;> rfl

/-- What the device does with one value that can be set. -/
private theorem set_cases {d : PServer} (w : ServerOk d.srv) {e : Elem} (he : Sendable e) (hh : d.srv.tree.has e.handle = true)
    (hs : DescribedAs d e.handle e.code true) :
    ((d.set e.handle e.code (some (received e.val))).2 = .ok ∧ Accepts d e ∧ SetTo d (d.set e.handle e.code (some (received e.val))).1 e) ∨
    ∃ c, d.set e.handle e.code (some (received e.val)) = (d, c) ∧ Rejects d e c := by
  have htold : ∀ (s' : Server), (∀ h' p', (h', p') ≠ (e.handle, e.code) → s'.prop h' p' = d.srv.prop h' p') → ∀ h p,
      told (PServer.fac { d with srv := s', cache := d.cache.addList e.handle [(e.code, some (received e.val))] }) h p =
        if h = e.handle ∧ p = e.code then some (received e.val) else told d.fac h p := by
    intro s' hs' h p
    exact told_add d.fac e.handle e.code (some (received e.val)) { d.fac.store with val := s'.prop } hs' h p
  have hcache : ∀ h p, (d.cache.addList e.handle [(e.code, some (received e.val))]).get h p =
      if e.handle = h ∧ e.code = p then some (some (received e.val)) else d.cache.get h p := by
    intro h p
    show (Cache.add _ _ _ _).get _ _ = _
    rw [Cache.get_add]
  unfold PServer.set
  rw [if_neg (by rw [hh]; decide)]
  by_cases hc : e.code = 0xDC07
  · rw [if_pos hc]
    have hv : Typed 0xFFFF e.val := by
      have := he.1.2.2.2
      rw [he.2.1, hc, std_name] at this
      exact this
    rw [asName_str hv]
    obtain ⟨it, p, pit, e1, e2, e3, e4, e5⟩ := Server.rename_answer_iff w (he.2.2 hc) hh (nameIn e.val)
    have hiff := nameValid_iff (n := nameIn e.val) e1 e2 e3
    cases hn : d.srv.tree.nameValid (Server.toPath (nameIn e.val)) pit with
    | true =>
      have hok := e4 hn
      left
      rw [hok, if_pos rfl]
      refine ⟨rfl, ⟨hh, hs, fun _ => hiff.mp hn⟩, ?_, ?_, ?_, ?_, ?_⟩
      · exact htold _ fun h' p' hne => Server.rename_prop w _ _ _ _ (by rw [← hc]; exact hne)
      · exact (hcache _ _).trans (if_pos ⟨rfl, rfl⟩)
      · intro h p hne
        exact (hcache _ _).trans (if_neg fun x => hne ⟨x.1.symm, x.2.symm⟩)
      · rcases Server.rename_outcome w e.handle (nameIn e.val) with ⟨k1, k2⟩ | ⟨_, k⟩
        · exact Or.inl ⟨k1, fun _ => k2⟩
        · exact Or.inr ⟨hc, k⟩
      · exact rename_caps ..
    | false =>
      right
      rw [e5 hn, if_neg (by simp)]
      exact ⟨_, rfl, .badName hh hc fun k => by rw [hiff.mpr k] at hn; cases hn⟩
  · rw [if_neg hc]
    refine Or.inl ⟨rfl, ⟨hh, hs, fun h => absurd h hc⟩, htold d.srv (fun _ _ _ => rfl), ?_, ?_, Or.inl ⟨?_, fun h => absurd h hc⟩, rfl⟩
    · exact (hcache _ _).trans (if_pos ⟨rfl, rfl⟩)
    · intro h p hne
      exact (hcache _ _).trans (if_neg fun x => hne ⟨x.1.symm, x.2.symm⟩)
    · exact ⟨rfl, w, fun _ => rfl, fun _ => rfl, fun _ => rfl⟩

/-- What the device answers for one element, before it looks at the value. -/
private theorem desc_cases {d : PServer} (hw : d.srv.caps.WF) {e : Elem} (he : Sendable e) (hh : d.srv.tree.has e.handle = true) :
    (∃ t, propDescOf d.srv.caps d.view.format d.fac e.handle e.code = (.ok, some t) ∧ t.code = e.code ∧ t.dtype = e.dtype ∧
      DescribedAs d e.handle e.code t.getSet) ∨
    (propDescOf d.srv.caps d.view.format d.fac e.handle e.code = (.invalidObjectPropCode, none) ∧ Rejects d e .invalidObjectPropCode) := by
  have hh' : d.fac.store.has e.handle = true := hh
  unfold propDescOf
  rw [if_pos hh']
  rcases desc_of d.srv.caps hw (d.srv.infoOf e.handle).2.format e.code he.1.2.1 with ⟨t, t0, ht, e1, e2, e3, e4, e5⟩ | ⟨e1, e2⟩
  · exact Or.inl ⟨t0, e1, e2, by rw [e3, e5, he.2.1], t, ht, e4.symm⟩
  · exact Or.inr ⟨e1, .noProperty hh e2⟩

private theorem elem_cases {d : PServer} (w : ServerOk d.srv) (hw : d.srv.caps.WF) {e : Elem} (he : Sendable e) {rx : Rx}
    {pre post : List UInt8} (hat : rx.At pre (encs (elemData e) ++ post)) :
    (∃ d' rx', d.setElem rx = .ok (d', .ok, rx') ∧ rx'.At (pre ++ encs (elemData e)) post ∧ Accepts d e ∧ SetTo d d' e) ∨
    ∃ c rx', d.setElem rx = .ok (d, c, rx') ∧ Rejects d e c := by
  obtain ⟨r1, r2, r3, r4, e1, e2, e3, e4, h4⟩ := Rx.elem_at he.1 hat
  unfold PServer.setElem
  simp only [e1, Res.bind_ok]
  cases hh : d.srv.tree.has e.handle with
  | false => exact Or.inr ⟨_, _, rfl, .noObject hh⟩
  | true =>
    simp only [if_true, e2, Res.bind_ok]
    rcases desc_cases hw he hh with ⟨t, f1, f2, f3, f4⟩ | ⟨f1, f2⟩
    · simp only [f1]
      cases hg : t.getSet with
      | false =>
        rw [hg] at f4
        exact Or.inr ⟨_, _, rfl, .readOnly hh f4⟩
      | true =>
        rw [hg] at f4
        simp only [if_true, e3, e4, Res.bind_ok, f2, Res.pure_eq]
        rcases set_cases w he hh f4 with ⟨k1, k2, k3⟩ | ⟨c, k1, k2⟩
        · rw [k1]
          exact Or.inl ⟨_, _, rfl, h4, k2, k3⟩
        · rw [k1]
          exact Or.inr ⟨c, _, rfl, k2⟩
    · simp only [f1]
      exact Or.inr ⟨_, _, rfl, f2⟩

private theorem elems_cases (es : List Elem) : ∀ (d : PServer) (i : Nat) (rx : Rx) (pre : List UInt8), ServerOk d.srv → d.srv.caps.WF →
    (∀ e ∈ es, Sendable e) → rx.At pre (encs (es.flatMap elemData)) →
    (∃ d', PServer.setElems es.length i d rx = (d', .ok, i + es.length) ∧ SetEach d es d') ∨
    (∃ d' c front e back, PServer.setElems es.length i d rx = (d', c, i + front.length + 1) ∧
      es = front ++ e :: back ∧ SetEach d front d' ∧ Rejects d' e c) := by
  induction es with
  | nil =>
    intro d i rx pre _ _ _ _
    exact Or.inl ⟨d, rfl, .nil d⟩
  | cons e es ih =>
    intro d i rx pre w hw hok hat
    have hat' : rx.At pre (encs (elemData e) ++ encs (es.flatMap elemData)) := by
      rw [← encs_append']
      exact hat
    simp only [List.length_cons, PServer.setElems]
    rcases elem_cases w hw (hok e List.mem_cons_self) hat' with ⟨d1, r', g1, g2, g3, g4⟩ | ⟨c, r', g1, g2⟩
    · rw [g1]
      simp only
      rcases ih d1 (i + 1) r' _ g4.ok (by rw [g4.caps]; exact hw) (fun e he => hok e (List.mem_cons_of_mem _ he)) g2 with
        ⟨d', w1, w2⟩ | ⟨d', c, front, e', back, w1, w2, w3, w4⟩
      · refine Or.inl ⟨d', ?_, .cons g3 g4 w2⟩
        rw [w1]
        simp only [Prod.mk.injEq, true_and]
        omega
      · refine Or.inr ⟨d', c, e :: front, e', back, ?_, by rw [w2]; rfl, .cons g3 g4 w3, w4⟩
        rw [w1]
        simp only [Prod.mk.injEq, true_and, List.length_cons]
        omega
    · rw [g1]
      have hne := g2.ne_ok
      refine Or.inr ⟨d, c, [], e, es, ?_, rfl, .nil d, g2⟩
      cases c <;> first | exact absurd rfl hne | rfl

private theorem read_at {op tid : Nat} {pay : List UInt8} (hl : pay.length ≤ 2 ^ 30) :
    ∃ rx, collect (dataContainer op tid pay) [] = .ok rx ∧ rx.At (header (12 + pay.length) 2 op tid) pay := by
  have hlen : 4 ≤ (dataContainer op tid pay).length := by
    simp only [dataContainer, List.length_append, header_length]
    omega
  obtain ⟨rx, e, _⟩ := framed_collect (container_framed op tid pay hl) (p := dataContainer op tid pay) (ps := []) (by simp) hlen
  exact ⟨rx, e, arrives_at ⟨_, [], by simp, hlen, e⟩ hl⟩

private theorem list_cases {d : PServer} (w : ServerOk d.srv) (hw : d.srv.caps.WF) (es : List Elem) (hes : ∀ e ∈ es, Sendable e)
    (hl : (listData es).length ≤ 2 ^ 30) (tid : Nat) :
    (∃ d', d.setList (dataContainer 0x9806 tid (listData es)) = (d', .ok, []) ∧ SetEach d es d') ∨
    (∃ d' c front e back, d.setList (dataContainer 0x9806 tid (listData es)) = (d', c, [front.length]) ∧
      es = front ++ e :: back ∧ SetEach d front d' ∧ Rejects d' e c) := by
  obtain ⟨rx, hrx, hat⟩ := read_at (op := 0x9806) (tid := tid) hl
  have hn : es.length < 256 ^ 4 := by
    have hle : es.length ≤ (encs (es.flatMap elemData)).length := elems_le_size es
    simp only [listData, List.length_append] at hl
    have : es.length < 4294967296 := by omega
    simpa using this
  have hat0 : rx.At (header (12 + (listData es).length) 2 0x9806 tid) (intBytes 4 es.length ++ encs (es.flatMap elemData)) := hat
  have a1 := Rx.getInt_at hat0 hn
  have b1 := hat0.advance
  rw [intBytes_length] at b1
  generalize dataContainer 0x9806 tid (listData es) = C at *
  unfold PServer.setList
  rw [hrx]
  simp only [Res.bind_ok, a1]
  rcases elems_cases es d 0 _ _ w hw hes b1 with ⟨d', w1, w2⟩ | ⟨d', c, front, e, back, w1, w2, w3, w4⟩
  · left
    rw [w1]
    exact ⟨d', rfl, w2⟩
  · right
    rw [w1]
    have hne := w4.ne_ok
    refine ⟨d', c, front, e, back, ?_, w2, w3, w4⟩
    cases c <;> first | exact absurd rfl hne | simp

private theorem store_list (d : PServer) (ps : List Nat) (b : List UInt8) : PServer.dev.store d 0x9806 ps b = d.setList b := by
  unfold PServer.dev
  simp only [PServer.store]
  rw [if_neg (by decide), if_pos trivial]

/-- C107. SetObjectPropList, sent in any packets: either every element could be set, each has been, in the order of the list, and the
answer is a plain OK; or exactly the elements before the first one that cannot be set have been set, and the answer gives the reason
for that one with its zero-based position. -/
theorem C107_set_list (r : Rsp PServer) (ho : Open r) (w : ServerOk r.dev.srv) (hw : r.dev.srv.caps.WF) (q : List UInt8)
    (hq : Asking q 0x9806) (es : List Elem) (hes : ∀ e ∈ es, Sendable e) (hl : (listData es).length ≤ 2 ^ 30)
    (bs : List (List UInt8)) (hc : CarriesDataset bs (dataContainer 0x9806 (cTid q) (listData es))) :
    (∃ r', AnsweredBy PServer.dev r r' (sendObject q bs) q .ok [] ∧ dataOf r'.out = dataOf r.out ∧ SetEach r.dev es r'.dev) ∨
    (∃ r' c front e back, AnsweredBy PServer.dev r r' (sendObject q bs) q c [front.length] ∧ dataOf r'.out = dataOf r.out ∧
      es = front ++ e :: back ∧ SetEach r.dev front r'.dev ∧ Rejects r'.dev e c) := by
  obtain ⟨r', k1, k2, k3⟩ := Server.set_answer_by PServer.dev r ho q 0x9806 hq false rfl rfl (listData es) bs hc hl (fun h => by cases h)
  rw [store_list] at k1 k2
  rcases list_cases w hw es hes hl (cTid q) with ⟨d', w1, w2⟩ | ⟨d', c, front, e, back, w1, w2, w3, w4⟩
  · left
    rw [w1] at k1 k2
    exact ⟨r', k1, k3, by rw [k2]; exact w2⟩
  · right
    rw [w1] at k1 k2
    simp only at k2
    exact ⟨r', c, front, e, back, k1, k3, w2, by rw [k2]; exact w3, by rw [k2]; exact w4⟩

/-- C107. SetObjectPropValue, sent in any packets: the value has been set and the answer is a plain OK, or it cannot be set, the answer
gives the reason and the device is as before. -/
theorem C107_set_value (r : Rsp PServer) (ho : Open r) (w : ServerOk r.dev.srv) (hw : r.dev.srv.caps.WF) (q : List UInt8)
    (hq : Asking q 0x9804) (v : Val) (he : Sendable ⟨cParam q 0, cParam q 1, stdType (cParam q 1), v⟩) (hl : (enc v).length ≤ 2 ^ 30)
    (bs : List (List UInt8)) (hc : CarriesDataset bs (dataContainer 0x9804 (cTid q) (enc v))) :
    (∃ r', AnsweredBy PServer.dev r r' (sendObject q bs) q .ok [] ∧ dataOf r'.out = dataOf r.out ∧
      Accepts r.dev ⟨cParam q 0, cParam q 1, stdType (cParam q 1), v⟩ ∧ SetTo r.dev r'.dev ⟨cParam q 0, cParam q 1, stdType (cParam q 1), v⟩) ∨
    (∃ r' c, AnsweredBy PServer.dev r r' (sendObject q bs) q c [] ∧ r'.dev = r.dev ∧
      Rejects r.dev ⟨cParam q 0, cParam q 1, stdType (cParam q 1), v⟩ c) := by
  generalize hE : (⟨cParam q 0, cParam q 1, stdType (cParam q 1), v⟩ : Elem) = e at *
  have hE1 : e.handle = cParam q 0 := by rw [← hE]
  have hE2 : e.code = cParam q 1 := by rw [← hE]
  have hE3 : e.val = v := by rw [← hE]
  have hbs : bs ≠ [] := by
    rintro rfl
    obtain ⟨⟨b, hb, _⟩, _⟩ := hc
    cases hb
  have hck : PServer.dev.check r.dev 0x9804 (cParams q) = setObjPropValueReq r.dev.view e.handle e.code := by
    rw [hE1, hE2]
    rfl
  have hpd : ∀ x, propDescOf r.dev.view.caps r.dev.view.format r.dev.view.fac e.handle e.code = x →
      propDescOf r.dev.srv.caps r.dev.view.format r.dev.fac e.handle e.code = x := fun _ h => h
  cases hh : r.dev.srv.tree.has e.handle with
  | false =>
    right
    have hr : setObjPropValueReq r.dev.view e.handle e.code = .invalidObjectHandle := by
      unfold setObjPropValueReq propDescOf
      have : r.dev.view.fac.store.has e.handle = false := hh
      rw [this]
      rfl
    obtain ⟨r', a1, a2⟩ := Server.set_refused_by PServer.dev r ho q 0x9804 hq rfl rfl bs hbs _ (hck.trans hr) (by decide)
    exact ⟨r', _, a1, a2, .noObject hh⟩
  | true =>
    rcases desc_cases hw he hh with ⟨t, f1, f2, f3, f4⟩ | ⟨f1, f2⟩
    · have f1' : propDescOf r.dev.view.caps r.dev.view.format r.dev.view.fac e.handle e.code = (.ok, some t) := f1
      have hr : setObjPropValueReq r.dev.view e.handle e.code = if t.getSet then .ok else .accessDenied := by
        unfold setObjPropValueReq
        rw [f1']
      cases hg : t.getSet with
      | false =>
        right
        rw [hg] at hr f4
        obtain ⟨r', a1, a2⟩ := Server.set_refused_by PServer.dev r ho q 0x9804 hq rfl rfl bs hbs _ (hck.trans hr) (by decide)
        exact ⟨r', _, a1, a2, .readOnly hh f4⟩
      | true =>
        rw [hg] at hr f4
        have hr' : setObjPropValueReq r.dev.view e.handle e.code = .ok := hr
        obtain ⟨r', k1, k2, k3⟩ := Server.set_answer_by PServer.dev r ho q 0x9804 hq true rfl rfl (enc v) bs hc hl
          (fun _ => hck.trans hr')
        obtain ⟨rx, hrx, hat⟩ := read_at (op := 0x9804) (tid := cTid q) hl
        have hat' : rx.At (header (12 + (enc v).length) 2 0x9804 (cTid q)) (enc v ++ []) := by rw [List.append_nil]; exact hat
        have hty : Typed t.dtype v := by
          rw [f3, ← hE3]
          exact he.1.2.2.2
        have hget := Rx.getVariant_at hty hat'
        have hst : PServer.dev.store r.dev 0x9804 (cParams q) (dataContainer 0x9804 (cTid q) (enc v)) =
            ((r.dev.set e.handle e.code (some (received e.val))).1, (r.dev.set e.handle e.code (some (received e.val))).2, []) := by
          show PServer.store r.dev 0x9804 (cParams q) _ = _
          unfold PServer.store
          rw [if_pos rfl, show (cParams q).getD 0 0 = e.handle from hE1.symm, show (cParams q).getD 1 0 = e.code from hE2.symm, hr']
          simp only
          have : r.dev.setValue e.handle e.code (dataContainer 0x9804 (cTid q) (enc v)) =
              r.dev.set e.handle e.code (some (received e.val)) := by
            unfold PServer.setValue
            rw [f1]
            simp only [hrx, Res.bind_ok, hget, f2, hE3]
          rw [this]
        rw [hst] at k1 k2
        simp only at k1 k2
        rcases set_cases w he hh f4 with ⟨g1, g2, g3⟩ | ⟨c, g1, g2⟩
        · rw [g1] at k1
          exact Or.inl ⟨r', k1, k3, g2, by rw [k2]; exact g3⟩
        · rw [g1] at k1 k2
          exact Or.inr ⟨r', c, k1, k2, g2⟩
    · right
      have f1' : propDescOf r.dev.view.caps r.dev.view.format r.dev.view.fac e.handle e.code = (.invalidObjectPropCode, none) := f1
      have hr : setObjPropValueReq r.dev.view e.handle e.code = .invalidObjectPropCode := by
        unfold setObjPropValueReq
        rw [f1']
      obtain ⟨r', a1, a2⟩ := Server.set_refused_by PServer.dev r ho q 0x9804 hq rfl rfl bs hbs _ (hck.trans hr) (by decide)
      exact ⟨r', _, a1, a2, f2⟩

/-- All that is told about an object but its file name. -/
def unnamed (o : ObjInfo) : ObjInfo := { o with fileName := [] }

/-- What one change leaves as it was. -/
private theorem SetTo.rest {d d' : PServer} {e : Elem} (h : SetTo d d' e) (x : Nat) :
    d'.srv.tree.has x = d.srv.tree.has x ∧ contents d'.srv x = contents d.srv x ∧
    unnamed (d'.srv.infoOf x).2 = unnamed (d.srv.infoOf x).2 ∧
    (d'.srv.infoOf x).1 = (d.srv.infoOf x).1 ∧
    (¬ (e.handle = x ∧ e.code = 0xDC07) → d'.srv.infoOf x = d.srv.infoOf x) := by
  rcases h.objects with ⟨k, _⟩ | ⟨k0, k⟩
  · exact ⟨k.objects x, k.contents x, by rw [k.told], by rw [k.told], fun _ => k.told x⟩
  · refine ⟨k.same x, k.contents x, ?_⟩
    by_cases hx : x = e.handle
    · subst hx
      rw [k.told]
      exact ⟨rfl, k.known.symm, fun h => absurd ⟨rfl, k0⟩ h⟩
    · rw [k.others x hx]
      exact ⟨rfl, rfl, fun _ => rfl⟩

/-- C107. Nothing but what the list names is different: there are the same objects with the same contents; what is told about an object
(GetObjectInfo) is as before but for the file name, and that, too, if the list names it not; properties that are not in the list are
told as before. -/
theorem C107_rest {d d' : PServer} {es : List Elem} (h : SetEach d es d') :
    (∀ x, d'.srv.tree.has x = d.srv.tree.has x ∧ contents d'.srv x = contents d.srv x ∧
      unnamed (d'.srv.infoOf x).2 = unnamed (d.srv.infoOf x).2 ∧
      (d'.srv.infoOf x).1 = (d.srv.infoOf x).1 ∧
      ((∀ e ∈ es, ¬ (e.handle = x ∧ e.code = 0xDC07)) → d'.srv.infoOf x = d.srv.infoOf x)) ∧
    (∀ x p, (∀ e ∈ es, ¬ (e.handle = x ∧ e.code = p)) → told d'.fac x p = told d.fac x p ∧ d'.cache.get x p = d.cache.get x p) ∧
    d'.srv.caps = d.srv.caps := by
  induction h with
  | nil => exact ⟨fun _ => ⟨rfl, rfl, rfl, rfl, fun _ => rfl⟩, fun _ _ _ => ⟨rfl, rfl⟩, rfl⟩
  | cons _ h1 _ ih =>
    obtain ⟨i1, i2, i3⟩ := ih
    refine ⟨fun x => ?_, fun x p hx => ?_, i3.trans h1.caps⟩
    · obtain ⟨a1, a2, a3, a4, a5⟩ := h1.rest x
      obtain ⟨b1, b2, b3, b4, b5⟩ := i1 x
      exact ⟨b1.trans a1, b2.trans a2, b3.trans a3, b4.trans a4, fun hx =>
        (b5 fun e he => hx e (List.mem_cons_of_mem _ he)).trans (a5 (hx _ List.mem_cons_self))⟩
    · obtain ⟨b1, b2⟩ := i2 x p fun e he => hx e (List.mem_cons_of_mem _ he)
      have hn := hx _ List.mem_cons_self
      refine ⟨b1.trans ?_, b2.trans (h1.kept x p fun k => hn ⟨k.1.symm, k.2.symm⟩)⟩
      rw [h1.told, if_neg fun k => hn ⟨k.1.symm, k.2.symm⟩]

private theorem SetEach.split {d d' : PServer} : ∀ (a : List Elem) {b : List Elem}, SetEach d (a ++ b) d' →
    ∃ d1, SetEach d a d1 ∧ SetEach d1 b d'
  | [], b, h => ⟨d, .nil d, h⟩
  | e :: a, b, h => by
    cases h with
    | cons h1 h2 h3 =>
      obtain ⟨d1, k1, k2⟩ := SetEach.split a h3
      exact ⟨d1, .cons h1 h2 k1, k2⟩

/-- C107. What has been set is told: for every element that no later one of the list overrides, GetObjPropValue says the value sent (a
string up to its first NUL, at most 254 units, without byte-order mark). -/
theorem C107_told {d : PServer} {es : List Elem} (r : Rsp PServer) (h : SetEach d es r.dev) (hw : d.srv.caps.WF) (ho : Open r)
    (a : List Elem) (e : Elem) (b : List Elem) (hes : es = a ++ e :: b) (hlast : ∀ x ∈ b, ¬ (x.handle = e.handle ∧ x.code = e.code))
    (he : Sendable e) (hl : (enc e.val).length ≤ 2 ^ 30) : Says r e.handle e.code (shown (received e.val)) := by
  subst hes
  obtain ⟨d1, k1, k2⟩ := SetEach.split a h
  cases k2 with
  | @cons _ d2 _ _ _ g1 g2 g3 =>
    obtain ⟨c1, c2, c3⟩ := C107_rest g3
    have hcaps1 := (C107_rest k1).2.2
    obtain ⟨h1, _, h2, _⟩ := c1 e.handle
    obtain ⟨f1, _, f2, _⟩ := g2.rest e.handle
    have hh : r.dev.srv.tree.has e.handle = true := by rw [h1, f1]; exact g1.object
    have hcache : r.dev.cache.get e.handle e.code = some (some (received e.val)) := by
      rw [(c2 e.handle e.code hlast).2]
      exact g2.cached
    have hcaps : r.dev.srv.caps = d1.srv.caps := c3.trans g2.caps
    have hfmt : (r.dev.srv.infoOf e.handle).2.format = (d1.srv.infoOf e.handle).2.format :=
      show (unnamed _).format = (unnamed _).format from congrArg ObjInfo.format (h2.trans f2)
    obtain ⟨t, ht, _⟩ := g1.settable
    have hw' : r.dev.srv.caps.WF := by rw [hcaps, hcaps1]; exact hw
    have ht' : Described r.dev.srv.caps (r.dev.srv.infoOf e.handle).2.format e.code t := by rw [hcaps, hfmt]; exact ht
    obtain ⟨_, _, _, _, _, hty⟩ := desc_found r.dev.srv.caps hw' _ e.code he.1.2.1 t ht'
    intro q hq hp0 hp1
    obtain ⟨bytes, e1, hb⟩ := get_cached r.dev.view hw' e.handle e.code he.1.2.1 t ht' hh (received e.val)
      (received_typed (by rw [hty, ← he.2.1]; exact he.1.2.2.2)) (enc_received_length e.val hl) r.dev.fac (read_cached hcache) 0
    obtain ⟨p, hpay⟩ : ∃ p, payload 0x9803 0 bytes = some p := by
      cases hpay : payload 0x9803 0 bytes with
      | some p => exact ⟨p, rfl⟩
      | none =>
        unfold readValue at hb
        rw [hpay] at hb
        cases hb
    obtain ⟨p1, p2⟩ := Server.payload_container hpay
    have hqu : PServer.dev.query r.dev 0x9803 (cParams q) = r.dev.answer (getObjPropValue r.dev.view 0 (cParam q 0) (cParam q 1)) := rfl
    rw [hp0, hp1, e1] at hqu
    obtain ⟨r', a1, a2, a3⟩ := Server.query_answer_by PServer.dev r ho q 0x9803 hq _ rfl rfl .ok [] (by rw [hqu]; rfl)
    refine ⟨r', p, a1, ?_, by rw [← p1, ← hty]; exact hb⟩
    rw [a3, hqu]
    simp [PServer.answer, Server.oneFrame, p2]

/-! A device with the file 1 ("ab"). -/

/-- A list that names file 1 "c", sets its display name, and tries to set its (read-only) size and an object that does not exist. -/
def setDemo : List Elem :=
  [⟨1, 0xDC07, 0xFFFF, .str [99]⟩, ⟨1, 0xDC44, 0xFFFF, .str [100]⟩, ⟨1, 0xDC04, 0x0008, .int 8 5⟩, ⟨9, 0xDC07, 0xFFFF, .str [101]⟩]

/-- What the host gets when it sends `es` and then asks for the two names of file 1. -/
def getsSet (es : List Elem) : List Out × List UInt8 :=
  gets (sendObject demoAnn demoAnnData ++ sendObject demoPut demoPutData ++
    sendObject (Toy.cmd 0x9806 7 []) [dataContainer 0x9806 7 (listData es)] ++ propValue 8 1 0xDC07 ++ propValue 9 1 0xDC44)

/-- Witness: the hypotheses of C107 are met by a device with a file and by a list with two elements that can be set, one that cannot
and one for an unknown object; AccessDenied is answered for position 2, and both names are told. -/
theorem C107_witness :
    (∃ r, demoPRsp.run PServer.dev (sendObject demoAnn demoAnnData ++ sendObject demoPut demoPutData) = .ok r ∧
      (r.st = .idle ∧ r.req = none ∧ r.ready = true ∧ r.session ≠ 0) ∧ r.dev.srv.tree.has 1 = true) ∧
    Asking (Toy.cmd 0x9806 7 []) 0x9806 ∧ (∀ e ∈ setDemo, Sendable e) ∧ (listData setDemo).length ≤ 2 ^ 30 ∧
    CarriesDataset [dataContainer 0x9806 7 (listData setDemo)] (dataContainer 0x9806 (cTid (Toy.cmd 0x9806 7 [])) (listData setDemo)) ∧
    getsSet setDemo = ([.response .ok 5 [0x00010001, 0, 1], .response .ok 6 [], .response .accessDenied 7 [2], .response .ok 8 [],
      .response .ok 9 []], [2, 99, 0, 0, 0, 2, 100, 0, 0, 0]) ∧
    (getsSet (setDemo.take 2)).1.getD 2 .reset = .response .ok 7 [] ∧
    (getsSet (setDemo.drop 3)).1.getD 2 .reset = .response .invalidObjectHandle 7 [0] := by
  refine ⟨⟨_, rfl, by decide +kernel, by decide +kernel⟩, ⟨by decide +kernel, by decide +kernel⟩, ?_, by decide +kernel,
    ⟨⟨_, rfl, by decide +kernel⟩, by decide +kernel⟩, by decide +kernel, by decide +kernel, by decide +kernel⟩
  intro e he
  simp only [setDemo, List.mem_cons, List.not_mem_nil, or_false] at he
  rcases he with rfl | rfl | rfl | rfl
  · exact ⟨⟨by decide, by decide, by decide, trivial, by decide⟩, by decide, by decide⟩
  · exact ⟨⟨by decide, by decide, by decide, trivial, by decide⟩, by decide, by decide⟩
  · exact ⟨⟨by decide, by decide, by decide, ⟨by decide, by decide⟩, by decide⟩, by decide, by decide⟩
  · exact ⟨⟨by decide, by decide, by decide, trivial, by decide⟩, by decide, by decide⟩

/-- C107 is violated for names the system does not carry out: an empty one is answered OK and told as the file name (GetObjPropValue)
from then on; the file is still called "ab", and GetObjectInfo says so. -/
theorem C107_empty_name_violated :
    gets (sendObject demoAnn demoAnnData ++ sendObject demoPut demoPutData ++
      sendObject (Toy.cmd 0x9806 7 []) [dataContainer 0x9806 7 (listData [⟨1, 0xDC07, 0xFFFF, .str []⟩])] ++ propValue 8 1 0xDC07) =
      ([.response .ok 5 [0x00010001, 0, 1], .response .ok 6 [], .response .ok 7 [], .response .ok 8 []], [0]) ∧
    (match demoPRsp.run PServer.dev (sendObject demoAnn demoAnnData ++ sendObject demoPut demoPutData ++
      sendObject (Toy.cmd 0x9806 7 []) [dataContainer 0x9806 7 (listData [⟨1, 0xDC07, 0xFFFF, .str []⟩])] ++
      ask (Toy.cmd 0x1008 8 [1])) with
    | .ok r => (readObjInfo 0 (dataContainer 0x1008 0 (dataOf r.out))).map (·.fileName)
    | .ub _ => none) = some [97, 98] := by
  refine ⟨by decide +kernel, by decide +kernel⟩

end Props
