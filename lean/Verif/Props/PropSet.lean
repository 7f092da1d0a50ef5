import Verif.Lemmas.PropSet
import Verif.Props.PropList
import Verif.Props.CodecIn
/-! C63–C65: changing properties. -/
namespace Props
open Mtp Spec

/-- The container `c` arrives in some packets (the first with the length field) and is collected as `rx`. -/
def Arrives (c : List UInt8) (rx : Rx) : Prop := ∃ p ps, (p :: ps).flatten = c ∧ 4 ≤ p.length ∧ collect p ps = .ok rx

theorem container_framed (op tid : Nat) (pay : List UInt8) (h : pay.length ≤ 2 ^ 30) : Framed (dataContainer op tid pay) := by
  have hl := header_length (12 + pay.length) 2 op tid
  refine ⟨by simp only [dataContainer, List.length_append]; omega, ?_⟩
  have ht : (dataContainer op tid pay).take 4 = intBytes 4 (12 + pay.length) := by
    unfold dataContainer Spec.header
    simp only [List.append_assoc]
    rw [List.take_append_of_le_length (by rw [intBytes_length]; omega), List.take_of_length_le (by rw [intBytes_length]; omega)]
  rw [ht, leVal_intBytes _ _ (by have : 12 + pay.length < 4294967296 := by omega
                                 simpa using this)]
  simp [dataContainer, hl]

theorem arrives_at {op tid : Nat} {pay : List UInt8} {rx : Rx} (h : Arrives (dataContainer op tid pay) rx)
    (hl : pay.length ≤ 2 ^ 30) : rx.At (header (12 + pay.length) 2 op tid) pay := by
  obtain ⟨p, ps, h1, h2, h3⟩ := h
  obtain ⟨r, e, hm, ho, _, hlt⟩ := framed_collect (container_framed op tid pay hl) h1 h2
  rw [h3] at e
  cases e
  refine ⟨?_, hlt, by rw [ho, header_length]⟩
  rw [hm]
  show List.take (dataContainer op tid pay).length _ = _
  rw [List.take_of_length_le (by simp)]
  rfl

/-- The tables, seen through the descriptions a host gets. -/
theorem desc_of (c : DevCaps) (hw : c.WF) (fmt p : Nat) (hp : p < 2 ^ 16) :
    (∃ d d0, Described c fmt p d ∧ objectPropDesc c (c.category (u16 fmt)) (u16 p) = (.ok, some d0) ∧ d0.code = p ∧
      d0.dtype = d.dtype ∧ d0.getSet = d.getSet ∧ d.dtype = stdType p) ∨
    (objectPropDesc c (c.category (u16 fmt)) (u16 p) = (.invalidObjectPropCode, none) ∧
      ∀ tid, getObjPropDesc c tid p fmt = .ok (none, .invalidObjectPropCode)) := by
  have hu : u16 p = p := by unfold u16; omega
  by_cases hm : p ∈ propsSupported c (c.category (u16 fmt))
  · obtain ⟨k, r, hk, hr, hrc, hd⟩ := objectPropDesc_some c (c.category (u16 fmt)) p hm
    refine Or.inl ⟨_, podDesc c k r, described_of c hw fmt p k r hr (by rw [hu]; exact hd), by rw [hu]; exact hd, hrc, rfl, rfl, ?_⟩
    rw [← hrc]
    exact (rows_std k r hr).symm
  · right
    refine ⟨by rw [hu]; exact objectPropDesc_none c _ p hm, ?_⟩
    intro tid
    unfold getObjPropDesc
    simp only [hu, objectPropDesc_none c _ p hm, category_supported, if_false, Res.pure_eq]

/-- A described property is found in the tables. -/
theorem desc_found (c : DevCaps) (hw : c.WF) (fmt p : Nat) (hp : p < 2 ^ 16) (d : ObjPropDesc) (h : Described c fmt p d) :
    ∃ d0, objectPropDesc c (c.category (u16 fmt)) (u16 p) = (.ok, some d0) ∧ d0.code = p ∧
      d0.dtype = d.dtype ∧ d0.getSet = d.getSet ∧ d.dtype = stdType p := by
  rcases desc_of c hw fmt p hp with ⟨d', d0, h1, h2⟩ | ⟨_, h2⟩
  · rw [h.unique h1]
    exact ⟨d0, h2⟩
  · obtain ⟨b, e, _⟩ := h 0
    rw [h2 0] at e
    cases e

/-- The name in a value of string type, as received. -/
def nameIn : Val → QStr
  | .str s => bom (cut s)
  | _ => []

theorem asName_str {v : Val} (h : Typed 0xFFFF v) : asName (some (received v)) = nameIn v := by
  cases v with
  | str s => rfl
  | int w n => have := h.2; simp [typeOf, Val.ty] at this
  | arr w n => have := h.2; simp [typeOf, Val.ty] at this

theorem std_name : stdType 0xDC07 = 0xFFFF := by decide

/-- A name the storage accepts for the object. -/
def GoodName (env : NameEnv) (s : Fac (Option Val)) (h : Nat) (n : QStr) : Prop :=
  env.wellFormed n = true ∧ env.taken s.store h n = false

/-- The answer to GetObjPropValue when a value is cached. -/
theorem get_cached (sv : PropServer) (hw : sv.caps.WF) (h p : Nat) (hp : p < 2 ^ 16) (d : ObjPropDesc)
    (hd : Described sv.caps (sv.format h) p d) (hh : sv.fac.store.has h = true) (v : Val) (hv : Typed d.dtype v)
    (hl : (enc v).length ≤ 2 ^ 30) (s' : Fac (Option Val)) (hr : sv.fac.read h [p] = (s', .ok, [(p, some v)])) (tid : Nat) :
    ∃ bytes, getObjPropValue sv tid h p = .ok (s', some bytes, .ok) ∧
      readValue 0x9803 tid d.dtype bytes = some (shown v) := by
  obtain ⟨d0, e1, e2, e3, e4, e5⟩ := desc_found sv.caps hw (sv.format h) p hp d hd
  have hfit : ∀ x ∈ [v], Fits x := by
    intro x hx
    simp only [List.mem_singleton] at hx
    subst hx
    exact hv.1
  have hen : encs [v] = enc v := by simp [encs]
  obtain ⟨t, t1, t2, f1, f2, f3⟩ := sent_bytes 0x9803 tid 16 [v] hfit (by rw [hen]; exact hl) (by decide)
  refine ⟨header (12 + (encs [v]).length) 2 0x9803 tid ++ encs [v], ?_, ?_⟩
  · unfold getObjPropValue propDescOf
    simp only [hh, if_true, e1, e2, hr]
    have hput : t.putVariant d0.dtype v = .ok t1 := by
      rw [e3, putVariant_typed t _ v hv]
      simp only [Tx.puts] at f2
      cases hq : t.put v with
      | ub u => rw [hq] at f2; simp at f2
      | ok x => rw [hq] at f2; simpa using f2
    simp only [f1, Res.bind_ok, hput, f3, Res.pure_eq]
  · unfold readValue
    rw [payload_of, hv.2, hen]
    have := takeVal_at v [] hv.1
    rw [List.append_nil] at this
    show (match takeVal v.ty (enc v) with | some (v, []) => some v | _ => none) = _
    rw [this]

theorem enc_str_length (s : QStr) : (enc (.str s)).length ≤ 2 ^ 30 := by
  have : (enc (.str s)).length ≤ 511 := convert_short (dt := 0xFFFF) (ty := .str) (by decide) (.str s) trivial
  omega

theorem enc_received_length (v : Val) (h : (enc v).length ≤ 2 ^ 30) : (enc (received v)).length ≤ 2 ^ 30 := by
  cases v with
  | int w n => exact h
  | arr w n => exact h
  | str s =>
    exact enc_str_length (bom (cut s))

theorem read_cached {s : Fac (Option Val)} {h p : Nat} {v : Option Val} (e : s.cache.get h p = some v) :
    s.read h [p] = (s, .ok, [(p, v)]) := by
  simp [Fac.read, Fac.splitReq, e]

/-- C63. For every object, every property the device describes as settable and every value of its type, delivered in any packets:
the request is accepted, the change is answered OK, and GetObjPropValue then tells the host the value it sent (a string up to
its first NUL, at most 254 units, without byte-order mark); no other object or property is told differently. A file name has to be
acceptable and the object must not be a storage root. Missing: the value does not last (`C63_lost_violated`), a storage root
(`C63_root_violated`), a name the file system refuses (`C63_not_renamed_violated`). -/
theorem C63_set_then_get_partial (env : NameEnv) (sv : PropServer) (hw : sv.caps.WF) (h p : Nat) (hp : p < 2 ^ 16)
    (hh : sv.fac.store.has h = true) (d : ObjPropDesc) (hd : Described sv.caps (sv.format h) p d) (hg : d.getSet = true)
    (v : Val) (hv : Typed d.dtype v) (hl : (enc v).length ≤ 2 ^ 30)
    (hn : p = 0xDC07 → h ≠ 0 ∧ GoodName env sv.fac h (nameIn v))
    (tid : Nat) (rx : Rx) (hrx : Arrives (dataContainer 0x9804 tid (enc v)) rx) :
    setObjPropValueReq sv h p = .ok ∧
    ∃ s, setObjPropValueData env sv (setObjPropValueReq sv h p) h p rx = .ok (s, .ok) ∧
      (∀ tid', ∃ bytes, getObjPropValue { sv with fac := s } tid' h p = .ok (s, some bytes, .ok) ∧
        readValue 0x9803 tid' d.dtype bytes = some (shown (received v))) ∧
      ∀ h' p', (h', p') ≠ (h, p) → s.cache.get h' p' = sv.fac.cache.get h' p' ∧ s.store.val h' p' = sv.fac.store.val h' p' := by
  obtain ⟨d0, e1, e2, e3, e4, e5⟩ := desc_found sv.caps hw (sv.format h) p hp d hd
  have hreq : setObjPropValueReq sv h p = .ok := by
    unfold setObjPropValueReq propDescOf
    simp only [hh, if_true, e1, e4, hg]
  refine ⟨hreq, ?_⟩
  have hat := arrives_at hrx hl
  have hat' : rx.At (header (12 + (enc v).length) 2 0x9804 tid) (enc v ++ []) := by rw [List.append_nil]; exact hat
  have hget := Rx.getVariant_at hv hat'
  have hdata : setObjPropValueData env sv .ok h p rx = facSet env sv.fac h [(p, some (received v))] := by
    unfold setObjPropValueData propDescOf
    simp only [if_true, hh, e1, e3, hget, Res.bind_ok, e2]
  have hset : ∃ s, facSet env sv.fac h [(p, some (received v))] = .ok (s, .ok) ∧
      s.cache = sv.fac.cache.addList h [(p, some (received v))] ∧ s.store.has = sv.fac.store.has ∧
      ∀ h' p', (h', p') ≠ (h, p) → s.store.val h' p' = sv.fac.store.val h' p' := by
    by_cases hc : p = 0xDC07
    · subst hc
      obtain ⟨n1, n2, n3⟩ := hn rfl
      rw [std_name] at e5
      rw [e5] at hv
      rw [facSet_name env sv.fac h _ hh n1, asName_str hv, if_pos ⟨n2, n3⟩]
      refine ⟨_, rfl, rfl, ?_, ?_⟩
      · dsimp only; split <;> rfl
      · intro h' p' hne
        dsimp only
        split
        · simp only [Store.setVals, Fac.over, List.foldl_cons, List.foldl_nil]
          by_cases a : h' = h
          · subst a
            have : p' ≠ 0xDC07 := fun e => hne (by rw [e])
            simp [this]
          · simp [a]
        · rfl
    · rw [facSet_other env sv.fac h p _ hh hc]
      exact ⟨_, rfl, rfl, rfl, fun _ _ _ => rfl⟩
  obtain ⟨s, f1, f2, f3, f4⟩ := hset
  have hcache : ∀ h' p', s.cache.get h' p' = if h = h' ∧ p = p' then some (some (received v)) else sv.fac.cache.get h' p' := by
    intro h' p'
    rw [f2]
    show (Cache.add _ _ _ _).get _ _ = _
    rw [Cache.get_add]
  refine ⟨s, by rw [hreq, hdata, f1], ?_, ?_⟩
  · intro tid'
    have hc : s.cache.get h p = some (some (received v)) := by rw [hcache]; simp
    exact get_cached { sv with fac := s } hw h p hp d hd (by show s.store.has h = true; rw [f3]; exact hh) _ (received_typed hv)
      (enc_received_length v hl) s (read_cached hc) tid'
  · intro h' p' hne
    refine ⟨?_, f4 h' p' hne⟩
    rw [hcache, if_neg]
    rintro ⟨rfl, rfl⟩
    exact hne rfl

/-- C63. What cannot be set is refused with the code of the reason, and the data phase then changes nothing, whatever is sent and
whatever happened meanwhile. -/
theorem C63_refused (env : NameEnv) (sv : PropServer) (hw : sv.caps.WF) (h p : Nat) (hp : p < 2 ^ 16) :
    (sv.fac.store.has h = false → setObjPropValueReq sv h p = .invalidObjectHandle) ∧
    (sv.fac.store.has h = true → (∀ tid, getObjPropDesc sv.caps tid p (sv.format h) = .ok (none, .invalidObjectPropCode)) →
      setObjPropValueReq sv h p = .invalidObjectPropCode) ∧
    (∀ d, sv.fac.store.has h = true → Described sv.caps (sv.format h) p d → d.getSet = false →
      setObjPropValueReq sv h p = .accessDenied) ∧
    ∀ (sv' : PropServer) (r : Resp) (rx : Rx), r ≠ .ok → setObjPropValueData env sv' r h p rx = .ok (sv'.fac, r) := by
  refine ⟨?_, ?_, ?_, ?_⟩
  · intro hh
    simp [setObjPropValueReq, propDescOf, hh]
  · intro hh hd
    rcases desc_of sv.caps hw (sv.format h) p hp with ⟨d, d0, h1, _⟩ | ⟨h1, _⟩
    · obtain ⟨b, e, _⟩ := h1 0
      rw [hd 0] at e
      cases e
    · simp [setObjPropValueReq, propDescOf, hh, h1]
  · intro d hh hd hg
    obtain ⟨d0, e1, e2, e3, e4, e5⟩ := desc_found sv.caps hw (sv.format h) p hp d hd
    unfold setObjPropValueReq propDescOf
    simp [hh, e1, e4, hg]
  · intro sv' r rx hr
    simp [setObjPropValueData, hr]

/-- C63. A name that is not acceptable is refused and nothing changes. -/
theorem C63_bad_name (env : NameEnv) (sv : PropServer) (hw : sv.caps.WF) (h : Nat)
    (hh : sv.fac.store.has h = true) (h0 : h ≠ 0) (v : Val) (hv : Typed 0xFFFF v) (hl : (enc v).length ≤ 2 ^ 30)
    (hn : ¬ GoodName env sv.fac h (nameIn v))
    (tid : Nat) (rx : Rx) (hrx : Arrives (dataContainer 0x9804 tid (enc v)) rx) :
    setObjPropValueData env sv (setObjPropValueReq sv h 0xDC07) h 0xDC07 rx = .ok (sv.fac, .invalidObjectPropValue) := by
  have hm : 0xDC07 ∈ propsSupported sv.caps (sv.caps.category (u16 (sv.format h))) := by
    rw [supported_mem]; left; decide
  obtain ⟨d0, e1, e2, e3, _⟩ := desc_supported _ _ _ hm
  have hgs : d0.getSet = true := by
    obtain ⟨k, r, hk, hr, hrc, hd⟩ := objectPropDesc_some sv.caps _ _ hm
    rw [hd] at e1
    cases e1
    have key : ∀ k, ∀ r ∈ rowsOf k, r.code = 0xDC07 → r.getSet = true := by intro k; cases k <;> decide
    exact key k r hr hrc
  have hu : u16 0xDC07 = 0xDC07 := by decide
  have hreq : setObjPropValueReq sv h 0xDC07 = .ok := by
    unfold setObjPropValueReq propDescOf
    simp only [hh, if_true, hu, e1, hgs]
  rw [hreq]
  have hat := arrives_at hrx hl
  have hat' : rx.At (header (12 + (enc v).length) 2 0x9804 tid) (enc v ++ []) := by rw [List.append_nil]; exact hat
  have hget := Rx.getVariant_at hv hat'
  unfold setObjPropValueData propDescOf
  simp only [if_true, hh, hu, e1, e3, std_name, hget, Res.bind_ok, e2]
  rw [facSet_name env sv.fac h _ hh h0, asName_str hv]
  exact if_neg hn

/-- Any number of reads of properties by the host. -/
def reads (s : Fac (Option Val)) (l : List (Nat × List Nat)) : Fac (Option Val) := l.foldl (fun s q => (s.read q.1 q.2).1) s

/-- C63. A file name that was set and that the file system took lasts: after any history of announced changes that have been
delivered, setting the name and any reads of properties, GetObjPropValue tells the new name, and so does the storage. -/
theorem C63_file_name_lasts (env : NameEnv) (sv : PropServer) (hw : sv.caps.WF) (st : Store (Option Val)) (next : Nat)
    (ops : List (Fac.Op (Option Val))) (hlive : ∀ h, st.has h = true → h < next) (hkids : ∀ p, ∀ k ∈ st.kids p, k < next)
    (ha : ∀ op ∈ ops, Fac.Announced op) (hf : sv.fac = ops.foldl Fac.step (Fac.init st next)) (hq : sv.fac.queue = [])
    (h : Nat) (h0 : h ≠ 0) (hh : sv.fac.store.has h = true) (hpar : sv.fac.store.has (sv.fac.store.parent h) = true)
    (n : QStr) (hn : GoodName env sv.fac h (nameIn (.str n))) (hr : env.renames sv.fac.store h (nameIn (.str n)) = true)
    (tid tid' : Nat) (rx : Rx) (hrx : Arrives (dataContainer 0x9804 tid (enc (.str n))) rx) (l : List (Nat × List Nat)) :
    ∃ s s' bytes, setObjPropValueData env sv (setObjPropValueReq sv h 0xDC07) h 0xDC07 rx = .ok (s, .ok) ∧
      s.store.val h 0xDC07 = some (.str (nameIn (.str n))) ∧
      getObjPropValue { sv with fac := reads s l } tid' h 0xDC07 = .ok (s', some bytes, .ok) ∧
      readValue 0x9803 tid' 0xFFFF bytes = some (.str (cut (nameIn (.str n)))) := by
  have hi : Fac.Inv sv.fac := by rw [hf]; exact inv_of_history st next ops hlive hkids ha
  have hv : Typed 0xFFFF (.str n) := ⟨trivial, (by decide : typeOf 0xFFFF = some .str)⟩
  have hl : (enc (.str n)).length ≤ 2 ^ 30 := enc_str_length n
  have hm : 0xDC07 ∈ propsSupported sv.caps (sv.caps.category (u16 (sv.format h))) := by
    rw [supported_mem]; left; decide
  have hu : u16 0xDC07 = 0xDC07 := by decide
  rcases desc_of sv.caps hw (sv.format h) 0xDC07 (by decide) with ⟨d, d0, hd, e1, e2, e3, e4, e5⟩ | ⟨e1, _⟩
  · have hgs : d0.getSet = true := by
      obtain ⟨k, r, hk, hr, hrc, hd⟩ := objectPropDesc_some sv.caps _ _ hm
      rw [hu, hd] at e1
      cases e1
      have key : ∀ k, ∀ r ∈ rowsOf k, r.code = 0xDC07 → r.getSet = true := by intro k; cases k <;> decide
      exact key k r hr hrc
    rw [std_name] at e5
    have hreq : setObjPropValueReq sv h 0xDC07 = .ok := by
      unfold setObjPropValueReq propDescOf
      simp only [hh, if_true, e1, hgs]
    have hat := arrives_at hrx hl
    have hat' : rx.At (header (12 + (enc (.str n)).length) 2 0x9804 tid) (enc (.str n) ++ []) := by
      rw [List.append_nil]; exact hat
    have hget := Rx.getVariant_at hv hat'
    let op : Fac.Op (Option Val) := .set h [(0xDC07, some (.str (nameIn (.str n))))] true
    have hdata : setObjPropValueData env sv .ok h 0xDC07 rx = .ok (sv.fac.step op, .ok) := by
      unfold setObjPropValueData propDescOf
      simp only [if_true, hh, e1, e3, e5, hget, Res.bind_ok, e2]
      rw [facSet_name env sv.fac h _ hh h0, asName_str hv, if_pos (show _ ∧ _ from hn), hr]
      simp only [op, Fac.step, hh, if_true]
      rfl
    have hi1 : Fac.Inv (sv.fac.step op) := hi.step op rfl
    have hread : ∀ (l : List (Nat × List Nat)) (s : Fac (Option Val)), Fac.Inv s → s.queue = [] →
        Fac.Inv (reads s l) ∧ (reads s l).store = s.store ∧ (reads s l).queue = [] := by
      intro l
      induction l with
      | nil => intro s a b; exact ⟨a, rfl, b⟩
      | cons q l ih =>
        intro s a b
        have r1 := Fac.read_spec a q.1 q.2
        obtain ⟨i1, i2, i3⟩ := ih _ r1.1 (by rw [Fac.read_queue]; exact b)
        exact ⟨i1, i2.trans r1.2.1, i3⟩
    have hstore : (sv.fac.step op).store = sv.fac.store.setVals h (Fac.over (sv.fac.store.val h)
        [(0xDC07, some (.str (nameIn (.str n))))]) := by
      simp only [op, Fac.step, hh, if_true]
    have hqs : (sv.fac.step op).queue = [] := by
      simp only [op, Fac.step, hh, if_true]; exact hq
    obtain ⟨i1, i2, i3⟩ := hread l _ hi1 hqs
    have hval : (sv.fac.step op).store.val h 0xDC07 = some (.str (nameIn (.str n))) := by
      rw [hstore]; simp [Store.setVals, Fac.over]
    obtain ⟨r1, r2, r3⟩ := Fac.read_spec i1 h [0xDC07]
    have hhas : (reads (sv.fac.step op) l).store.has h = true := by rw [i2, hstore]; exact hh
    have hpar' : (reads (sv.fac.step op) l).store.has ((reads (sv.fac.step op) l).store.parent h) = true := by
      rw [i2, hstore]; exact hpar
    obtain ⟨r4, r5⟩ := r3 hhas (Or.inl hpar') (by rw [i3]; intro p _ hp; rcases hp with hp | hp | hp <;> simp at hp)
    have hlist : ((reads (sv.fac.step op) l).read h [0xDC07]).2.2 = [(0xDC07, some (.str (nameIn (.str n))))] := by
      have := r5
      simp only [List.map_cons, List.map_nil, i2, hval] at this
      exact List.perm_singleton.mp this
    obtain ⟨bytes, g1, g2⟩ := get_cached { sv with fac := reads (sv.fac.step op) l } hw h 0xDC07 (by decide) d hd hhas
      (.str (nameIn (.str n))) (by rw [e5]; exact ⟨trivial, (by decide : typeOf 0xFFFF = some .str)⟩)
      (enc_received_length (.str n) hl)
      ((reads (sv.fac.step op) l).read h [0xDC07]).1
      (by
        show (reads (sv.fac.step op) l).read h [0xDC07] = _
        rw [← hlist, ← r4]) tid'
    refine ⟨_, _, bytes, by rw [hreq, hdata], hval, g1, ?_⟩
    rw [e5] at g2
    exact g2
  · rw [hu] at e1
    obtain ⟨d, e, _⟩ := desc_supported _ _ _ hm
    rw [e] at e1
    cases e1

/-- A storage that accepts every name and carries out every rename, for the demonstrations. -/
def demoNames : NameEnv := { wellFormed := fun n => ! n.isEmpty, taken := fun _ _ _ => false, renames := fun _ _ _ => true }

/-- A container with a name, collected from one packet. -/
def demoRx (op : Nat) (pay : List UInt8) : Res Rx := collect (dataContainer op 7 pay) []

theorem demo_arrives (op : Nat) (pay : List UInt8) (h : pay.length ≤ 2 ^ 30) :
    ∃ rx, demoRx op pay = .ok rx ∧ Arrives (dataContainer op 7 pay) rx := by
  have hf := container_framed op 7 pay h
  obtain ⟨r, e, _⟩ := framed_collect (p := dataContainer op 7 pay) (ps := []) hf (by simp) hf.1
  exact ⟨r, e, _, [], by simp, hf.1, e⟩

/-- Witness: setting the name of the image 1 of the demonstration server meets the hypotheses of `C63_set_then_get_partial` and of
`C63_file_name_lasts`, and the name is acceptable. -/
theorem C63_witness :
    demoServer.fac.store.has 1 = true ∧ demoServer.fac.store.has (demoServer.fac.store.parent 1) = true ∧
    GoodName demoNames demoServer.fac 1 (nameIn (.str [0x62])) ∧
    demoNames.renames demoServer.fac.store 1 (nameIn (.str [0x62])) = true ∧
    (∃ rx, Arrives (dataContainer 0x9804 7 (enc (.str [0x62]))) rx) ∧
    (match getObjPropDesc demoServer.caps 5 0xDC07 (demoServer.format 1) with
      | .ok (some b, _) => (readDesc 0x9802 5 b).map (fun d => (d.dtype, d.getSet))
      | _ => none) = some (0xFFFF, true) := by
  refine ⟨rfl, rfl, ⟨rfl, rfl⟩, rfl, ?_, by decide +kernel⟩
  obtain ⟨rx, _, h⟩ := demo_arrives 0x9804 (enc (.str [0x62])) (by decide +kernel)
  exact ⟨rx, h⟩

/-- What a host is told about a property. -/
def toldValue (sv : PropServer) (h p dt : Nat) : Option Val :=
  match getObjPropValue sv 9 h p with
  | .ok (_, some b, .ok) => readValue 0x9803 9 dt b
  | _ => none

/-- The server after a property was set, if the answer was OK. -/
def afterSet (env : NameEnv) (sv : PropServer) (h p : Nat) (v : Val) : Option PropServer :=
  match demoRx 0x9804 (enc v) with
  | .ok rx =>
    match setObjPropValueData env sv (setObjPropValueReq sv h p) h p rx with
    | .ok (s, .ok) => some { sv with fac := s }
    | _ => none
  | _ => none

/-- C63 is violated in time: a display name, described as settable, is set with the answer OK and told back; as soon as the host
reads the same property of a neighbour, the device tells an empty name instead. -/
theorem C63_lost_violated :
    ∃ sv, afterSet demoNames demoServer 1 0xDC44 (.str [0x78]) = some sv ∧
      toldValue sv 1 0xDC44 0xFFFF = some (.str [0x78]) ∧
      toldValue { sv with fac := (sv.fac.read 2 [0xDC44]).1 } 1 0xDC44 0xFFFF = some (.str []) := by
  have h : ((afterSet demoNames demoServer 1 0xDC44 (.str [0x78])).map fun sv =>
      (toldValue sv 1 0xDC44 0xFFFF, toldValue { sv with fac := (sv.fac.read 2 [0xDC44]).1 } 1 0xDC44 0xFFFF)) =
      some (some (.str [0x78]), some (.str [])) := by decide +kernel
  rw [Option.map_eq_some_iff] at h
  obtain ⟨sv, h1, h2⟩ := h
  exact ⟨sv, h1, congrArg Prod.fst h2, congrArg Prod.snd h2⟩

/-- C63 is violated for a name the file system refuses: the answer is OK and the host is told the new name, while the object keeps
its old one. -/
theorem C63_not_renamed_violated :
    ∃ sv, afterSet { demoNames with renames := fun _ _ _ => false } demoServer 1 0xDC07 (.str [0x78]) = some sv ∧
      toldValue sv 1 0xDC07 0xFFFF = some (.str [0x78]) ∧ sv.fac.store.val 1 0xDC07 = some (.str [0x61, 0x31]) := by
  have h : ((afterSet { demoNames with renames := fun _ _ _ => false } demoServer 1 0xDC07 (.str [0x78])).map fun sv =>
      (toldValue sv 1 0xDC07 0xFFFF, sv.fac.store.val 1 0xDC07)) =
      some (some (.str [0x78]), some (.str [0x61, 0x31])) := by decide +kernel
  rw [Option.map_eq_some_iff] at h
  obtain ⟨sv, h1, h2⟩ := h
  exact ⟨sv, h1, congrArg Prod.fst h2, congrArg Prod.snd h2⟩

/-- C63 is violated for storage roots: on every device, renaming the object with handle 0 to any well formed name dereferences
a null pointer. -/
theorem C63_root_violated (env : NameEnv) (sv : PropServer) (hh : sv.fac.store.has 0 = true) (n : QStr)
    (hn : env.wellFormed (nameIn (.str n)) = true) (tid : Nat) (rx : Rx)
    (hrx : Arrives (dataContainer 0x9804 tid (enc (.str n))) rx) :
    setObjPropValueData env sv (setObjPropValueReq sv 0 0xDC07) 0 0xDC07 rx = .ub .nullDeref := by
  have hv : Typed 0xFFFF (.str n) := ⟨trivial, (by decide : typeOf 0xFFFF = some .str)⟩
  have hm : 0xDC07 ∈ propsSupported sv.caps (sv.caps.category (u16 (sv.format 0))) := by
    rw [supported_mem]; left; decide
  have hu : u16 0xDC07 = 0xDC07 := by decide
  obtain ⟨d0, e1, e2, e3, _⟩ := desc_supported _ _ _ hm
  have hgs : d0.getSet = true := by
    obtain ⟨k, r, hk, hr, hrc, hd⟩ := objectPropDesc_some sv.caps _ _ hm
    rw [hd] at e1
    cases e1
    have key : ∀ k, ∀ r ∈ rowsOf k, r.code = 0xDC07 → r.getSet = true := by intro k; cases k <;> decide
    exact key k r hr hrc
  have hreq : setObjPropValueReq sv 0 0xDC07 = .ok := by
    unfold setObjPropValueReq propDescOf
    simp only [hh, if_true, hu, e1, hgs]
  rw [hreq]
  have hat := arrives_at hrx (enc_str_length n)
  have hat' : rx.At (header (12 + (enc (.str n)).length) 2 0x9804 tid) (enc (.str n) ++ []) := by rw [List.append_nil]; exact hat
  have hget := Rx.getVariant_at hv hat'
  unfold setObjPropValueData propDescOf
  simp only [if_true, hh, hu, e1, e3, std_name, hget, Res.bind_ok, e2]
  have hw : env.wellFormed (asName (some (received (.str n)))) = true := by rw [asName_str hv]; exact hn
  unfold facSet
  simp [hh, storageSet, hw]

end Props
