import Verif.Lemmas.PropPod
import Verif.Spec.PropPod
/-! C54: the supported property lists and the property descriptions. -/
namespace Props
open Mtp Spec

theorem payload_of (op tid : Nat) (pay : List UInt8) :
    Spec.payload op tid (Spec.header (12 + pay.length) 2 op tid ++ pay) = some pay := by
  unfold Spec.payload
  have h : (Spec.header (12 + pay.length) 2 op tid).length = 12 := header_length _ _ _ _
  rw [List.take_append_of_le_length (by omega), List.take_of_length_le (by omega), List.length_append, h, if_pos rfl,
    List.drop_append_of_le_length (by omega), List.drop_of_length_le (by omega)]
  rfl

/-- The bytes sent for a list of data. -/
theorem sent_bytes (op tid est : Nat) (vs : List Val) (hv : ∀ v ∈ vs, Fits v) (hl : (encs vs).length ≤ 2 ^ 30)
    (he : est ≤ 2 ^ 30) :
    ∃ t t1 t2, Tx.new 2 op tid est = .ok t ∧ t.puts vs = .ok t1 ∧
      t1.buffer = .ok (Spec.header (12 + (encs vs).length) 2 op tid ++ encs vs, t2) := by
  obtain ⟨t, e1, h1, c1, x1⟩ := Tx.new_holds 2 op tid est (by omega)
  obtain ⟨t2, e2, h2, f2⟩ := Tx.puts_holds h1 hv (by rw [header_length]; omega)
  obtain ⟨t3, e3⟩ := Tx.buffer_holds h2 (by rw [f2.1, c1])
  refine ⟨t, t2, t3, e1, e2, ?_⟩
  rw [e3, f2.2, x1]
  rfl

/-- What the host reads when it asks for the description of property `p` of format `fmt`. -/
def Described (c : DevCaps) (fmt p : Nat) (d : ObjPropDesc) : Prop :=
  ∀ tid, ∃ bytes, getObjPropDesc c tid p fmt = .ok (some bytes, .ok) ∧ Spec.readDesc 0x9802 tid bytes = some d

theorem category_supported (c : DevCaps) (fmt : Nat) : c.category fmt ≠ .unsupported := by
  unfold DevCaps.category
  repeat' split
  all_goals decide

theorem described_of (c : DevCaps) (h : c.WF) (fmt p : Nat) (k : Cat) (r : PodRow) (hr : r ∈ rowsOf k)
    (hd : objectPropDesc c (c.category (u16 fmt)) (u16 p) = (.ok, some (podDesc c k r))) :
    Described c fmt p { normDesc (podDesc c k r) with
      defVal := shown (normDesc (podDesc c k r)).defVal, form := shownForm (normDesc (podDesc c k r)).form } := by
  intro tid
  have hty := podDesc_typed c h k r hr
  obtain ⟨t, t1, t2, e1, e2, e3⟩ := sent_bytes 0x9802 tid 72 _ (objVals_fits _ hty) (podDesc_short c h k r hr) (by decide)
  refine ⟨?_, ?_, ?_⟩
  · exact Spec.header (12 + (encs (objVals (normDesc (podDesc c k r)))).length) 2 0x9802 tid ++
      encs (objVals (normDesc (podDesc c k r)))
  · unfold getObjPropDesc
    simp only [hd, category_supported, if_false, e1, Res.bind_ok]
    rw [← putObj_norm, putObj_eq _ _ hty, e2]
    simp only [Res.bind_ok, e3, Res.pure_eq]
  · unfold Spec.readDesc
    rw [payload_of]
    have := takeObj_at _ hty []
    rw [List.append_nil] at this
    show (match takeObjPropDesc (encs (objVals (normDesc (podDesc c k r)))) with
      | some (d, []) => some d | _ => none) = _
    rw [this]

theorem shown_typed {dt : Nat} {v : Val} (h : Typed dt v) : Typed dt (shown v) := by
  cases v with
  | int w n => exact h
  | arr w n => exact h
  | str s => exact ⟨trivial, h.2⟩

theorem shownForm_typed {dt flag : Nat} {f : Form} (h : FormTyped dt flag f) : FormTyped dt flag (shownForm f) := by
  cases f with
  | none => exact h
  | range a b c => exact ⟨h.1, shown_typed h.2.1, shown_typed h.2.2.1, shown_typed h.2.2.2⟩
  | enum n vs =>
    refine ⟨h.1, by simpa using h.2.1, h.2.2.1, ?_⟩
    intro v hv
    obtain ⟨u, hu, rfl⟩ := List.mem_map.mp hv
    exact shown_typed (h.2.2.2 u hu)
  | num n => exact h
  | str s => exact h

theorem rows_standard (k : Cat) : ∀ r ∈ rowsOf k, (r.code, r.dtype) ∈ Spec.standardTypes := by
  cases k <;> decide

theorem qmapInsert_length (k : Nat) (d : ObjPropDesc) (m : List (Nat × ObjPropDesc)) :
    (qmapInsert k d m).length ≤ m.length + 1 := by
  induction m with
  | nil => simp [qmapInsert]
  | cons p r ih =>
    simp only [qmapInsert]
    split
    · simp
    · split
      · simp
      · simp only [List.length_cons]; omega

theorem podFold_length (c : DevCaps) (cat : Cat) (rows : List PodRow) (m : List (Nat × ObjPropDesc)) :
    (rows.foldl (fun m r => qmapInsert r.code (podDesc c cat r) m) m).length ≤ rows.length + m.length := by
  induction rows generalizing m with
  | nil => simp
  | cons r rows ih =>
    have h1 := ih (qmapInsert r.code (podDesc c cat r) m)
    have h2 := qmapInsert_length r.code (podDesc c cat r) m
    simp only [List.foldl_cons, List.length_cons]
    omega

theorem rows_count (c : DevCaps) (k : Cat) : (propsSupported c k).length ≤ 64 := by
  have hm : ∀ k, (podMap c k).length ≤ (rowsOf k).length := fun k => by
    exact podFold_length c k (rowsOf k) []
  have hr : ∀ k, (rowsOf k).length ≤ 16 := fun k => by cases k <;> decide
  have h1 := hm .common; have h2 := hm k
  have h3 := hr .common; have h4 := hr k
  cases k <;> simp only [propsSupported, List.length_append, List.length_map] <;> omega

/-- C54. For every device, format and pair of transactions: the host gets a well-formed list of property codes without
repetition; for each code of the list it gets a description that can be read, fills its container, carries that code with the
data type of the standard and a default and form of that type; every other code is refused. -/
theorem C54_advertised_iff_described (c : DevCaps) (h : c.WF) (fmt tid : Nat) :
    ∃ bytes codes, getObjPropsSupported c tid fmt = .ok (some bytes, .ok) ∧
      Spec.readCodes 0x9801 tid bytes = some codes ∧ codes.Nodup ∧ (∀ p ∈ codes, p < 2 ^ 16) ∧
      ∀ p, p < 2 ^ 16 →
        (p ∈ codes → ∃ d, Described c fmt p d ∧ d.code = p ∧ (p, d.dtype) ∈ Spec.standardTypes ∧ ObjTyped d) ∧
        (p ∉ codes → ∀ tid', getObjPropDesc c tid' p fmt = .ok (none, .invalidObjectPropCode)) := by
  let ps := propsSupported c (c.category (u16 fmt))
  have hps : ∀ p ∈ ps, p < 2 ^ 16 := by
    intro p hp
    rcases (supported_mem c _ p).mp hp with hp | hp
    · obtain ⟨r, hr, rfl⟩ := List.mem_map.mp hp
      exact (rows_ok _ r hr).1
    · obtain ⟨r, hr, rfl⟩ := List.mem_map.mp hp
      exact (rows_ok _ r hr).1
  have hn : ps.length ≤ 64 := rows_count c _
  have hfit : ∀ v ∈ [Val.arr 2 ps], Fits v := by
    intro v hv
    simp only [List.mem_singleton] at hv
    subst hv
    exact ⟨by decide, by omega, fun x hx => by have := hps x hx; simpa using this⟩
  have hlen : (encs [Val.arr 2 ps]).length ≤ 2 ^ 30 := by
    have : (encs [Val.arr 2 ps]).length = 4 + 2 * ps.length := by
      simp [encs, enc, intBytes_length, ← vecBytes_eq, vecBytes_length]
    omega
  obtain ⟨t, t1, t2, e1, e2, e3⟩ := sent_bytes 0x9801 tid (ps.length * 2 + 4) _ hfit hlen (by omega)
  refine ⟨?_, ps, ?_, ?_, supported_nodup c _, hps, ?_⟩
  · exact Spec.header (12 + (encs [Val.arr 2 ps]).length) 2 0x9801 tid ++ encs [Val.arr 2 ps]
  · unfold getObjPropsSupported
    simp only [Tx.puts, Tx.put] at e2
    have e2' : t.putArr 2 ps = .ok t1 := by
      cases hh : t.putArr 2 ps with
      | ub u => rw [hh] at e2; simp at e2
      | ok x => rw [hh] at e2; simpa using e2
    show (Tx.new 2 0x9801 tid (ps.length * 2 + 4) >>= fun t => t.putArr 2 ps >>= fun t => t.buffer >>= fun q => pure (some q.1, Resp.ok)) = _
    rw [e1]
    simp only [Res.bind_ok, e2', e3, Res.pure_eq]
  · unfold Spec.readCodes
    rw [payload_of]
    have := takeVal_at (.arr 2 ps) [] (hfit _ (by simp))
    rw [List.append_nil] at this
    have ee : encs [Val.arr 2 ps] = enc (.arr 2 ps) := by simp [encs]
    show (match takeVal (.arr 2) (encs [Val.arr 2 ps]) with | some (.arr _ vs, []) => some vs | _ => none) = _
    rw [ee]
    simp only [Val.ty] at this
    rw [this]
    rfl
  · intro p hp
    have hu : u16 p = p := by unfold u16; omega
    constructor
    · intro hm
      obtain ⟨k, r, hk, hr, hrc, hd⟩ := objectPropDesc_some c (c.category (u16 fmt)) p hm
      have hty := podDesc_typed c h k r hr
      refine ⟨_, described_of c h fmt p k r hr (by rw [hu]; exact hd), hrc, ?_, ?_⟩
      · rw [← hrc]
        exact rows_standard k r hr
      · exact ⟨hty.1, hty.2.1, shown_typed hty.2.2.1, hty.2.2.2.1, shownForm_typed hty.2.2.2.2⟩
    · intro hm tid'
      unfold getObjPropDesc
      simp only [hu, objectPropDesc_none c _ p hm, category_supported, if_false, Res.pure_eq]

theorem Described.unique {c : DevCaps} {fmt p : Nat} {d d' : ObjPropDesc} (h : Described c fmt p d) (h' : Described c fmt p d') :
    d = d' := by
  obtain ⟨b, e1, e2⟩ := h 0
  obtain ⟨b', e1', e2'⟩ := h' 0
  rw [e1] at e1'
  simp only [Res.ok.injEq, Prod.mk.injEq, Option.some.injEq, and_true] at e1'
  subst e1'
  rw [e2] at e2'
  exact Option.some.inj e2'

/-- An enumeration of numbers as the host sees it. -/
def numbers (w : Nat) (vs : List Nat) : Form := .enum vs.length (vs.map (.int w))

/-- A range of 32 bit numbers with step one. -/
def span (r : Nat × Nat) : Form := .range (.int 4 r.1) (.int 4 r.2) (.int 4 1)

theorem shown_range (dt : Nat) (hdt : typeOf dt = some (.int 4)) (r : Nat × Nat) (h : r.1 < 2 ^ 32 ∧ r.2 < 2 ^ 32) :
    shownForm (normForm dt 1 (rangeForm r)) = span r := by
  have e1 : r.1 % 4294967296 = r.1 := Nat.mod_eq_of_lt h.1
  have e2 : r.2 % 4294967296 = r.2 := Nat.mod_eq_of_lt h.2
  simp [rangeForm, normForm, normVal, dtShape_eq, hdt, convert, shownForm, shown, span, e1, e2]

theorem shown_enum (dt w : Nat) (hdt : typeOf dt = some (.int w)) (w' : Nat) (vs : List Nat) (hl : vs.length < 2 ^ 16)
    (hw : w ≠ 16) (hw' : w' ≠ 16) (h : ∀ x ∈ vs, x < 256 ^ w) :
    shownForm (normForm dt 2 (enumForm w' vs)) = numbers w vs := by
  have e : u16 vs.length = vs.length := by unfold u16; omega
  simp only [enumForm, normForm, shownForm, numbers, e, List.map_map, Form.enum.injEq, true_and]
  apply List.map_congr_left
  intro x hx
  simp [normVal, dtShape_eq, hdt, convert, shown, hw, hw', Nat.mod_eq_of_lt (h x hx)]

/-- The description of a row of the category. -/
theorem described_row (c : DevCaps) (h : c.WF) (fmt : Nat) (r : PodRow) (hr : r ∈ rowsOf (c.category (u16 fmt)))
    (hc : c.category (u16 fmt) ≠ .common) (hnd : ((rowsOf (c.category (u16 fmt))).map (·.code)).Nodup) (d : ObjPropDesc)
    (hd : Described c fmt r.code d) :
    d.form = shownForm (normForm r.dtype r.flag (formOf c (c.category (u16 fmt)) r)) ∧
    d.defVal = shown (normVal r.dtype r.defVal) := by
  have hmem : r.code ∈ (rowsOf (c.category (u16 fmt))).map (·.code) := List.mem_map.mpr ⟨r, hr, rfl⟩
  have hu : u16 r.code = r.code := by have := (rows_ok _ r hr).1; unfold u16; omega
  obtain ⟨k, r', hk, hr', hrc, he⟩ := objectPropDesc_some c (c.category (u16 fmt)) r.code
    ((supported_mem c _ _).mpr (Or.inr hmem))
  have hk' : k = c.category (u16 fmt) := by
    rcases hk with rfl | hk
    · exact absurd hmem (rows_apart _ hc r.code (by rw [← hrc]; exact List.mem_map.mpr ⟨r', hr', rfl⟩))
    · exact hk
  subst hk'
  have hrr : r' = r := by
    clear hd he hmem hu hk
    generalize rowsOf (c.category (u16 fmt)) = l at *
    induction l with
    | nil => simp at hr
    | cons a l ih =>
      simp only [List.map_cons, List.nodup_cons] at hnd
      simp only [List.mem_cons] at hr hr'
      rcases hr with rfl | hr <;> rcases hr' with rfl | hr'
      · rfl
      · exact absurd (List.mem_map.mpr ⟨r', hr', hrc⟩) hnd.1
      · exact absurd (List.mem_map.mpr ⟨r, hr, hrc.symm⟩) hnd.1
      · exact ih hr hnd.2 hr'
  subst hrr
  have := described_of c h fmt r'.code _ r' hr' (by rw [hu]; exact he)
  rw [hd.unique this]
  exact ⟨rfl, rfl⟩

theorem rows_nodup (k : Cat) : ((rowsOf k).map (·.code)).Nodup := by cases k <;> decide

/-- C54. What the host reads about sizes, rates, channels and codecs are the limits of the device for that kind of format. -/
theorem C54_limits (c : DevCaps) (h : c.WF) (fmt : Nat) (d : ObjPropDesc) :
    (c.category (u16 fmt) = .image →
      (Described c fmt 0xDC87 d → d.form = span c.imageWidth) ∧ (Described c fmt 0xDC88 d → d.form = span c.imageHeight)) ∧
    (c.category (u16 fmt) = .video →
      (Described c fmt 0xDC87 d → d.form = span c.videoWidth) ∧ (Described c fmt 0xDC88 d → d.form = span c.videoHeight) ∧
      (Described c fmt 0xDE9C d → d.form = span c.videoBit) ∧ (Described c fmt 0xDE9D d → d.form = span c.fps) ∧
      (Described c fmt 0xDE94 d → d.form = numbers 2 c.videoChannels)) ∧
    (c.category (u16 fmt) = .audio →
      (Described c fmt 0xDE9A d → d.form = span c.audioBit) ∧ (Described c fmt 0xDE94 d → d.form = numbers 2 c.audioChannels) ∧
      (Described c fmt 0xDE99 d → d.form = numbers 4 c.codecs)) := by
  have r1 := h.rng
  simp only [List.mem_cons, List.not_mem_nil, or_false, forall_eq_or_imp, forall_eq] at r1
  obtain ⟨a1, a2, a3, a4, a5, a6, a7⟩ := r1
  have t4 : typeOf 6 = some (.int 4) := by decide
  have t2 : typeOf 4 = some (.int 2) := by decide
  have nd := rows_nodup (c.category (u16 fmt))
  have row := fun (r : PodRow) hr hc hd => (described_row c h fmt r hr hc nd d hd).1
  refine ⟨fun hk => ?_, fun hk => ?_, fun hk => ?_⟩ <;> rw [hk] at row
  · exact ⟨fun hd => (row ⟨0xDC87, 6, false, qzero, 1⟩ (by decide) (by decide) hd).trans (shown_range 6 t4 _ a4),
      fun hd => (row ⟨0xDC88, 6, false, qzero, 1⟩ (by decide) (by decide) hd).trans (shown_range 6 t4 _ a5)⟩
  · exact ⟨fun hd => (row ⟨0xDC87, 6, true, qzero, 1⟩ (by decide) (by decide) hd).trans (shown_range 6 t4 _ a6),
      fun hd => (row ⟨0xDC88, 6, true, qzero, 1⟩ (by decide) (by decide) hd).trans (shown_range 6 t4 _ a7),
      fun hd => (row ⟨0xDE9C, 6, true, qzero, 1⟩ (by decide) (by decide) hd).trans (shown_range 6 t4 _ a2),
      fun hd => (row ⟨0xDE9D, 6, true, qzero, 1⟩ (by decide) (by decide) hd).trans (shown_range 6 t4 _ a3),
      fun hd => (row ⟨0xDE94, 4, true, qzero, 2⟩ (by decide) (by decide) hd).trans
        (shown_enum 4 2 t2 2 _ h.vch.1 (by decide) (by decide) (by simpa using h.vch.2))⟩
  · exact ⟨fun hd => (row ⟨0xDE9A, 6, true, qzero, 1⟩ (by decide) (by decide) hd).trans (shown_range 6 t4 _ a1),
      fun hd => (row ⟨0xDE94, 4, true, qzero, 2⟩ (by decide) (by decide) hd).trans
        (shown_enum 4 2 t2 2 _ h.ach.1 (by decide) (by decide) (by simpa using h.ach.2)),
      fun hd => (row ⟨0xDE99, 6, true, qzero, 2⟩ (by decide) (by decide) hd).trans
        (shown_enum 6 4 t4 4 _ h.cod.1 (by decide) (by decide) (by simpa using h.cod.2))⟩

/-- A device for the examples. -/
def demoCaps : DevCaps :=
  { commonFormats := [0x3000, 0x3001], audioFormats := [0x3009], videoFormats := [0xB982], imageFormats := [0x3801],
    audioChannels := [1, 2], videoChannels := [2], codecs := [0x55], audioBit := (8000, 320000), videoBit := (1, 2000000),
    fps := (1, 30000), imageWidth := (1, 4000), imageHeight := (1, 3000), videoWidth := (1, 1920), videoHeight := (1, 1080) }

/-- Witness: the device meets the hypothesis and describes the width of its images. -/
theorem C54_witness : demoCaps.WF ∧ demoCaps.category (u16 0x3801) = .image ∧ ∃ d, Described demoCaps 0x3801 0xDC87 d := by
  have hw : demoCaps.WF := ⟨by decide, by decide, by decide, by decide⟩
  refine ⟨hw, by decide, ?_⟩
  have h2 : (0xDC87 : Nat) ∈ propsSupported demoCaps (demoCaps.category (u16 0x3801)) := by decide
  obtain ⟨k, r, hk, hr, hrc, he⟩ := objectPropDesc_some demoCaps _ _ h2
  exact ⟨_, described_of demoCaps hw 0x3801 0xDC87 k r hr he⟩

/-- A value is among those a form allows (numbers; other forms allow everything). -/
def Allows : Form → Val → Prop
  | .range (.int _ a) (.int _ b) _, .int _ v => a ≤ v ∧ v ≤ b
  | .enum _ vs, v => v ∈ vs
  | _, _ => True

instance (f : Form) (v : Val) : Decidable (Allows f v) := by
  unfold Allows
  split <;> infer_instance

/-- C62. The default of every property common to all formats is allowed by its own description. Missing: the properties of
images, sounds and videos (`C62_sample_rate_violated`, `C62_width_violated`). -/
theorem C62_common_partial (c : DevCaps) (h : c.WF) (fmt p : Nat) (hp : p ∈ commonRows.map (·.code)) :
    ∃ d, Described c fmt p d ∧ Allows d.form d.defVal := by
  have hlt : p < 2 ^ 16 := by
    obtain ⟨r, hr, rfl⟩ := List.mem_map.mp hp
    exact (rows_ok .common r hr).1
  have hu : u16 p = p := by unfold u16; omega
  obtain ⟨k, r, hk, hr, hrc, he⟩ := objectPropDesc_some c (c.category (u16 fmt)) p ((supported_mem c _ p).mpr (Or.inl hp))
  have hk' : k = .common := by
    rcases hk with rfl | rfl
    · rfl
    · apply Classical.byContradiction
      intro hne
      exact rows_apart _ hne p hp (by rw [← hrc]; exact List.mem_map.mpr ⟨r, hr, rfl⟩)
  subst hk'
  refine ⟨_, described_of c h fmt p _ r hr (by rw [hu]; exact he), ?_⟩
  simp only [rowsOf, commonRows, List.mem_cons, List.not_mem_nil, or_false] at hr
  rcases hr with rfl | rfl | rfl | rfl | rfl | rfl | rfl | rfl | rfl | rfl | rfl <;>
    simp [podDesc, normDesc, formOf, enumOf, enumForm, normForm, shownForm, Allows, u16, normVal, dtShape, convert, qzero, shown]

/-- The description of a row of the category of a format. -/
theorem described_default (c : DevCaps) (h : c.WF) (fmt : Nat) (k : Cat) (hk : c.category (u16 fmt) = k) (r : PodRow)
    (hr : r ∈ rowsOf k) (hc : k ≠ .common) :
    ∃ d, Described c fmt r.code d ∧ d.form = shownForm (normForm r.dtype r.flag (formOf c k r)) ∧
      d.defVal = shown (normVal r.dtype r.defVal) := by
  have hmem : r.code ∈ (rowsOf (c.category (u16 fmt))).map (·.code) := List.mem_map.mpr ⟨r, by rw [hk]; exact hr, rfl⟩
  have hu : u16 r.code = r.code := by have := (rows_ok _ r hr).1; unfold u16; omega
  obtain ⟨k', r', hk', hr', hrc, he⟩ := objectPropDesc_some c (c.category (u16 fmt)) r.code
    ((supported_mem c _ _).mpr (Or.inr hmem))
  have hd := described_of c h fmt r.code k' r' hr' (by rw [hu]; exact he)
  exact ⟨_, hd, by subst hk; exact described_row c h fmt r hr hc (rows_nodup _) _ hd⟩

/-- C62 is violated on every device with a sound format: the default sample rate is 0, which is not one of the rates allowed. -/
theorem C62_sample_rate_violated (c : DevCaps) (h : c.WF) (fmt : Nat) (hk : c.category (u16 fmt) = .audio) :
    ∃ d, Described c fmt 0xDE93 d ∧ ¬ Allows d.form d.defVal := by
  obtain ⟨d, h1, h2, h3⟩ := described_default c h fmt .audio hk ⟨0xDE93, 6, true, qzero, 2⟩ (by decide) (by decide)
  refine ⟨d, h1, ?_⟩
  rw [h2, h3]
  simp [qzero, formOf, enumOf, enumForm, normForm, shownForm, Allows, u16, normVal, dtShape, convert, shown]

/-- C62 is violated on every device whose images have a least width: the default width is 0. -/
theorem C62_width_violated (c : DevCaps) (h : c.WF) (fmt : Nat) (hk : c.category (u16 fmt) = .image) (hm : 0 < c.imageWidth.1) :
    ∃ d, Described c fmt 0xDC87 d ∧ ¬ Allows d.form d.defVal := by
  obtain ⟨d, h1, _, h3⟩ := described_default c h fmt .image hk ⟨0xDC87, 6, false, qzero, 1⟩ (by decide) (by decide)
  refine ⟨d, h1, ?_⟩
  rw [(C54_limits c h fmt d).1 hk |>.1 h1, h3]
  simp [span, Allows, qzero, normVal, dtShape, convert, shown]
  omega

end Props
