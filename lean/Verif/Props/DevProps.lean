import Verif.Spec.DevProps
import Verif.Props.PropSet
/-! Property theorems C66, C67: device properties. -/
namespace Props
open Mtp Spec

private theorem desc_sent (s : DevState) (p : Nat) (d d' : DevPropDesc) (hs : s.desc (u16 p) = some d)
    (hp : ∀ t : Tx, t.putDevPropDesc d = t.putDevPropDesc d') (ht : DevTyped d')
    (hl : (encs (devVals d')).length ≤ 2 ^ 30) :
    toldDesc s p { d' with defVal := shown d'.defVal, curVal := shown d'.curVal, form := shownForm d'.form } := by
  intro tid
  obtain ⟨t, t1, t2, e1, e2, e3⟩ := sent_bytes 0x1014 tid 64 (devVals d') (devVals_fits d' ht) hl (by omega)
  refine ⟨header (12 + (encs (devVals d')).length) 2 0x1014 tid ++ encs (devVals d'), ?_, ?_⟩
  · unfold getDevicePropDesc
    simp only [hs, e1, Res.bind_ok, hp, putDev_eq _ _ ht, e2, e3]
    rfl
  · unfold readDevDesc
    rw [payload_of]
    have := takeDev_at d' ht []
    rw [List.append_nil] at this
    simp [this]

private theorem value_sent (s : DevState) (p : Nat) (d : DevPropDesc) (v : Val) (hs : s.desc (u16 p) = some d)
    (hv : d.curVal = v) (ht : Typed d.dtype v) (hl : (enc v).length ≤ 2 ^ 30) :
    toldDevValue s p d.dtype (shown v) := by
  intro tid
  have he : encs [v] = enc v := by simp [encs]
  obtain ⟨t, t1, t2, e1, e2, e3⟩ := sent_bytes 0x1015 tid 16 [v]
    (by intro x hx; simp only [List.mem_singleton] at hx; subst hx; exact ht.1) (by rw [he]; exact hl) (by omega)
  have e2' : t.put v = .ok t1 := by
    simp only [Tx.puts] at e2
    cases h : t.put v with
    | ub w => rw [h] at e2; cases e2
    | ok t' => rw [h] at e2; exact e2
  refine ⟨header (12 + (encs [v]).length) 2 0x1015 tid ++ encs [v], ?_, ?_⟩
  · unfold getDevicePropValue
    simp only [hs, e1, Res.bind_ok, hv, putVariant_typed _ _ _ ht, e2', e3]
    rfl
  · unfold readValue
    rw [payload_of, he]
    have := takeVal_at v [] ht.1
    rw [List.append_nil] at this
    simp [ht.2, this]

/-- The states the device can be in. -/
structure DevOk (s : DevState) : Prop where
  battery : s.battery < 256
  devType : s.devType < 2 ^ 32
  icon : s.icon.length < 2 ^ 28

private theorem icon_typed (s : DevState) (h : DevOk s) : Typed 0x4002 (.arr 1 (s.icon.map UInt8.toNat)) := by
  refine ⟨⟨by simp, by have := h.icon; simp; omega, ?_⟩, (by decide : typeOf 0x4002 = some (.arr 1))⟩
  intro v hv
  obtain ⟨b, _, rfl⟩ := List.mem_map.mp hv
  exact b.toNat_lt

private theorem str_typed (n : QStr) : Typed 0xFFFF (.str n) := ⟨trivial, (by decide : typeOf 0xFFFF = some .str)⟩

private theorem encs_length_cons (v : Val) (vs : List Val) : (encs (v :: vs)).length = (enc v).length + (encs vs).length := by
  simp [encs]

private theorem encs_length_nil : (encs []).length = 0 := rfl

private theorem enc_int_length (w v : Nat) : (enc (.int w v)).length = w := by rw [enc_int, intBytes_length]

private theorem enc_str_short (n : QStr) : (enc (.str n)).length ≤ 2 ^ 28 := by
  have : (enc (.str n)).length ≤ 511 := convert_short (dt := 0xFFFF) (ty := .str) (by decide) (.str n) trivial
  omega

private theorem icon_length (s : DevState) (h : DevOk s) :
    (enc (.arr 1 (s.icon.map UInt8.toNat))).length ≤ 2 ^ 29 := by
  have key : ∀ l : List UInt8, ((l.map UInt8.toNat).flatMap (intBytes 1)).length = l.length := by
    intro l
    induction l with
    | nil => rfl
    | cons a l ih => simp only [List.map_cons, List.flatMap_cons, List.length_append, ih, intBytes_length, List.length_cons]; omega
  have := h.icon
  simp only [enc, List.length_append, intBytes_length, key]
  omega

/-- C66: a host that asks for the description of a device property learns, for each of the five properties of the device, its
code, its data type, whether it can be set, the value it had when the device started, its value at this moment, and, for the
battery level, the range 0 to 100 in steps of 10. Strings are cut as in C03. -/
theorem C66_described (s : DevState) (h : DevOk s) :
    toldDesc s 0x5001 { code := 0x5001, dtype := 2, getSet := false, defVal := .int 1 0, curVal := .int 1 s.battery, flag := 1,
                        form := .range (.int 1 0) (.int 1 100) (.int 1 10) } ∧
    toldDesc s 0xD401 { code := 0xD401, dtype := 0xFFFF, getSet := true, defVal := .str (cut s.defPartner),
                        curVal := .str (cut s.partner), flag := 0, form := .none } ∧
    toldDesc s 0xD402 { code := 0xD402, dtype := 0xFFFF, getSet := true, defVal := .str (cut s.defName),
                        curVal := .str (cut s.name), flag := 0, form := .none } ∧
    toldDesc s 0xD405 { code := 0xD405, dtype := 0x4002, getSet := false, defVal := .arr 1 [],
                        curVal := .arr 1 (s.icon.map UInt8.toNat), flag := 0, form := .none } ∧
    toldDesc s 0xD407 { code := 0xD407, dtype := 6, getSet := false, defVal := .int 4 s.devType, curVal := .int 4 s.devType,
                        flag := 0, form := .none } := by
  have hb : ∀ n, n < 256 → Typed 2 (.int 1 n) := fun n hn =>
    ⟨⟨by simp, by simpa using hn⟩, (by decide : typeOf 2 = some (.int 1))⟩
  have hd : Typed 6 (.int 4 s.devType) :=
    ⟨⟨by simp, by simpa using h.devType⟩, (by decide : typeOf 6 = some (.int 4))⟩
  have hi := icon_typed s h
  have h0 : Typed 0x4002 (.arr 1 []) := ⟨⟨by simp, by simp, by simp⟩, (by decide : typeOf 0x4002 = some (.arr 1))⟩
  refine ⟨?_, ?_, ?_, ?_, ?_⟩
  · refine desc_sent s 0x5001
      { code := 0x5001, dtype := 2, getSet := false, defVal := .arr 0 [], curVal := .int 1 s.battery,
        flag := 1, form := .range (.int 4 0) (.int 4 100) (.int 4 10) }
      { code := 0x5001, dtype := 2, getSet := false, defVal := .int 1 0, curVal := .int 1 s.battery, flag := 1,
        form := .range (.int 1 0) (.int 1 100) (.int 1 10) } rfl ?_ ?_ ?_
    · intro t; rfl
    · exact ⟨by simp only []; omega, by simp only []; omega, hb 0 (by decide), hb _ h.battery, rfl, hb _ (by decide), hb _ (by decide), hb _ (by decide)⟩
    · simp only [devVals, formVals, List.cons_append, List.nil_append, encs_length_cons, encs_length_nil, enc_int_length]
      decide
  · exact desc_sent s 0xD401 _
      { code := 0xD401, dtype := 0xFFFF, getSet := true, defVal := .str s.defPartner, curVal := .str s.partner, flag := 0,
        form := .none } rfl (fun _ => rfl) ⟨by simp only []; omega, by simp only []; omega, str_typed _, str_typed _, Or.inl rfl⟩ (by
        have a := enc_str_short s.defPartner
        have b := enc_str_short s.partner
        simp only [devVals, formVals, List.cons_append, List.nil_append, encs_length_cons, encs_length_nil, enc_int_length]
        omega)
  · exact desc_sent s 0xD402 _
      { code := 0xD402, dtype := 0xFFFF, getSet := true, defVal := .str s.defName, curVal := .str s.name, flag := 0,
        form := .none } rfl (fun _ => rfl) ⟨by simp only []; omega, by simp only []; omega, str_typed _, str_typed _, Or.inl rfl⟩ (by
        have a := enc_str_short s.defName
        have b := enc_str_short s.name
        simp only [devVals, formVals, List.cons_append, List.nil_append, encs_length_cons, encs_length_nil, enc_int_length]
        omega)
  · refine desc_sent s 0xD405
      { code := 0xD405, dtype := 0x4002, getSet := false, defVal := .arr 0 [],
        curVal := .arr 1 (s.icon.map UInt8.toNat), flag := 0, form := .none }
      { code := 0xD405, dtype := 0x4002, getSet := false, defVal := .arr 1 [],
        curVal := .arr 1 (s.icon.map UInt8.toNat), flag := 0, form := .none } rfl ?_ ?_ ?_
    · intro t; rfl
    · exact ⟨by simp only []; omega, by simp only []; omega, h0, hi, Or.inl rfl⟩
    · have := icon_length s h
      have h0 : (enc (.arr 1 [])).length = 4 := by decide
      simp only [devVals, formVals, List.cons_append, List.nil_append, encs_length_cons, encs_length_nil, enc_int_length, h0]
      omega
  · exact desc_sent s 0xD407 _
      { code := 0xD407, dtype := 6, getSet := false, defVal := .int 4 s.devType, curVal := .int 4 s.devType, flag := 0,
        form := .none } rfl (fun _ => rfl) ⟨by simp only []; omega, by simp only []; omega, hd, hd, Or.inl rfl⟩ (by
        simp only [devVals, formVals, List.cons_append, List.nil_append, encs_length_cons, encs_length_nil, enc_int_length]
        decide)

/-- C66: asking for the value of a device property gives the value it has at this moment. -/
theorem C66_value (s : DevState) (h : DevOk s) :
    toldDevValue s 0x5001 2 (.int 1 s.battery) ∧
    toldDevValue s 0xD401 0xFFFF (.str (cut s.partner)) ∧
    toldDevValue s 0xD402 0xFFFF (.str (cut s.name)) ∧
    toldDevValue s 0xD405 0x4002 (.arr 1 (s.icon.map UInt8.toNat)) ∧
    toldDevValue s 0xD407 6 (.int 4 s.devType) := by
  refine ⟨?_, ?_, ?_, ?_, ?_⟩
  · exact value_sent s 0x5001 _ (.int 1 s.battery) rfl rfl
      ⟨⟨by simp, by simpa using h.battery⟩, (by decide : typeOf 2 = some (.int 1))⟩ (by rw [enc_int_length]; decide)
  · exact value_sent s 0xD401 _ (.str s.partner) rfl rfl (str_typed _) (enc_str_length _)
  · exact value_sent s 0xD402 _ (.str s.name) rfl rfl (str_typed _) (enc_str_length _)
  · exact value_sent s 0xD405 _ (.arr 1 (s.icon.map UInt8.toNat)) rfl rfl (icon_typed s h) (by
      have := icon_length s h
      omega)
  · exact value_sent s 0xD407 _ (.int 4 s.devType) rfl rfl
      ⟨⟨by simp, by simpa using h.devType⟩, (by decide : typeOf 6 = some (.int 4))⟩ (by rw [enc_int_length]; decide)

theorem desc_none (s : DevState) (p : Nat) (h : p ∉ [0x5001, 0xD401, 0xD402, 0xD405, 0xD407]) : s.desc p = none := by
  simp only [List.mem_cons, List.not_mem_nil, or_false, not_or] at h
  obtain ⟨a, b, c, d, e⟩ := h
  unfold DevState.desc
  rw [if_neg a, if_neg b, if_neg c, if_neg d, if_neg e]

/-- C66: a property the device does not have is refused by all three operations, without any effect. -/
theorem C66_unknown_refused (s : DevState) (p : Nat) (hp : p < 2 ^ 16) (h : p ∉ [0x5001, 0xD401, 0xD402, 0xD405, 0xD407])
    (tid : Nat) (rx : Rx) :
    getDevicePropDesc s tid p = .ok (none, .devicePropNotSupported) ∧
    getDevicePropValue s tid p = .ok (none, .devicePropNotSupported) ∧
    setDevicePropValueData s (setDevicePropValueReq s p) p rx = .ok (s, .devicePropNotSupported) := by
  have hu : u16 p = p := by unfold u16; omega
  have hn := desc_none s p h
  simp [getDevicePropDesc, getDevicePropValue, setDevicePropValueData, setDevicePropValueReq, hu, hn]

theorem get_str {rx : Rx} {tid : Nat} {n : QStr} (h : Arrives (dataContainer 0x1016 tid (enc (.str n))) rx) :
    ∃ r, rx.getStr = .ok (bom (cut n), r) := by
  have hat := arrives_at h (enc_str_length n)
  have hat' : rx.At (header (12 + (enc (.str n)).length) 2 0x1016 tid) (Spec.strBytes (cut n) ++ []) := by
    rw [List.append_nil]; exact hat
  exact ⟨_, Rx.getStr_at (cut_length n) hat'⟩

/-- C66: setting the friendly name or the synchronisation partner is answered OK and changes just that value, to the one sent
(cut and stripped of a byte order mark as in C03), for every string and every packetization; reading it gives that value. -/
theorem C66_set_then_get (s : DevState) (n : QStr) (tid : Nat) (rx : Rx)
    (hrx : Arrives (dataContainer 0x1016 tid (enc (.str n))) rx) :
    (∃ s', setDevicePropValueData s (setDevicePropValueReq s 0xD402) 0xD402 rx = .ok (s', .ok) ∧
      toldDevValue s' 0xD402 0xFFFF (.str (cut (bom (cut n)))) ∧
      s'.partner = s.partner ∧ s'.battery = s.battery ∧ s'.icon = s.icon ∧ s'.devType = s.devType ∧
      s'.defName = s.defName ∧ s'.defPartner = s.defPartner) ∧
    (∃ s', setDevicePropValueData s (setDevicePropValueReq s 0xD401) 0xD401 rx = .ok (s', .ok) ∧
      toldDevValue s' 0xD401 0xFFFF (.str (cut (bom (cut n)))) ∧
      s'.name = s.name ∧ s'.battery = s.battery ∧ s'.icon = s.icon ∧ s'.devType = s.devType ∧
      s'.defName = s.defName ∧ s'.defPartner = s.defPartner) := by
  obtain ⟨r, hr⟩ := get_str hrx
  constructor
  · refine ⟨s.setName (bom (cut n)), ?_, ?_, rfl, rfl, rfl, rfl, rfl, rfl⟩
    · have h1 : setDevicePropValueReq s 0xD402 = .ok := rfl
      unfold setDevicePropValueData
      rw [h1, if_pos rfl, if_pos (by decide), hr]; rfl
    · exact value_sent _ 0xD402 _ (.str (bom (cut n))) rfl rfl (str_typed _) (enc_str_length _)
  · refine ⟨s.setPartner (bom (cut n)), ?_, ?_, rfl, rfl, rfl, rfl, rfl, rfl⟩
    · have h1 : setDevicePropValueReq s 0xD401 = .ok := rfl
      unfold setDevicePropValueData
      rw [h1, if_pos rfl, if_neg (by decide), if_pos (by decide), hr]; rfl
    · exact value_sent _ 0xD401 _ (.str (bom (cut n))) rfl rfl (str_typed _) (enc_str_length _)

/-- An operation that may change the value of device property `p`. -/
def DevOp.Touches (p : Nat) : DevOp → Prop
  | .set q _ => u16 q = p
  | .battery _ => p = 0x5001
  | _ => False

/-- C66: a value stays what it is through any sequence of operations that do not set it: descriptions, reads, sets of other
properties (whatever their data), changes of the battery level. -/
theorem C66_value_lasts (s : DevState) (ops : List DevOp) :
    ((∀ op ∈ ops, ¬ DevOp.Touches 0xD402 op) → (ops.foldl DevState.step s).name = s.name) ∧
    ((∀ op ∈ ops, ¬ DevOp.Touches 0xD401 op) → (ops.foldl DevState.step s).partner = s.partner) ∧
    ((∀ op ∈ ops, ¬ DevOp.Touches 0x5001 op) → (ops.foldl DevState.step s).battery = s.battery) ∧
    (ops.foldl DevState.step s).icon = s.icon ∧ (ops.foldl DevState.step s).devType = s.devType ∧
    (ops.foldl DevState.step s).defName = s.defName ∧ (ops.foldl DevState.step s).defPartner = s.defPartner := by
  have set_cases : ∀ (s : DevState) p rx,
      s.step (.set p rx) = s ∨ (u16 p = 0xD402 ∧ ∃ v, s.step (.set p rx) = s.setName v) ∨
      (u16 p = 0xD401 ∧ ∃ v, s.step (.set p rx) = s.setPartner v) := by
    intro s p rx
    unfold DevState.step setDevicePropValueData
    simp only []
    by_cases h1 : setDevicePropValueReq s p = .ok
    · rw [if_pos h1]
      by_cases h2 : u16 p = 0xD402
      · rw [if_pos h2]
        cases rx.getStr with
        | ub w => left; rfl
        | ok q => right; left; exact ⟨h2, q.1, rfl⟩
      · rw [if_neg h2]
        by_cases h3 : u16 p = 0xD401
        · rw [if_pos h3]
          cases rx.getStr with
          | ub w => left; rfl
          | ok q => right; right; exact ⟨h3, q.1, rfl⟩
        · rw [if_neg h3]; left; rfl
    · rw [if_neg h1]; left; rfl
  have bat : ∀ (s : DevState) n, ∃ b c, s.step (.battery n) = { s with battery := b, changes := c } := by
    intro s n
    unfold DevState.step DevState.batteryChanged
    simp only []
    split
    · split
      · exact ⟨_, _, rfl⟩
      · exact ⟨s.battery, s.changes, rfl⟩
    · exact ⟨s.battery, s.changes, rfl⟩
  induction ops generalizing s with
  | nil => exact ⟨fun _ => rfl, fun _ => rfl, fun _ => rfl, rfl, rfl, rfl, rfl⟩
  | cons op ops ih =>
    rw [List.foldl_cons]
    obtain ⟨i1, i2, i3, i4, i5, i6, i7⟩ := ih (s.step op)
    rw [i4, i5, i6, i7]
    refine ⟨fun h => ?_, fun h => ?_, fun h => ?_, ?_, ?_, ?_, ?_⟩
    · rw [i1 (fun o ho => h o (by simp [ho]))]
      have h0 := h op (by simp)
      cases op with
      | describe t p => rfl
      | value t p => rfl
      | set p rx =>
        rcases set_cases s p rx with e | ⟨e, _⟩ | ⟨_, v, e⟩
        · rw [e]
        · exact absurd e h0
        · rw [e]; rfl
      | battery n => obtain ⟨b, c, e⟩ := bat s n; rw [e]
    · rw [i2 (fun o ho => h o (by simp [ho]))]
      have h0 := h op (by simp)
      cases op with
      | describe t p => rfl
      | value t p => rfl
      | set p rx =>
        rcases set_cases s p rx with e | ⟨_, v, e⟩ | ⟨e, _⟩
        · rw [e]
        · rw [e]; rfl
        · exact absurd e h0
      | battery n => obtain ⟨b, c, e⟩ := bat s n; rw [e]
    · rw [i3 (fun o ho => h o (by simp [ho]))]
      have h0 := h op (by simp)
      cases op with
      | describe t p => rfl
      | value t p => rfl
      | set p rx =>
        rcases set_cases s p rx with e | ⟨_, v, e⟩ | ⟨_, v, e⟩
        · rw [e]
        · rw [e]; rfl
        · rw [e]; rfl
      | battery n => exact absurd rfl h0
    all_goals
      cases op with
      | describe t p => rfl
      | value t p => rfl
      | set p rx =>
        rcases set_cases s p rx with e | ⟨_, v, e⟩ | ⟨_, v, e⟩
        · rw [e]
        · rw [e]; rfl
        · rw [e]; rfl
      | battery n => obtain ⟨b, c, e⟩ := bat s n; rw [e]

/-- C66: the battery level follows the reported percentage (0 to 255), and the host is told of every change and of nothing else:
one DevicePropChanged event for the battery level per report that differs from the level before. -/
theorem C66_battery_events (s : DevState) (n : Nat) (hn : n ≤ 255) :
    (s.batteryChanged n).battery = n ∧
    (s.batteryChanged n).changes = s.changes ++ (if n = s.battery then [] else [0x5001]) := by
  have hl : u8 (min (n : Int).toNat 255) = n := by unfold u8; simp; omega
  unfold DevState.batteryChanged
  rw [if_pos (by omega)]
  simp only [hl]
  by_cases h : s.battery = n
  · rw [if_neg (by simpa using h)]
    simp [h]
  · rw [if_pos h]
    have : n ≠ s.battery := fun e => h e.symm
    simp [this]

/-- A device with the configuration as installed. -/
def demoDevState : DevState :=
  DevState.start [⟨0x5001, none⟩, ⟨0xD402, some (ID_NAME, DEF_NAME)⟩, ⟨0xD401, some (ID_PARTNER, DEF_NAME)⟩,
      ⟨0x501F, some ([], [0x44, 0x6F])⟩, ⟨0xD407, some ([], [0x33])⟩, ⟨0xD405, none⟩]
    true [0x50, 0x68] 3 [1, 2, 3]

theorem C66_witness : DevOk demoDevState ∧
    (∃ rx, Arrives (dataContainer 0x1016 7 (enc (.str [0x62]))) rx) ∧
    (match getDevicePropValue demoDevState 5 0xD402 with
      | .ok (some b, _) => readValue 0x1015 5 0xFFFF b
      | _ => none) = some (.str [0x50, 0x68]) := by
  refine ⟨⟨by decide +kernel, by decide +kernel, by decide +kernel⟩, ?_, by decide +kernel⟩
  obtain ⟨rx, _, h⟩ := demo_arrives 0x1016 (enc (.str [0x62])) (by decide +kernel)
  exact ⟨rx, h⟩

/-- C66 is violated for the properties described as read-only: setting the battery level, the icon or the device type is not
refused but answered OK, and nothing changes, whatever data is sent. -/
theorem C66_read_only_violated (s : DevState) (p : Nat) (h : p ∈ [0x5001, 0xD405, 0xD407]) (rx : Rx) :
    (∃ d, s.desc p = some d ∧ d.getSet = false) ∧
    setDevicePropValueData s (setDevicePropValueReq s p) p rx = .ok (s, .ok) := by
  simp only [List.mem_cons, List.not_mem_nil, or_false] at h
  rcases h with rfl | rfl | rfl
  · exact ⟨⟨_, rfl, rfl⟩, rfl⟩
  · exact ⟨⟨_, rfl, rfl⟩, rfl⟩
  · exact ⟨⟨_, rfl, rfl⟩, rfl⟩

/-- C66 is violated for the properties the device lists in its device information: with the configuration file it is installed
with, it lists the copyright information, and then refuses it. -/
theorem C66_advertised_violated : 0x501F ∈ demoDevState.advertised ∧
    getDevicePropDesc demoDevState 5 0x501F = .ok (none, .devicePropNotSupported) ∧
    getDevicePropValue demoDevState 5 0x501F = .ok (none, .devicePropNotSupported) := by
  refine ⟨by decide +kernel, ?_, ?_⟩
  · unfold getDevicePropDesc; rw [show u16 0x501F = 0x501F from rfl, desc_none _ _ (by decide)]
  · unfold getDevicePropValue; rw [show u16 0x501F = 0x501F from rfl, desc_none _ _ (by decide)]

/-- C66 is violated for the battery level's range: the level is described as a multiple of ten up to 100, but takes any value up
to 255. -/
theorem C66_battery_range_violated : ∃ n : Nat, n ≤ 100 ∧ n % 10 ≠ 0 ∧ (demoDevState.batteryChanged n).battery = n :=
  ⟨55, by decide, by decide, (C66_battery_events _ 55 (by decide)).1⟩

/-- A configuration file in which the value of property `code` is kept under `id`: a single element has that code and it is the
first with that id. -/
def KeptUnder (code : Nat) (id : QStr) (conf : List ConfItem) : Prop :=
  ∃ a t b, conf = a ++ ⟨code, some (id, t)⟩ :: b ∧ (∀ i ∈ a, i.code ≠ code ∧ ∀ t', i.value ≠ some (id, t')) ∧
    ∀ i ∈ b, i.code ≠ code

private theorem confSet_at (id v t : QStr) (code : Nat) (a b : List ConfItem) (h : ∀ i ∈ a, ∀ t', i.value ≠ some (id, t')) :
    confSet id v (a ++ ⟨code, some (id, t)⟩ :: b) = a ++ ⟨code, some (id, v)⟩ :: b := by
  induction a with
  | nil => simp [confSet]
  | cons i a ih =>
    have hi := h i (by simp)
    have := ih (fun j hj => h j (by simp [hj]))
    rw [List.cons_append, confSet]
    cases hv : i.value with
    | none => simp only [this, List.cons_append]
    | some q =>
      obtain ⟨id', t'⟩ := q
      have hne : id' ≠ id := by
        intro e; subst e; exact hi t' hv
      simp only [hne, if_false, this, List.cons_append]

private theorem conf_name (l : List ConfItem) (h : ∀ i ∈ l, i.code ≠ 0xD402) (st : QStr × QStr × List Nat) :
    (l.foldl confStep st).1 = st.1 := by
  induction l generalizing st with
  | nil => rfl
  | cons i l ih =>
    rw [List.foldl_cons, ih (fun j hj => h j (by simp [hj]))]
    have hi := h i (by simp)
    obtain ⟨n, p, adv⟩ := st
    cases hv : i.value with
    | none => simp [confStep, hv]
    | some q =>
      simp only [confStep, hv, hi, if_false]
      repeat' split
      all_goals rfl

private theorem conf_partner (l : List ConfItem) (h : ∀ i ∈ l, i.code ≠ 0xD401) (st : QStr × QStr × List Nat) :
    (l.foldl confStep st).2.1 = st.2.1 := by
  induction l generalizing st with
  | nil => rfl
  | cons i l ih =>
    rw [List.foldl_cons, ih (fun j hj => h j (by simp [hj]))]
    have hi := h i (by simp)
    obtain ⟨n, p, adv⟩ := st
    cases hv : i.value with
    | none => simp [confStep, hv]
    | some q =>
      simp only [confStep, hv, hi, if_false]
      repeat' split
      all_goals rfl

private theorem start_name (conf : List ConfItem) (model : QStr) (ty : Nat) (icon : List UInt8) :
    (DevState.start conf false model ty icon).name = (conf.foldl confStep (DEF_NAME, DEF_PARTNER, [])).1 ∧
    (DevState.start conf false model ty icon).partner = (conf.foldl confStep (DEF_NAME, DEF_PARTNER, [])).2.1 := ⟨rfl, rfl⟩

private theorem step_text {code : Nat} {id v : QStr} (hb : blank v = false) (st : QStr × QStr × List Nat) :
    (code = 0xD402 → (confStep st ⟨code, some (id, v)⟩).1 = v) ∧
    (code = 0xD401 → (confStep st ⟨code, some (id, v)⟩).2.1 = v) := by
  constructor
  · rintro rfl
    simp [confStep, hb]
  · rintro rfl
    simp [confStep, hb]

/-- C67: a friendly name (synchronisation partner) that is not blank and was set by the host is there again after any later
restart, with no further set in between: in particular it wins over the default and over what the file held before. -/
theorem C67_name_survives_restart (s : DevState) (v : QStr) (hb : blank v = false) (model : QStr) (ty : Nat)
    (icon : List UInt8) :
    (KeptUnder 0xD402 ID_NAME s.conf →
      (DevState.start (s.setName v).conf false model ty icon).name = v) ∧
    (KeptUnder 0xD401 ID_PARTNER s.conf →
      (DevState.start (s.setPartner v).conf false model ty icon).partner = v) := by
  constructor
  · rintro ⟨a, t, b, hc, ha, hbb⟩
    rw [(start_name _ _ _ _).1]
    show (List.foldl confStep _ (confSet ID_NAME v s.conf)).1 = v
    rw [hc, confSet_at _ _ _ _ _ _ (fun i hi => (ha i hi).2), List.foldl_append, List.foldl_cons, conf_name b hbb]
    exact (step_text hb _).1 rfl
  · rintro ⟨a, t, b, hc, ha, hbb⟩
    rw [(start_name _ _ _ _).2]
    show (List.foldl confStep _ (confSet ID_PARTNER v s.conf)).2.1 = v
    rw [hc, confSet_at _ _ _ _ _ _ (fun i hi => (ha i hi).2), List.foldl_append, List.foldl_cons, conf_partner b hbb]
    exact (step_text hb _).2 rfl

/-- … and the value is `t`. -/
private def KeptAs (code : Nat) (id t : QStr) (conf : List ConfItem) : Prop :=
  ∃ a b, conf = a ++ ⟨code, some (id, t)⟩ :: b ∧ (∀ i ∈ a, i.code ≠ code ∧ ∀ t', i.value ≠ some (id, t')) ∧ ∀ i ∈ b, i.code ≠ code

private theorem confSet_as {code : Nat} {id t : QStr} {conf : List ConfItem} (h : KeptAs code id t conf) (id' v : QStr) :
    KeptAs code id (if id' = id then v else t) (confSet id' v conf) := by
  have codes : ∀ (l : List ConfItem), (confSet id' v l).map (·.code) = l.map (·.code) := by
    intro l
    induction l with
    | nil => rfl
    | cons i l ih =>
      unfold confSet
      split
      · split
        · rfl
        · simp [ih]
      · simp [ih]
  obtain ⟨a, b, rfl, ha, hb⟩ := h
  by_cases he : id' = id
  · subst he
    rw [confSet_at _ _ _ _ _ _ (fun i hi => (ha i hi).2)]
    rw [if_pos rfl]
    exact ⟨a, b, rfl, ha, hb⟩
  · rw [if_neg he]
    -- the element concerned lies before or behind
    have split : ∀ (l r : List ConfItem), (∃ l', confSet id' v (l ++ r) = l' ++ r ∧ l'.map (·.code) = l.map (·.code) ∧
          ∀ i ∈ l', i ∈ l ∨ ∃ t', i.value = some (id', t')) ∨ confSet id' v (l ++ r) = l ++ confSet id' v r := by
      intro l r
      induction l with
      | nil => right; rfl
      | cons i l ih =>
        rw [List.cons_append, confSet]
        have skip : ∀ x : List ConfItem, x = i :: confSet id' v (l ++ r) →
            ((∃ l', x = l' ++ r ∧ l'.map (·.code) = (i :: l).map (·.code) ∧
              ∀ j ∈ l', j ∈ i :: l ∨ ∃ t', j.value = some (id', t')) ∨ x = i :: l ++ confSet id' v r) := by
          rintro x rfl
          rcases ih with ⟨l', e, hc, hm⟩ | e
          · left
            refine ⟨i :: l', by rw [e]; rfl, by simp [hc], ?_⟩
            intro j hj
            rcases List.mem_cons.mp hj with rfl | hj
            · left; simp
            · rcases hm j hj with h | h
              · left; simp [h]
              · right; exact h
          · right; rw [e]; rfl
        cases hv : i.value with
        | none => exact skip _ rfl
        | some q =>
          obtain ⟨id'', t''⟩ := q
          simp only []
          by_cases hi : id'' = id'
          · subst hi
            rw [if_pos rfl]
            left
            refine ⟨_ :: l, rfl, by simp, ?_⟩
            intro j hj
            rcases List.mem_cons.mp hj with rfl | hj
            · right; exact ⟨v, rfl⟩
            · left; simp [hj]
          · rw [if_neg hi]
            exact skip _ rfl
    have codeMem : ∀ (l l' : List ConfItem), l'.map (·.code) = l.map (·.code) → (∀ i ∈ l, i.code ≠ code) →
        ∀ i ∈ l', i.code ≠ code := by
      intro l l' hm hl i hi e
      have : i.code ∈ l'.map (·.code) := List.mem_map.mpr ⟨i, hi, rfl⟩
      rw [hm] at this
      obtain ⟨j, hj, ej⟩ := List.mem_map.mp this
      exact hl j hj (ej.trans e)
    rcases split a (⟨code, some (id, t)⟩ :: b) with ⟨a', e, hc, hm⟩ | e
    · rw [e]
      refine ⟨a', b, rfl, ?_, hb⟩
      intro i hi
      refine ⟨codeMem a a' hc (fun i hi => (ha i hi).1) i hi, ?_⟩
      intro t' ht
      rcases hm i hi with h | ⟨t2, h⟩
      · exact (ha i h).2 t' ht
      · rw [h] at ht
        exact he (Prod.mk.inj (Option.some.inj ht)).1
    · have hne : ¬ id = id' := fun h => he h.symm
      rw [e, confSet]
      simp only [hne, if_false]
      exact ⟨a, confSet id' v b, rfl, ha, codeMem b _ (codes b) hb⟩

private theorem confSet_kept {code : Nat} {id : QStr} {conf : List ConfItem} (h : KeptUnder code id conf) (id' v : QStr) :
    KeptUnder code id (confSet id' v conf) := by
  obtain ⟨a, t, b, h1, h2, h3⟩ := h
  obtain ⟨a', b', g1, g2, g3⟩ := confSet_as ⟨a, b, h1, h2, h3⟩ id' v
  exact ⟨a', _, b', g1, g2, g3⟩

/-- C67 over whole histories: whatever operations preceded and follow, as long as the name (partner) is not set again, the value
set by the host is there after a restart; and the file stays such that this holds for every later restart too. -/
theorem C67_history (s : DevState) (ops ops' : List DevOp) (v : QStr) (hb : blank v = false) (model : QStr) (ty : Nat)
    (icon : List UInt8) :
    (KeptUnder 0xD402 ID_NAME s.conf → (∀ op ∈ ops', ¬ DevOp.Touches 0xD402 op) →
      let s1 := ops'.foldl DevState.step ((ops.foldl DevState.step s).setName v)
      (DevState.start s1.conf false model ty icon).name = v ∧ KeptUnder 0xD402 ID_NAME s1.conf) ∧
    (KeptUnder 0xD401 ID_PARTNER s.conf → (∀ op ∈ ops', ¬ DevOp.Touches 0xD401 op) →
      let s2 := ops'.foldl DevState.step ((ops.foldl DevState.step s).setPartner v)
      (DevState.start s2.conf false model ty icon).partner = v ∧ KeptUnder 0xD401 ID_PARTNER s2.conf) := by
  have one : ∀ (s : DevState) op, s.conf = (s.step op).conf ∨
      (DevOp.Touches 0xD402 op ∧ ∃ w, (s.step op).conf = confSet ID_NAME w s.conf) ∨
      (DevOp.Touches 0xD401 op ∧ ∃ w, (s.step op).conf = confSet ID_PARTNER w s.conf) := by
    intro s op
    cases op with
    | describe t p => left; rfl
    | value t p => left; rfl
    | battery n =>
      left
      unfold DevState.step DevState.batteryChanged
      simp only []
      split
      · split <;> rfl
      · rfl
    | set p rx =>
      unfold DevState.step setDevicePropValueData
      simp only []
      by_cases h1 : setDevicePropValueReq s p = .ok
      · rw [if_pos h1]
        by_cases h2 : u16 p = 0xD402
        · rw [if_pos h2]
          cases rx.getStr with
          | ub w => left; rfl
          | ok q => right; left; exact ⟨h2, q.1, rfl⟩
        · rw [if_neg h2]
          by_cases h3 : u16 p = 0xD401
          · rw [if_pos h3]
            cases rx.getStr with
            | ub w => left; rfl
            | ok q => right; right; exact ⟨h3, q.1, rfl⟩
          · rw [if_neg h3]; left; rfl
      · rw [if_neg h1]; left; rfl
  have keep : ∀ (ops : List DevOp) (s : DevState) code id, KeptUnder code id s.conf →
      KeptUnder code id (ops.foldl DevState.step s).conf := by
    intro ops
    induction ops with
    | nil => intro s code id h; exact h
    | cons op ops ih =>
      intro s code id h
      refine ih _ _ _ ?_
      rcases one s op with e | ⟨_, w, e⟩ | ⟨_, w, e⟩
      · rw [← e]; exact h
      · rw [e]; exact confSet_kept h _ _
      · rw [e]; exact confSet_kept h _ _
  have hid : ID_NAME ≠ ID_PARTNER := by decide
  have sameN : ∀ (ops : List DevOp) (s : DevState), (∀ op ∈ ops, ¬ DevOp.Touches 0xD402 op) → KeptAs 0xD402 ID_NAME v s.conf →
      KeptAs 0xD402 ID_NAME v (ops.foldl DevState.step s).conf := by
    intro ops
    induction ops with
    | nil => intro s _ h; exact h
    | cons op ops ih =>
      intro s h1 h
      refine ih _ (fun o ho => h1 o (by simp [ho])) ?_
      rcases one s op with e | ⟨e, _⟩ | ⟨_, w, e⟩
      · rw [← e]; exact h
      · exact absurd e (h1 op (by simp))
      · rw [e]
        have := confSet_as h ID_PARTNER w
        rwa [if_neg (fun e => hid e.symm)] at this
  have sameP : ∀ (ops : List DevOp) (s : DevState), (∀ op ∈ ops, ¬ DevOp.Touches 0xD401 op) → KeptAs 0xD401 ID_PARTNER v s.conf →
      KeptAs 0xD401 ID_PARTNER v (ops.foldl DevState.step s).conf := by
    intro ops
    induction ops with
    | nil => intro s _ h; exact h
    | cons op ops ih =>
      intro s h1 h
      refine ih _ (fun o ho => h1 o (by simp [ho])) ?_
      rcases one s op with e | ⟨_, w, e⟩ | ⟨e, _⟩
      · rw [← e]; exact h
      · rw [e]
        have := confSet_as h ID_NAME w
        rwa [if_neg hid] at this
      · exact absurd e (h1 op (by simp))
  refine ⟨fun hk hn => ?_, fun hk hn => ?_⟩
  · obtain ⟨a, t, b, h1, h2, h3⟩ := keep ops s _ _ hk
    have k := confSet_as ⟨a, b, h1, h2, h3⟩ ID_NAME v
    rw [if_pos rfl] at k
    obtain ⟨a, b, h1, h2, h3⟩ := sameN ops' ((ops.foldl DevState.step s).setName v) hn k
    refine ⟨?_, a, v, b, h1, h2, h3⟩
    rw [(start_name _ _ _ _).1, h1, List.foldl_append, List.foldl_cons, conf_name b h3]
    exact (step_text hb _).1 rfl
  · obtain ⟨a, t, b, h1, h2, h3⟩ := keep ops s _ _ hk
    have k := confSet_as ⟨a, b, h1, h2, h3⟩ ID_PARTNER v
    rw [if_pos rfl] at k
    obtain ⟨a, b, h1, h2, h3⟩ := sameP ops' ((ops.foldl DevState.step s).setPartner v) hn k
    refine ⟨?_, a, v, b, h1, h2, h3⟩
    rw [(start_name _ _ _ _).2, h1, List.foldl_append, List.foldl_cons, conf_partner b h3]
    exact (step_text hb _).2 rfl

theorem C67_witness : KeptUnder 0xD402 ID_NAME demoDevState.conf ∧ KeptUnder 0xD401 ID_PARTNER demoDevState.conf ∧
    blank [0x62, 0x20] = false ∧
    (DevState.start (demoDevState.setName [0x62, 0x20]).conf false [] 3 []).name = [0x62, 0x20] := by
  refine ⟨⟨[⟨0x5001, none⟩], [0x50, 0x68], [⟨0xD401, some (ID_PARTNER, DEF_NAME)⟩,
      ⟨0x501F, some ([], [0x44, 0x6F])⟩, ⟨0xD407, some ([], [0x33])⟩, ⟨0xD405, none⟩], by decide +kernel, ?_, by decide⟩,
    ⟨[⟨0x5001, none⟩, ⟨0xD402, some (ID_NAME, [0x50, 0x68])⟩], DEF_NAME, [
      ⟨0x501F, some ([], [0x44, 0x6F])⟩, ⟨0xD407, some ([], [0x33])⟩, ⟨0xD405, none⟩], by decide +kernel, ?_, by decide⟩,
    by decide, by decide +kernel⟩
  · intro i hi
    simp only [List.mem_singleton] at hi
    subst hi
    exact ⟨by decide, by simp⟩
  · intro i hi
    simp only [List.mem_cons, List.not_mem_nil, or_false] at hi
    rcases hi with rfl | rfl
    · exact ⟨by decide, by simp⟩
    · refine ⟨by decide, ?_⟩
      intro t' h
      have := (Prod.mk.inj (Option.some.inj h)).1
      revert this
      decide

/-- C67 is violated for blank names: the host sets the empty name (or spaces), is answered OK and reads it back, and after a restart
the device has the default name again. -/
theorem C67_blank_violated (s : DevState) (v : QStr) (hv : blank v = true) (hk : KeptUnder 0xD402 ID_NAME s.conf) (model : QStr)
    (ty : Nat) (icon : List UInt8) :
    (s.setName v).name = v ∧ (DevState.start (s.setName v).conf false model ty icon).name = DEF_NAME := by
  refine ⟨rfl, ?_⟩
  obtain ⟨a, t, b, hc, ha, hb⟩ := hk
  rw [(start_name _ _ _ _).1]
  show (List.foldl confStep _ (confSet ID_NAME v s.conf)).1 = _
  rw [hc, confSet_at _ _ _ _ _ _ (fun i hi => (ha i hi).2), List.foldl_append, List.foldl_cons, conf_name b hb]
  have : ∀ st, (confStep st ⟨0xD402, some (ID_NAME, v)⟩).1 = st.1 := by
    intro st; simp [confStep, hv]
  rw [this, conf_name a (fun i hi => (ha i hi).1)]

example : blank [0x20, 0x20] = true ∧ blank [] = true := by decide

end Props
