import Verif.Lemmas.Device
import Verif.Props.DeviceRefs
/-! C110: device properties, end to end. -/
namespace Props
open Mtp Spec

/-- The name under which the configuration file keeps device property `p` (friendly name or synchronisation partner). -/
def keptId (p : Nat) : QStr := if p = 0xD402 then ID_NAME else ID_PARTNER

/-- C110. A host sets the friendly name or the synchronisation partner (SetDevicePropValue). That is answered OK; and whatever
happens afterwards that does not set it again (other commands, closed and new sessions, resets, cancellations), asking for it
(GetDevicePropValue) gives the text that was set, cut as all transmitted texts are. If it is not blank and the configuration file
has a place for it, that is also so after the device was started again with the file as it was left. -/
theorem C110_text (r0 r : Rsp Device) (hr0 : r0.req = none) (h0 : DevOk r0.dev.props) (t0 : Elapsed [] r0 r) (ho : Open r)
    (q : List UInt8) (bs : List (List UInt8)) (p : Nat) (hp : p = 0xD402 ∨ p = 0xD401) (n : QStr)
    (hs : SettingProp q bs p (enc (.str n))) :
    ∃ r1 : Rsp Device, AnsweredBy Device.dev r r1 (sendObject q bs) q .ok [] ∧
      ∀ r2 : Rsp Device, Leaving p r1 r2 →
        (Open r2 → TellsProp r2 p 0xFFFF (.str (cut (bom (cut n))))) ∧
        (blank (bom (cut n)) = false → KeptUnder p (keptId p) r0.dev.props.conf →
          ∀ (r3 : Rsp Device) (model : QStr) (ty : Nat) (icon : List UInt8), ty < 2 ^ 32 → icon.length < 2 ^ 28 →
            r3.dev.props = DevState.start r2.dev.props.conf false model ty icon → Open r3 →
            TellsProp r3 p 0xFFFF (.str (cut (bom (cut n))))) := by
  obtain ⟨ops0, _, eo⟩ := Device.lived_props hr0 t0
  have hok : DevOk r.dev.props := by rw [eo]; exact Device.ops_ok ops0 _ h0
  have hreq : setDevicePropValueReq r.dev.props p = .ok := by rcases hp with rfl | rfl <;> rfl
  obtain ⟨rx, e, ha⟩ := Device.collected 0x1016 (cTid q) (enc (.str n)) hs.short
  obtain ⟨rx', hg⟩ := get_str ha
  obtain ⟨r1, a1, a2⟩ := Device.set_prop r ho hs hreq
  have hset : r.dev.setDevProp p (dataContainer 0x1016 (cTid q) (enc (.str n))) =
      ({ r.dev with props := if p = 0xD402 then r.dev.props.setName (bom (cut n)) else r.dev.props.setPartner (bom (cut n)) },
        .ok, []) := by
    unfold Device.setDevProp
    rw [e, Res.bind_ok]
    unfold setDevicePropValueData
    rw [if_pos rfl]
    rcases hp with rfl | rfl
    · rw [if_pos (by decide), hg]; rfl
    · rw [if_neg (by decide), if_pos (by decide), hg]; rfl
  rw [hset] at a1 a2
  have hp1 : r1.dev.props = if p = 0xD402 then r.dev.props.setName (bom (cut n)) else r.dev.props.setPartner (bom (cut n)) := by
    rw [a2]
  have hok1 : DevOk r1.dev.props := by
    rw [hp1]
    split
    · exact ⟨hok.battery, hok.devType, hok.icon⟩
    · exact ⟨hok.battery, hok.devType, hok.icon⟩
  refine ⟨r1, a1, fun r2 t => ?_⟩
  obtain ⟨ops, hn, e2⟩ := (Device.leaving_props (by rcases hp with rfl | rfl <;> decide) a1.again.none t).dev
  have hok2 : DevOk r2.dev.props := by rw [e2]; exact Device.ops_ok ops _ hok1
  obtain ⟨k1, k2, _⟩ := C66_value_lasts r1.dev.props ops
  refine ⟨fun ho2 => ?_, fun hb hk r3 model ty icon hty hic e3 ho3 => ?_⟩
  · have hv := C66_value _ hok2
    rcases hp with rfl | rfl
    · have : r2.dev.props.name = bom (cut n) := by rw [e2, k1 hn, hp1]; rfl
      refine Device.get_prop r2 ho2 ?_
      rw [← this]; exact hv.2.2.1
    · have : r2.dev.props.partner = bom (cut n) := by rw [e2, k2 hn, hp1]; rfl
      refine Device.get_prop r2 ho2 ?_
      rw [← this]; exact hv.2.1
  · have hok3 : DevOk r3.dev.props := by
      rw [e3]
      exact ⟨by show 0 < 256; decide, hty, hic⟩
    have hv := C66_value _ hok3
    obtain ⟨c1, c2⟩ := C67_history r0.dev.props ops0 ops (bom (cut n)) hb model ty icon
    rcases hp with rfl | rfl
    · have : r3.dev.props.name = bom (cut n) := by
        rw [e3, e2, hp1, eo]; exact (c1 hk hn).1
      refine Device.get_prop r3 ho3 ?_
      rw [← this]; exact hv.2.2.1
    · have : r3.dev.props.partner = bom (cut n) := by
        rw [e3, e2, hp1, eo]; exact (c2 hk hn).1
      refine Device.get_prop r3 ho3 ?_
      rw [← this]; exact hv.2.1

/-- C110. As long as the friendly name (synchronisation partner) is not set, asking for it gives the one the device started with. -/
theorem C110_unset (r0 r : Rsp Device) (hr0 : r0.req = none) (h0 : DevOk r0.dev.props) (ho : Open r) :
    (Leaving 0xD402 r0 r → TellsProp r 0xD402 0xFFFF (.str (cut r0.dev.props.name))) ∧
    (Leaving 0xD401 r0 r → TellsProp r 0xD401 0xFFFF (.str (cut r0.dev.props.partner))) := by
  constructor
  · intro t
    obtain ⟨ops, hn, e2⟩ := (Device.leaving_props (by decide) hr0 t).dev
    have hv := C66_value r.dev.props (by rw [e2]; exact Device.ops_ok ops _ h0)
    refine Device.get_prop r ho ?_
    rw [← (C66_value_lasts r0.dev.props ops).1 hn, ← e2]
    exact hv.2.2.1
  · intro t
    obtain ⟨ops, hn, e2⟩ := (Device.leaving_props (by decide) hr0 t).dev
    have hv := C66_value r.dev.props (by rw [e2]; exact Device.ops_ok ops _ h0)
    refine Device.get_prop r ho ?_
    rw [← (C66_value_lasts r0.dev.props ops).2.1 hn, ← e2]
    exact hv.2.1

/-- C110. At any time, whatever happened before, asking for the description of one of the five device properties gives its type,
whether it can be set, its value when the device started and its value now; asking for its value gives that value. The battery level
is the last one noticed, the icon and the device type are those the device started with. -/
theorem C110_described (r0 r : Rsp Device) (hr0 : r0.req = none) (h0 : DevOk r0.dev.props) (t : Elapsed [] r0 r) (ho : Open r) :
    (Describes r 0x5001 { code := 0x5001, dtype := 2, getSet := false, defVal := .int 1 0, curVal := .int 1 r.dev.props.battery,
                          flag := 1, form := .range (.int 1 0) (.int 1 100) (.int 1 10) } ∧
      TellsProp r 0x5001 2 (.int 1 r.dev.props.battery)) ∧
    (Describes r 0xD401 { code := 0xD401, dtype := 0xFFFF, getSet := true, defVal := .str (cut r0.dev.props.defPartner),
                          curVal := .str (cut r.dev.props.partner), flag := 0, form := .none } ∧
      TellsProp r 0xD401 0xFFFF (.str (cut r.dev.props.partner))) ∧
    (Describes r 0xD402 { code := 0xD402, dtype := 0xFFFF, getSet := true, defVal := .str (cut r0.dev.props.defName),
                          curVal := .str (cut r.dev.props.name), flag := 0, form := .none } ∧
      TellsProp r 0xD402 0xFFFF (.str (cut r.dev.props.name))) ∧
    (Describes r 0xD405 { code := 0xD405, dtype := 0x4002, getSet := false, defVal := .arr 1 [],
                          curVal := .arr 1 (r0.dev.props.icon.map UInt8.toNat), flag := 0, form := .none } ∧
      TellsProp r 0xD405 0x4002 (.arr 1 (r0.dev.props.icon.map UInt8.toNat))) ∧
    (Describes r 0xD407 { code := 0xD407, dtype := 6, getSet := false, defVal := .int 4 r0.dev.props.devType,
                          curVal := .int 4 r0.dev.props.devType, flag := 0, form := .none } ∧
      TellsProp r 0xD407 6 (.int 4 r0.dev.props.devType)) := by
  obtain ⟨ops, _, eo⟩ := Device.lived_props hr0 t
  have hok : DevOk r.dev.props := by rw [eo]; exact Device.ops_ok ops _ h0
  obtain ⟨_, _, _, e1, e2, e3, e4⟩ := C66_value_lasts r0.dev.props ops
  rw [← eo] at e1 e2 e3 e4
  obtain ⟨d1, d2, d3, d4, d5⟩ := C66_described _ hok
  obtain ⟨v1, v2, v3, v4, v5⟩ := C66_value _ hok
  rw [e1] at d4 v4
  rw [e2] at d5 v5
  rw [e3] at d3
  rw [e4] at d2
  exact ⟨⟨Device.get_desc r ho d1, Device.get_prop r ho v1⟩, ⟨Device.get_desc r ho d2, Device.get_prop r ho v2⟩,
    ⟨Device.get_desc r ho d3, Device.get_prop r ho v3⟩, ⟨Device.get_desc r ho d4, Device.get_prop r ho v4⟩,
    ⟨Device.get_desc r ho d5, Device.get_prop r ho v5⟩⟩

/-- C110. The battery level told is the last one the device noticed (0 to 255 percent). -/
theorem C110_battery (r0 r : Rsp Device) (hr0 : r0.req = none) (h0 : DevOk r0.dev.props) (t : Elapsed [] r0 r) (ho : Open r) (n : Nat)
    (hn : n ≤ 255) :
    TellsProp { r with dev := { r.dev with props := r.dev.props.batteryChanged n } } 0x5001 2 (.int 1 n) := by
  have h := (C110_described r0 _ hr0 h0 (.battery (n : Int) t) ⟨ho.idle, ho.none, ho.ready, ho.session⟩).1.2
  have := (C66_battery_events r.dev.props n hn).1
  simp only [this] at h
  exact h

/-- C110. The default value in the description of the friendly name and of the synchronization partner is the value the device
started with. -/
theorem C110_default (r0 r : Rsp Device) (hr0 : r0.req = none) (h0 : DevOk r0.dev.props) (conf : List ConfItem) (fresh : Bool)
    (model : QStr) (ty : Nat) (icon : List UInt8) (hs : r0.dev.props = DevState.start conf fresh model ty icon) (t : Elapsed [] r0 r)
    (ho : Open r) :
    (∃ d, Describes r 0xD402 d ∧ d.defVal = .str (cut r0.dev.props.name)) ∧
    (∃ d, Describes r 0xD401 d ∧ d.defVal = .str (cut r0.dev.props.partner)) := by
  have k := C110_described r0 r hr0 h0 t ho
  have e1 : r0.dev.props.defName = r0.dev.props.name := by rw [hs]; rfl
  have e2 : r0.dev.props.defPartner = r0.dev.props.partner := by rw [hs]; rfl
  exact ⟨⟨_, k.2.2.1.1, by rw [← e1]⟩, ⟨_, k.2.1.1, by rw [← e2]⟩⟩

/-- C110. A property the device does not have is refused by all three operations with DevicePropNotSupported, without data; nothing
changes. -/
theorem C110_refused (r : Rsp Device) (ho : Open r) (p : Nat) (hp : p < 2 ^ 16) (hn : p ∉ [0x5001, 0xD401, 0xD402, 0xD405, 0xD407]) :
    (∀ q code, (code = 0x1014 ∨ code = 0x1015) → Asking q code → cParam q 0 = p →
      ∃ r' : Rsp Device, AnsweredBy Device.dev r r' (ask q) q .devicePropNotSupported [] ∧ dataOf r'.out = dataOf r.out ∧
        r'.dev = r.dev) ∧
    (∀ q bs pay, SettingProp q bs p pay →
      ∃ r' : Rsp Device, AnsweredBy Device.dev r r' (sendObject q bs) q .devicePropNotSupported [] ∧ r'.dev = r.dev) := by
  have hu : u16 p = p := by unfold u16; omega
  have hd := desc_none r.dev.props p hn
  constructor
  · rintro q code (rfl | rfl) hq hpp
    · refine Device.untold r ho q 0x1014 hq [] rfl rfl .devicePropNotSupported r.dev ?_
      show (r.dev, Server.oneFrame (getDevicePropDesc r.dev.props 0 (cParam q 0))) = _
      unfold getDevicePropDesc
      rw [hpp, hu, hd]
    · refine Device.untold r ho q 0x1015 hq [] rfl rfl .devicePropNotSupported r.dev ?_
      show (r.dev, Server.oneFrame (getDevicePropValue r.dev.props 0 (cParam q 0))) = _
      unfold getDevicePropValue
      rw [hpp, hu, hd]
  · intro q bs pay hs
    refine Device.set_prop_refused r ho hs _ ?_ (by decide)
    unfold setDevicePropValueReq
    rw [hu, hd]

/-- C110 is violated for the properties described as read-only (C66_read_only_violated): setting the battery level, the icon or the
device type is answered OK, and nothing changes. -/
theorem C110_read_only_violated (r : Rsp Device) (ho : Open r) (p : Nat) (hp : p ∈ [0x5001, 0xD405, 0xD407]) (q : List UInt8)
    (bs : List (List UInt8)) (pay : List UInt8) (hs : SettingProp q bs p pay) :
    (∃ d, r.dev.props.desc p = some d ∧ d.getSet = false) ∧
    ∃ r1 : Rsp Device, AnsweredBy Device.dev r r1 (sendObject q bs) q .ok [] ∧ r1.dev = r.dev := by
  obtain ⟨rx, e, _⟩ := Device.collected 0x1016 (cTid q) pay hs.short
  obtain ⟨hd, hw⟩ := C66_read_only_violated r.dev.props p hp rx
  have hreq : setDevicePropValueReq r.dev.props p = .ok := by
    simp only [List.mem_cons, List.not_mem_nil, or_false] at hp
    rcases hp with rfl | rfl | rfl <;> rfl
  refine ⟨hd, ?_⟩
  obtain ⟨r1, a1, a2⟩ := Device.set_prop r ho hs hreq
  have hset : r.dev.setDevProp p (dataContainer 0x1016 (cTid q) pay) = (r.dev, .ok, []) := by
    unfold Device.setDevProp
    rw [e, Res.bind_ok]
    rw [hreq] at hw
    rw [hw]
  rw [hset] at a1 a2
  exact ⟨r1, a1, a2⟩

/-- The text in the data of a GetDevicePropValue transaction. -/
def textTold (is : List (Rsp.In Device)) : Option Val := readValue 0x1015 0 0xFFFF (dataContainer 0x1015 0 (toldBy is).2)

/-- The friendly name is set to one letter. -/
def demoName : List (Rsp.In Device) := sendObject (Toy.cmd 0x1016 9 [0xD402]) [dataContainer 0x1016 9 (enc (.str [0x62]))]

/-- C110, the hypotheses are met: a name is set, then the partner, then the name is asked for, also in a new session. -/
theorem C110_witness : demoGRsp.req = none ∧ DevOk demoGRsp.dev.props ∧ KeptUnder 0xD402 (keptId 0xD402) demoGRsp.dev.props.conf ∧
    blank (bom (cut [0x62])) = false ∧
    SettingProp (Toy.cmd 0x1016 9 [0xD402]) [dataContainer 0x1016 9 (enc (.str [0x62]))] 0xD402 (enc (.str [0x62])) ∧
    SettingProp (Toy.cmd 0x1016 10 [0xD401]) [dataContainer 0x1016 10 (enc (.str [0x63]))] 0xD401 (enc (.str [0x63])) ∧
    (responses demoGRsp.out = [] ∧
      textTold (ask (Toy.cmd 0x1015 11 [0xD402])) = some (.str (cut demoGRsp.dev.props.name)) ∧
      textTold (demoName ++ ask (Toy.cmd 0x1015 11 [0xD402])) = some (.str [0x62]) ∧
      textTold (demoName ++ sendObject (Toy.cmd 0x1016 10 [0xD401]) [dataContainer 0x1016 10 (enc (.str [0x63]))] ++
        ask (Toy.cmd 0x1003 12 []) ++ ask (Toy.cmd 0x1002 0 [7]) ++ ask (Toy.cmd 0x1015 11 [0xD402])) = some (.str [0x62])) := by
  have hs : ∀ (tid p : Nat) (c : UInt16), (tid, p, c) ∈ [(9, 0xD402, 0x62), (10, 0xD401, 0x63)] →
      SettingProp (Toy.cmd 0x1016 tid [p]) [dataContainer 0x1016 tid (enc (.str [c]))] p (enc (.str [c])) := by
    intro tid p c h
    simp only [List.mem_cons, Prod.mk.injEq, List.not_mem_nil, or_false] at h
    rcases h with ⟨rfl, rfl, rfl⟩ | ⟨rfl, rfl, rfl⟩
    · exact ⟨⟨by decide +kernel, by decide +kernel⟩, by decide +kernel, ⟨⟨_, rfl, by decide +kernel⟩, by decide +kernel⟩, by decide +kernel⟩
    · exact ⟨⟨by decide +kernel, by decide +kernel⟩, by decide +kernel, ⟨⟨_, rfl, by decide +kernel⟩, by decide +kernel⟩, by decide +kernel⟩
  exact ⟨rfl, ⟨by decide +kernel, by decide +kernel, by decide +kernel⟩, C67_witness.1, by decide +kernel, hs 9 0xD402 0x62 (by simp), hs 10 0xD401 0x63 (by simp),
    rfl, by decide +kernel, by decide +kernel, by decide +kernel⟩

end Props
