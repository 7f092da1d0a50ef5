import Verif.Spec.Datasets
import Verif.Lemmas.PropDesc
import Verif.Props.PropSet
import Verif.Props.Codec
import Verif.Props.Handles
import Verif.Props.Refs
/-! C68–C70: the datasets about the device, its storages and objects, as a host reads them. -/
namespace Props
open Mtp Spec

theorem takeAll_at (vs : List Val) (hv : ∀ v ∈ vs, Fits v) (post : List UInt8) :
    takeAll (vs.map Val.ty) (encs vs ++ post) = some (vs.map shown, post) := by
  induction vs with
  | nil => rfl
  | cons v vs ih =>
    have h1 := takeVal_at v (encs vs ++ post) (hv v List.mem_cons_self)
    simp only [List.map_cons, takeAll]
    rw [show encs (v :: vs) ++ post = enc v ++ (encs vs ++ post) by simp [encs], h1]
    simp [ih (fun u hu => hv u (List.mem_cons_of_mem _ hu))]

theorem dataset_read' (op tid est : Nat) (vs ws : List Val) (hv : ∀ v ∈ vs, Fits v) (hw : ∀ v ∈ ws, Fits v)
    (heq : encs vs = encs ws) (hl : (encs vs).length ≤ 2 ^ 30) (he : est ≤ 2 ^ 31) :
    ∃ bytes, transmit 2 op tid est vs = .ok bytes ∧ readDataset op tid (ws.map Val.ty) bytes = some (ws.map shown) := by
  have hsm : Small vs := by unfold Small; omega
  obtain ⟨bytes, e, hb⟩ := C06_container_is_header_and_payload 2 op tid est vs hv hsm he
  refine ⟨bytes, e, ?_⟩
  have hlen : bytes.length = 12 + (encs vs).length := by
    rw [hb, List.length_append, header_length]
  rw [hlen] at hb
  rw [hb]
  unfold readDataset
  rw [payload_of]
  have := takeAll_at ws hw []
  rw [List.append_nil, ← heq] at this
  simp [this]

theorem dataset_read (op tid est : Nat) (vs : List Val) (hv : ∀ v ∈ vs, Fits v) (hl : (encs vs).length ≤ 2 ^ 30)
    (he : est ≤ 2 ^ 31) :
    ∃ bytes, transmit 2 op tid est vs = .ok bytes ∧ readDataset op tid (vs.map Val.ty) bytes = some (vs.map shown) :=
  dataset_read' op tid est vs vs hv hv rfl hl he

theorem encs_length_cons' (v : Val) (vs : List Val) : (encs (v :: vs)).length = (enc v).length + (encs vs).length := by
  simp [encs]

theorem enc_arr_length' (w : Nat) (l : List Nat) : (enc (.arr w l)).length = 4 + w * l.length := by
  simp only [enc, List.length_append, intBytes_length, List.length_flatMap]
  congr 1
  induction l with
  | nil => simp
  | cons x xs ih => simp only [List.map_cons, List.sum_cons, ih, List.length_cons, Nat.mul_succ]; omega

theorem enc_str_511 (s : QStr) : (enc (.str s)).length ≤ 511 :=
  convert_short (dt := 0xFFFF) (ty := .str) (by decide) (.str s) trivial

theorem enc_int_length' (w v : Nat) : (enc (.int w v)).length = w := by
  simp only [enc, intBytes_length]

/-- An array of 32-bit numbers as the only datum. -/
theorem handles_read (op tid est : Nat) (l : List Nat) (hl : l.length ≤ 2 ^ 27) (hv : ∀ x ∈ l, x < 2 ^ 32) (he : est ≤ 2 ^ 31) :
    ∃ bytes, transmit 2 op tid est [.arr 4 l] = .ok bytes ∧ readHandles op tid bytes = some l := by
  have hf : ∀ v ∈ [Val.arr 4 l], Fits v := by
    intro v hm
    rw [List.mem_singleton] at hm
    subst hm
    exact ⟨by decide, by omega, hv⟩
  obtain ⟨bytes, e, h⟩ := dataset_read op tid est [.arr 4 l] hf (by
    rw [encs_length_cons', enc_arr_length', show encs [] = [] from rfl, List.length_nil]; omega) he
  refine ⟨bytes, e, ?_⟩
  unfold readHandles
  rw [show ([Ty.arr 4] : List Ty) = [Val.arr 4 l].map Val.ty from rfl, h]
  rfl

/-- A list of at most `b` 16-bit codes. -/
def CodesFit (b : Nat) (l : List Nat) : Prop := l.length ≤ b ∧ ∀ x ∈ l, x < 2 ^ 16

/-- The members of the device information fit their C++ types, and the lists and strings are of sensible length. -/
structure InfoFits (s : InfoState) : Prop where
  std : s.stdVersion < 2 ^ 16
  vendor : s.vendorExt < 2 ^ 32
  mtp : s.mtpVersion < 2 ^ 16
  mode : s.mode < 2 ^ 16
  ops : CodesFit (2 ^ 20) s.ops
  events : CodesFit (2 ^ 20) s.events
  devProps : CodesFit (2 ^ 20) s.devProps
  common : CodesFit (2 ^ 20) s.common
  image : CodesFit (2 ^ 20) s.image
  audio : CodesFit (2 ^ 20) s.audio
  video : CodesFit (2 ^ 20) s.video
  strs : ∀ t ∈ [s.extension, s.manufacturer, s.model, s.version, s.serial], t.length ≤ 2 ^ 20

/-- C68. Whatever the device information, a host reading the answer to GetDeviceInfo finds exactly the versions, the operations,
events, device properties and formats of the device, no capture formats, and the texts (cut at the first NUL and to 254 units). -/
theorem C68_device_info (s : InfoState) (hf : InfoFits s) (tid : Nat) :
    ∃ bytes, getDeviceInfo s tid = .ok bytes ∧
      readDeviceInfo tid bytes = some
        { standardVersion := s.stdVersion, vendorExtensionId := s.vendorExt, vendorExtensionVersion := s.mtpVersion,
          vendorExtensions := cut s.extension, functionalMode := s.mode, operations := s.ops, events := s.events,
          deviceProperties := s.devProps, captureFormats := [], playbackFormats := s.image ++ s.audio ++ s.video ++ s.common,
          manufacturer := cut s.manufacturer, model := cut s.model, deviceVersion := cut s.version,
          serialNumber := cut s.serial } := by
  have hfl : s.formats.length ≤ 2 ^ 22 := by
    have := hf.common.1; have := hf.image.1; have := hf.audio.1; have := hf.video.1
    simp only [InfoState.formats, List.length_append]; omega
  have hfm : ∀ x ∈ s.formats, x < 2 ^ 16 := by
    intro x hx
    simp only [InfoState.formats, List.mem_append] at hx
    rcases hx with ((h | h) | h) | h
    · exact hf.image.2 x h
    · exact hf.audio.2 x h
    · exact hf.video.2 x h
    · exact hf.common.2 x h
  have he : s.estimate ≤ 2 ^ 31 := by
    have h1 := hf.ops.1; have h2 := hf.events.1; have h3 := hf.devProps.1
    have t1 := hf.strs s.extension (by simp)
    have t2 := hf.strs s.manufacturer (by simp)
    have t3 := hf.strs s.model (by simp)
    have t4 := hf.strs s.version (by simp)
    have t5 := hf.strs s.serial (by simp)
    unfold InfoState.estimate u32
    refine Nat.le_trans (Nat.mod_le _ _) ?_
    omega
  let vs : List Val := [.int 2 s.stdVersion, .int 4 s.vendorExt, .int 2 s.mtpVersion, .str s.extension, .int 2 s.mode,
    .arr 2 s.ops, .arr 2 s.events, .arr 2 s.devProps, .arr 2 [], .arr 2 s.formats, .str s.manufacturer, .str s.model,
    .str s.version, .str s.serial]
  have hv : ∀ v ∈ vs, Fits v := by
    intro v hm
    have a1 := hf.ops.1; have a2 := hf.events.1; have a3 := hf.devProps.1
    simp only [vs, List.mem_cons, List.not_mem_nil, or_false] at hm
    rcases hm with h | h | h | h | h | h | h | h | h | h | h | h | h | h <;> subst h
    · exact ⟨by decide, hf.std⟩
    · exact ⟨by decide, hf.vendor⟩
    · exact ⟨by decide, hf.mtp⟩
    · trivial
    · exact ⟨by decide, hf.mode⟩
    · exact ⟨by decide, by omega, hf.ops.2⟩
    · exact ⟨by decide, by omega, hf.events.2⟩
    · exact ⟨by decide, by omega, hf.devProps.2⟩
    · exact ⟨by decide, by decide, by simp⟩
    · exact ⟨by decide, by omega, hfm⟩
    all_goals trivial
  have hl : (encs vs).length ≤ 2 ^ 30 := by
    have a1 := hf.ops.1; have a2 := hf.events.1; have a3 := hf.devProps.1
    have t1 := enc_str_511 s.extension
    have t2 := enc_str_511 s.manufacturer
    have t3 := enc_str_511 s.model
    have t4 := enc_str_511 s.version
    have t5 := enc_str_511 s.serial
    simp only [vs, encs_length_cons', enc_arr_length', enc_int_length', show encs [] = [] from rfl, List.length_nil]
    omega
  let us : List Val := [.int 2 s.stdVersion, .int 4 s.vendorExt, .int 2 s.mtpVersion, .str s.extension, .int 2 s.mode,
    .arr 2 s.ops, .arr 2 s.events, .arr 2 s.devProps, .int 4 0, .arr 2 s.formats, .str s.manufacturer, .str s.model,
    .str s.version, .str s.serial]
  have hu : ∀ v ∈ us, Fits v := by
    intro v hm
    by_cases h0 : v = .int 4 0
    · subst h0; exact ⟨by decide, by decide⟩
    · refine hv v ?_
      simp only [us, List.mem_cons, List.not_mem_nil, or_false] at hm
      simp only [vs, List.mem_cons, List.not_mem_nil, or_false]
      rcases hm with h | h | h | h | h | h | h | h | h | h | h | h | h | h <;> simp_all
  have heq : encs us = encs vs := by
    simp only [us, vs, encs, List.flatMap_cons]
    rfl
  obtain ⟨bytes, e, h⟩ := dataset_read' 0x1001 tid s.estimate us vs hu hv heq (by rw [heq]; exact hl) he
  refine ⟨bytes, e, ?_⟩
  · unfold readDeviceInfo
    rw [show ([.int 2, .int 4, .int 2, .str, .int 2, .arr 2, .arr 2, .arr 2, .arr 2, .arr 2, .str, .str, .str, .str] : List Ty) =
      vs.map Val.ty from rfl, h]
    rfl

theorem mem_augment (x : Nat) (t : List Nat) : ∀ l, x ∈ augment l t ↔ x ∈ l ∨ x ∈ t := by
  induction t with
  | nil => intro l; simp [augment]
  | cons y ys ih =>
    intro l
    rw [augment, ih]
    split
    · next h =>
      constructor
      · rintro (h1 | h1)
        · exact .inl h1
        · exact .inr (List.mem_cons_of_mem _ h1)
      · rintro (h1 | h1)
        · exact .inl h1
        · rcases List.mem_cons.mp h1 with rfl | h1
          · exact .inl h
          · exact .inr h1
    · simp only [List.mem_append, List.mem_cons, List.not_mem_nil, false_or, or_assoc]

theorem nodup_augment (t : List Nat) : ∀ l : List Nat, l.Nodup → (augment l t).Nodup := by
  induction t with
  | nil => exact fun l h => h
  | cons y ys ih =>
    intro l h
    rw [augment]
    refine ih _ ?_
    split
    · exact h
    · next hn => exact List.nodup_append.mpr ⟨h, by simp, by
        intro a ha b hb
        rw [List.mem_singleton] at hb
        subst hb
        rintro rfl
        exact hn ha⟩

theorem length_augment (t : List Nat) : ∀ l : List Nat, (augment l t).length ≤ l.length + t.length := by
  induction t with
  | nil => intro l; simp [augment]
  | cons y ys ih =>
    intro l
    rw [augment]
    refine Nat.le_trans (ih _) ?_
    split <;> simp only [List.length_append, List.length_cons, List.length_nil] <;> omega

/-- The operation codes a configuration names (0 for a text that is no number). -/
def confOps (ls : List ConfLeaf) : List Nat := ls.filterMap fun | .op n => some (n.getD 0) | _ => none

theorem leaves_ops (ls : List ConfLeaf) : ∀ s : InfoState, ∃ k, (s.leaves ls).1.ops = s.ops ++ (confOps ls).take k := by
  induction ls with
  | nil => exact fun s => ⟨0, by simp [InfoState.leaves]⟩
  | cons l ls ih =>
    intro s
    have h1 : (s.leaf l).1.ops = s.ops ++ confOps [l] := by cases l <;> simp [InfoState.leaf, confOps]
    have h2 : confOps (l :: ls) = confOps [l] ++ confOps ls := by
      unfold confOps
      rw [← List.filterMap_append]
      rfl
    rw [InfoState.leaves]
    split
    · obtain ⟨k, hk⟩ := ih (s.leaf l).1
      refine ⟨(confOps [l]).length + k, ?_⟩
      rw [hk, h1, h2, List.take_length_add_append, List.append_assoc]
    · refine ⟨(confOps [l]).length, ?_⟩
      rw [h2, List.take_left]
      exact h1

theorem loadInfo_ops (ls : List ConfLeaf) (wf : Bool) :
    (loadInfo ls wf).ops = augment (initialInfo.leaves ls).1.ops advertised := by
  unfold loadInfo
  dsimp only
  split <;> rfl

/-- C68. Whatever the configuration file contains, readable or not: every built-in operation is advertised; nothing is
advertised that is neither built in nor named in the configuration; and no operation is advertised twice unless the
configuration names it twice. -/
theorem C68_operations (ls : List ConfLeaf) (wf : Bool) :
    (∀ x ∈ advertised, x ∈ (loadInfo ls wf).ops) ∧
    (∀ x ∈ (loadInfo ls wf).ops, x ∈ advertised ∨ x ∈ confOps ls) ∧
    ((confOps ls).Nodup → (loadInfo ls wf).ops.Nodup) := by
  obtain ⟨k, hk⟩ := leaves_ops ls initialInfo
  have hk : (initialInfo.leaves ls).1.ops = (confOps ls).take k := hk
  rw [loadInfo_ops]
  refine ⟨fun x hx => (mem_augment x _ _).mpr (.inr hx), fun x hx => ?_, fun hn => nodup_augment _ _ ?_⟩
  · rcases (mem_augment x _ _).mp hx with h | h
    · rw [hk] at h; exact .inr (List.mem_of_mem_take h)
    · exact .inl h
  · rw [hk]; exact hn.sublist (List.take_sublist _ _)

/-- The built-in object formats. -/
def builtinFormats : List Nat := imageTable ++ audioTable ++ videoTable ++ commonTable

/-- C68. Every built-in object format is advertised whatever the configuration; and if the configuration cannot be read, so are
the built-in events and device properties. -/
theorem C68_builtin (ls : List ConfLeaf) (wf : Bool) :
    (∀ x ∈ builtinFormats, x ∈ (loadInfo ls wf).formats) ∧
    ((initialInfo.leaves ls).2 = false ∨ wf = false →
      (∀ x ∈ eventTable, x ∈ (loadInfo ls wf).events) ∧ ∀ x ∈ devPropTable, x ∈ (loadInfo ls wf).devProps) := by
  refine ⟨fun x hx => ?_, fun h => ?_⟩
  · simp only [builtinFormats, List.mem_append] at hx
    simp only [InfoState.formats, loadInfo, List.mem_append, mem_augment]
    rcases hx with ((h | h) | h) | h
    · exact .inl (.inl (.inl (.inr h)))
    · exact .inl (.inl (.inr (.inr h)))
    · exact .inl (.inr (.inr h))
    · exact .inr (.inr h)
  · have hc : ((initialInfo.leaves ls).2 && wf) = false := by rcases h with h | h <;> simp [h]
    simp only [loadInfo, hc]
    exact ⟨fun x hx => List.mem_append.mpr (.inr hx), fun x hx => List.mem_append.mpr (.inr hx)⟩

/-- A configuration whose numbers fit their fields and whose texts are not huge. -/
def LeafFits : ConfLeaf → Prop
  | .vendorExt n => n.getD 0 < 2 ^ 32
  | .stdVersion n | .mtpVersion n | .mode n | .op n | .event n | .devProp n | .common n | .image n | .audio n | .video n =>
    n.getD 0 < 2 ^ 16
  | .extension s | .manufacturer s | .model s | .version s | .serial s => s.length ≤ 2 ^ 20
  | .other => True

/-- `InfoFits` with a bound on the lists. -/
private structure Fit (s : InfoState) (b : Nat) : Prop where
  std : s.stdVersion < 2 ^ 16
  vendor : s.vendorExt < 2 ^ 32
  mtp : s.mtpVersion < 2 ^ 16
  mode : s.mode < 2 ^ 16
  ops : CodesFit b s.ops
  events : CodesFit b s.events
  devProps : CodesFit b s.devProps
  common : CodesFit b s.common
  image : CodesFit b s.image
  audio : CodesFit b s.audio
  video : CodesFit b s.video
  strs : ∀ t ∈ [s.extension, s.manufacturer, s.model, s.version, s.serial], t.length ≤ 2 ^ 20

private theorem grow {l : List Nat} {b : Nat} (h : CodesFit b l) : CodesFit (b + 1) l := ⟨Nat.le_succ_of_le h.1, h.2⟩

private theorem snoc {l : List Nat} {b n : Nat} (h : CodesFit b l) (hn : n < 2 ^ 16) : CodesFit (b + 1) (l ++ [n]) := by
  refine ⟨by have := h.1; simp only [List.length_append, List.length_singleton]; omega, fun x hx => ?_⟩
  rcases List.mem_append.mp hx with h1 | h1
  · exact h.2 x h1
  · rw [List.mem_singleton.mp h1]; exact hn

private theorem CodesFit.mono {l : List Nat} {b c : Nat} (h : CodesFit b l) (hb : b ≤ c) : CodesFit c l :=
  ⟨Nat.le_trans h.1 hb, h.2⟩

private theorem leaf_fit {s : InfoState} {b : Nat} (h : Fit s b) (l : ConfLeaf) (hl : LeafFits l) : Fit (s.leaf l).1 (b + 1) := by
  obtain ⟨h1, h2, h3, h4, h5, h6, h7, h8, h9, h10, h11, h12⟩ := h
  cases l <;>
    refine ⟨?_, ?_, ?_, ?_, ?_, ?_, ?_, ?_, ?_, ?_, ?_, ?_⟩ <;>
    first
      | assumption
      | exact hl
      | (refine snoc ?_ hl; assumption)
      | (refine grow ?_; assumption)
      | (simp only [List.mem_cons, List.not_mem_nil, or_false, forall_eq_or_imp, forall_eq, InfoState.leaf] at h12 ⊢
         obtain ⟨a1, a2, a3, a4, a5⟩ := h12
         refine ⟨?_, ?_, ?_, ?_, ?_⟩ <;> first | assumption | exact hl)

private theorem Fit.mono {s : InfoState} {b c : Nat} (h : Fit s b) (hb : b ≤ c) : Fit s c := by
  obtain ⟨h1, h2, h3, h4, h5, h6, h7, h8, h9, h10, h11, h12⟩ := h
  exact ⟨h1, h2, h3, h4, h5.mono hb, h6.mono hb, h7.mono hb, h8.mono hb, h9.mono hb,
    h10.mono hb, h11.mono hb, h12⟩

private theorem leaves_fit (ls : List ConfLeaf) : ∀ (s : InfoState) (b : Nat), Fit s b → (∀ l ∈ ls, LeafFits l) →
    Fit (s.leaves ls).1 (b + ls.length) := by
  induction ls with
  | nil => exact fun s b h _ => h
  | cons l ls ih =>
    intro s b h hl
    have h1 := leaf_fit h l (hl l List.mem_cons_self)
    rw [InfoState.leaves]
    split
    · have := ih _ _ h1 (fun x hx => hl x (List.mem_cons_of_mem _ hx))
      refine this.mono ?_
      rw [List.length_cons]; omega
    · refine h1.mono ?_
      rw [List.length_cons]; omega

private theorem table {l t : List Nat} {b : Nat} (h : CodesFit b l) (ht : CodesFit 60 t) : CodesFit (b + 60) (augment l t) := by
  refine ⟨Nat.le_trans (length_augment _ _) (by have := h.1; have := ht.1; omega), fun x hx => ?_⟩
  rcases (mem_augment x _ _).mp hx with h1 | h1
  · exact h.2 x h1
  · exact ht.2 x h1

private theorem app {l t : List Nat} {b : Nat} (h : CodesFit b l) (ht : CodesFit 60 t) : CodesFit (b + 60) (l ++ t) := by
  refine ⟨by have := h.1; have := ht.1; rw [List.length_append]; omega, fun x hx => ?_⟩
  rcases List.mem_append.mp hx with h1 | h1
  · exact h.2 x h1
  · exact ht.2 x h1

private theorem initial_fit : Fit initialInfo 0 := by
  refine ⟨by decide, by decide, by decide, by decide, ?_, ?_, ?_, ?_, ?_, ?_, ?_, by decide⟩ <;> exact ⟨by decide, by decide⟩

private theorem tables : ∀ t ∈ [advertised, commonTable, audioTable, imageTable, videoTable, eventTable, devPropTable],
    CodesFit 60 t := by unfold CodesFit; decide +kernel

attribute [local irreducible] augment in
private theorem augmented_fits (s : InfoState) (b : Nat) (hb : b = 524348) (hs : Fit s b) : InfoFits { s with
      ops := augment s.ops advertised, common := augment s.common commonTable, audio := augment s.audio audioTable,
      image := augment s.image imageTable, video := augment s.video videoTable } := by
  have key : ∀ {l : List Nat}, CodesFit (b + 60) l → CodesFit (2 ^ 20) l := fun h => h.mono (by omega)
  have k2 : ∀ {l : List Nat}, CodesFit b l → CodesFit (2 ^ 20) l := fun h => h.mono (by omega)
  have a1 := key (table hs.ops (tables advertised (by simp)))
  have a2 := key (table hs.common (tables commonTable (by simp)))
  have a3 := key (table hs.image (tables imageTable (by simp)))
  have a4 := key (table hs.audio (tables audioTable (by simp)))
  have a5 := key (table hs.video (tables videoTable (by simp)))
  have a6 := k2 hs.events
  have a7 := k2 hs.devProps
  constructor
  · exact hs.std
  · exact hs.vendor
  · exact hs.mtp
  · exact hs.mode
  · exact a1
  · exact a6
  · exact a7
  · exact a2
  · exact a3
  · exact a4
  · exact a5
  · exact hs.strs

attribute [local irreducible] augment in
theorem loadInfo_fits (ls : List ConfLeaf) (wf : Bool) (hl : ∀ l ∈ ls, LeafFits l) (hn : ls.length ≤ 2 ^ 19) :
    InfoFits (loadInfo ls wf) := by
  have h := leaves_fit ls initialInfo 0 initial_fit hl
  obtain ⟨b, hb⟩ : ∃ b, b = 524288 := ⟨_, rfl⟩
  have h : Fit (initialInfo.leaves ls).1 b := h.mono (by omega)
  have key := fun s hs => augmented_fits s (b + 60) (by omega) hs
  unfold loadInfo
  dsimp only
  split
  · exact key (initialInfo.leaves ls).1 (h.mono (by omega))
  · refine key { (initialInfo.leaves ls).1 with
      events := (initialInfo.leaves ls).1.events ++ eventTable, devProps := (initialInfo.leaves ls).1.devProps ++ devPropTable } ?_
    have h' := h.mono (c := b + 60) (by omega)
    exact ⟨h'.std, h'.vendor, h'.mtp, h'.mode, h'.ops, app h.events (tables _ (by simp)), app h.devProps (tables _ (by simp)), h'.common, h'.image,
      h'.audio, h'.video, h'.strs⟩

/-- C68. From configuration file to host: however the device is configured (numbers that fit, at most 2^19 elements, texts of at
most 2^20 units), a host asking GetDeviceInfo is told every built-in operation and every built-in format, the built-in vendor
extensions and no operation that is neither built in nor configured. -/
theorem C68_host_is_told (ls : List ConfLeaf) (wf : Bool) (hl : ∀ l ∈ ls, LeafFits l) (hn : ls.length ≤ 2 ^ 19) (tid : Nat) :
    ∃ bytes info, getDeviceInfo (loadInfo ls wf) tid = .ok bytes ∧ readDeviceInfo tid bytes = some info ∧
      (∀ x ∈ advertised, x ∈ info.operations) ∧ (∀ x ∈ builtinFormats, x ∈ info.playbackFormats) ∧
      (∀ x ∈ info.operations, x ∈ advertised ∨ x ∈ confOps ls) ∧
      info.vendorExtensions = ascii "microsoft.com: 1.0; microsoft.com/WMPPD: 11.0; android.com: 1.0;" := by
  obtain ⟨bytes, e, h⟩ := C68_device_info _ (loadInfo_fits ls wf hl hn) tid
  have ho := C68_operations ls wf
  have hfm := (C68_builtin ls wf).1
  refine ⟨bytes, _, e, h, ?_⟩
  have hx : ∀ (ls : List ConfLeaf) (s : InfoState), (s.leaves ls).1.extension = s.extension := by
    intro ls
    induction ls with
    | nil => exact fun s => rfl
    | cons l ls ih =>
      intro s
      have h1 : (s.leaf l).1.extension = s.extension := by cases l <;> rfl
      rw [InfoState.leaves]
      split
      · rw [ih, h1]
      · exact h1
  have : (loadInfo ls wf).extension = initialInfo.extension := by
    have hy := hx ls initialInfo
    unfold loadInfo
    dsimp only
    split
    · exact hy
    · exact hy
  generalize loadInfo ls wf = s at *
  refine ⟨ho.1, hfm, ho.2.1, ?_⟩
  show cut s.extension = _
  rw [this]
  decide +kernel

/-- mts/deviceinfo.xml:31-165: the elements of the shipped configuration that GetDeviceInfo reports. -/
def shippedConf : List ConfLeaf :=
  [.stdVersion (some 100), .vendorExt (some 6), .mtpVersion (some 100),
   .extension (ascii "microsoft.com: 1.0; microsoft.com/WMPPD: 11.0; android.com: 1.0;"), .mode (some 0x8000),
   .manufacturer (ascii "Nemo"), .model (ascii "Unconfigured Device"), .version (ascii "Buteo MTP 1.0"),
   .serial (ascii "00000000000000000000000000000001")] ++
  [0x1001, 0x1002, 0x1003, 0x1004, 0x1005, 0x1006, 0x1007, 0x1008, 0x1009, 0x100A, 0x100B, 0x100C, 0x100D, 0x1014, 0x1015, 0x1016,
   0x1019, 0x101A, 0x101B, 0x9801, 0x9802, 0x9803, 0x9804, 0x9805, 0x9806, 0x9808, 0x9810, 0x9811, 0x95C1, 0x95C2, 0x95C3, 0x95C4,
   0x95C5].map (fun n => .op (some n)) ++
  [0x4002, 0x4003, 0x4007, 0xC801, 0x4004, 0x4005, 0x400A, 0x4009, 0x400C, 0x4008, 0x4006].map (fun n => .event (some n)) ++
  [0x5001, 0xD402, 0xD401, 0x501F, 0xD407, 0xD405].map (fun n => .devProp (some n)) ++
  [0x3000, 0x3001, 0x3004, 0x3005, 0xBA03, 0xBA05, 0xBB82, 0xBB83, 0xBE02].map (fun n => .common (some n)) ++
  [0x3800, 0x3801, 0x3807, 0x380B, 0x380D, 0x3804].map (fun n => .image (some n)) ++
  [0x3008, 0x3009, 0xB901, 0xB902, 0xB903].map (fun n => .audio (some n)) ++
  [0x300A, 0x300B, 0xB984, 0xB982, 0xB981].map (fun n => .video (some n))

/-- Witness: the shipped configuration meets the hypotheses of `C68_host_is_told`. -/
theorem C68_witness : (∀ l ∈ shippedConf, LeafFits l) ∧ shippedConf.length ≤ 2 ^ 19 ∧ (confOps shippedConf).Nodup ∧
    (initialInfo.leaves shippedConf).2 = true := by
  refine ⟨?_, by decide +kernel, by decide +kernel, by decide +kernel⟩
  have : ∀ l, Decidable (LeafFits l) := fun l => by cases l <;> unfold LeafFits <;> infer_instance
  simp only [shippedConf, List.map_cons, List.map_nil, List.cons_append, List.nil_append, List.forall_mem_cons]
  refine ⟨?_, ?_⟩
  all_goals repeat' (with_reducible apply And.intro)
  all_goals first | decide | (show _ ≤ _; decide +kernel) | simp [LeafFits]

/-- C53. With the shipped configuration every advertised operation is dispatched to a handler, and the only operation with a
handler that is neither advertised nor refused is Skip, 0x9820. -/
theorem C53_shipped :
    (∀ x ∈ (loadInfo shippedConf true).ops, ∃ k, opKind x = some k ∧ k ≠ .refused) ∧
    (∀ x ∉ (loadInfo shippedConf true).ops, x ≠ 0x9820 → ∀ k, opKind x = some k → k = .refused) := by
  have h : (loadInfo shippedConf true).ops =
      [0x1001, 0x1002, 0x1003, 0x1004, 0x1005, 0x1006, 0x1007, 0x1008, 0x1009, 0x100A, 0x100B, 0x100C, 0x100D, 0x1014, 0x1015,
       0x1016, 0x1019, 0x101A, 0x101B, 0x9801, 0x9802, 0x9803, 0x9804, 0x9805, 0x9806, 0x9808, 0x9810, 0x9811, 0x95C1, 0x95C2,
       0x95C3, 0x95C4, 0x95C5] := by decide +kernel
  rw [h]
  refine ⟨?_, ?_⟩
  · have hk : ∀ x ∈ [0x1001, 0x1002, 0x1003, 0x1004, 0x1005, 0x1006, 0x1007, 0x1008, 0x1009, 0x100A, 0x100B, 0x100C, 0x100D,
        0x1014, 0x1015, 0x1016, 0x1019, 0x101A, 0x101B, 0x9801, 0x9802, 0x9803, 0x9804, 0x9805, 0x9806, 0x9808, 0x9810, 0x9811,
        0x95C1, 0x95C2, 0x95C3, 0x95C4, 0x95C5], (opKind x).isSome = true ∧ opKind x ≠ some .refused := by decide +kernel
    intro x hx
    obtain ⟨k, e⟩ := Option.isSome_iff_exists.mp (hk x hx).1
    exact ⟨k, e, fun he => (hk x hx).2 (by rw [e, he])⟩
  · intro x hx h9 k hk
    unfold opKind at hk
    cases hf : opTable.find? (·.1 = x) with
    | none => rw [hf] at hk; cases hk
    | some e =>
      rw [hf] at hk
      have hk := Option.some.inj hk
      have hm := List.mem_of_find?_eq_some hf
      have hp := List.find?_some hf
      have hp : e.1 = x := by simpa using hp
      have : ∀ e ∈ opTable, e.1 ∉ [0x1001, 0x1002, 0x1003, 0x1004, 0x1005, 0x1006, 0x1007, 0x1008, 0x1009, 0x100A, 0x100B, 0x100C,
          0x100D, 0x1014, 0x1015, 0x1016, 0x1019, 0x101A, 0x101B, 0x9801, 0x9802, 0x9803, 0x9804, 0x9805, 0x9806, 0x9808, 0x9810,
          0x9811, 0x95C1, 0x95C2, 0x95C3, 0x95C4, 0x95C5] → e.1 ≠ 0x9820 → e.2 = .refused := by decide +kernel
      rw [← hk]
      exact this e hm (by rw [hp]; exact hx) (by rw [hp]; exact h9)

/-- C68 is violated by an operation code in the configuration that is no number: the device advertises an operation 0 that
neither the configuration names nor the device knows. -/
theorem C68_bad_number_violated : 0 ∈ (loadInfo [.op none] true).ops ∧ opKind 0 = none := by decide +kernel

/-- C53 is violated by a configuration that names an operation the device refuses: it is advertised all the same. -/
theorem C53_configured_violated :
    0x9807 ∈ (loadInfo [.op (some 0x9807)] true).ops ∧ opKind 0x9807 = some .refused := by decide +kernel

/-- C69. The host is told exactly the ids of the storages. -/
theorem C69_storage_ids (ss : List (Nat × StoreDesc)) (tid : Nat) (hn : ss.length ≤ 2 ^ 20) (hs : ∀ s ∈ ss, s.1 < 2 ^ 32) :
    ∃ bytes, getStorageIDs ss tid = .ok bytes ∧ readHandles 0x1004 tid bytes = some (ss.map (·.1)) := by
  unfold getStorageIDs
  refine handles_read 0x1004 tid _ _ (by rw [List.length_map]; omega) ?_ ?_
  · intro x hx
    obtain ⟨s, hm, rfl⟩ := List.mem_map.mp hx
    exact hs s hm
  · unfold u32
    exact Nat.le_trans (Nat.mod_le _ _) (by omega)

/-- A storage description whose numbers fit their types. -/
def StoreFits (d : StoreDesc) : Prop :=
  d.type < 2 ^ 16 ∧ d.fsType < 2 ^ 16 ∧ d.access < 2 ^ 16 ∧ d.freeObjects < 2 ^ 32 ∧ d.description.length ≤ 2 ^ 20 ∧
    d.label.length ≤ 2 ^ 20

/-- C69 (partial: a file system whose block size is not its fragment size is excluded, and sizes below 2^64). The host asking
for a storage is told its type, that it is a hierarchical, read-write file system, how many bytes it has and how many are available
right now, and its description and label; asking for any other id is answered InvalidStorageID; and if the file system cannot be
examined the answer is GeneralError. -/
theorem C69_storage_info_partial (ss : List (Nat × StoreDesc)) (stat : Nat → Option StatVfs) (tid id : Nat) :
    (AMap.get ss id = none → getStorageInfo ss stat tid id = .ok (none, .invalidStorageID)) ∧
    ∀ d, AMap.get ss id = some d → StoreFits d →
      (stat id = none → getStorageInfo ss stat tid id = .ok (none, .generalError)) ∧
      ∀ v, stat id = some v → v.frsize = v.bsize → capacityOf v < 2 ^ 64 → availableOf v < 2 ^ 64 →
        ∃ bytes, getStorageInfo ss stat tid id = .ok (some bytes, .ok) ∧
          readStorageInfo tid bytes = some
            { storageType := d.type, filesystemType := d.fsType, accessCapability := d.access, maxCapacity := capacityOf v,
              freeSpaceBytes := availableOf v, freeSpaceObjects := d.freeObjects, description := cut d.description,
              volumeIdentifier := cut d.label } := by
  refine ⟨fun h => by simp only [getStorageInfo, h], fun d hd hf => ⟨fun h => by simp only [getStorageInfo, hd, h, StoreDesc.info],
    fun v hv hb hc ha => ?_⟩⟩
  obtain ⟨f1, f2, f3, f4, f5, f6⟩ := hf
  have hc' : u64 (v.blocks * v.bsize) = capacityOf v := by
    unfold u64 capacityOf; unfold capacityOf at hc; rw [hb] at hc ⊢; exact Nat.mod_eq_of_lt hc
  have ha' : u64 (v.bavail * v.bsize) = availableOf v := by
    unfold u64 availableOf; unfold availableOf at ha; rw [hb] at ha ⊢; exact Nat.mod_eq_of_lt ha
  let vs : List Val := [.int 2 d.type, .int 2 d.fsType, .int 2 d.access, .int 8 (capacityOf v), .int 8 (availableOf v),
    .int 4 d.freeObjects, .str d.description, .str d.label]
  have hfit : ∀ x ∈ vs, Fits x := by
    intro x hx
    simp only [vs, List.mem_cons, List.not_mem_nil, or_false] at hx
    rcases hx with h | h | h | h | h | h | h | h <;> subst h
    · exact ⟨by decide, f1⟩
    · exact ⟨by decide, f2⟩
    · exact ⟨by decide, f3⟩
    · exact ⟨by decide, hc⟩
    · exact ⟨by decide, ha⟩
    · exact ⟨by decide, f4⟩
    · trivial
    · trivial
  have hl : (encs vs).length ≤ 2 ^ 30 := by
    have t1 := enc_str_511 d.description
    have t2 := enc_str_511 d.label
    simp only [vs, encs_length_cons', enc_int_length', show encs [] = [] from rfl, List.length_nil]
    omega
  obtain ⟨bytes, e, h⟩ := dataset_read 0x1005 tid (u32 (28 + (d.description.length + 1) * 2 + (d.label.length + 1) * 2)) vs hfit hl
    (by unfold u32; exact Nat.le_trans (Nat.mod_le _ _) (by omega))
  refine ⟨bytes, ?_, ?_⟩
  · simp only [getStorageInfo, hd, hv, StoreDesc.info, hc', ha']
    rw [show transmit 2 0x1005 tid _ _ = _ from e]
    rfl
  · unfold readStorageInfo
    rw [show ([.int 2, .int 2, .int 2, .int 8, .int 8, .int 4, .str, .str] : List Ty) = vs.map Val.ty from rfl, h]
    rfl

/-- Two storages for the witnesses. -/
def demoStores : List (Nat × StoreDesc) :=
  [(65537, { type := 3, description := ascii "Phone", label := ascii "Phone" }),
   (65538, { type := 4, description := ascii "Card", label := ascii "Card" })]

theorem C69_witness : demoStores.length ≤ 2 ^ 20 ∧ (∀ s ∈ demoStores, s.1 < 2 ^ 32 ∧ StoreFits s.2) ∧
    capacityOf ⟨4096, 4096, 1000000, 500000⟩ < 2 ^ 64 := by
  unfold StoreFits
  decide +kernel

/-- C69 is violated where the fragment size differs from the block size (a file system of 1000 fragments of 1024 bytes whose
preferred block size is 4096): the device tells the host four times the capacity and the free space there is. -/
theorem C69_fragment_size_violated :
    (match getStorageInfo demoStores (fun _ => some ⟨4096, 1024, 1000, 500⟩) 7 65537 with
      | .ok (some b, .ok) => (readStorageInfo 7 b).map fun i => (i.maxCapacity, i.freeSpaceBytes)
      | _ => none) = some (4096000, 2048000) ∧
    capacityOf ⟨4096, 1024, 1000, 500⟩ = 1024000 ∧ availableOf ⟨4096, 1024, 1000, 500⟩ = 512000 := by
  decide +kernel

/-- C70 (partial as C22: a query for format Undefined in a folder is excluded). A host asking GetObjectHandles for a storage reads
the handles of exactly the objects asked for, each once, in increasing order. -/
theorem C70_handles_partial (ss : List (Nat × Tree)) (fmts : List Nat) (tid storage fmt assoc : Nat) (t : Tree)
    (hs : storage ≠ ALL) (ht : AMap.get ss storage = some t) (w : TreeWF t) (hi : Issued t) (hb : t.asked < 2 ^ 26)
    (hf16 : fmt < 65536) (hf : assoc = 0 ∨ fmt ≠ UNDEF) (hok : handlesCheck ss fmts storage fmt assoc = .ok)
    (ha : assoc = 0 ∨ assoc = ALL ∨ ∃ it, t.get assoc = some it ∧ it.fmt = ASSOC) :
    ∃ bytes l, getObjectHandles ss fmts tid storage fmt assoc = .ok (some bytes, .ok) ∧
      readHandles 0x1007 tid bytes = some l ∧ l.Pairwise (· < ·) ∧ ∀ x, x ∈ l ↔ Asked t fmt assoc x := by
  obtain ⟨h1, h2, h3, h4⟩ := C22_reply_one_partial ss fmts storage fmt assoc t hs ht w hf16 hf hok ha
  obtain ⟨l, hr⟩ : ∃ l, handlesReply ss fmts storage fmt assoc = (.ok, l) := ⟨_, by rw [← h1]⟩
  rw [hr] at h2 h3
  dsimp only at h2 h3
  have hbd : ∀ x ∈ l, x < 2 ^ 26 := by
    intro x hx
    obtain ⟨it, hg, _⟩ := (h3 x).mp hx
    exact Nat.lt_of_le_of_lt (hi x it hg) hb
  have hlen : l.length ≤ 2 ^ 26 := by
    have : ∀ (l : List Nat) (a : Nat), l.Pairwise (· < ·) → (∀ x ∈ l, a ≤ x ∧ x < 2 ^ 26) → a ≤ 2 ^ 26 → l.length + a ≤ 2 ^ 26 := by
      intro l
      induction l with
      | nil => intro a _ _ ha; simpa using ha
      | cons y ys ih =>
        intro a hp hm ha
        have hy := hm y List.mem_cons_self
        have hp := List.pairwise_cons.mp hp
        have := ih (y + 1) hp.2 (fun x hx => ⟨hp.1 x hx, (hm x (List.mem_cons_of_mem _ hx)).2⟩) hy.2
        rw [List.length_cons]
        omega
    exact this l 0 h2 (fun x hx => ⟨Nat.zero_le _, hbd x hx⟩) (Nat.zero_le _)
  obtain ⟨bytes, e, hread⟩ := handles_read 0x1007 tid (u32 ((l.length + 1) * 4)) l (by omega)
    (fun x hx => Nat.lt_trans (hbd x hx) (by decide)) (by unfold u32; exact Nat.le_trans (Nat.mod_le _ _) (by omega))
  refine ⟨bytes, l, ?_, hread, h2, h3⟩
  simp only [getObjectHandles, hr, e]
  rfl

/-- C70. A refused query has no data phase. -/
theorem C70_handles_refused (ss : List (Nat × Tree)) (fmts : List Nat) (tid storage fmt assoc : Nat)
    (h : (handlesReply ss fmts storage fmt assoc).1 ≠ .ok) :
    getObjectHandles ss fmts tid storage fmt assoc = .ok (none, (handlesReply ss fmts storage fmt assoc).1) := by
  unfold getObjectHandles
  split
  · next l e => rw [e] at h; exact absurd rfl h
  · next r l hr e => rw [e]

/-- C70. The references a host stores for an object, as an array that arrives in any packets, are the references it reads back
right after; nothing is stored if the object or one of the references does not exist. -/
theorem C70_references (s : RefTree) (h tid tid' : Nat) (l : List Nat) (hl : l.length ≤ 2 ^ 27) (hv : ∀ x ∈ l, x < 2 ^ 32) (rx : Rx)
    (ha : Arrives (dataContainer 0x9811 tid (enc (.arr 4 l))) rx) :
    ∃ s' r, setObjReferencesData s h rx = .ok (s', r) ∧
      (r = .ok ↔ s.t.has h = true ∧ ∀ x ∈ l, s.t.has x = true) ∧ (r ≠ .ok → s' = s) ∧
      (r = .ok → ∃ s'' bytes, getObjReferences s' tid' h = .ok (s'', some bytes, .ok) ∧
        readHandles 0x9810 tid' bytes = some l) := by
  have hlen : (enc (.arr 4 l)).length ≤ 2 ^ 30 := by rw [enc_arr_length']; omega
  have hat := arrives_at ha hlen
  have hg := Rx.getArr_at (post := []) (by rw [List.append_nil]; exact hat) (by omega) hv
  obtain ⟨c1, c2, c3⟩ := C26_set s h l
  refine ⟨(s.setRefs h l).1, (s.setRefs h l).2, ?_, c1, c2, fun hr => ?_⟩
  · unfold setObjReferencesData
    rw [hg]
    rfl
  · obtain ⟨ht, hq, -⟩ := c3 hr
    have hh := (c1.mp hr).1
    obtain ⟨bytes, e, hread⟩ := handles_read 0x9810 tid' (u32 (l.length * 4 + 4)) l hl hv
      (by unfold u32; exact Nat.le_trans (Nat.mod_le _ _) (by omega))
    refine ⟨((s.setRefs h l).1.getRefs h).1, bytes, ?_, hread⟩
    unfold getObjReferences
    rw [ht, if_neg (by rw [hh]; decide)]
    have : (s.setRefs h l).1.getRefs h = (((s.setRefs h l).1.getRefs h).1, .ok, l) := by rw [← hq]
    generalize ((s.setRefs h l).1.getRefs h).1 = s2 at *
    rw [this]
    simp only [e]
    rfl

/-- C70. A query for references of an object that does not exist is answered InvalidObjectHandle without a data phase. -/
theorem C70_references_refused (s : RefTree) (tid h : Nat) (hh : s.t.has h = false) :
    getObjReferences s tid h = .ok (s, none, .invalidObjectHandle) := by
  unfold getObjReferences
  rw [if_pos hh]

/-- C70 (partial: the size of an object of 4 GiB or more is excluded). A host asking GetObjectInfo reads what the device knows
about the object, field by field, with the texts cut as all transmitted texts are. -/
theorem C70_object_info_partial (o : ObjInfo) (hf : ObjInfoFits o) (hsz : o.size < 2 ^ 32) (size tid : Nat)
    (hs : size ≤ 2 ^ 20) (hn : o.fileName.length ≤ 2 ^ 20 ∧ o.captureDate.length ≤ 2 ^ 20 ∧ o.modDate.length ≤ 2 ^ 20) :
    ∃ bytes, getObjectInfo (.ok, o) size tid = .ok (some bytes, .ok) ∧
      readObjInfo tid bytes = some { o with fileName := cut o.fileName, captureDate := cut o.captureDate, modDate := cut o.modDate,
                                            keywords := cut o.keywords } := by
  have hfit := objInfo_fits o hf
  have hlen : (encs (objInfoVals o)).length ≤ 2 ^ 30 := by
    clear hf hfit hsz hs hn
    refine Nat.le_trans (m := 3000) ?_ (by decide)
    have h1 := enc_str_511 o.fileName
    have h2 := enc_str_511 o.captureDate
    have h3 := enc_str_511 o.modDate
    have h4 := enc_str_511 o.keywords
    simp only [objInfoVals, encs_length_cons', enc_int_length', show encs [] = [] from rfl, List.length_nil]
    generalize (enc (.str o.fileName)).length = a1 at *
    generalize (enc (.str o.captureDate)).length = a2 at *
    generalize (enc (.str o.modDate)).length = a3 at *
    generalize (enc (.str o.keywords)).length = a4 at *
    rw [← Nat.sub_eq_zero_iff_le]
    omega
  obtain ⟨bytes, e, h⟩ := dataset_read 0x1008 tid (u32 (size + (if o.fileName = [] then 0 else (o.fileName.length + 1) * 2) +
      (if o.captureDate = [] then 0 else (o.captureDate.length + 1) * 2) +
      (if o.modDate = [] then 0 else (o.modDate.length + 1) * 2))) (objInfoVals o) hfit hlen (by
    unfold u32
    refine Nat.le_trans (Nat.mod_le _ _) ?_
    obtain ⟨n1, n2, n3⟩ := hn
    split <;> split <;> split <;> omega)
  refine ⟨bytes, ?_, ?_⟩
  · unfold transmit at e
    simp only [getObjectInfo, putObjInfo_eq]
    cases ht : Tx.new 2 0x1008 tid (u32 (size + (if o.fileName = [] then 0 else (o.fileName.length + 1) * 2) +
      (if o.captureDate = [] then 0 else (o.captureDate.length + 1) * 2) +
      (if o.modDate = [] then 0 else (o.modDate.length + 1) * 2))) with
    | ok t =>
      rw [ht] at e
      simp only [Res.bind_ok] at e ⊢
      cases hp : t.puts (objInfoVals o) with
      | ok t1 =>
        rw [hp] at e
        simp only [Res.bind_ok] at e ⊢
        cases hb : t1.buffer with
        | ok p =>
          rw [hb] at e
          simp only [Res.bind_ok] at e ⊢
          cases e
          rfl
        | _ => rw [hb] at e; cases e
      | _ => rw [hp] at e; cases e
    | _ => rw [ht] at e; cases e
  · unfold readObjInfo
    rw [show ([.int 4, .int 2, .int 2, .int 4, .int 2, .int 4, .int 4, .int 4, .int 4, .int 4, .int 4, .int 4,
      .int 2, .int 4, .int 4, .str, .str, .str, .str] : List Ty) = (objInfoVals o).map Val.ty from rfl, h]
    show some _ = some _
    have : o.size % 2 ^ 32 = o.size := Nat.mod_eq_of_lt hsz
    simp only [this]

/-- C70. An object the storages do not know has no data phase. -/
theorem C70_object_info_refused (r : Resp) (o : ObjInfo) (size tid : Nat) (h : r ≠ .ok) :
    getObjectInfo (r, o) size tid = .ok (none, r) := by
  unfold getObjectInfo
  split
  · next e => cases e; exact absurd rfl h
  · next e => cases e; rfl

/-- Witnesses: the demonstration tree meets the hypotheses of `C70_handles_partial`, and references that arrive exist. -/
theorem C70_witness : TreeWF demoTree ∧ Issued demoTree ∧ demoTree.asked < 2 ^ 26 ∧
    handlesCheck [(65537, demoTree)] [0x3001] 65537 0 0 = .ok ∧
    (∃ rx, Arrives (dataContainer 0x9811 7 (enc (.arr 4 [2, 3]))) rx) ∧ demoTree.has 1 = true ∧ demoTree.has 2 = true ∧
    ObjInfoFits { sampleInfo with size := 5 } := by
  refine ⟨demoTree_wf.1, demoTree_wf.2, by decide +kernel, by decide +kernel, ?_, by decide +kernel, by decide +kernel,
    by unfold ObjInfoFits sampleInfo; decide⟩
  obtain ⟨rx, _, h⟩ := demo_arrives 0x9811 (enc (.arr 4 [2, 3])) (by decide +kernel)
  exact ⟨rx, h⟩

/-- C70 is violated for an object of 4 GiB or more: the host reads the size modulo 2^32 (0.7 GB for 5 GB) instead of the
0xFFFFFFFF with which the standard says "ask for the ObjectSize property". -/
theorem C70_large_object_violated :
    sampleInfo.size = 5000000000 ∧
    (match getObjectInfo (.ok, sampleInfo) 100 7 with
      | .ok (some b, .ok) => (readObjInfo 7 b).map (·.size)
      | _ => none) = some 705032704 := by
  decide +kernel

end Props
