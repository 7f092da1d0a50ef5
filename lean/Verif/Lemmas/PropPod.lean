import Verif.Model.PropPod
import Verif.Lemmas.PropDesc
import Verif.Lemmas.Codec
/-! Lemmas about the object property tables. -/
namespace Mtp
open Spec

/-- Host view of a value of data type `dt`. -/
def normVal (dt : Nat) (v : Val) : Val :=
  match dtShape dt with
  | some ty => convert ty v
  | none => v

def normForm (dt flag : Nat) : Form → Form
  | .range a b c => .range (normVal dt a) (normVal dt b) (normVal dt c)
  | .enum n vs => .enum n (vs.map (normVal dt))
  | .none => if flag = 6 then .num 0 else .none
  | f => f

def normDesc (d : ObjPropDesc) : ObjPropDesc :=
  { d with defVal := normVal d.dtype d.defVal, form := normForm d.dtype d.flag d.form }

theorem convert_idem (ty : Ty) (v : Val) : convert ty (convert ty v) = convert ty v := by
  cases ty <;> cases v
  case int.int w w' n => by_cases h : (w = 16 ↔ w' = 16) <;> simp [convert, h]
  case arr.arr w w' n => by_cases h : w = w' <;> simp [convert, h]
  case str.int w v => by_cases h : w = 16 <;> simp [convert, h]
  all_goals simp [convert]

theorem putVariant_norm (t : Tx) (dt : Nat) (v : Val) : t.putVariant dt (normVal dt v) = t.putVariant dt v := by
  unfold Tx.putVariant normVal
  cases dtShape dt with
  | none => rfl
  | some ty => simp only [convert_idem]

theorem putVariants_norm (t : Tx) (dt : Nat) (vs : List Val) :
    t.putVariants dt (vs.map (normVal dt)) = t.putVariants dt vs := by
  induction vs generalizing t with
  | nil => rfl
  | cons v vs ih => simp only [List.map_cons, Tx.putVariants, putVariant_norm, ih]

theorem putForm_norm (t : Tx) (dt flag : Nat) (f : Form) :
    t.putForm dt flag (normForm dt flag f) = t.putForm dt flag f := by
  cases f with
  | none =>
    simp only [normForm]
    split
    · next h => subst h; rfl
    · rfl
  | range a b c => simp only [normForm, Tx.putForm, putVariant_norm]
  | enum n vs => simp only [normForm, Tx.putForm, putVariants_norm]
  | num v => rfl
  | str s => rfl

theorem putObj_norm (t : Tx) (d : ObjPropDesc) : t.putObjPropDesc (normDesc d) = t.putObjPropDesc d := by
  simp only [Tx.putObjPropDesc, normDesc, putVariant_norm, putForm_norm]

theorem typeOf_width {dt w : Nat} (h : typeOf dt = some (.int w)) : w ∈ [1, 2, 4, 8, 16] := by
  unfold typeOf at h
  split at h
  · next h' =>
    have : (dt - 1) / 2 = 0 ∨ (dt - 1) / 2 = 1 ∨ (dt - 1) / 2 = 2 ∨ (dt - 1) / 2 = 3 ∨ (dt - 1) / 2 = 4 := by omega
    rcases this with e | e | e | e | e <;> rw [e] at h <;> simp at h <;> simp [← h]
  · split at h
    · simp at h
    · split at h <;> simp at h

theorem typeOf_width_arr {dt w : Nat} (h : typeOf dt = some (.arr w)) : w ∈ [1, 2, 4, 8, 16] := by
  unfold typeOf at h
  split at h
  · simp at h
  · split at h
    · next h' =>
      have : (dt - 0x4001) / 2 = 0 ∨ (dt - 0x4001) / 2 = 1 ∨ (dt - 0x4001) / 2 = 2 ∨ (dt - 0x4001) / 2 = 3 ∨ (dt - 0x4001) / 2 = 4 := by omega
      rcases this with e | e | e | e | e <;> rw [e] at h <;> simp at h <;> simp [← h]
    · split at h <;> simp at h

theorem convert_typed {dt : Nat} {ty : Ty} (h : typeOf dt = some ty) (v : Val) (hv : Fits v) :
    Typed dt (convert ty v) := by
  have pow : ∀ w, 0 < 256 ^ w := fun w => Nat.pow_pos (by decide)
  cases ty with
  | int w =>
    have hw := typeOf_width h
    have z : Fits (.int w 0) := ⟨hw, pow w⟩
    cases v <;> simp only [convert]
    case int w' n =>
      split
      · exact ⟨⟨hw, Nat.mod_lt _ (pow w)⟩, h⟩
      · exact ⟨z, h⟩
    all_goals exact ⟨z, h⟩
  | arr w =>
    have hw := typeOf_width_arr h
    have z : Fits (.arr w []) := ⟨hw, by simp, by simp⟩
    cases v <;> simp only [convert]
    case arr w' vs =>
      split
      · next e => subst e; exact ⟨hv, h⟩
      · exact ⟨z, h⟩
    all_goals exact ⟨z, h⟩
  | str =>
    cases v <;> simp only [convert]
    case int w' n => split <;> exact ⟨trivial, h⟩
    all_goals exact ⟨trivial, h⟩

theorem normVal_typed {dt : Nat} (h : (typeOf dt).isSome) (v : Val) (hv : Fits v) : Typed dt (normVal dt v) := by
  unfold normVal
  rw [dtShape_eq]
  cases ht : typeOf dt with
  | none => rw [ht] at h; simp at h
  | some ty => exact convert_typed ht v hv

/-- A form as the tables hold it. -/
def RawForm (flag : Nat) : Form → Prop
  | .none => flag = 0 ∨ flag = 3 ∨ flag = 6
  | .range a b c => flag = 1 ∧ Fits a ∧ Fits b ∧ Fits c
  | .enum n vs => flag = 2 ∧ n = vs.length ∧ n < 2 ^ 16 ∧ ∀ v ∈ vs, Fits v
  | _ => False

theorem normForm_typed {dt flag : Nat} {f : Form} (h : (typeOf dt).isSome) (hf : RawForm flag f) :
    FormTyped dt flag (normForm dt flag f) := by
  cases f with
  | none =>
    simp only [RawForm] at hf
    simp only [normForm]
    split
    · next e => exact Or.inr ⟨Or.inl e, by decide⟩
    · show flag = 0 ∨ flag = 3
      omega
  | range a b c =>
    obtain ⟨e, h1, h2, h3⟩ := hf
    exact ⟨e, normVal_typed h _ h1, normVal_typed h _ h2, normVal_typed h _ h3⟩
  | enum n vs =>
    obtain ⟨e, h1, h2, h3⟩ := hf
    refine ⟨e, by simpa using h1, h2, ?_⟩
    intro v hv
    obtain ⟨u, hu, rfl⟩ := List.mem_map.mp hv
    exact normVal_typed h _ (h3 u hu)
  | num v => exact hf.elim
  | str s => exact hf.elim

theorem normDesc_typed (d : ObjPropDesc) (h0 : d.code < 2 ^ 16) (h1 : d.dtype < 2 ^ 16) (h2 : (typeOf d.dtype).isSome)
    (h3 : Fits d.defVal) (h4 : d.group < 2 ^ 32) (h5 : RawForm d.flag d.form) : ObjTyped (normDesc d) :=
  ⟨h0, h1, normVal_typed h2 _ h3, h4, normForm_typed h2 h5⟩

/-- The values the C++ types of the provider can hold. -/
structure DevCaps.WF (c : DevCaps) : Prop where
  ach : c.audioChannels.length < 2 ^ 16 ∧ ∀ x ∈ c.audioChannels, x < 2 ^ 16
  vch : c.videoChannels.length < 2 ^ 16 ∧ ∀ x ∈ c.videoChannels, x < 2 ^ 16
  cod : c.codecs.length < 2 ^ 16 ∧ ∀ x ∈ c.codecs, x < 2 ^ 32
  rng : ∀ r ∈ [c.audioBit, c.videoBit, c.fps, c.imageWidth, c.imageHeight, c.videoWidth, c.videoHeight],
    r.1 < 2 ^ 32 ∧ r.2 < 2 ^ 32

theorem rangeForm_raw {r : Nat × Nat} (h : r.1 < 2 ^ 32 ∧ r.2 < 2 ^ 32) : RawForm 1 (rangeForm r) := by
  refine ⟨rfl, ⟨by simp, ?_⟩, ⟨by simp, ?_⟩, ⟨by simp, by decide⟩⟩
  · simpa using h.1
  · simpa using h.2

theorem enumForm_raw {w : Nat} {vs : List Nat} (hw : w ∈ [1, 2, 4, 8, 16])
    (h : vs.length < 2 ^ 16 ∧ ∀ x ∈ vs, x < 256 ^ w) : RawForm 2 (enumForm w vs) := by
  have e : u16 vs.length = vs.length := by unfold u16; omega
  refine ⟨rfl, by simp [e], by rw [e]; exact h.1, ?_⟩
  intro v hv
  obtain ⟨x, hx, rfl⟩ := List.mem_map.mp hv
  exact ⟨hw, h.2 x hx⟩

/-- What holds of every row of the tables. -/
def RowOk (r : PodRow) : Prop :=
  r.code < 2 ^ 16 ∧ r.dtype < 2 ^ 16 ∧ (typeOf r.dtype).isSome ∧ Fits r.defVal

theorem rows_ok (cat : Cat) : ∀ r ∈ rowsOf cat, RowOk r := by
  have z : Fits qzero := ⟨by decide, by decide⟩
  have e : Fits qempty := trivial
  cases cat <;>
    simp only [rowsOf, commonRows, imageRows, audioRows, videoRows, List.mem_cons, List.not_mem_nil, or_false, forall_eq_or_imp,
      forall_eq, RowOk, false_imp_iff, implies_true, z, e, and_true] <;> decide

theorem pod_raw (c : DevCaps) (h : c.WF) (cat : Cat) : ∀ r ∈ rowsOf cat, RawForm r.flag (formOf c cat r) := by
  have r1 := h.rng
  simp only [List.mem_cons, List.not_mem_nil, or_false, forall_eq_or_imp, forall_eq] at r1
  obtain ⟨a1, a2, a3, a4, a5, a6, a7⟩ := r1
  have e4 : ∀ vs : List Nat, (vs.length < 2 ^ 16 ∧ ∀ x ∈ vs, x < 2 ^ 32) → RawForm 2 (enumForm 4 vs) :=
    fun vs hv => enumForm_raw (by decide) ⟨hv.1, fun x hx => by have := hv.2 x hx; simpa using this⟩
  have e2 : ∀ vs : List Nat, (vs.length < 2 ^ 16 ∧ ∀ x ∈ vs, x < 2 ^ 16) → RawForm 2 (enumForm 2 vs) :=
    fun vs hv => enumForm_raw (by decide) ⟨hv.1, fun x hx => by have := hv.2 x hx; simpa using this⟩
  have n0 : RawForm 0 .none := Or.inl rfl
  have n3 : RawForm 3 .none := Or.inr (Or.inl rfl)
  have n6 : RawForm 6 .none := Or.inr (Or.inr rfl)
  cases cat <;>
    simp only [rowsOf, commonRows, imageRows, audioRows, videoRows, List.mem_cons, List.not_mem_nil, or_false, forall_eq_or_imp,
      forall_eq, false_imp_iff, implies_true, and_true]
  all_goals
    repeat' (with_reducible apply And.intro)
  all_goals
    simp [formOf, isTech, enumOf, rangeOf]
    first
      | exact n0
      | exact n3
      | exact n6
      | exact rangeForm_raw (by assumption)
      | exact e4 _ (by decide)
      | exact e4 _ h.cod
      | exact e2 _ h.ach
      | exact e2 _ h.vch

theorem podDesc_typed (c : DevCaps) (h : c.WF) (cat : Cat) (r : PodRow) (hr : r ∈ rowsOf cat) :
    ObjTyped (normDesc (podDesc c cat r)) := by
  obtain ⟨h0, h1, h2, h3⟩ := rows_ok cat r hr
  exact normDesc_typed _ h0 h1 h2 h3 (by decide : 0 < 2 ^ 32) (pod_raw c h cat r hr)

/-! Maps -/

theorem qmapValue_insert (k k' : Nat) (d : ObjPropDesc) (m : List (Nat × ObjPropDesc))
    (hs : (m.map (·.1)).Pairwise (· < ·)) :
    qmapValue k (qmapInsert k' d m) = if k = k' then some d else qmapValue k m := by
  induction m with
  | nil => simp [qmapInsert, qmapValue]
  | cons p r ih =>
    obtain ⟨q, e⟩ := p
    simp only [List.map_cons, List.pairwise_cons] at hs
    simp only [qmapInsert]
    split
    · simp only [qmapValue]
    · split
      · next h1 h2 =>
        subst h2
        simp only [qmapValue]
        split <;> rfl
      · next h1 h2 =>
        simp only [qmapValue]
        split
        · next h3 =>
          subst h3
          rw [if_neg (fun e => h2 e.symm)]
        · exact ih hs.2

theorem mem_qmapInsert (k : Nat) (d : ObjPropDesc) (m : List (Nat × ObjPropDesc)) (x : Nat) :
    x ∈ (qmapInsert k d m).map (·.1) ↔ x = k ∨ x ∈ m.map (·.1) := by
  induction m with
  | nil => simp [qmapInsert]
  | cons p r ih =>
    obtain ⟨q, e⟩ := p
    simp only [qmapInsert]
    split
    · simp
    · split
      · next h => subst h; simp
      · simp only [List.map_cons, List.mem_cons, ih]
        constructor
        · rintro (h | h | h) <;> simp [h]
        · rintro (h | h | h) <;> simp [h]

theorem sorted_qmapInsert (k : Nat) (d : ObjPropDesc) (m : List (Nat × ObjPropDesc))
    (hs : (m.map (·.1)).Pairwise (· < ·)) : ((qmapInsert k d m).map (·.1)).Pairwise (· < ·) := by
  induction m with
  | nil => simp [qmapInsert]
  | cons p r ih =>
    obtain ⟨q, e⟩ := p
    simp only [List.map_cons, List.pairwise_cons] at hs
    simp only [qmapInsert]
    split
    · next h =>
      simp only [List.map_cons, List.pairwise_cons, List.mem_cons]
      refine ⟨?_, hs⟩
      rintro x (rfl | hx)
      · exact h
      · exact Nat.lt_trans h (hs.1 x hx)
    · split
      · next h => subst h; simpa using hs
      · simp only [List.map_cons, List.pairwise_cons]
        refine ⟨?_, ih hs.2⟩
        intro x hx
        rcases (mem_qmapInsert k d r x).mp hx with rfl | hx
        · omega
        · exact hs.1 x hx

theorem qmapValue_some (k : Nat) (m : List (Nat × ObjPropDesc)) :
    (qmapValue k m).isSome ↔ k ∈ m.map (·.1) := by
  induction m with
  | nil => simp [qmapValue]
  | cons p r ih =>
    obtain ⟨q, e⟩ := p
    simp only [qmapValue, List.map_cons, List.mem_cons]
    split
    · next h => simp [h]
    · next h => simp [h, ih]

theorem podFold (c : DevCaps) (cat : Cat) (rows : List PodRow) (m : List (Nat × ObjPropDesc))
    (hs : (m.map (·.1)).Pairwise (· < ·)) :
    let m' := rows.foldl (fun m r => qmapInsert r.code (podDesc c cat r) m) m
    (m'.map (·.1)).Pairwise (· < ·) ∧ (∀ x, x ∈ m'.map (·.1) ↔ x ∈ rows.map (·.code) ∨ x ∈ m.map (·.1)) ∧
    ∀ x d, qmapValue x m' = some d → (∃ r ∈ rows, r.code = x ∧ d = podDesc c cat r) ∨ qmapValue x m = some d := by
  induction rows generalizing m with
  | nil => exact ⟨hs, by simp, fun x d h => Or.inr h⟩
  | cons r rows ih =>
    obtain ⟨i1, i2, i3⟩ := ih (qmapInsert r.code (podDesc c cat r) m) (sorted_qmapInsert _ _ _ hs)
    refine ⟨i1, ?_, ?_⟩
    · intro x
      refine (i2 x).trans ?_
      rw [mem_qmapInsert]
      simp only [List.map_cons, List.mem_cons]
      constructor
      · rintro (h | h | h) <;> simp [h]
      · rintro ((h | h) | h) <;> simp [h]
    · intro x d h
      rcases i3 x d h with ⟨r', hr, e⟩ | h
      · exact Or.inl ⟨r', List.mem_cons_of_mem _ hr, e⟩
      · rw [qmapValue_insert _ _ _ _ hs] at h
        split at h
        · next e =>
          cases h
          exact Or.inl ⟨r, List.mem_cons_self, e.symm, rfl⟩
        · exact Or.inr h

theorem podMap_sorted (c : DevCaps) (cat : Cat) : ((podMap c cat).map (·.1)).Pairwise (· < ·) :=
  (podFold c cat (rowsOf cat) [] (by simp)).1

theorem podMap_mem (c : DevCaps) (cat : Cat) (x : Nat) :
    x ∈ (podMap c cat).map (·.1) ↔ x ∈ (rowsOf cat).map (·.code) := by
  have := (podFold c cat (rowsOf cat) [] (by simp)).2.1 x
  exact this.trans (by simp)

theorem podMap_value (c : DevCaps) (cat : Cat) (x : Nat) (d : ObjPropDesc) (h : qmapValue x (podMap c cat) = some d) :
    ∃ r ∈ rowsOf cat, r.code = x ∧ d = podDesc c cat r := by
  rcases (podFold c cat (rowsOf cat) [] (by simp)).2.2 x d h with h | h
  · exact h
  · simp [qmapValue] at h

/-- No property of a category is also a common one. -/
theorem rows_apart (cat : Cat) (h : cat ≠ .common) :
    ∀ x ∈ (rowsOf .common).map (·.code), x ∉ (rowsOf cat).map (·.code) := by
  cases cat <;> first | exact absurd rfl h | decide

/-- The rows the supported list of a category comes from. -/
theorem supported_mem (c : DevCaps) (cat : Cat) (x : Nat) :
    x ∈ propsSupported c cat ↔ x ∈ (rowsOf .common).map (·.code) ∨ x ∈ (rowsOf cat).map (·.code) := by
  cases cat <;> simp only [propsSupported, List.mem_append, podMap_mem]
  · simp [rowsOf]
  · simp

theorem supported_nodup (c : DevCaps) (cat : Cat) : (propsSupported c cat).Nodup := by
  have nd : ∀ k, ((podMap c k).map (·.1)).Nodup := fun k =>
    (podMap_sorted c k).imp (fun h => Nat.ne_of_lt h)
  have ap : ∀ k, k ≠ .common → ((podMap c .common).map (·.1) ++ (podMap c k).map (·.1)).Nodup := by
    intro k hk
    rw [List.nodup_append]
    refine ⟨nd _, nd _, ?_⟩
    intro a ha b hb e
    subst e
    exact rows_apart k hk a ((podMap_mem c _ a).mp ha) ((podMap_mem c _ a).mp hb)
  cases cat
  · exact nd _
  · exact ap _ (by decide)
  · exact ap _ (by decide)
  · exact ap _ (by decide)
  · exact nd _

theorem objectPropDesc_none (c : DevCaps) (cat : Cat) (x : Nat) (h : x ∉ propsSupported c cat) :
    objectPropDesc c cat x = (.invalidObjectPropCode, none) := by
  rw [supported_mem] at h
  have hn : ∀ k, x ∉ (rowsOf k).map (·.code) → qmapValue x (podMap c k) = none := by
    intro k hk
    cases e : qmapValue x (podMap c k) with
    | none => rfl
    | some d => exact absurd ((podMap_mem c k x).mp ((qmapValue_some x _).mp (by rw [e]; rfl))) hk
  have h1 := hn .common (fun e => h (Or.inl e))
  have h2 := hn cat (fun e => h (Or.inr e))
  unfold objectPropDesc
  rw [h1]
  cases cat <;> simp [h2]

theorem objectPropDesc_some (c : DevCaps) (cat : Cat) (x : Nat) (h : x ∈ propsSupported c cat) :
    ∃ k r, (k = .common ∨ k = cat) ∧ r ∈ rowsOf k ∧ r.code = x ∧ objectPropDesc c cat x = (.ok, some (podDesc c k r)) := by
  rw [supported_mem] at h
  unfold objectPropDesc
  cases hc : qmapValue x (podMap c .common) with
  | some d =>
    obtain ⟨r, h1, h2, h3⟩ := podMap_value c _ x d hc
    exact ⟨.common, r, Or.inl rfl, h1, h2, by rw [h3]⟩
  | none =>
    have h1 : x ∉ (rowsOf .common).map (·.code) := by
      rw [← podMap_mem c, ← qmapValue_some, hc]; simp
    have h2 : x ∈ (rowsOf cat).map (·.code) := by
      rcases h with h | h
      · exact absurd h h1
      · exact h
    have h3 : (qmapValue x (podMap c cat)).isSome := by rw [qmapValue_some, podMap_mem]; exact h2
    obtain ⟨d, hd⟩ := Option.isSome_iff_exists.mp h3
    obtain ⟨r, q1, q2, q3⟩ := podMap_value c _ x d hd
    refine ⟨cat, r, Or.inr rfl, q1, q2, ?_⟩
    cases cat <;> first | exact absurd h2 h1 | (simp [rowsOf] at h2; done) | simp [hd, q3]

end Mtp

namespace Mtp
open Spec

/-! Sizes -/

def Scalar : Val → Prop
  | .arr _ _ => False
  | _ => True

theorem enc_int_length (w n : Nat) : (enc (.int w n)).length = w := by simp [enc, intBytes_length]

theorem convert_short {dt : Nat} {ty : Ty} (h : typeOf dt = some ty) (v : Val) (hv : Scalar v) :
    (enc (convert ty v)).length ≤ 511 := by
  cases ty with
  | int w =>
    have hw := typeOf_width h
    have : w ≤ 16 := by
      simp only [List.mem_cons, List.not_mem_nil, or_false] at hw
      omega
    cases v <;> simp only [convert] <;> (try split) <;> rw [enc_int_length] <;> omega
  | arr w =>
    cases v with
    | int w' n => simp [convert, enc, intBytes_length]
    | arr w' n => exact hv.elim
    | str s => simp [convert, enc, intBytes_length]
  | str =>
    cases v <;> simp only [convert] <;> (try split) <;> exact strBytes_length_le _

theorem normVal_short {dt : Nat} (h : (typeOf dt).isSome) (v : Val) (hv : Scalar v) : (enc (normVal dt v)).length ≤ 511 := by
  unfold normVal
  rw [dtShape_eq]
  cases ht : typeOf dt with
  | none => rw [ht] at h; simp at h
  | some ty => exact convert_short ht v hv

theorem encs_short (vs : List Val) (h : ∀ v ∈ vs, (enc v).length ≤ 511) : (encs vs).length ≤ 511 * vs.length := by
  induction vs with
  | nil => simp [encs]
  | cons v vs ih =>
    have h1 := h v List.mem_cons_self
    have h2 := ih (fun x hx => h x (List.mem_cons_of_mem _ hx))
    have e : encs (v :: vs) = enc v ++ encs vs := by simp [encs]
    rw [e, List.length_append, List.length_cons]
    omega

def ScalarForm : Form → Prop
  | .range a b c => Scalar a ∧ Scalar b ∧ Scalar c
  | .enum _ vs => ∀ v ∈ vs, Scalar v
  | _ => True

theorem normDesc_short (d : ObjPropDesc) (h2 : (typeOf d.dtype).isSome) (h3 : Scalar d.defVal) (h5 : RawForm d.flag d.form)
    (h6 : ScalarForm d.form) : (encs (objVals (normDesc d))).length ≤ 2 ^ 30 := by
  have key : ∀ v ∈ objVals (normDesc d), (enc v).length ≤ 511 := by
    intro v hv
    simp only [objVals, List.mem_append, List.mem_cons, List.not_mem_nil, or_false] at hv
    rcases hv with (rfl | rfl | rfl | rfl | rfl | rfl) | hv
    · rw [enc_int_length]; omega
    · rw [enc_int_length]; omega
    · rw [enc_int_length]; omega
    · exact normVal_short h2 _ h3
    · rw [enc_int_length]; omega
    · rw [enc_int_length]; omega
    · simp only [normDesc] at hv
      cases hf : d.form with
      | none =>
        rw [hf] at hv
        simp only [normForm] at hv
        split at hv
        · next e =>
          simp only [formVals, e] at hv
          simp at hv
          subst hv
          rw [enc_int_length]; omega
        · simp [formVals] at hv
      | range a b c =>
        rw [hf] at hv h6
        simp only [normForm, formVals, List.mem_cons, List.not_mem_nil, or_false] at hv
        rcases hv with rfl | rfl | rfl
        · exact normVal_short h2 _ h6.1
        · exact normVal_short h2 _ h6.2.1
        · exact normVal_short h2 _ h6.2.2
      | enum n vs =>
        rw [hf] at hv h6
        simp only [normForm, formVals, List.mem_cons] at hv
        rcases hv with rfl | hv
        · rw [enc_int_length]; omega
        · obtain ⟨u, hu, rfl⟩ := List.mem_map.mp hv
          exact normVal_short h2 _ (h6 u hu)
      | num v => rw [hf] at h5; exact h5.elim
      | str s => rw [hf] at h5; exact h5.elim
  have hl : (objVals (normDesc d)).length ≤ 7 + 65536 := by
    simp only [objVals, List.length_append, List.length_cons, List.length_nil, normDesc]
    cases hf : d.form with
    | none => simp only [normForm]; split <;> simp [formVals] <;> (try split) <;> simp
    | range a b c => simp [normForm, formVals]
    | enum n vs =>
      rw [hf] at h5
      obtain ⟨_, e, h, _⟩ := h5
      simp [normForm, formVals]
      omega
    | num v => rw [hf] at h5; exact h5.elim
    | str s => rw [hf] at h5; exact h5.elim
  have := encs_short _ key
  omega

theorem pod_scalar (c : DevCaps) (cat : Cat) (r : PodRow) : ScalarForm (formOf c cat r) := by
  have e : ∀ w vs, ScalarForm (enumForm w vs) := by
    intro w vs v hv
    obtain ⟨x, _, rfl⟩ := List.mem_map.mp hv
    trivial
  have r' : ∀ x, ScalarForm (rangeForm x) := fun x => ⟨trivial, trivial, trivial⟩
  have n : ScalarForm .none := trivial
  unfold formOf enumOf rangeOf
  repeat' split
  all_goals first | exact e _ _ | exact r' _ | exact n

theorem row_scalar (cat : Cat) : ∀ r ∈ rowsOf cat, Scalar r.defVal := by
  have z : Scalar qzero := trivial
  have e : Scalar qempty := trivial
  cases cat <;>
    simp only [rowsOf, commonRows, imageRows, audioRows, videoRows, List.mem_cons, List.not_mem_nil, or_false, forall_eq_or_imp,
      forall_eq, false_imp_iff, implies_true, z, e, and_true]

theorem podDesc_short (c : DevCaps) (h : c.WF) (cat : Cat) (r : PodRow) (hr : r ∈ rowsOf cat) :
    (encs (objVals (normDesc (podDesc c cat r)))).length ≤ 2 ^ 30 :=
  normDesc_short _ (rows_ok cat r hr).2.2.1 (row_scalar cat r hr) (pod_raw c h cat r hr) (pod_scalar c cat r)

end Mtp
