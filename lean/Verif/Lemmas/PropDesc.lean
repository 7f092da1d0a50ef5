import Verif.Lemmas.Rx
import Verif.Spec.PropDesc
namespace Mtp
open Spec

theorem digits_eq (bs : List UInt8) : digits bs = leVal bs := by
  induction bs with
  | nil => rfl
  | cons b bs ih => simp [digits, leVal, ih]

theorem dtShape_eq (code : Nat) : dtShape code = typeOf code := by
  by_cases h1 : 1 ≤ code ∧ code ≤ 10
  · have : code = 1 ∨ code = 2 ∨ code = 3 ∨ code = 4 ∨ code = 5 ∨ code = 6 ∨ code = 7 ∨ code = 8 ∨
        code = 9 ∨ code = 10 := by omega
    rcases this with h|h|h|h|h|h|h|h|h|h <;> subst h <;> rfl
  · by_cases h2 : 0x4001 ≤ code ∧ code ≤ 0x400A
    · have : code = 0x4001 ∨ code = 0x4002 ∨ code = 0x4003 ∨ code = 0x4004 ∨ code = 0x4005 ∨
        code = 0x4006 ∨ code = 0x4007 ∨ code = 0x4008 ∨ code = 0x4009 ∨ code = 0x400A := by omega
      rcases this with h|h|h|h|h|h|h|h|h|h <;> subst h <;> rfl
    · unfold dtShape typeOf
      rw [if_neg h1, if_neg h2]
      repeat rw [if_neg (by omega)]

theorem takeInt_at (w v : Nat) (post : List UInt8) (h : v < 256 ^ w) :
    takeInt w (intBytes w v ++ post) = some (v, post) := by
  have hl := intBytes_length w v
  unfold takeInt
  rw [if_pos (by simp [hl]), List.take_append_of_le_length (by omega),
    List.take_of_length_le (by omega), digits_eq, leVal_intBytes _ _ h,
    List.drop_append_of_le_length (by omega), List.drop_of_length_le (by omega), List.nil_append]

theorem takeInts_at (w : Nat) (vs : List Nat) (post : List UInt8) (h : ∀ v ∈ vs, v < 256 ^ w) :
    takeInts w vs.length (vs.flatMap (intBytes w) ++ post) = some (vs, post) := by
  induction vs with
  | nil => rfl
  | cons v vs ih =>
    simp only [List.length_cons, takeInts, List.flatMap_cons, List.append_assoc]
    rw [takeInt_at _ _ _ (h v (by simp))]
    simp [ih (fun v hv => h v (by simp [hv]))]

theorem takeVal_at (v : Val) (post : List UInt8) (h : Fits v) :
    takeVal v.ty (enc v ++ post) = some (shown v, post) := by
  cases v with
  | int w v =>
    simp only [Val.ty, takeVal, enc, takeInt_at _ _ _ h.2, Option.map_some, shown]
  | arr w vs =>
    simp only [Val.ty, takeVal, enc, List.append_assoc]
    rw [takeInt_at _ _ _ (by simpa using h.2.1)]
    simp [takeInts_at w vs post h.2.2, shown]
  | str s =>
    simp only [Val.ty, takeVal, enc, shown]
    have hl := cut_length s
    generalize cut s = c at *
    by_cases hz : c = []
    · subst hz
      simp [strBytes, takeInt, takeInts, digits]
    · rw [strBytes_vec c hz, vecBytes_eq]
      have hb : UInt8.ofNat (c.length + 1) ::
          ((c ++ [0]).map UInt16.toNat).flatMap (intBytes 2) ++ post =
          intBytes 1 (c.length + 1) ++ (((c ++ [0]).map UInt16.toNat).flatMap (intBytes 2) ++ post) := by
        have : intBytes 1 (c.length + 1) = [UInt8.ofNat (c.length + 1)] := by
          rw [← leBytes_eq]
          simp only [leBytes, Nat.mod_eq_of_lt (show c.length + 1 < 256 by omega)]
        rw [this]; simp
      rw [hb, takeInt_at _ _ _ (by simp; omega)]
      have hi := takeInts_at 2 ((c ++ [0]).map UInt16.toNat) post (by
        intro v hv
        obtain ⟨c, _, rfl⟩ := List.mem_map.1 hv
        have := c.toNat_lt; omega)
      rw [List.length_map, List.length_append] at hi
      simp only [List.length_cons, List.length_nil, Nat.zero_add] at hi
      have hid : (UInt16.ofNat ∘ UInt16.toNat) = id := by funext c; simp
      simp only [Option.bind_eq_bind, Option.bind_some, hi, Nat.add_sub_cancel]
      simp [hid]

theorem takeVals_at (ty : Ty) (vs : List Val) (post : List UInt8) (h : ∀ v ∈ vs, Fits v ∧ v.ty = ty) :
    takeVals ty vs.length (vs.flatMap enc ++ post) = some (vs.map shown, post) := by
  induction vs with
  | nil => rfl
  | cons v vs ih =>
    have hv := h v (by simp)
    simp only [List.length_cons, takeVals, List.flatMap_cons, List.append_assoc]
    have := takeVal_at v (vs.flatMap enc ++ post) hv.1
    rw [hv.2] at this
    rw [this]
    simp [ih (fun v hv => h v (by simp [hv]))]

theorem convert_self (v : Val) (h : Fits v) : convert v.ty v = v := by
  cases v with
  | int w v => simp [Val.ty, convert, Nat.mod_eq_of_lt h.2]
  | arr w vs => simp [Val.ty, convert]
  | str s => rfl

theorem putVariant_typed (t : Tx) (dt : Nat) (v : Val) (h : Typed dt v) :
    t.putVariant dt v = t.put v := by
  unfold Tx.putVariant
  rw [dtShape_eq, h.2]
  simp [convert_self v h.1]

theorem putVariants_typed (t : Tx) (dt : Nat) (vs : List Val) (h : ∀ v ∈ vs, Typed dt v) :
    t.putVariants dt vs = t.puts vs := by
  induction vs generalizing t with
  | nil => rfl
  | cons v vs ih =>
    simp only [Tx.putVariants, Tx.puts, putVariant_typed t dt v (h v (by simp))]
    congr 1; funext t'
    exact ih t' (fun v hv => h v (by simp [hv]))

/-- The data a form consists of. -/
def formVals (flag : Nat) : Form → List Val
  | .none => []
  | .range a b c => [a, b, c]
  | .enum n vs => .int 2 n :: vs
  | .num n => if flag = 4 then [.int 2 n] else [.int 4 n]
  | .str s => [.str s]

theorem bind_ok_id (x : Res Tx) : (x >>= fun t' => Res.ok t') = x := by cases x <;> rfl

theorem putForm_eq (t : Tx) (dt flag : Nat) (f : Form) (h : FormTyped dt flag f) :
    t.putForm dt flag f = t.puts (formVals flag f) := by
  cases f with
  | none =>
    rcases h with h | h <;> subst h <;> simp [Tx.putForm, formVals, Tx.puts]
  | range a b c =>
    obtain ⟨h, ha, hb, hc⟩ := h
    subst h
    simp [Tx.putForm, formVals, Tx.puts, putVariant_typed _ _ _ ha, putVariant_typed _ _ _ hb,
      putVariant_typed _ _ _ hc, bind_ok_id]
  | enum n vs =>
    obtain ⟨h, _, _, hv⟩ := h
    subst h
    simp only [Tx.putForm, formVals, Tx.puts, Tx.put]
    simp [putVariants_typed _ _ _ hv]
  | num n =>
    rcases h with ⟨h, hn⟩ | ⟨h | h, hn⟩ <;> subst h <;>
      simp [Tx.putForm, formVals, Tx.puts, Tx.put, u16, u32, bind_ok_id] <;>
      rw [Nat.mod_eq_of_lt (by simpa using hn)]
  | str s =>
    simp only [FormTyped] at h; subst h
    simp [Tx.putForm, formVals, Tx.puts, Tx.put, bind_ok_id]

theorem takeForm_at (dt flag : Nat) (ty : Ty) (hty : typeOf dt = some ty) (f : Form)
    (post : List UInt8) (h : FormTyped dt flag f) :
    takeForm ty flag ((formVals flag f).flatMap enc ++ post) = some (shownForm f, post) := by
  cases f with
  | none =>
    rcases h with h | h <;> subst h <;> rfl
  | range a b c =>
    obtain ⟨h, ha, hb, hc⟩ := h
    subst h
    have ea : a.ty = ty := by have := ha.2; rw [hty] at this; simpa using this.symm
    have eb : b.ty = ty := by have := hb.2; rw [hty] at this; simpa using this.symm
    have ec : c.ty = ty := by have := hc.2; rw [hty] at this; simpa using this.symm
    simp only [formVals, List.flatMap_cons, List.flatMap_nil, List.append_nil, List.append_assoc]
    unfold takeForm
    have h1 := takeVal_at a (enc b ++ (enc c ++ post)) ha.1
    have h2 := takeVal_at b (enc c ++ post) hb.1
    have h3 := takeVal_at c post hc.1
    rw [ea] at h1; rw [eb] at h2; rw [ec] at h3
    simp [h1, h2, h3, shownForm]
  | enum n vs =>
    obtain ⟨h, hn, hlt, hv⟩ := h
    subst h; subst hn
    simp only [formVals, List.flatMap_cons, List.append_assoc, enc]
    unfold takeForm
    have h1 := takeInt_at 2 vs.length (vs.flatMap enc ++ post) (by simpa using hlt)
    have h2 := takeVals_at ty vs post (fun v hv' => by
      have := hv v hv'
      refine ⟨this.1, ?_⟩
      have h' := this.2; rw [hty] at h'; simpa using h'.symm)
    simp [h1, h2, shownForm]
  | num n =>
    rcases h with ⟨h, hn⟩ | ⟨h | h, hn⟩ <;> subst h <;>
      simp only [formVals, List.flatMap_cons, List.flatMap_nil, List.append_nil, enc, takeForm,
        reduceIte, Nat.reduceEqDiff]
    · rw [takeInt_at 2 n post (by simpa using hn)]; simp [shownForm]
    · rw [takeInt_at 4 n post (by simpa using hn)]; simp [shownForm]
    · rw [takeInt_at 4 n post (by simpa using hn)]; simp [shownForm]
  | str s =>
    simp only [FormTyped] at h; subst h
    have h1 := takeVal_at (.str s) post trivial
    simp only [Val.ty, shown] at h1
    simp only [formVals, List.flatMap_cons, List.flatMap_nil, List.append_nil, takeForm]
    simp [h1, shownForm]

def devVals (d : DevPropDesc) : List Val :=
  [.int 2 d.code, .int 2 d.dtype, .int 1 (if d.getSet then 1 else 0), d.defVal, d.curVal,
   .int 1 d.flag] ++ formVals d.flag d.form

def objVals (d : ObjPropDesc) : List Val :=
  [.int 2 d.code, .int 2 d.dtype, .int 1 (if d.getSet then 1 else 0), d.defVal, .int 4 d.group,
   .int 1 d.flag] ++ formVals d.flag d.form

theorem putDev_eq (t : Tx) (d : DevPropDesc) (h : DevTyped d) :
    t.putDevPropDesc d = t.puts (devVals d) := by
  obtain ⟨_, _, h1, h2, h3⟩ := h
  simp only [Tx.putDevPropDesc, devVals, List.cons_append, List.nil_append, Tx.puts, Tx.put,
    Tx.putBool, putVariant_typed _ _ _ h1, putVariant_typed _ _ _ h2, putForm_eq _ _ _ _ h3]

theorem putObj_eq (t : Tx) (d : ObjPropDesc) (h : ObjTyped d) :
    t.putObjPropDesc d = t.puts (objVals d) := by
  obtain ⟨_, _, h1, _, h3⟩ := h
  simp only [Tx.putObjPropDesc, objVals, List.cons_append, List.nil_append, Tx.puts, Tx.put,
    Tx.putBool, putVariant_typed _ _ _ h1, putForm_eq _ _ _ _ h3]

theorem formFlag_lt (dt flag : Nat) (f : Form) (h : FormTyped dt flag f) : flag < 256 := by
  cases f with
  | none => rcases h with h | h <;> omega
  | range a b c => have := h.1; omega
  | enum n vs => have := h.1; omega
  | num n => rcases h with ⟨h, _⟩ | ⟨h | h, _⟩ <;> omega
  | str s => simp only [FormTyped] at h; omega

theorem formVals_fits (dt flag : Nat) (f : Form) (h : FormTyped dt flag f) :
    ∀ v ∈ formVals flag f, Fits v := by
  cases f with
  | none => simp [formVals]
  | range a b c =>
    obtain ⟨_, ha, hb, hc⟩ := h
    simp [formVals, ha.1, hb.1, hc.1]
  | enum n vs =>
    obtain ⟨_, _, hn, hv⟩ := h
    intro v hv'
    simp only [formVals, List.mem_cons] at hv'
    rcases hv' with rfl | hv'
    · exact ⟨by simp, by simpa using hn⟩
    · exact (hv v hv').1
  | num n =>
    intro v hv
    rcases h with ⟨h, hn⟩ | ⟨h | h, hn⟩ <;> subst h <;> simp [formVals] at hv <;> subst hv <;>
      exact ⟨by simp, by simpa using hn⟩
  | str s => simp [formVals, Fits]

theorem devVals_fits (d : DevPropDesc) (h : DevTyped d) : ∀ v ∈ devVals d, Fits v := by
  obtain ⟨h0, h0', h1, h2, h3⟩ := h
  have hf := formFlag_lt _ _ _ h3
  have hg : (if d.getSet = true then 1 else 0) < 256 := by split <;> omega
  intro v hv
  simp only [devVals, List.cons_append, List.nil_append, List.mem_cons] at hv
  rcases hv with rfl | rfl | rfl | rfl | rfl | rfl | hv
  · exact ⟨by simp, by simpa using h0⟩
  · exact ⟨by simp, by simpa using h0'⟩
  · exact ⟨by simp, by simpa using hg⟩
  · exact h1.1
  · exact h2.1
  · exact ⟨by simp, by simpa using hf⟩
  · exact formVals_fits _ _ _ h3 v hv

theorem objVals_fits (d : ObjPropDesc) (h : ObjTyped d) : ∀ v ∈ objVals d, Fits v := by
  obtain ⟨h0, h0', h1, h2, h3⟩ := h
  have hf := formFlag_lt _ _ _ h3
  have hg : (if d.getSet = true then 1 else 0) < 256 := by split <;> omega
  intro v hv
  simp only [objVals, List.cons_append, List.nil_append, List.mem_cons] at hv
  rcases hv with rfl | rfl | rfl | rfl | rfl | rfl | hv
  · exact ⟨by simp, by simpa using h0⟩
  · exact ⟨by simp, by simpa using h0'⟩
  · exact ⟨by simp, by simpa using hg⟩
  · exact h1.1
  · exact ⟨by simp, by simpa using h2⟩
  · exact ⟨by simp, by simpa using hf⟩
  · exact formVals_fits _ _ _ h3 v hv

theorem enc_int (w v : Nat) : enc (.int w v) = intBytes w v := rfl

theorem getset_eq (b : Bool) : ((if b = true then 1 else 0 : Nat) == 1) = b := by cases b <;> rfl

theorem takeDev_at (d : DevPropDesc) (h : DevTyped d) (post : List UInt8) :
    takeDevPropDesc (encs (devVals d) ++ post) =
      some ({ d with defVal := shown d.defVal, curVal := shown d.curVal, form := shownForm d.form }, post) := by
  obtain ⟨h0, h0', h1, h2, h3⟩ := h
  have hf := formFlag_lt _ _ _ h3
  have hg : (if d.getSet = true then 1 else 0) < 256 := by split <;> omega
  have hcv : d.curVal.ty = d.defVal.ty := by
    have a := h1.2; have b := h2.2; rw [a] at b; simpa using b.symm
  simp only [encs, devVals, List.cons_append, List.nil_append, List.flatMap_cons, List.append_assoc]
  unfold takeDevPropDesc
  have e1 := fun p => takeInt_at 2 d.code p (by simpa using h0)
  have e2 := fun p => takeInt_at 2 d.dtype p (by simpa using h0')
  have e3 := fun p => takeInt_at 1 (if d.getSet = true then 1 else 0) p (by simpa using hg)
  have e4 := fun p => takeVal_at d.defVal p h1.1
  have e5 := fun p => takeVal_at d.curVal p h2.1
  rw [hcv] at e5
  have e6 := fun p => takeInt_at 1 d.flag p (by simpa using hf)
  have e7 := takeForm_at d.dtype d.flag _ h1.2 d.form post h3
  simp [enc_int, e1, e2, e3, e4, e5, e6, e7, h1.2, getset_eq]

theorem takeObj_at (d : ObjPropDesc) (h : ObjTyped d) (post : List UInt8) :
    takeObjPropDesc (encs (objVals d) ++ post) =
      some ({ d with defVal := shown d.defVal, form := shownForm d.form }, post) := by
  obtain ⟨h0, h0', h1, h2, h3⟩ := h
  have hf := formFlag_lt _ _ _ h3
  have hg : (if d.getSet = true then 1 else 0) < 256 := by split <;> omega
  simp only [encs, objVals, List.cons_append, List.nil_append, List.flatMap_cons, List.append_assoc]
  unfold takeObjPropDesc
  have e1 := fun p => takeInt_at 2 d.code p (by simpa using h0)
  have e2 := fun p => takeInt_at 2 d.dtype p (by simpa using h0')
  have e3 := fun p => takeInt_at 1 (if d.getSet = true then 1 else 0) p (by simpa using hg)
  have e4 := fun p => takeVal_at d.defVal p h1.1
  have e5 := fun p => takeInt_at 4 d.group p (by simpa using h2)
  have e6 := fun p => takeInt_at 1 d.flag p (by simpa using hf)
  have e7 := takeForm_at d.dtype d.flag _ h1.2 d.form post h3
  simp [enc_int, e1, e2, e3, e4, e5, e6, e7, h1.2, getset_eq]

end Mtp
