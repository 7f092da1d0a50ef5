import Verif.Model.PropSet
import Verif.Spec.PropSet
import Verif.Lemmas.PropList
import Verif.Lemmas.Rx
/-! Reading the datasets of the property setting requests. -/
namespace Mtp
open Spec

theorem Rx.getVariant_at {r : Rx} {pre post : List UInt8} {dt : Nat} {v : Val} (hv : Typed dt v)
    (h : r.At pre (enc v ++ post)) :
    r.getVariant dt = .ok (some (received v), { r with off := pre.length + (enc v).length }) := by
  unfold Rx.getVariant
  rw [dtShape_eq, hv.2]
  simp only [Rx.get_at hv.1 h, Res.bind_ok, Res.pure_eq]

theorem received_typed {dt : Nat} {v : Val} (h : Typed dt v) : Typed dt (received v) := by
  cases v with
  | int w n => exact h
  | arr w n => exact h
  | str s => exact ⟨trivial, h.2⟩

theorem received_ty (v : Val) : (received v).ty = v.ty := by cases v <;> rfl

theorem asName_received (v : Val) (s : QStr) (h : received v = .str s) : asName (some (received v)) = s := by
  rw [h]; rfl

theorem encs_append' (a b : List Val) : encs (a ++ b) = encs a ++ encs b := by simp [encs]

theorem encs_elem (e : Elem) : encs (elemData e) =
    intBytes 4 e.handle ++ (intBytes 2 e.code ++ (intBytes 2 e.dtype ++ enc e.val)) := by
  simp [encs, elemData, enc]

/-- A position before an element, seen field by field. -/
theorem Rx.elem_at {r : Rx} {pre post : List UInt8} {e : Elem} (he : SoundElem e)
    (h : r.At pre (encs (elemData e) ++ post)) :
    ∃ r1 r2 r3 r4, r.getInt 4 = .ok (e.handle, r1) ∧ r1.getInt 2 = .ok (e.code, r2) ∧ r2.getInt 2 = .ok (e.dtype, r3) ∧
      r3.getVariant e.dtype = .ok (some (received e.val), r4) ∧ r4.At (pre ++ encs (elemData e)) post := by
  obtain ⟨h1, h2, h3, h4⟩ := he
  rw [encs_elem] at h
  simp only [List.append_assoc] at h
  have a1 := Rx.getInt_at h (by simpa using h1)
  have b1 := h.advance
  rw [intBytes_length] at b1
  have a2 := Rx.getInt_at b1 (by simpa using h2)
  have b2 := b1.advance
  have a3 := Rx.getInt_at b2 (by simpa using h3)
  have b3 := b2.advance
  have a4 := Rx.getVariant_at h4 b3
  have b4 := b3.advance
  simp only [intBytes_length] at a2 a3 a4 b2 b3 b4
  refine ⟨_, _, _, _, a1, a2, a3, a4, ?_⟩
  rw [encs_elem]
  simpa only [List.append_assoc] using b4

/-- The outcome of one element as a function of the element. -/
def elemSet (env : NameEnv) (c : DevCaps) (format : Nat → Nat) (s : Fac (Option Val)) (e : Elem) : Res (Fac (Option Val) × Resp) :=
  if s.store.has e.handle then
    match propDescOf c format s e.handle e.code with
    | (.ok, some d) => if d.getSet then facSet env s e.handle [(d.code, some (received e.val))] else .ok (s, .accessDenied)
    | (r, _) => .ok (s, r)
  else .ok (s, .invalidObjectHandle)

theorem propDesc_ok (c : DevCaps) (format : Nat → Nat) (s : Fac (Option Val)) (h p : Nat) :
    (propDescOf c format s h p).2 = none → (propDescOf c format s h p).1 ≠ .ok := by
  unfold propDescOf
  split
  · by_cases hm : u16 p ∈ propsSupported c (c.category (u16 (format h)))
    · obtain ⟨d, e, _⟩ := desc_supported c _ _ hm
      rw [e]; simp
    · rw [objectPropDesc_none c _ _ hm]; simp
  · simp

theorem setElem_at (env : NameEnv) (c : DevCaps) (format : Nat → Nat) (s : Fac (Option Val)) {r : Rx} {pre post : List UInt8}
    {e : Elem} (he : SoundElem e) (h : r.At pre (encs (elemData e) ++ post)) :
    match elemSet env c format s e with
    | .ub u => setElem env c format s r = .ub u
    | .ok (s', .ok) => ∃ r', setElem env c format s r = .ok (s', .ok, r') ∧ r'.At (pre ++ encs (elemData e)) post
    | .ok (s', q) => ∃ r', setElem env c format s r = .ok (s', q, r') := by
  obtain ⟨r1, r2, r3, r4, e1, e2, e3, e4, h4⟩ := Rx.elem_at he h
  unfold setElem elemSet
  simp only [e1, Res.bind_ok]
  by_cases hh : s.store.has e.handle
  · simp only [hh, if_true, e2, Res.bind_ok]
    have hd := propDesc_ok c format s e.handle e.code
    cases hp : propDescOf c format s e.handle e.code with
    | mk q od =>
      rw [hp] at hd
      cases od with
      | none =>
        cases q with
        | ok => exact absurd rfl (hd rfl)
        | _ => exact ⟨_, rfl⟩
      | some d =>
        cases q with
        | ok =>
          simp only
          by_cases hg : d.getSet
          · simp only [hg, if_true, e3, e4, Res.bind_ok]
            cases hf : facSet env s e.handle [(d.code, some (received e.val))] with
            | ub u => rfl
            | ok w =>
              obtain ⟨s', q⟩ := w
              cases q with
              | ok => exact ⟨_, rfl, h4⟩
              | _ => exact ⟨_, rfl⟩
          · simp only [hg]
            exact ⟨_, rfl⟩
        | _ => exact ⟨_, rfl⟩
  · simp only [hh]
    exact ⟨_, rfl⟩

theorem facSet_other (env : NameEnv) (s : Fac (Option Val)) (h p : Nat) (v : Option Val) (hh : s.store.has h = true)
    (hp : p ≠ 0xDC07) : facSet env s h [(p, v)] = .ok ({ s with cache := s.cache.addList h [(p, v)] }, .ok) := by
  unfold facSet
  rw [if_pos hh]
  simp [storageSet, hp]

theorem facSet_name (env : NameEnv) (s : Fac (Option Val)) (h : Nat) (v : Option Val) (hh : s.store.has h = true)
    (h0 : h ≠ 0) :
    facSet env s h [(0xDC07, v)] =
      if env.wellFormed (asName v) = true ∧ env.taken s.store h (asName v) = false then
        .ok ({ s with
          store := if env.renames s.store h (asName v) then
            s.store.setVals h (Fac.over (s.store.val h) [(0xDC07, some (.str (asName v)))]) else s.store
          cache := s.cache.addList h [(0xDC07, v)] }, .ok)
      else .ok (s, .invalidObjectPropValue) := by
  unfold facSet
  rw [if_pos hh]
  simp only [storageSet, if_true, h0, if_false]
  cases hw : env.wellFormed (asName v) <;> cases ht : env.taken s.store h (asName v) <;>
    cases hr : env.renames s.store h (asName v) <;> simp

end Mtp
