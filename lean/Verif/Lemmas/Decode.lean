import Verif.Spec.Decode
import Verif.Lemmas.PropDesc
/-! Decoding arbitrary received bytes. -/
namespace Mtp
open Spec

theorem load_full (all : List UInt8) (k n : Nat) :
    Mem.load (all.map some) k n =
      if n = 0 ∨ k + n ≤ all.length then .ok ((all.drop k).take n) else .ub .oobRead := by
  by_cases h0 : n = 0
  · subst h0; simp [Mem.load]
  · by_cases h : k + n ≤ all.length
    · rw [if_pos (Or.inr h), load_of_prefix (all := all) (by rw [List.take_of_length_le (by simp)]) h]
    · rw [if_neg (by omega)]
      unfold Mem.load
      rw [if_neg h0, if_neg (by simpa using h)]

theorem deser_full (r : Rx) (all : List UInt8) (hm : r.mem = all.map some) (es n : Nat)
    (hlt : all.length < 4294967296) (hno : n * es < 4294967296) (h0 : 0 < n * es) :
    r.deserialize es n = if r.off + n * es ≤ all.length then
      .ok ((all.drop r.off).take (n * es), { r with off := r.off + n * es }) else .ub .oobRead := by
  unfold Rx.deserialize
  simp only [u32_of_lt hno, hm, load_full]
  by_cases h : r.off + n * es ≤ all.length
  · rw [if_pos (Or.inr h), if_pos h]
    simp only [Res.bind_ok, Res.pure_eq]
    rw [u32_of_lt (by omega)]
  · rw [if_neg (by omega), if_neg h]; rfl

theorem getInt_full (r : Rx) (all : List UInt8) (hm : r.mem = all.map some) (w : Nat)
    (hlt : all.length < 4294967296) (hw : w ∈ [1, 2, 4, 8, 16]) :
    r.getInt w = if r.off + w ≤ all.length then
      .ok (leVal ((all.drop r.off).take w), { r with off := r.off + w }) else .ub .oobRead := by
  have hw' : 0 < w ∧ w ≤ 16 := by
    simp only [List.mem_cons, List.not_mem_nil, or_false] at hw; omega
  unfold Rx.getInt
  by_cases h16 : w = 16
  · subst h16
    rw [if_pos rfl, deser_full r all hm 1 16 hlt (by decide) (by decide)]
    split <;> rfl
  · rw [if_neg h16, deser_full r all hm w 1 hlt (by omega) (by omega)]
    simp only [Nat.one_mul]
    split <;> rfl

theorem digits_lt (bs : List UInt8) : digits bs < 256 ^ bs.length := by
  rw [digits_eq]; exact leVal_lt bs

/-- A datum completely contained in the container is decoded without touching anything outside,
and the position advances by exactly its extent. -/
theorem get_complete (r : Rx) (all : List UInt8) (hm : r.mem = all.map some)
    (hlt : all.length < 4294967296) (t : Ty) (ht : TyOk t) (n : Nat)
    (he : extent t (all.drop r.off) = some n) :
    ∃ v, r.get t = .ok (v, { r with off := r.off + n }) := by
  cases t with
  | int w =>
    simp only [extent] at he
    have hw' : 0 < w := by
      simp only [TyOk, List.mem_cons, List.not_mem_nil, or_false] at ht; omega
    split at he
    · rename_i h
      cases he
      simp only [List.length_drop] at h
      simp only [Rx.get, getInt_full r all hm _ hlt ht]
      rw [if_pos (by omega)]
      exact ⟨_, rfl⟩
    · cases he
  | arr w =>
    simp only [extent] at he
    split at he
    · rename_i h
      obtain ⟨h4, hn⟩ := h
      cases he
      simp only [List.length_drop] at h4 hn
      simp only [Rx.get, Rx.getArr, getInt_full r all hm 4 hlt (by simp)]
      rw [if_pos (by omega)]
      simp only [Res.bind_ok]
      rw [← digits_eq]
      generalize hc : digits ((all.drop r.off).take 4) = cnt at hn ⊢
      have hw' : 0 < w := by
        simp only [TyOk, List.mem_cons, List.not_mem_nil, or_false] at ht; omega
      by_cases h16 : w = 16
      · subst h16
        rw [if_pos rfl]
        simp only [hm, load_full]
        rw [if_pos (by omega)]
        simp only [Res.bind_ok, Res.pure_eq]
        rw [u32_of_lt (by omega)]
        exact ⟨_, by congr 3; omega⟩
      · rw [if_neg h16]
        by_cases hz : cnt * w = 0
        · unfold Rx.deserialize
          rw [hz]
          simp only [u32, Nat.zero_mod, Mem.load, if_true, Res.bind_ok, Nat.add_zero]
          exact ⟨_, by
            simp only [Res.pure_eq, Res.bind_ok]
            congr 3
            exact Nat.mod_eq_of_lt (by omega)⟩
        · rw [deser_full _ all (by exact hm) w cnt hlt (by omega) (by omega)]
          simp only
          rw [if_pos (by omega)]
          exact ⟨_, by simp only [Res.bind_ok, Res.pure_eq]; congr 3; omega⟩
    · cases he
  | str =>
    simp only [extent] at he
    split at he
    · rename_i h
      obtain ⟨h1, hn⟩ := h
      cases he
      simp only [List.length_drop] at h1 hn
      simp only [Rx.get, Rx.getStr, deser_full r all hm 1 1 hlt (by decide) (by decide)]
      rw [if_pos (by omega)]
      simp only [Res.bind_ok, Nat.mul_one]
      rw [← digits_eq]
      have hd := digits_lt ((all.drop r.off).take 1)
      have hd2 : digits ((all.drop r.off).take 1) < 256 := by
        rw [List.length_take, List.length_drop, Nat.min_eq_left (by omega)] at hd; simpa using hd
      generalize hc : digits ((all.drop r.off).take 1) = cnt at hn hd2 ⊢
      by_cases hz : cnt > 0
      · rw [if_pos hz, deser_full _ all (by exact hm) 2 cnt hlt (by omega) (by omega)]
        simp only
        rw [if_pos (by omega)]
        exact ⟨_, by simp only [Res.bind_ok, Res.pure_eq]; congr 3; omega⟩
      · have : cnt = 0 := by omega
        subst this
        exact ⟨.str [], by simp⟩
    · cases he

/-- If the datum is not completely contained, the read leaves the container (arrays whose byte size
overflows 32 bits excepted). -/
theorem get_incomplete (r : Rx) (all : List UInt8) (hm : r.mem = all.map some)
    (hlt : all.length < 4294967296) (t : Ty) (ht : TyOk t)
    (hna : ∀ w, t = .arr w → w = 1 ∨ w = 16)
    (he : extent t (all.drop r.off) = none) :
    r.get t = .ub .oobRead := by
  cases t with
  | int w =>
    have hw' : 0 < w := by
      simp only [TyOk, List.mem_cons, List.not_mem_nil, or_false] at ht; omega
    simp only [extent, List.length_drop] at he
    split at he
    · cases he
    · simp only [Rx.get, getInt_full r all hm _ hlt ht]
      rw [if_neg (by omega)]; rfl
  | arr w =>
    simp only [extent, List.length_drop] at he
    split at he
    · cases he
    · rename_i h
      simp only [Rx.get, Rx.getArr, getInt_full r all hm 4 hlt (by simp)]
      by_cases h4 : r.off + 4 ≤ all.length
      · rw [if_pos h4]
        simp only [Res.bind_ok]
        rw [← digits_eq]
        have hd := digits_lt ((all.drop r.off).take 4)
        have hd2 : digits ((all.drop r.off).take 4) < 4294967296 := by
          rw [List.length_take, List.length_drop, Nat.min_eq_left (by omega)] at hd; simpa using hd
        generalize hc : digits ((all.drop r.off).take 4) = cnt at h hd2 ⊢
        have hnn : ¬ (4 + cnt * w ≤ all.length - r.off) := fun x => h ⟨by omega, x⟩
        rcases hna w rfl with h1 | h1 <;> subst h1
        · rw [if_neg (by decide), deser_full _ all (by exact hm) 1 cnt hlt (by omega) (by omega)]
          simp only
          rw [if_neg (by omega)]; rfl
        · rw [if_pos rfl]
          simp only [hm, load_full]
          rw [if_neg (by omega)]; rfl
      · rw [if_neg h4]; rfl
  | str =>
    simp only [extent, List.length_drop] at he
    split at he
    · cases he
    · rename_i h
      simp only [Rx.get, Rx.getStr, deser_full r all hm 1 1 hlt (by decide) (by decide)]
      by_cases h1 : r.off + 1 * 1 ≤ all.length
      · rw [if_pos h1]
        simp only [Res.bind_ok, Nat.mul_one]
        rw [← digits_eq]
        have hd := digits_lt ((all.drop r.off).take 1)
        have hd2 : digits ((all.drop r.off).take 1) < 256 := by
          rw [List.length_take, List.length_drop, Nat.min_eq_left (by omega)] at hd; simpa using hd
        generalize hc : digits ((all.drop r.off).take 1) = cnt at h hd2 ⊢
        have hnn : ¬ (1 + 2 * cnt ≤ all.length - r.off) := fun x => h ⟨by omega, x⟩
        rw [if_pos (by omega), deser_full _ all (by exact hm) 2 cnt hlt (by omega) (by omega)]
        simp only
        rw [if_neg (by omega)]; rfl
      · rw [if_neg h1]; rfl

theorem gets_complete (r : Rx) (all : List UInt8) (hm : r.mem = all.map some)
    (hlt : all.length < 4294967296) (ts : List Ty) (ht : ∀ t ∈ ts, TyOk t)
    (he : complete ts (all.drop r.off) = true) : ∃ vs r', r.gets ts = .ok (vs, r') := by
  induction ts generalizing r with
  | nil => exact ⟨_, _, rfl⟩
  | cons t ts ih =>
    simp only [complete] at he
    cases hx : extent t (all.drop r.off) with
    | none => rw [hx] at he; cases he
    | some n =>
      rw [hx] at he
      obtain ⟨v, hv⟩ := get_complete r all hm hlt t (ht t (by simp)) n hx
      simp only [List.drop_drop] at he
      obtain ⟨vs, r', hr⟩ := ih { r with off := r.off + n } hm (fun x h => ht x (by simp [h])) he
      exact ⟨v :: vs, r', by simp only [Rx.gets, hv, Res.bind_ok, hr]; rfl⟩

theorem gets_incomplete (r : Rx) (all : List UInt8) (hm : r.mem = all.map some)
    (hlt : all.length < 4294967296) (ts : List Ty) (ht : ∀ t ∈ ts, TyOk t)
    (hna : ∀ w, Ty.arr w ∈ ts → w = 1 ∨ w = 16)
    (he : complete ts (all.drop r.off) = false) : r.gets ts = .ub .oobRead := by
  induction ts generalizing r with
  | nil => simp [complete] at he
  | cons t ts ih =>
    simp only [complete] at he
    cases hx : extent t (all.drop r.off) with
    | none =>
      simp only [Rx.gets]
      rw [get_incomplete r all hm hlt t (ht t (by simp)) (by
        intro w hw; exact hna w (by simp [hw])) hx]
      rfl
    | some n =>
      rw [hx] at he
      obtain ⟨v, hv⟩ := get_complete r all hm hlt t (ht t (by simp)) n hx
      simp only [List.drop_drop] at he
      have := ih { r with off := r.off + n } hm (fun x h => ht x (by simp [h]))
        (fun w hw => hna w (by simp [hw])) he
      simp only [Rx.gets, hv, Res.bind_ok, this]; rfl

/-- Feeding packets keeps exactly those that fit. -/
theorem appends_keep (r : Rx) (got : List UInt8) (ps : List (List UInt8))
    (hcap : r.mem.length = r.expected)
    (hacc : r.accumulated = got.length) (hb : r.mem.take got.length = got.map some)
    (hle : got.length ≤ r.expected)
    (hp : ∀ p ∈ ps, r.expected + p.length < 4294967296) :
    ∃ r', r.appends ps = .ok r' ∧ r'.mem.length = r.expected ∧
      r'.accumulated = (keepFitting r.expected got ps).length ∧
      r'.mem.take (keepFitting r.expected got ps).length
        = (keepFitting r.expected got ps).map some := by
  induction ps generalizing r got with
  | nil => exact ⟨r, rfl, hcap, hacc, hb⟩
  | cons p ps ih =>
    have hpp := hp p (by simp)
    simp only [Rx.appends, keepFitting]
    by_cases h : got.length + p.length ≤ r.expected
    · obtain ⟨r1, e1, a1, a2, a3, a4, _, _⟩ := Rx.append_step hcap hacc hb h (by omega)
      rw [if_pos h, e1]
      simp only [Res.bind_ok]
      have := ih r1 (got ++ p) a1 a3 a4 (by rw [a2, List.length_append]; exact h)
        (fun q hq => by rw [a2]; exact hp q (by simp [hq]))
      rw [a2] at this
      exact this
    · rw [if_neg h]
      have : r.append p = .ok r := by
        unfold Rx.append
        rw [if_neg (by rw [hacc, u32_of_lt (by omega)]; exact h)]
      rw [this]
      simp only [Res.bind_ok]
      exact ih r got hcap hacc hb hle (fun q hq => hp q (by simp [hq]))

end Mtp
