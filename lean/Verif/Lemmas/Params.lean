import Verif.Lemmas.Rx
namespace Mtp

/-- The first five parameter slots after `i` parameters were stored. -/
theorem paramLoop_spec (m : Mem) (hd : List UInt8) (hh : hd.length = 12) (ps : List Nat)
    (junk : List UInt8) (hps : ∀ v ∈ ps, v < 2 ^ 32)
    (hm : m = (hd ++ ps.flatMap (Spec.intBytes 4) ++ junk).map some)
    (k i : Nat) (slots : List Nat) (hk : i + k = ps.length) (hs : slots.length = 5)
    (hpre : slots = (ps.take i ++ List.replicate (5 - i) 0)) (hi : i ≤ 5) :
    Rx.paramLoop m k i slots =
      if ps.length ≤ 5 then .ok (ps ++ List.replicate (5 - ps.length) 0) else .ub .oobWrite := by
  induction k generalizing i slots with
  | zero =>
    simp only [Rx.paramLoop]
    have : i = ps.length := by omega
    subst this
    rw [if_pos hi, hpre, List.take_length]
  | succ k ih =>
    simp only [Rx.paramLoop]
    have hv : i < ps.length := by omega
    have hload : Mem.load m (HDR + i * 4) 4 = .ok (Spec.intBytes 4 ps[i]) := by
      have hbl := flatMap_intBytes_length 4 ps
      have hlp := load_of_prefix (m := m) (all := hd ++ ps.flatMap (Spec.intBytes 4) ++ junk)
        (off := HDR + i * 4) (n := 4)
        (by rw [hm, List.take_of_length_le (by simp)]) (by
          simp only [List.length_append, hbl, hh, HDR]; omega)
      rw [hlp]
      congr 1
      have hd1 : (hd ++ ps.flatMap (Spec.intBytes 4) ++ junk).drop (HDR + i * 4)
          = (ps.drop i).flatMap (Spec.intBytes 4) ++ junk := by
        rw [List.append_assoc, List.drop_append, List.drop_of_length_le (by rw [hh]; unfold HDR; omega),
          List.nil_append, hh]
        have : HDR + i * 4 - 12 = 4 * i := by unfold HDR; omega
        rw [this, List.drop_append_of_le_length (by rw [hbl]; omega)]
        congr 1
        have hsplit : ps.flatMap (Spec.intBytes 4) =
            (ps.take i).flatMap (Spec.intBytes 4) ++ (ps.drop i).flatMap (Spec.intBytes 4) := by
          rw [← List.flatMap_append, List.take_append_drop]
        have hl2 := flatMap_intBytes_length 4 (ps.take i)
        rw [List.length_take, Nat.min_eq_left (by omega)] at hl2
        rw [hsplit, List.drop_append_of_le_length (by omega), List.drop_of_length_le (by omega)]
        simp
      rw [hd1, List.drop_eq_getElem_cons hv, List.flatMap_cons, List.append_assoc,
        List.take_append_of_le_length (by simp [intBytes_length]),
        List.take_of_length_le (by simp [intBytes_length])]
    rw [hload]
    simp only [Res.bind_ok]
    have hlv := leVal_intBytes 4 ps[i] (by have := hps ps[i] (List.getElem_mem hv); omega)
    rw [hlv]
    by_cases h5 : i < 5
    · rw [if_pos (by omega)]
      apply ih (i + 1) (slots.set i ps[i]) (by omega) (by simp [hs])
      · rw [hpre]
        have hr : 5 - i = (5 - (i + 1)) + 1 := by omega
        have hl : (ps.take i).length = i := by simp; omega
        rw [List.set_append_right i ps[i] (by omega), hl, Nat.sub_self, hr, List.replicate_succ,
          List.set_cons_zero, List.take_succ_eq_append_getElem hv, List.append_assoc]
        rfl
      · omega
    · rw [if_neg (by omega), if_neg (by omega)]

theorem params_count (r : Rx) (n j : Nat) (hj : j < 4) (hk : 12 + 4 * n + j < 2 ^ 32)
    (hcap : r.cap = 12 + 4 * n + j) :
    u32 (u64 (r.cap + 18446744073709551616 - 12) / 4) = n := by
  rw [hcap]; unfold u32 u64; omega

theorem params_of_command (r : Rx) (n : Nat) (hty : r.containerType = .ok 1)
    (hnum : u32 (u64 (r.cap + 18446744073709551616 - 12) / 4) = n) :
    r.params = Rx.paramLoop r.mem n 0 (List.replicate 5 0) := by
  unfold Rx.params
  rw [hty, Res.bind_ok, if_pos rfl, ← hnum]

end Mtp
