import Verif.Spec.Wire
/-! Lemmas on bytes, memory and the wire specification. -/
namespace Mtp

theorem leBytes_length (w v : Nat) : (leBytes w v).length = w := by
  induction w generalizing v with
  | zero => rfl
  | succ w ih => simp [leBytes, ih]

theorem leBytes_eq (w v : Nat) : leBytes w v = Spec.intBytes w v := by
  unfold Spec.intBytes
  induction w generalizing v with
  | zero => rfl
  | succ w ih =>
    rw [leBytes, ih, List.range_succ_eq_map]
    simp only [List.map_cons, List.map_map, Nat.pow_zero, Nat.div_one, List.cons.injEq, true_and]
    apply List.map_congr_left
    intro i _
    simp [Nat.div_div_eq_div_mul, Nat.pow_succ, Nat.mul_comm]

theorem intBytes_length (w v : Nat) : (Spec.intBytes w v).length = w := by
  simp [Spec.intBytes]

theorem leVal_leBytes (w v : Nat) : leVal (leBytes w v) = v % 256 ^ w := by
  induction w generalizing v with
  | zero => simp [leBytes, leVal, Nat.mod_one]
  | succ w ih =>
    simp only [leBytes, leVal, ih]
    have h : (UInt8.ofNat (v % 256)).toNat = v % 256 := by
      simp [UInt8.toNat_ofNat']
    rw [h, Nat.pow_succ, Nat.mul_comm (256 ^ w) 256, Nat.mod_mul]

theorem leVal_intBytes (w v : Nat) (h : v < 256 ^ w) : leVal (Spec.intBytes w v) = v := by
  rw [← leBytes_eq, leVal_leBytes, Nat.mod_eq_of_lt h]

theorem leVal_lt (bs : List UInt8) : leVal bs < 256 ^ bs.length := by
  induction bs with
  | nil => simp [leVal]
  | cons b bs ih =>
    simp only [leVal, List.length_cons, Nat.pow_succ]
    have := b.toNat_lt
    omega

theorem leBytes_leVal (bs : List UInt8) : leBytes bs.length (leVal bs) = bs := by
  induction bs with
  | nil => rfl
  | cons b bs ih =>
    simp only [leVal, List.length_cons, leBytes]
    have hb := b.toNat_lt
    have h1 : (b.toNat + 256 * leVal bs) % 256 = b.toNat := by omega
    have h2 : (b.toNat + 256 * leVal bs) / 256 = leVal bs := by omega
    rw [h1, h2, ih]
    simp

theorem leVal_inj {a b : List UInt8} (hl : a.length = b.length) (h : leVal a = leVal b) : a = b := by
  rw [← leBytes_leVal a, ← leBytes_leVal b, hl, h]

theorem leVal_append (a b : List UInt8) : leVal (a ++ b) = leVal a + 256 ^ a.length * leVal b := by
  induction a with
  | nil => simp [leVal]
  | cons x a ih =>
    simp only [List.cons_append, leVal, ih, List.length_cons, Nat.pow_succ, Nat.mul_add]
    rw [Nat.mul_comm (256 ^ a.length) 256, Nat.mul_assoc]
    omega

theorem u32_of_lt {n : Nat} (h : n < 4294967296) : u32 n = n := Nat.mod_eq_of_lt h
theorem u32_lt (n : Nat) : u32 n < 4294967296 := Nat.mod_lt _ (by decide)
theorem u8_of_lt {n : Nat} (h : n < 256) : u8 n = n := Nat.mod_eq_of_lt h

theorem initBytes_map_some (bs : List UInt8) : initBytes (bs.map some) = some bs := by
  induction bs with
  | nil => rfl
  | cons b bs ih => simp [initBytes, ih]

theorem initBytes_eq_some {m : List (Option UInt8)} {bs : List UInt8}
    (h : initBytes m = some bs) : m = bs.map some := by
  induction m generalizing bs with
  | nil => simp [initBytes] at h; subst h; rfl
  | cons c m ih =>
    cases c with
    | none => simp [initBytes] at h
    | some b =>
      simp only [initBytes, Option.map_eq_some_iff] at h
      obtain ⟨r, hr, rfl⟩ := h
      simp [ih hr]

/-- Storing right after an initialised prefix extends it. -/
theorem store_extend {m : Mem} {all src : List UInt8} (hp : m.take all.length = all.map some)
    (hle : all.length + src.length ≤ m.length) :
    ∃ m', Mem.store m all.length src = .ok m' ∧ m'.length = m.length ∧
      m'.take (all.length + src.length) = (all ++ src).map some := by
  refine ⟨_, by simp only [Mem.store, hle, if_true]; rfl, ?_, ?_⟩
  · simp only [List.length_append, List.length_take, List.length_map, List.length_drop]; omega
  · rw [List.take_append_of_le_length, List.take_of_length_le, hp]
    · simp
    · simp; omega
    · simp; omega

theorem load_of_prefix {m : Mem} {all : List UInt8} {off n : Nat}
    (hp : m.take all.length = all.map some) (h : off + n ≤ all.length) :
    Mem.load m off n = .ok ((all.drop off).take n) := by
  have hlen : all.length ≤ m.length := by
    have := congrArg List.length hp
    simp at this; omega
  unfold Mem.load
  by_cases hn : n = 0
  · simp [hn]
  · have hm : (m.drop off).take n = ((all.drop off).take n).map some := by
      have : (m.drop off).take n = ((m.take all.length).drop off).take n := by
        rw [List.drop_take, List.take_take, Nat.min_eq_left (by omega)]
      rw [this, hp, ← List.map_drop, ← List.map_take]
    rw [if_neg hn, if_pos (by omega), hm, initBytes_map_some]

theorem realloc_length (m : Mem) (n : Nat) : (Mem.realloc m n).length = n := by
  simp only [Mem.realloc, List.length_append, List.length_take, List.length_replicate]; omega

theorem realloc_take {m : Mem} {n k : Nat} (h1 : k ≤ m.length) (h2 : k ≤ n) :
    (Mem.realloc m n).take k = m.take k := by
  unfold Mem.realloc
  rw [List.take_append_of_le_length (by simp; omega), List.take_take, Nat.min_eq_left h2]

end Mtp
