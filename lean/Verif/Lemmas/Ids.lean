import Verif.Model.Ids
import Verif.Lemmas.Bytes
/-! Lemmas about 128-bit ids and the allocation counters. -/
namespace Mtp

theorem inc_length (v : I128) : (I128.inc v).length = 16 := by
  simp [I128.inc, leBytes_length]

theorem u64_lt (n : Nat) : u64 n < 256 ^ 8 := by unfold u64; omega

private theorem inc_arith (a b : Nat) (ha : a < 256 ^ 8) (hb : b < 256 ^ 8) :
    u64 (a + 1) % 256 ^ 8 + 256 ^ 8 * ((if u64 (a + 1) = 0 then u64 (b + 1) else b) % 256 ^ 8) =
      (a + 256 ^ 8 * b + 1) % 2 ^ 128 := by
  unfold u64
  split <;> omega

theorem inc_val (v : I128) (h : v.length = 16) : leVal (I128.inc v) = (leVal v + 1) % 2 ^ 128 := by
  unfold I128.inc
  simp only [leVal_append, leVal_leBytes, leBytes_length]
  have h1 : leVal v = leVal (v.take 8) + 256 ^ 8 * leVal (v.drop 8) := by
    conv => lhs; rw [← List.take_append_drop 8 v, leVal_append]
    simp [h]
  rw [h1]
  apply inc_arith
  · have := leVal_lt (v.take 8); simpa [h] using this
  · have := leVal_lt (v.drop 8); simpa [h] using this

theorem cmpLoop_zero (signed : Bool) : ∀ (l : List (UInt8 × UInt8)),
    I128.cmpLoop signed l = 0 ↔ ∀ p ∈ l, p.1 = p.2
  | [] => by simp [I128.cmpLoop]
  | (a, b) :: r => by
    have hab : I128.charVal signed a - I128.charVal signed b = 0 ↔ a = b := by
      constructor
      · intro h
        apply UInt8.toNat_inj.mp
        have ha := a.toNat_lt; have hb := b.toNat_lt
        unfold I128.charVal at h
        split at h <;> split at h <;> omega
      · rintro rfl; omega
    simp only [I128.cmpLoop, List.mem_cons, forall_eq_or_imp]
    split
    · next h => rw [cmpLoop_zero signed r]; simp [hab.mp h]
    · next h => exact ⟨fun e => absurd e h, fun e => absurd (hab.mpr e.1) h⟩

theorem zip_all_eq : ∀ {a b : List UInt8}, a.length = b.length →
    ((∀ p ∈ a.zip b, p.1 = p.2) ↔ a = b)
  | [], [], _ => by simp
  | x :: a, y :: b, h => by
    simp only [List.zip_cons_cons, List.mem_cons, forall_eq_or_imp, List.cons.injEq]
    rw [zip_all_eq (by simpa using h)]

theorem compare_zero (signed : Bool) {a b : I128} (h : a.length = b.length) :
    I128.compare signed a b = 0 ↔ a = b := by
  unfold I128.compare
  rw [cmpLoop_zero, zip_all_eq (by simpa using h)]
  exact List.reverse_inj

/-- big-endian value -/
def beVal : List UInt8 → Nat
  | [] => 0
  | b :: r => b.toNat * 256 ^ r.length + beVal r

theorem beVal_lt : ∀ l : List UInt8, beVal l < 256 ^ l.length
  | [] => by simp [beVal]
  | b :: r => by
    have := beVal_lt r
    have hb := b.toNat_lt
    simp only [beVal, List.length_cons, Nat.pow_succ]
    have : b.toNat * 256 ^ r.length ≤ 255 * 256 ^ r.length := Nat.mul_le_mul_right _ (by omega)
    omega

theorem beVal_append (a b : List UInt8) : beVal (a ++ b) = beVal a * 256 ^ b.length + beVal b := by
  induction a with
  | nil => simp [beVal]
  | cons x a ih =>
    simp only [List.cons_append, beVal, List.length_append, ih, Nat.pow_add, Nat.add_mul,
      Nat.mul_assoc, Nat.add_assoc]

theorem beVal_reverse (a : List UInt8) : beVal a.reverse = leVal a := by
  induction a with
  | nil => rfl
  | cons x a ih => simp [beVal_append, beVal, leVal, ih]; omega

theorem cmpLoop_order : ∀ (a b : List UInt8), a.length = b.length →
    (I128.cmpLoop false (a.zip b) < 0 ↔ beVal a < beVal b)
  | [], [], _ => by simp [I128.cmpLoop, beVal]
  | x :: a, y :: b, h => by
    have hl : a.length = b.length := by simpa using h
    have ih := cmpLoop_order a b hl
    have ha := beVal_lt a; have hb := beVal_lt b
    simp only [List.zip_cons_cons, I128.cmpLoop, I128.charVal, Bool.false_eq_true, false_and,
      ite_false, beVal]
    rw [hl] at *
    generalize 256 ^ b.length = W at *
    split
    · next e =>
      have : x.toNat = y.toNat := by omega
      rw [this, ih]; omega
    · next e =>
      rcases Nat.lt_or_ge x.toNat y.toNat with g | g
      · have : (x.toNat + 1) * W ≤ y.toNat * W := Nat.mul_le_mul_right _ g
        rw [Nat.add_mul] at this
        constructor <;> intro <;> omega
      · have : (y.toNat + 1) * W ≤ x.toNat * W := Nat.mul_le_mul_right _ (by omega)
        rw [Nat.add_mul] at this
        constructor <;> intro <;> omega

theorem lt_unsigned {a b : I128} (h : a.length = b.length) :
    I128.lt false a b = decide (leVal a < leVal b) := by
  unfold I128.lt I128.compare
  have := cmpLoop_order a.reverse b.reverse (by simpa using h)
  rw [beVal_reverse, beVal_reverse] at this
  simp [this]

theorem gt_unsigned {a b : I128} (h : a.length = b.length) :
    I128.gt false a b = decide (leVal b < leVal a) := by
  have hl := lt_unsigned h
  have hz := compare_zero false h
  unfold I128.gt I128.lt at *
  simp only [decide_eq_decide] at *
  constructor
  · intro g
    rcases Nat.lt_trichotomy (leVal a) (leVal b) with c | c | c
    · have := hl.mpr c; omega
    · have := hz.mpr (leVal_inj h c); omega
    · exact c
  · intro g
    rcases Int.lt_trichotomy (I128.compare false a b) 0 with c | c | c
    · have := hl.mp c; omega
    · have := hz.mp c; subst this; omega
    · exact c

/-! ### handles -/

theorem handlesGiven_snd (n : Nat) : (handlesGiven n).2 = n % 4294967296 := by
  induction n with
  | zero => rfl
  | succ n ih => simp only [handlesGiven, nextHandle, ih, u32]; omega

theorem handlesGiven_fst (n : Nat) (h : n ≤ 4294967294) : (handlesGiven n).1 = List.range' 1 n := by
  induction n with
  | zero => rfl
  | succ n ih =>
    have h2 := handlesGiven_snd n
    simp only [handlesGiven, nextHandle, ih (by omega), h2]
    have : u32 (n % 4294967296 + 1) = n + 1 := by unfold u32; omega
    rw [this, if_neg (by omega), List.range'_1_concat, Nat.add_comm 1 n]

/-! ### persistent ids -/

variable {Path : Type} [DecidableEq Path]

/-- A table is well formed below `n`: ids are 16 bytes, at most the largest, which is at most `n`. -/
def TableOk (n : Nat) (t : IdTable Path) : Prop :=
  t.largest.length = 16 ∧ leVal t.largest ≤ n ∧
    ∀ e ∈ t.ids, e.2.length = 16 ∧ leVal e.2 ≤ leVal t.largest

def IdsOk (n : Nat) (s : IdState Path) (given : List I128) : Prop :=
  (∀ t ∈ s.disk, TableOk n t) ∧
  ∀ next mem, s.run = some (next, mem) →
    next.length = 16 ∧ leVal next ≤ n ∧ (∀ t ∈ s.disk, leVal t.largest ≤ leVal next) ∧
    (∀ t ∈ mem, TableOk (leVal next) t) ∧ ∀ v ∈ given, leVal v ≤ leVal next

theorem TableOk.mono {n m : Nat} {t : IdTable Path} (h : TableOk n t) (hnm : n ≤ m) : TableOk m t :=
  ⟨h.1, by have := h.2.1; omega, h.2.2⟩

theorem highWater_spec (n : Nat) (ts : List (IdTable Path)) (h : ∀ t ∈ ts, TableOk n t) :
    (highWater false ts).length = 16 ∧ leVal (highWater false ts) ≤ n ∧
      ∀ t ∈ ts, leVal t.largest ≤ leVal (highWater false ts) := by
  unfold highWater
  have : ∀ (ts : List (IdTable Path)) (m : I128), m.length = 16 → leVal m ≤ n →
      (∀ t ∈ ts, TableOk n t) →
      let r := ts.foldl (fun m t => if I128.gt false t.largest m then t.largest else m) m
      r.length = 16 ∧ leVal r ≤ n ∧ leVal m ≤ leVal r ∧ ∀ t ∈ ts, leVal t.largest ≤ leVal r := by
    intro ts
    induction ts with
    | nil => intro m h1 h2 _; simp [h1, h2]
    | cons t ts ih =>
      intro m h1 h2 h3
      have ht := h3 t (by simp)
      simp only [List.foldl_cons]
      rw [gt_unsigned (by rw [ht.1, h1])]
      simp only [decide_eq_true_eq]
      split
      · next g =>
        obtain ⟨a, b, c, d⟩ := ih t.largest ht.1 ht.2.1 (fun t' h' => h3 t' (by simp [h']))
        refine ⟨a, b, by omega, ?_⟩
        intro t' h'
        rcases List.mem_cons.mp h' with e | e
        · subst e; exact c
        · exact d t' e
      · next g =>
        obtain ⟨a, b, c, d⟩ := ih m h1 h2 (fun t' h' => h3 t' (by simp [h']))
        refine ⟨a, b, by omega, ?_⟩
        intro t' h'
        rcases List.mem_cons.mp h' with e | e
        · subst e; omega
        · exact d t' e
  obtain ⟨a, b, _, d⟩ := this ts (I128.mk 0 0) (by decide) (by
    have : leVal (I128.mk 0 0) = 0 := by decide
    omega) h
  exact ⟨a, b, d⟩

theorem TableOk_filter {n : Nat} {t : IdTable Path} (h : TableOk n t) (f : Path × I128 → Bool) :
    TableOk n { t with ids := t.ids.filter f } :=
  ⟨h.1, h.2.1, fun e he => h.2.2 e (List.mem_filter.mp he).1⟩

theorem TableOk_take {n : Nat} {t : IdTable Path} (h : TableOk n t) (k : Nat) :
    TableOk n { t with ids := t.ids.take k } :=
  ⟨h.1, h.2.1, fun e he => h.2.2 e (List.mem_of_mem_take he)⟩

theorem giveId_some {next : I128} {t : IdTable Path} {p : Path} {w : I128}
    (h : t.ids.lookup p = some w) : giveId next t p = (w, false, next, t) := by
  simp [giveId, h]

theorem giveId_none {next : I128} {t : IdTable Path} {p : Path}
    (h : t.ids.lookup p = none) : giveId next t p =
      (I128.inc next, true, I128.inc next,
        { largest := I128.inc next, ids := (p, I128.inc next) :: t.ids }) := by
  simp [giveId, h]

/-- the freshly allocated id is above everything known -/
theorem step_fresh {n : Nat} {s : IdState Path} {given : List I128} {op : IdOp Path} {v : I128}
    (h : IdsOk n s given) (hn : n + 1 < 2 ^ 128) (e : (s.step false op).2 = some v) :
    (∀ t ∈ s.disk, leVal t.largest < leVal v) ∧ (∀ w ∈ given, leVal w < leVal v) ∧
    (∀ next mem, s.run = some (next, mem) → ∀ t ∈ mem, leVal t.largest < leVal v) ∧
    v.length = 16 := by
  cases op with
  | request i p =>
    unfold IdState.step at e
    cases hr : s.run with
    | none => simp [hr] at e
    | some nm =>
      obtain ⟨next, mem⟩ := nm
      simp only [hr] at e
      cases hm : mem[i]? with
      | none => simp [hm] at e
      | some t =>
        simp only [hm] at e
        obtain ⟨h1, h2, h3, h4, h5⟩ := h.2 next mem hr
        cases hlk : t.ids.lookup p with
        | some w => simp [giveId_some hlk] at e
        | none =>
          simp only [giveId_none hlk, ite_true, Option.some.injEq] at e
          subst e
          have hv := inc_val next h1
          rw [Nat.mod_eq_of_lt (by omega)] at hv
          refine ⟨fun t ht => ?_, fun w hw => ?_, fun next' mem' e' t ht => ?_, inc_length _⟩
          · have := h3 t ht; omega
          · have := h5 w hw; omega
          · cases e'; have := (h4 t ht).2.1; omega
  | start => simp [IdState.step] at e
  | exit => simp [IdState.step] at e
  | forget i p =>
    unfold IdState.step at e
    simp only at e
    split at e <;> try split at e
    all_goals simp at e
  | save i =>
    unfold IdState.step at e
    simp only at e
    split at e <;> try split at e
    all_goals simp at e
  | cut i k =>
    unfold IdState.step at e
    simp only at e
    split at e
    all_goals simp at e

theorem step_ok {n : Nat} {s : IdState Path} {given : List I128} (op : IdOp Path)
    (h : IdsOk n s given) (hn : n + 1 < 2 ^ 128) :
    IdsOk (n + 1) (s.step false op).1
      ((match op with | .start => [] | _ => given) ++ (s.step false op).2.toList) := by
  have keep : IdsOk (n + 1) s given := by
    refine ⟨fun t ht => (h.1 t ht).mono (by omega), fun next mem hr => ?_⟩
    obtain ⟨h1, h2, h3, h4, h5⟩ := h.2 next mem hr
    exact ⟨h1, by omega, h3, h4, h5⟩
  cases op with
  | start =>
    obtain ⟨a, b, c⟩ := highWater_spec n s.disk h.1
    refine ⟨keep.1, fun next mem hr => ?_⟩
    simp only [IdState.step, Option.some.injEq, Prod.mk.injEq] at hr
    obtain ⟨rfl, rfl⟩ := hr
    refine ⟨a, by omega, c, fun t ht => ⟨(h.1 t ht).1, c t ht, (h.1 t ht).2.2⟩, ?_⟩
    simp [IdState.step]
  | exit =>
    refine ⟨keep.1, fun next mem hr => ?_⟩
    simp [IdState.step] at hr
  | request i p =>
    unfold IdState.step
    cases hr : s.run with
    | none => simpa [hr] using keep
    | some nm =>
      obtain ⟨next, mem⟩ := nm
      simp only
      cases hm : mem[i]? with
      | none => simpa [hr] using keep
      | some t =>
        obtain ⟨h1, h2, h3, h4, h5⟩ := h.2 next mem hr
        cases hlk : t.ids.lookup p with
        | some w =>
          simp only [giveId_some hlk]
          have hset : mem.set i t = mem := by
            obtain ⟨hi, rfl⟩ := List.getElem?_eq_some_iff.mp hm
            exact List.set_getElem_self hi
          simp only [hset]
          refine ⟨keep.1, fun next' mem' e' => ?_⟩
          simp only [Option.some.injEq, Prod.mk.injEq] at e'
          obtain ⟨rfl, rfl⟩ := e'
          refine ⟨h1, by omega, h3, h4, by simpa using h5⟩
        | none =>
          simp only [giveId_none hlk]
          have hv := inc_val next h1
          rw [Nat.mod_eq_of_lt (by omega)] at hv
          refine ⟨keep.1, fun next' mem' e' => ?_⟩
          simp only [Option.some.injEq, Prod.mk.injEq] at e'
          obtain ⟨rfl, rfl⟩ := e'
          refine ⟨inc_length _, by omega, fun t ht => by have := h3 t ht; omega, ?_, ?_⟩
          · intro t' ht'
            rcases List.mem_or_eq_of_mem_set ht' with g | g
            · exact (h4 t' g).mono (by omega)
            · subst g
              refine ⟨inc_length _, Nat.le_refl _, fun e he => ?_⟩
              rcases List.mem_cons.mp he with g | g
              · subst g; exact ⟨inc_length _, Nat.le_refl _⟩
              · have ht := h4 t (List.mem_of_getElem? hm)
                exact ⟨(ht.2.2 e g).1, by have := (ht.2.2 e g).2; have := ht.2.1; simp only; omega⟩
          · intro v hv'
            simp only [ite_true, Option.toList_some, List.mem_append, List.mem_singleton] at hv'
            rcases hv' with g | g
            · have := h5 v g; omega
            · subst g; omega
  | forget i p =>
    unfold IdState.step
    cases hr : s.run with
    | none => simpa [hr] using keep
    | some nm =>
      obtain ⟨next, mem⟩ := nm
      simp only
      cases hm : mem[i]? with
      | none => simpa [hr] using keep
      | some t =>
        obtain ⟨h1, h2, h3, h4, h5⟩ := h.2 next mem hr
        refine ⟨keep.1, fun next' mem' e' => ?_⟩
        simp only [Option.some.injEq, Prod.mk.injEq] at e'
        obtain ⟨rfl, rfl⟩ := e'
        refine ⟨h1, by omega, h3, ?_, by simpa using h5⟩
        intro t' ht'
        rcases List.mem_or_eq_of_mem_set ht' with g | g
        · exact h4 t' g
        · subst g; exact TableOk_filter (h4 t (List.mem_of_getElem? hm)) _
  | save i =>
    unfold IdState.step
    cases hr : s.run with
    | none => simpa [hr] using keep
    | some nm =>
      obtain ⟨next, mem⟩ := nm
      simp only
      cases hm : mem[i]? with
      | none => simpa [hr] using keep
      | some t =>
        obtain ⟨h1, h2, h3, h4, h5⟩ := h.2 next mem hr
        have ht := h4 t (List.mem_of_getElem? hm)
        refine ⟨fun t' ht' => ?_, fun next' mem' e' => ?_⟩
        · rcases List.mem_or_eq_of_mem_set ht' with g | g
          · exact keep.1 t' g
          · subst g; exact ht.mono (by omega)
        · simp only [hr, Option.some.injEq, Prod.mk.injEq] at e'
          obtain ⟨rfl, rfl⟩ := e'
          refine ⟨h1, by omega, fun t' ht' => ?_, h4, by simpa using h5⟩
          rcases List.mem_or_eq_of_mem_set ht' with g | g
          · exact h3 t' g
          · subst g; exact ht.2.1
  | cut i k =>
    unfold IdState.step
    simp only
    cases hm : s.disk[i]? with
    | none => simpa using keep
    | some t =>
      have ht := h.1 t (List.mem_of_getElem? hm)
      refine ⟨fun t' ht' => ?_, fun next' mem' e' => ?_⟩
      · rcases List.mem_or_eq_of_mem_set ht' with g | g
        · exact keep.1 t' g
        · subst g; exact TableOk_take (ht.mono (by omega)) k
      · obtain ⟨h1, h2, h3, h4, h5⟩ := h.2 next' mem' e'
        refine ⟨h1, by omega, fun t' ht' => ?_, h4, by simpa using h5⟩
        rcases List.mem_or_eq_of_mem_set ht' with g | g
        · exact h3 t' g
        · subst g; exact h3 t (List.mem_of_getElem? hm)

theorem exec_ok {n : Nat} {s : IdState Path} {given : List I128} (ops : List (IdOp Path))
    (h : IdsOk n s given) (hn : n + ops.length < 2 ^ 128) :
    IdsOk (n + ops.length) (s.exec false ops given).1 (s.exec false ops given).2 := by
  induction ops generalizing n s given with
  | nil => simpa [IdState.exec] using h
  | cons op ops ih =>
    simp only [List.length_cons] at hn ⊢
    have := ih (step_ok op h (by omega)) (by omega)
    rw [Nat.add_assoc, Nat.add_comm 1] at this
    exact this

end Mtp
