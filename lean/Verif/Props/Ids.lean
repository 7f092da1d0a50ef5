import Verif.Lemmas.Ids
/-! Property theorems C12–C14: 128-bit identifiers, object handles, persistent ids. -/
namespace Props
open Mtp

private theorem ib16 {n : Nat} (h : n < 2 ^ 128) : leVal (Spec.intBytes 16 n) = n :=
  leVal_intBytes 16 n (by have : (256 : Nat) ^ 16 = 2 ^ 128 := by decide
                          omega)

/-- C12: the increment of the identifier holding the number `n` holds `n + 1` modulo 2^128. -/
theorem C12_increment (n : Nat) (h : n < 2 ^ 128) :
    I128.inc (Spec.intBytes 16 n) = Spec.intBytes 16 ((n + 1) % 2 ^ 128) := by
  apply leVal_inj
  · rw [inc_length, intBytes_length]
  · rw [inc_val _ (intBytes_length _ _), ib16 h, ib16 (Nat.mod_lt _ (by decide))]

/-- C12: whatever the signedness of `char`, `==` holds iff all 16 bytes agree. -/
theorem C12_equality (signed : Bool) (a b : I128) (ha : a.length = 16) (hb : b.length = 16) :
    I128.eq signed a b = true ↔ a = b := by
  unfold I128.eq
  rw [beq_iff_eq, compare_zero signed (by rw [ha, hb])]

/-- C12: on platforms where `char` is unsigned (ARM), `<` and `>` are the numeric order. -/
theorem C12_order_partial (m n : Nat) (hm : m < 2 ^ 128) (hn : n < 2 ^ 128) :
    I128.lt false (Spec.intBytes 16 m) (Spec.intBytes 16 n) = decide (m < n) ∧
    I128.gt false (Spec.intBytes 16 m) (Spec.intBytes 16 n) = decide (m > n) := by
  have hl : (Spec.intBytes 16 m).length = (Spec.intBytes 16 n).length := by
    rw [intBytes_length, intBytes_length]
  rw [lt_unsigned hl, gt_unsigned hl, ib16 hm, ib16 hn]
  exact ⟨rfl, rfl⟩

example : I128.lt false (Spec.intBytes 16 255) (Spec.intBytes 16 256) = true ∧
    I128.inc (Spec.intBytes 16 (2 ^ 64 - 1)) = Spec.intBytes 16 (2 ^ 64) := by decide +kernel

/-- C12 is violated where `char` is signed (x86): 128 compares below 1. -/
theorem C12_order_signed_violated :
    I128.lt true (Spec.intBytes 16 128) (Spec.intBytes 16 1) = true := by decide +kernel

/-- C13: the first 2^32 - 2 handles given out are pairwise different and none is reserved. -/
theorem C13_handles_unique_partial (n : Nat) (h : n ≤ 2 ^ 32 - 2) :
    (handlesGiven n).1.length = n ∧ (handlesGiven n).1.Nodup ∧
      ∀ x ∈ (handlesGiven n).1, x ≠ 0 ∧ x ≠ 0xFFFFFFFF := by
  rw [handlesGiven_fst n (by omega)]
  refine ⟨by simp, List.nodup_range', fun x hx => ?_⟩
  rw [List.mem_range'_1] at hx
  omega

example : (handlesGiven 5).1 = [1, 2, 3, 4, 5] := by decide

private theorem handles_succ (n : Nat) : (handlesGiven (n + 1)).1 =
    (handlesGiven n).1 ++ [(nextHandle (n % 4294967296)).1] := by
  rw [← handlesGiven_snd]; rfl

/-- C13 is violated after 2^32 - 1 requests: handle 1 is given out a second time, and the next
request returns the reserved value 0. -/
theorem C13_wrap_violated :
    (∃ n, ¬ (handlesGiven n).1.Nodup) ∧ ∃ n, 0 ∈ (handlesGiven n).1 := by
  constructor
  · refine ⟨4294967294 + 1, ?_⟩
    rw [handles_succ, handlesGiven_fst _ (Nat.le_refl _)]
    intro h
    have := (List.nodup_append.mp h).2.2 1 (by rw [List.mem_range'_1]; omega) _ (by simp; rfl)
    exact this rfl
  · refine ⟨4294967295 + 1, ?_⟩
    rw [handles_succ]
    exact List.mem_append_right _ (by simp; rfl)

/-- A daemon that never ran: `k` storages without id files. -/
def Blank (Path : Type) (k : Nat) : IdState Path :=
  { disk := List.replicate k { largest := I128.mk 0 0, ids := [] }, run := none }

/-- C14: over any history of starts, exposures, forgotten entries, saves, damaged files and exits or
crashes (fewer than 2^128 steps, `char` unsigned), an id given anew differs from every id given anew
since the daemon was started, from every id in memory and from every id in the id file of any
storage. -/
theorem C14_fresh_partial {Path : Type} [DecidableEq Path] (k : Nat) (ops : List (IdOp Path))
    (op : IdOp Path) (v : I128) (hlen : ops.length + 1 < 2 ^ 128)
    (hv : (((Blank Path k).exec false ops []).1.step false op).2 = some v) :
    v ∉ ((Blank Path k).exec false ops []).2 ∧
    (∀ t ∈ ((Blank Path k).exec false ops []).1.disk, ∀ e ∈ t.ids, e.2 ≠ v) ∧
    (∀ next mem, ((Blank Path k).exec false ops []).1.run = some (next, mem) →
      ∀ t ∈ mem, ∀ e ∈ t.ids, e.2 ≠ v) := by
  have h0 : IdsOk 0 (Blank Path k) [] := by
    refine ⟨fun t ht => ?_, fun _ _ e => by simp [Blank] at e⟩
    rw [(List.mem_replicate.mp ht).2]
    refine ⟨?_, ?_, by simp⟩
    · show (I128.mk 0 0).length = 16; decide
    · show leVal (I128.mk 0 0) ≤ 0; decide
  have h1 := exec_ok ops h0 (by omega)
  rw [Nat.zero_add] at h1
  obtain ⟨a, b, c, _⟩ := step_fresh h1 hlen hv
  refine ⟨fun hm => Nat.lt_irrefl _ (b v hm), fun t ht e he hev => ?_, fun next mem hr t ht e he hev => ?_⟩
  · have h2 := a t ht
    have h3 := ((h1.1 t ht).2.2 e he).2
    subst hev; omega
  · have h2 := c next mem hr t ht
    have h3 := (((h1.2 next mem hr).2.2.2.1 t ht).2.2 e he).2
    subst hev; omega

/-- Two storages, a restart with a saved table, and then fresh ids. -/
example : ((Blank Nat 2).exec false
    [.start, .request 0 10, .request 1 10, .request 0 11, .save 0, .exit, .start, .request 1 12]
    []).2 = [Spec.intBytes 16 4] := by decide +kernel

/-- Signed `char` (x86): after 128 objects, a restart gives an id that is already in the id file. -/
theorem C14_signed_char_violated :
    let s := ((Blank Nat 1).exec true
      (.start :: (List.range 128).map (IdOp.request 0) ++ [.save 0, .exit, .start]) []).1
    ∃ v, (s.step true (.request 0 500)).2 = some v ∧ ∃ t ∈ s.disk, ∃ e ∈ t.ids, e.2 = v := by
  refine ⟨Spec.intBytes 16 1, ?_⟩
  decide +kernel

end Props
