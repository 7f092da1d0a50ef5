import Verif.Lemmas.Dates
/-! Date texts: fixDigits and parsing. -/
namespace Mtp
open Spec

theorem getNumber_snoc (w acc : Nat) (s : List Char) :
    getNumber (w + 1) acc s = (getNumber w acc s).bind (fun p => getNumber 1 p.1 p.2) := by
  induction w generalizing acc s with
  | zero => rfl
  | succ w ih =>
    cases s with
    | nil => rfl
    | cons c r =>
      rw [getNumber, getNumber]
      cases digitVal c with
      | none => rfl
      | some d => exact ih _ _

theorem getNumber_digits (w acc n : Nat) (r : List Char) :
    getNumber w acc (fixDigits w n ++ r) = some (acc * 10 ^ w + n % 10 ^ w, r) := by
  induction w generalizing n r with
  | zero => simp [getNumber, fixDigits, Nat.mod_one]
  | succ w ih =>
    rw [getNumber_snoc, fixDigits, List.append_assoc, ih]
    simp only [Option.bind_some, List.singleton_append, getNumber, digitVal_digitChar]
    rw [Nat.pow_succ, Nat.add_mul, Nat.mul_assoc, Nat.mul_comm (10 ^ w) 10]
    rw [Nat.mod_mul]
    congr 2
    omega

theorem digitChar_of_digitVal {c : Char} {d n : Nat} (h : digitVal c = some d) : digitChar (n * 10 + d) = c ∧ d < 10 := by
  unfold digitVal at h
  split at h
  · next hc =>
    cases h
    refine ⟨?_, by omega⟩
    unfold digitChar
    have : 48 + (n * 10 + (c.toNat - 48)) % 10 = c.toNat := by omega
    rw [this]
    exact Char.ofNat_toNat c
  · cases h

theorem getNumber_inv (w acc : Nat) (s r : List Char) (v : Nat) (h : getNumber w acc s = some (v, r)) :
    ∃ n, n < 10 ^ w ∧ v = acc * 10 ^ w + n ∧ s = fixDigits w n ++ r := by
  induction w generalizing v r with
  | zero => simp only [getNumber, Option.some.injEq, Prod.mk.injEq] at h; exact ⟨0, by simp [fixDigits, h]⟩
  | succ w ih =>
    rw [getNumber_snoc] at h
    cases hg : getNumber w acc s with
    | none => rw [hg] at h; simp at h
    | some p =>
      obtain ⟨v1, r1⟩ := p
      rw [hg] at h
      simp only [Option.bind_some] at h
      obtain ⟨n, hn, hv, hs⟩ := ih _ _ hg
      cases r1 with
      | nil => simp [getNumber] at h
      | cons c r1 =>
        simp only [getNumber] at h
        cases hd : digitVal c with
        | none => rw [hd] at h; simp at h
        | some d =>
          rw [hd] at h
          simp only [Option.some.injEq, Prod.mk.injEq] at h
          obtain ⟨rfl, rfl⟩ := h
          obtain ⟨e, hlt⟩ := digitChar_of_digitVal (n := n) hd
          refine ⟨n * 10 + d, ?_, ?_, ?_⟩
          · rw [Nat.pow_succ]; omega
          · rw [hv, Nat.pow_succ, Nat.add_mul, Nat.mul_assoc, Nat.add_assoc]
          · rw [fixDigits, e, hs]
            have : (n * 10 + d) / 10 = n := by omega
            rw [this]; simp

theorem digits_zero (w : Nat) : fixDigits w 0 = List.replicate w '0' := by
  induction w with
  | zero => rfl
  | succ w ih =>
    have : fixDigits (w + 1) 0 = fixDigits w 0 ++ [digitChar 0] := rfl
    rw [this, ih, List.replicate_succ']
    rfl

theorem digits_length (w n : Nat) : (fixDigits w n).length = w := by
  induction w generalizing n with
  | zero => rfl
  | succ w ih => simp [fixDigits, ih]

theorem pad_aux (w k n : Nat) (hk : n ≤ k) (h : n < 10 ^ (w + 1)) :
    List.replicate (w + 1 - (decDigitsAux k n).length) '0' ++ decDigitsAux k n = fixDigits (w + 1) n := by
  have small : ∀ w n, n < 10 → List.replicate (w + 1 - 1) '0' ++ [digitChar n] = fixDigits (w + 1) n := by
    intro w n hn
    rw [fixDigits, Nat.div_eq_of_lt hn, digits_zero]; rfl
  induction w generalizing n k with
  | zero =>
    have h : n < 10 := by simpa using h
    cases k with
    | zero => exact small 0 n h
    | succ k => rw [decDigitsAux, if_pos h]; exact small 0 n h
  | succ w ih =>
    cases k with
    | zero => exact small _ n (by omega)
    | succ k =>
      rw [decDigitsAux]
      split
      · next hn => exact small _ n hn
      · next hn =>
        rw [fixDigits, ← ih k (n / 10) (by omega) (by rw [Nat.pow_succ] at h; omega)]
        have e : digitChar (n % 10) = digitChar n := by unfold digitChar; rw [Nat.mod_mod]
        rw [e, List.length_append]
        simp [← List.append_assoc]

theorem padDigits_eq {w n : Nat} (hw : 0 < w) (h : n < 10 ^ w) : padDigits w n = fixDigits w n := by
  cases w with
  | zero => omega
  | succ w => exact pad_aux w n n (Nat.le_refl n) h

theorem getRange_digits {w lo hi n : Nat} (r : List Char) (hn : n < 10 ^ w) (h1 : lo ≤ n) (h2 : n ≤ hi) :
    getRange w lo hi (fixDigits w n ++ r) = some (n, r) := by
  unfold getRange
  rw [getNumber_digits]
  simp only [Nat.zero_mul, Nat.zero_add, Nat.mod_eq_of_lt hn, h1, h2, and_self, if_true]

theorem getRange_inv {w lo hi n : Nat} {s r : List Char} (h : getRange w lo hi s = some (n, r)) :
    n < 10 ^ w ∧ lo ≤ n ∧ n ≤ hi ∧ s = fixDigits w n ++ r := by
  unfold getRange at h
  split at h
  · next v r' hg =>
    split at h
    · next hc =>
      cases h
      obtain ⟨n', h1, h2, h3⟩ := getNumber_inv _ _ _ _ _ hg
      have : n = n' := by omega
      subst this
      exact ⟨h1, hc.1, hc.2, h3⟩
    · cases h
  · cases h

theorem getConst_inv {c : Char} {s r : List Char} (h : getConst c s = some r) : s = c :: r := by
  cases s with
  | nil => cases h
  | cons x s =>
    simp only [getConst] at h
    split at h
    · next e => cases h; rw [e]
    · cases h

/-- Fields of a stamp. -/
def _root_.Spec.Stamp.tm (s : Stamp) : Tm := ⟨s.year, s.mon, s.day, s.hour, s.min, s.sec⟩

theorem skipFraction_text (f : Option Nat) (hf : ∀ x, f = some x → x ≤ 9) (r : List Char) (hr : r.head? ≠ some '.') :
    skipFraction (fracText f ++ r) = some r := by
  cases f with
  | none =>
    unfold skipFraction fracText
    cases r with
    | nil => rfl
    | cons x r =>
      have : x ≠ '.' := by intro e; apply hr; simp [e]
      simp [getConst, this]
  | some x =>
    have hx := hf x rfl
    unfold skipFraction fracText
    simp only [List.cons_append, getConst, if_true]
    rw [getRange_digits r (by omega) (Nat.zero_le _) hx]
    rfl

theorem zone_head (z : ZoneText) : z.text.head? ≠ some '.' := by
  cases z with
  | local_ => simp [ZoneText.text]
  | utc => decide
  | offset e h m => cases e <;> simp [ZoneText.text]

theorem parseTm_text {s : Stamp} (h : s.InRange) : parseTm s.text = some (s.tm, s.zone.text) := by
  obtain ⟨h1, h2, h3, h4, h5, h6, h7, h8⟩ := h
  unfold parseTm Stamp.text
  simp only [List.append_assoc, List.cons_append]
  rw [getRange_digits _ (by omega) h1.1 h1.2]
  simp only [Option.bind_eq_bind, Option.bind_some]
  rw [getRange_digits _ (by omega) h2.1 h2.2]
  simp only [Option.bind_some]
  rw [getRange_digits _ (by omega) h3.1 h3.2]
  simp only [Option.bind_some, getConst, if_true]
  rw [getRange_digits _ (by omega) (Nat.zero_le _) h4]
  simp only [Option.bind_some]
  rw [getRange_digits _ (by omega) (Nat.zero_le _) h5]
  simp only [Option.bind_some]
  rw [getRange_digits _ (by omega) (Nat.zero_le _) h6]
  simp only [Option.bind_some]
  rw [skipFraction_text _ h7 _ (zone_head _)]
  rfl

theorem digits_no_nul {w n : Nat} {c : Char} (h : c ∈ fixDigits w n) : (digitVal c).isSome := by
  induction w generalizing n with
  | zero => simp [fixDigits] at h
  | succ w ih =>
    rw [fixDigits, List.mem_append, List.mem_singleton] at h
    rcases h with h | rfl
    · exact ih h
    · simp [digitVal_digitChar]

theorem text_chars {s : Stamp} {c : Char} (h : c ∈ s.text) :
    (digitVal c).isSome ∨ c = 'T' ∨ c = '.' ∨ c = 'Z' ∨ c = '+' ∨ c = '-' := by
  have hz : c ∈ s.zone.text → (digitVal c).isSome ∨ c = 'Z' ∨ c = '+' ∨ c = '-' := by
    intro hc
    cases hs : s.zone with
    | local_ => rw [hs] at hc; simp [ZoneText.text] at hc
    | utc => rw [hs] at hc; simp [ZoneText.text] at hc; simp [hc]
    | offset e a b =>
      rw [hs] at hc
      simp only [ZoneText.text, List.mem_cons, List.mem_append] at hc
      rcases hc with hc | hc | hc
      · cases e <;> simp at hc <;> simp [hc]
      · exact .inl (digits_no_nul hc)
      · exact .inl (digits_no_nul hc)
  have hf : c ∈ fracText s.frac → (digitVal c).isSome ∨ c = '.' := by
    intro hc
    cases hs : s.frac with
    | none => rw [hs] at hc; simp [fracText] at hc
    | some f =>
      rw [hs] at hc
      simp only [fracText, List.mem_cons] at hc
      rcases hc with hc | hc
      · exact .inr hc
      · exact .inl (digits_no_nul hc)
  unfold Stamp.text at h
  simp only [List.mem_append, List.mem_cons] at h
  rcases h with ((h | h) | h) | h | (((h | h) | h) | h) | h
  · exact .inl (digits_no_nul h)
  · exact .inl (digits_no_nul h)
  · exact .inl (digits_no_nul h)
  · exact .inr (.inl h)
  · exact .inl (digits_no_nul h)
  · exact .inl (digits_no_nul h)
  · exact .inl (digits_no_nul h)
  · rcases hf h with h | h
    · exact .inl h
    · exact .inr (.inr (.inl h))
  · rcases hz h with h | h | h | h
    · exact .inl h
    · exact .inr (.inr (.inr (.inl h)))
    · exact .inr (.inr (.inr (.inr (.inl h))))
    · exact .inr (.inr (.inr (.inr (.inr h))))

theorem text_no_nul (s : Stamp) : s.text.takeWhile (· ≠ Char.ofNat 0) = s.text := by
  have gen : ∀ l : List Char, (∀ c ∈ l, c ≠ Char.ofNat 0) → l.takeWhile (· ≠ Char.ofNat 0) = l := by
    intro l
    induction l with
    | nil => simp
    | cons x l ih =>
      intro h
      have hx := h x List.mem_cons_self
      rw [List.takeWhile_cons_of_pos (by simpa using hx), ih (fun c hc => h c (List.mem_cons_of_mem _ hc))]
  refine gen _ ?_
  rintro c hc rfl
  have := text_chars hc
  revert this
  decide

/-- What is read from the text of a stamp. -/
theorem parse_stamp (z : Zone) {s : Stamp} (h : s.InRange) :
    parseDate z s.text = match s.zone with
      | .local_ => z.mktime s.tm.secs
      | .utc => -1
      | .offset e a b => z.mktime s.tm.secs + (offsetSecs e a b - z.off (z.mktime s.tm.secs)) := by
  unfold parseDate
  rw [text_no_nul, parseTm_text h]
  simp only
  cases hz : s.zone with
  | local_ => rfl
  | utc => rfl
  | offset e a b =>
    obtain ⟨ha, hb⟩ := h.zone e a b hz
    have key : ∀ c, (c = '+' ∨ c = '-') → parseZone z s.tm (c :: (fixDigits 2 a ++ fixDigits 2 b)) =
        some (z.mktime s.tm.secs + ((if c = '+' then ((a * 60 + b : Nat) : Int) * 60 else -(((a * 60 + b : Nat) : Int) * 60)) -
          z.off (z.mktime s.tm.secs)), []) := by
      intro c hc
      have hcz : c ≠ 'Z' := by rcases hc with rfl | rfl <;> decide
      unfold parseZone
      simp only [if_neg hcz, if_pos hc]
      rw [getRange_digits _ (by omega) (Nat.zero_le _) ha]
      simp only [Option.bind_eq_bind, Option.bind_some]
      rw [show fixDigits 2 b = fixDigits 2 b ++ [] by simp, getRange_digits _ (by omega) (Nat.zero_le _) hb]
      simp
    cases e
    · rw [show (ZoneText.offset false a b).text = '-' :: (fixDigits 2 a ++ fixDigits 2 b) from rfl, key '-' (.inr rfl)]
      simp [offsetSecs]
    · rw [show (ZoneText.offset true a b).text = '+' :: (fixDigits 2 a ++ fixDigits 2 b) from rfl, key '+' (.inl rfl)]
      simp [offsetSecs]

theorem bind_some_inv {α β : Type} {x : Option α} {f : α → Option β} {b : β} (h : x.bind f = some b) :
    ∃ a, x = some a ∧ f a = some b := by
  cases x with
  | none => cases h
  | some a => exact ⟨a, rfl, h⟩

theorem skipFraction_inv {s r : List Char} (h : skipFraction s = some r) :
    ∃ f, (∀ x, f = some x → x ≤ 9) ∧ s = fracText f ++ r := by
  unfold skipFraction at h
  split at h
  · next => cases h; exact ⟨none, by simp, rfl⟩
  · next r' hc =>
    have := getConst_inv hc
    subst this
    cases hg : getRange 1 0 9 r' with
    | none => rw [hg] at h; cases h
    | some p =>
      obtain ⟨n, q⟩ := p
      rw [hg] at h
      cases h
      obtain ⟨_, _, h3, h4⟩ := getRange_inv hg
      refine ⟨some n, by simp only [Option.some.injEq]; rintro _ rfl; exact h3, ?_⟩
      rw [h4]; rfl

/-- Only texts of the grammar are accepted, and none with a "Z". -/
theorem parse_inv (z : Zone) (t : List Char) (h : parseDate z t ≠ -1) :
    ∃ s : Stamp, s.InRange ∧ s.zone ≠ .utc ∧ t.takeWhile (· ≠ Char.ofNat 0) = s.text := by
  unfold parseDate at h
  generalize t.takeWhile (· ≠ Char.ofNat 0) = u at h ⊢
  cases hp : parseTm u with
  | none => rw [hp] at h; exact absurd rfl h
  | some p =>
    obtain ⟨tm, r⟩ := p
    rw [hp] at h
    simp only at h
    unfold parseTm at hp
    simp only [Option.bind_eq_bind] at hp
    obtain ⟨⟨y, s1⟩, g1, hp⟩ := bind_some_inv hp
    obtain ⟨⟨mo, s2⟩, g2, hp⟩ := bind_some_inv hp
    obtain ⟨⟨d, s3⟩, g3, hp⟩ := bind_some_inv hp
    obtain ⟨s4, g4, hp⟩ := bind_some_inv hp
    obtain ⟨⟨hh, s5⟩, g5, hp⟩ := bind_some_inv hp
    obtain ⟨⟨mi, s6⟩, g6, hp⟩ := bind_some_inv hp
    obtain ⟨⟨se, s7⟩, g7, hp⟩ := bind_some_inv hp
    obtain ⟨s8, g8, hp⟩ := bind_some_inv hp
    simp only [Option.some.injEq, Prod.mk.injEq] at hp
    obtain ⟨rfl, rfl⟩ := hp
    simp only at g2 g3 g4 g5 g6 g7 g8
    obtain ⟨_, a1, b1, e1⟩ := getRange_inv g1
    obtain ⟨_, a2, b2, e2⟩ := getRange_inv g2
    obtain ⟨_, a3, b3, e3⟩ := getRange_inv g3
    have e4 := getConst_inv g4
    obtain ⟨_, a5, b5, e5⟩ := getRange_inv g5
    obtain ⟨_, a6, b6, e6⟩ := getRange_inv g6
    obtain ⟨_, a7, b7, e7⟩ := getRange_inv g7
    obtain ⟨f, hf, e8⟩ := skipFraction_inv g8
    have build : ∀ zt : ZoneText, zt.text = s8 → zt ≠ .utc → (∀ e h m, zt = .offset e h m → h ≤ 23 ∧ m ≤ 59) →
        ∃ s : Stamp, s.InRange ∧ s.zone ≠ .utc ∧ u = s.text := by
      intro zt ht hu hr
      refine ⟨⟨y, mo, d, hh, mi, se, f, zt⟩, ⟨⟨a1, b1⟩, ⟨a2, b2⟩, ⟨a3, b3⟩, b5, b6, b7, hf, hr⟩, hu, ?_⟩
      simp only [Stamp.text]
      rw [e1, e2, e3, e4, e5, e6, e7, e8, ht]
      simp
    unfold parseZone at h
    cases s8 with
    | nil => exact build .local_ rfl (by simp) (by simp)
    | cons c q =>
      simp only at h
      split at h
      · exact absurd rfl h
      · next hz rest hpz =>
        split at hpz
        · cases hpz; simp at h
        · split at hpz
          · next hc =>
            simp only [Option.bind_eq_bind] at hpz
            obtain ⟨⟨oh, q1⟩, k1, hpz⟩ := bind_some_inv hpz
            obtain ⟨⟨om, q2⟩, k2, hpz⟩ := bind_some_inv hpz
            simp only [Option.some.injEq, Prod.mk.injEq] at hpz
            obtain ⟨rfl, rfl⟩ := hpz
            simp only at k1 k2
            obtain ⟨_, _, b9, e9⟩ := getRange_inv k1
            obtain ⟨_, _, b10, e10⟩ := getRange_inv k2
            have hq : q2 = [] := by
              cases q2 with
              | nil => rfl
              | cons => simp at h
            subst hq
            refine build (.offset (c = '+') oh om) ?_ (by simp) ?_
            · rw [e9, e10]
              rcases hc with rfl | rfl <;> simp [ZoneText.text]
            · rintro _ _ _ ⟨⟩; exact ⟨b9, b10⟩
          · cases hpz

/-- The stamp written for an instant. -/
def stampOf (z : Zone) (t : Int) : Stamp :=
  let tm := tmOf (t + z.off t)
  ⟨tm.year.toNat, tm.mon.toNat, tm.day.toNat, tm.hour.toNat, tm.min.toNat, tm.sec.toNat, none,
   .offset (decide (0 ≤ z.off t)) ((z.off t).natAbs / 60 / 60) ((z.off t).natAbs / 60 % 60)⟩

theorem monthLen_le (y m : Int) : monthLen y m ≤ 31 := by
  unfold monthLen
  split
  · split <;> omega
  · split <;> omega

theorem stamp_ok {z : Zone} {t : Int} (ho : (z.off t).natAbs < 86400)
    (hy : 1900 ≤ (tmOf (t + z.off t)).year ∧ (tmOf (t + z.off t)).year ≤ 9999) :
    (stampOf z t).InRange ∧ (stampOf z t).tm = tmOf (t + z.off t) := by
  obtain ⟨c1, c2, c3, c4⟩ := civil_ok ((t + z.off t) / 86400)
  have c5 := monthLen_le (civilFromDays ((t + z.off t) / 86400)).1 (civilFromDays ((t + z.off t) / 86400)).2.1
  unfold stampOf Stamp.tm
  unfold tmOf at hy ⊢
  simp only at hy ⊢
  generalize civilFromDays ((t + z.off t) / 86400) = c at *
  refine ⟨⟨by dsimp only; omega, by dsimp only; omega, by dsimp only; omega, by dsimp only; omega, by dsimp only; omega,
    by dsimp only; omega, by simp, ?_⟩, ?_⟩
  · rintro _ _ _ ⟨⟩; omega
  · simp only [Tm.mk.injEq]
    omega

theorem tmOf_secs (s : Int) : (tmOf s).secs = s := by
  unfold tmOf Tm.secs
  simp only
  rw [days_of_civil]
  omega

theorem format_text {z : Zone} {t : Int} (ht : t ≠ -1) (ho : (z.off t).natAbs < 86400)
    (hy : 1900 ≤ (tmOf (t + z.off t)).year ∧ (tmOf (t + z.off t)).year ≤ 9999) :
    formatDate z t = (stampOf z t).text := by
  obtain ⟨h, _⟩ := stamp_ok ho hy
  obtain ⟨h1, h2, h3, h4, h5, h6, _, h8⟩ := h
  have h8 := h8 _ _ _ rfl
  unfold formatDate Stamp.text
  rw [if_neg ht]
  unfold stampOf at *
  simp only at *
  unfold fmtYear
  rw [if_pos (by omega), padDigits_eq (by decide) (by omega), padDigits_eq (by decide) (by omega),
    padDigits_eq (by decide) (by omega), padDigits_eq (by decide) (by omega), padDigits_eq (by decide) (by omega),
    padDigits_eq (by decide) (by omega), padDigits_eq (by decide) (by omega), padDigits_eq (by decide) (by omega)]
  simp [fracText, ZoneText.text]

end Mtp
