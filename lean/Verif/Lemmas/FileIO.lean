import Verif.Model.FileIO
import Verif.Lemmas.AMap
namespace Mtp

theorem readLoop_ok : ∀ (rs : List (Option Nat)) (rest : List UInt8) (len : Nat) (d : List UInt8),
    readLoop rest len rs = some d → len ≤ rest.length ∧ d = rest.take len := by
  intro rs
  induction rs with
  | nil =>
    intro rest len d h
    unfold readLoop at h
    split at h
    · next g => cases h; exact ⟨g, rfl⟩
    · cases h
  | cons r rs ih =>
    intro rest len d h
    unfold readLoop at h
    split at h
    · next g => cases h; subst g; simp
    · cases r with
      | none => cases h
      | some k =>
        simp only at h
        split at h
        · cases h
        · next hl hn =>
          simp only [Option.map_eq_some_iff] at h
          obtain ⟨e, he, rfl⟩ := h
          obtain ⟨a, b⟩ := ih _ _ _ he
          have hle : min k (min len rest.length) ≤ min len rest.length := Nat.min_le_right _ _
          generalize min k (min len rest.length) = n at *
          rw [List.length_drop] at a
          refine ⟨by omega, ?_⟩
          rw [b, ← List.take_add]
          congr 1; omega

theorem readLoop_total : ∀ (rs : List (Option Nat)) (rest : List UInt8) (len : Nat),
    (∀ r ∈ rs, ∃ k, r = some k ∧ 0 < k) → len ≤ rest.length →
    readLoop rest len rs = some (rest.take len) := by
  intro rs
  induction rs with
  | nil => intro rest len _ h; simp [readLoop, h]
  | cons r rs ih =>
    intro rest len hr h
    obtain ⟨k, rfl, hk⟩ := hr r (by simp)
    unfold readLoop
    split
    · next g => subst g; simp
    · next g =>
      have hn : ¬ min k (min len rest.length) = 0 := by omega
      have hle : min k (min len rest.length) ≤ len := by omega
      simp only [hn, if_false]
      generalize min k (min len rest.length) = n at *
      rw [ih _ _ (fun r h => hr r (by simp [h])) (by rw [List.length_drop]; omega)]
      simp only [Option.map_some]
      rw [← List.take_add]
      congr 2; omega

theorem writeAt_get (c : List UInt8) (pos : Nat) (d : List UInt8) (i : Nat) :
    (writeAt c pos d)[i]? = if i < pos then (if i < c.length then c[i]? else some 0)
      else if i < pos + d.length then d[i - pos]? else c[i]? := by
  unfold writeAt
  have hl : ((c ++ List.replicate (pos - c.length) 0).take pos).length = pos := by
    simp; omega
  rw [List.append_assoc, List.getElem?_append, hl]
  split
  · next h =>
    rw [List.getElem?_take, if_pos h, List.getElem?_append]
    split
    · rfl
    · rw [List.getElem?_replicate, if_pos (by omega)]
  · next h =>
    rw [List.getElem?_append]
    by_cases g : i < pos + d.length
    · rw [if_pos (by omega), if_pos g]
    · rw [if_neg (by omega), if_neg g, List.getElem?_drop]
      congr 1; omega

theorem writeAt_length (c : List UInt8) (pos : Nat) (d : List UInt8) :
    (writeAt c pos d).length = max c.length (pos + d.length) := by
  unfold writeAt
  simp; omega

theorem writeAt_writeAt (c : List UInt8) (pos : Nat) (d e : List UInt8) :
    writeAt (writeAt c pos d) (pos + d.length) e = writeAt c pos (d ++ e) := by
  apply List.ext_getElem?
  intro i
  simp only [writeAt_get, writeAt_length, List.length_append]
  by_cases h1 : i < pos
  · have h2 : i < pos + d.length := by omega
    have h3 : i < max c.length (pos + d.length) := by omega
    simp only [h1, h2, h3, if_true]
  · by_cases h2 : i < pos + d.length
    · have h3 : i < max c.length (pos + d.length) := by omega
      have h4 : i < pos + (d.length + e.length) := by omega
      simp only [h1, h2, h3, h4, if_true, if_false]
      rw [List.getElem?_append_left (by omega)]
    · simp only [h1, h2, if_false]
      have h5 : i < pos + d.length + e.length ↔ i < pos + (d.length + e.length) := by omega
      by_cases h6 : i < pos + (d.length + e.length)
      · rw [if_pos (h5.mpr h6), if_pos h6, List.getElem?_append_right (by omega)]
        congr 1; omega
      · rw [if_neg (fun h => h6 (h5.mp h)), if_neg h6]

theorem writeAt_nil (c : List UInt8) (pos : Nat) (h : pos ≤ c.length) : writeAt c pos [] = c := by
  apply List.ext_getElem?
  intro i
  simp only [writeAt_get, List.length_nil, Nat.add_zero]
  split
  · rw [if_pos (by omega)]
  · rfl

theorem writeAt_take (c : List UInt8) (pos : Nat) (d : List UInt8) (h : pos ≤ c.length) :
    (writeAt c pos d).take (pos + d.length) = c.take pos ++ d := by
  unfold writeAt
  rw [List.take_append_of_le_length (by simp; omega), List.take_of_length_le (by simp; omega),
    List.take_append_of_le_length h]

/-- What a write loop does to the store: contents of `path` become `f` of the old ones, all else stays. -/
theorem writeLoop_frame : ∀ (ws : List (Option Nat)) (s : FStore) (path : String) (pos : Nat)
    (d : List UInt8), (s.writeLoop path pos d ws).1.items = s.items ∧
      (s.writeLoop path pos d ws).1.dataFile = s.dataFile ∧
      (s.writeLoop path pos d ws).1.writing = s.writing ∧
      ∀ p, p ≠ path → (s.writeLoop path pos d ws).1.files.get p = s.files.get p := by
  intro ws
  induction ws with
  | nil =>
    intro s path pos d
    unfold FStore.writeLoop
    split
    · simp
    · cases s.files.get path with
      | none => simp
      | some c =>
        refine ⟨rfl, rfl, rfl, fun p hp => ?_⟩
        simp only [AMap.get_insert, hp, if_false]
  | cons w ws ih =>
    intro s path pos d
    unfold FStore.writeLoop
    split
    · simp
    · cases w with
      | none => simp
      | some k =>
        simp only
        cases hf : s.files.get path with
        | none => exact ih _ _ _ _
        | some c =>
          simp only
          split
          · exact ih _ _ _ _
          · generalize min k d.length = n
            obtain ⟨a, b, e, f⟩ := ih { s with files := s.files.insert path (writeAt c pos (d.take n)) }
              path (pos + n) (d.drop n)
            refine ⟨a, b, e, fun p hp => ?_⟩
            rw [f p hp]
            simp only [AMap.get_insert, hp, if_false]

theorem writeLoop_ok : ∀ (ws : List (Option Nat)) (s : FStore) (path : String) (pos : Nat)
    (d c : List UInt8), s.files.get path = some c → (s.writeLoop path pos d ws).2.2 = true →
      (s.writeLoop path pos d ws).2.1 = pos + d.length ∧
      (s.writeLoop path pos d ws).1.files.get path = some (if d = [] then c else writeAt c pos d) := by
  intro ws
  induction ws with
  | nil =>
    intro s path pos d c hc _
    unfold FStore.writeLoop
    by_cases hd : d = []
    · subst hd; simp [hc]
    · simp only [hd, if_false, hc]
      simp [AMap.get_insert]
  | cons w ws ih =>
    intro s path pos d c hc hok
    unfold FStore.writeLoop at hok ⊢
    by_cases hd : d = []
    · subst hd; simp [hc]
    · simp only [hd, if_false] at hok ⊢
      cases w with
      | none => simp at hok
      | some k =>
        simp only [hc] at hok ⊢
        by_cases hn : min k d.length = 0
        · simp only [hn, if_true] at hok ⊢
          have := ih s path pos d c hc hok
          simpa [hd] using this
        · simp only [hn, if_false] at hok ⊢
          have hle : min k d.length ≤ d.length := Nat.min_le_right _ _
          generalize min k d.length = n at *
          obtain ⟨a, b⟩ := ih _ path _ _ (writeAt c pos (d.take n)) (by simp [AMap.get_insert]) hok
          refine ⟨by rw [a, List.length_drop]; omega, ?_⟩
          rw [b]
          have hl : (d.take n).length = n := by rw [List.length_take]; omega
          have e := writeAt_writeAt c pos (d.take n) (d.drop n)
          rw [hl, List.take_append_drop] at e
          split
          · next g =>
            have : d.take n = d := by
              have := List.take_append_drop n d
              rw [g, List.append_nil] at this
              exact this
            rw [this]
          · rw [e]

theorem writeLoop_noerr : ∀ (ws : List (Option Nat)) (s : FStore) (path : String) (pos : Nat)
    (d : List UInt8), none ∉ ws → (s.writeLoop path pos d ws).2.2 = true := by
  intro ws
  induction ws with
  | nil =>
    intro s path pos d _
    unfold FStore.writeLoop
    split
    · rfl
    · cases s.files.get path <;> rfl
  | cons w ws ih =>
    intro s path pos d h
    have hw : none ∉ ws := fun e => h (by simp [e])
    unfold FStore.writeLoop
    split
    · rfl
    · cases w with
      | none => exact absurd (by simp) h
      | some k =>
        simp only
        cases s.files.get path with
        | none => exact ih _ _ _ _ hw
        | some c =>
          simp only
          split
          · exact ih _ _ _ _ hw
          · exact ih _ _ _ _ hw

theorem writeData_noerr (s : FStore) (io : FileIO) (h : Nat) (d : List UInt8) (first : Bool)
    (it : FItem) (hi : s.items.get h = some it) (ho : first = true → io.openOk = true)
    (hw : none ∉ io.writes) (hd : d.length < 2 ^ 31) :
    (s.writeData io h (some d) first false).2 = .ok := by
  unfold FStore.writeData
  simp only [hi, Option.getD_some]
  have hb : ¬ (d.length ≥ 2 ^ 31) := by omega
  cases first with
  | false =>
    simp only [Bool.false_eq_true, false_and, if_false]
    cases s.dataFile with
    | none => rfl
    | some x =>
      simp only [hb, if_false]
      rw [writeLoop_noerr _ _ _ _ _ hw]; rfl
  | true =>
    simp only [ho rfl, Bool.true_eq_false, and_false, if_false, if_true, FStore.openRW, hb]
    rw [writeLoop_noerr _ _ _ _ _ hw]; rfl

/-- One segment written to the open file. -/
theorem writeData_seg {s : FStore} {io : FileIO} {h : Nat} {d : List UInt8} {first last : Bool}
    {it : FItem} (hi : s.items.get h = some it)
    {path : String} {pos : Nat} {c : List UInt8}
    (hd : first = false → s.dataFile = some (path, pos) ∧ s.files.get path = some c ∧ pos ≤ c.length)
    (hp : first = true → path = it.path ∧ pos = 0 ∧ c = (s.files.get path).getD [])
    (hok : (s.writeData io h (some d) first last).2 = .ok) :
    (s.writeData io h (some d) first last).1.items = s.items ∧
    (s.writeData io h (some d) first last).1.dataFile = some (path, pos + d.length) ∧
    (s.writeData io h (some d) first last).1.files.get path = some (writeAt c pos d) ∧
    ∀ p, p ≠ path → (s.writeData io h (some d) first last).1.files.get p = s.files.get p := by
  have hm : s.writeData io h (some d) first last = s.writeData io h (some d) first false := by
    unfold FStore.writeData
    simp only [hi]
  rw [hm] at hok ⊢
  cases first with
  | false =>
    obtain ⟨h1, h2, h3⟩ := hd rfl
    simp only [FStore.writeData, hi, Option.getD_some, Bool.false_eq_true, false_and, if_false, h1] at hok ⊢
    by_cases hb : d.length ≥ 2 ^ 31
    · simp [hb] at hok
    · simp only [hb, if_false] at hok ⊢
      have hframe := writeLoop_frame io.writes (FStore.mk s.files s.items (some (path, pos)) h) path pos d
      have hw := writeLoop_ok io.writes (FStore.mk s.files s.items (some (path, pos)) h) path pos d c h2
      generalize FStore.writeLoop (FStore.mk s.files s.items (some (path, pos)) h) path pos d io.writes = o at *
      obtain ⟨s', pos', ok⟩ := o
      simp only at hok hw hframe ⊢
      cases ok with
      | false => simp at hok
      | true =>
        obtain ⟨w1, w2⟩ := hw rfl
        refine ⟨hframe.1, by rw [w1], ?_, hframe.2.2.2⟩
        rw [w2]
        split
        · next g => subst g; rw [writeAt_nil c pos h3]
        · rfl
  | true =>
    obtain ⟨rfl, rfl, h2⟩ := hp rfl
    simp only [FStore.writeData, hi, Option.getD_some, true_and, if_true] at hok ⊢
    cases ho : io.openOk with
    | false => simp [ho] at hok
    | true =>
      simp only [ho, Bool.true_eq_false, if_false, FStore.openRW] at hok ⊢
      by_cases hb : d.length ≥ 2 ^ 31
      · simp [hb] at hok
      · simp only [hb, if_false] at hok ⊢
        generalize hS : (FStore.mk (if (s.files.get it.path).isSome = true then s.files
          else s.files.insert it.path []) s.items (some (it.path, 0)) h) = S at *
        have hc : S.files.get it.path = some c := by
          subst hS
          simp only
          cases hg : s.files.get it.path with
          | none => simp [AMap.get_insert, h2, hg]
          | some x => simp [hg, h2]
        have hother : ∀ p, p ≠ it.path → S.files.get p = s.files.get p := by
          subst hS
          intro p hp
          simp only
          split
          · rfl
          · simp [AMap.get_insert, hp]
        have hit : S.items = s.items := by subst hS; rfl
        have hframe := writeLoop_frame io.writes S it.path 0 d
        have hw := writeLoop_ok io.writes S it.path 0 d c hc
        generalize FStore.writeLoop S it.path 0 d io.writes = o at *
        obtain ⟨s', pos', ok⟩ := o
        simp only at hok hw hframe ⊢
        cases ok with
        | false => simp at hok
        | true =>
          obtain ⟨w1, w2⟩ := hw rfl
          refine ⟨by rw [hframe.1, hit], by rw [w1], ?_, fun p hp => by rw [hframe.2.2.2 p hp, hother p hp]⟩
          rw [w2]
          split
          · next g => subst g; rw [writeAt_nil c 0 (Nat.zero_le _)]
          · rfl

theorem resize_pos {c : List UInt8} {pos : Nat} (h : pos ≤ c.length) :
    resizeTo (c.take (pos - 0)) pos = c.take pos := by
  unfold resizeTo
  simp [Nat.min_eq_left h, List.take_take]

end Mtp
