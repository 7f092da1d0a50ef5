import Verif.Model.Persist
import Verif.Spec.Persist
import Verif.Lemmas.Bytes
import Verif.Lemmas.AMap
/-! Lemmas about the persistent files. -/
namespace Mtp

theorem utf8_ascii {s : List Char} (h : Ascii s) : utf8 s = s.map (fun c => UInt8.ofNat c.toNat) ∧
    utf16Len s = s.length := by
  induction s with
  | nil => exact ⟨rfl, rfl⟩
  | cons c r ih =>
    obtain ⟨a, b⟩ := ih (fun c hc => h c (List.mem_cons_of_mem _ hc))
    have hc := (h c List.mem_cons_self).2
    constructor
    · simp only [utf8, List.flatMap_cons, List.map_cons] at a ⊢
      rw [a]
      unfold utf8Char
      simp only [show c.toNat < 0x80 from hc, if_true, List.singleton_append]
    · unfold utf16Len at b ⊢
      simp only [List.map_cons, List.sum_cons, b, show c.toNat < 0x10000 by omega, if_true, List.length_cons]
      omega

theorem fromUtf8_ascii {s : List Char} (h : Ascii s) : fromUtf8 (s.map (fun c => UInt8.ofNat c.toNat)) = s := by
  unfold fromUtf8
  induction s with
  | nil => rfl
  | cons c r ih =>
    have hc := h c List.mem_cons_self
    have hb : (UInt8.ofNat c.toNat).toNat = c.toNat := by
      rw [UInt8.toNat_ofNat']; exact Nat.mod_eq_of_lt (by omega)
    have hs : utf8Start (UInt8.ofNat c.toNat) = ([c], 0, 0) := by
      unfold utf8Start
      rw [hb, if_pos (by omega)]
      simp
    simp only [List.map_cons, utf8Go, hs]
    rw [ih (fun c hc => h c (List.mem_cons_of_mem _ hc))]
    rfl

theorem takeWhile_ascii {s : List Char} (h : Ascii s) :
    (s.map (fun c => UInt8.ofNat c.toNat)).takeWhile (· ≠ 0) = s.map (fun c => UInt8.ofNat c.toNat) := by
  induction s with
  | nil => rfl
  | cons c r ih =>
    have hc := h c List.mem_cons_self
    have hb : (UInt8.ofNat c.toNat).toNat = c.toNat := by
      rw [UInt8.toNat_ofNat']; exact Nat.mod_eq_of_lt (by omega)
    have hne : UInt8.ofNat c.toNat ≠ 0 := by
      intro hz
      rw [hz] at hb
      have : (0 : UInt8).toNat = 0 := rfl
      omega
    rw [List.map_cons, List.takeWhile_cons, ih (fun c hc => h c (List.mem_cons_of_mem _ hc))]
    simp [hne]

theorem rdInto_append {old a f : List UInt8} {n : Nat} (ha : a.length = n) (h0 : 0 < n) (ho : old.length ≤ n) :
    rdInto old n (a ++ f) = some (a, f) := by
  unfold rdInto
  rw [List.take_append_of_le_length (by omega), List.take_of_length_le (by omega),
    if_neg (by intro h; rw [h] at ha; simp at ha; omega), List.drop_append_of_le_length (by omega),
    List.drop_of_length_le (by omega), List.drop_of_length_le (l := a) (by omega)]
  simp

theorem rdInto_nil (old : List UInt8) (n : Nat) : rdInto old n [] = none := by simp [rdInto]

theorem rdInto_some {old f v r : List UInt8} {n : Nat} (h : rdInto old n f = some (v, r)) (ho : old.length = n) :
    v.length = n ∧ r = f.drop n ∧ f ≠ [] := by
  unfold rdInto at h
  split at h
  · cases h
  · next hne =>
    cases h
    refine ⟨?_, rfl, ?_⟩
    · have : (f.take n).length ≤ n := List.length_take_le _ _
      simp only [List.length_append, List.length_drop]; omega
    · rintro rfl; simp at hne

theorem idEntry_ascii {e : List Char × Nat} (h : EntryOk e) :
    idEntry e = leBytes 4 e.1.length ++ (e.1.map (fun c => UInt8.ofNat c.toNat) ++ leBytes 16 e.2) := by
  obtain ⟨a, b⟩ := utf8_ascii h.1
  unfold idEntry
  rw [a, b, List.take_of_length_le (by simp), List.append_assoc]

theorem idEntry_length {e : List Char × Nat} (h : EntryOk e) : (idEntry e).length = 20 + e.1.length := by
  rw [idEntry_ascii h]; simp [leBytes_length]; omega

theorem leVal4 {n : Nat} (h : n < 2^32) : leVal (leBytes 4 n) = n := by
  rw [leVal_leBytes]; exact Nat.mod_eq_of_lt (by simpa using h)

theorem leVal16 {n : Nat} (h : n < 2^128) : leVal (leBytes 16 n) = n := by
  rw [leVal_leBytes]; exact Nat.mod_eq_of_lt (by simpa using h)

/-- A complete entry is read as written. -/
theorem loadIds_entry (junk : Nat → UInt8) (k : Nat) {len pu f : List UInt8} (m : AMap (List Char) Nat)
    (hl : len.length = 4) (hp : pu.length = 16) {e : List Char × Nat} (he : EntryOk e) :
    loadIds junk (k+1) len pu (idEntry e ++ f) m =
      loadIds junk k (leBytes 4 e.1.length) (leBytes 16 e.2) f (AMap.insert m e.1 e.2) := by
  obtain ⟨h1, h2, h3, h4⟩ := he
  have hpos : 0 < e.1.length := List.length_pos_iff.mpr h2
  conv => lhs; unfold loadIds
  rw [idEntry_ascii ⟨h1, h2, h3, h4⟩, List.append_assoc, List.append_assoc,
    rdInto_append (leBytes_length 4 _) (by omega) (by omega)]
  simp only
  rw [leVal4 h3, rdInto_append (by simp) hpos (by simp)]
  simp only
  rw [rdInto_append (leBytes_length 16 _) (by omega) (by omega)]
  simp only
  rw [takeWhile_ascii h1, fromUtf8_ascii h1, leVal16 h4]

/-- Several complete entries. -/
theorem loadIds_entries (junk : Nat → UInt8) (f : List UInt8) (j : Nat) : ∀ (es : List (List Char × Nat))
    (len pu : List UInt8) (m : AMap (List Char) Nat), len.length = 4 → pu.length = 16 → (∀ e ∈ es, EntryOk e) →
    ∃ len' pu', len'.length = 4 ∧ pu'.length = 16 ∧
      loadIds junk (es.length + j) len pu (es.flatMap idEntry ++ f) m =
        loadIds junk j len' pu' f (es.foldl (fun m e => AMap.insert m e.1 e.2) m) := by
  intro es
  induction es with
  | nil => intro len pu m hl hp _; exact ⟨len, pu, hl, hp, by simp⟩
  | cons e es ih =>
    intro len pu m hl hp h
    obtain ⟨len', pu', a, b, c⟩ := ih (leBytes 4 e.1.length) (leBytes 16 e.2) (AMap.insert m e.1 e.2) (leBytes_length _ _)
      (leBytes_length _ _) (fun e he => h e (List.mem_cons_of_mem _ he))
    refine ⟨len', pu', a, b, ?_⟩
    rw [List.flatMap_cons, List.append_assoc, List.length_cons,
      show es.length + 1 + j = (es.length + j) + 1 by omega,
      loadIds_entry junk _ m hl hp (h e List.mem_cons_self), c, List.foldl_cons]

theorem loadIds_nil (junk : Nat → UInt8) (k : Nat) (len pu : List UInt8) (m : AMap (List Char) Nat) :
    loadIds junk k len pu [] m = m := by
  cases k with
  | zero => rfl
  | succ k => unfold loadIds; rw [rdInto_nil]

/-- What is left after a cut inside an entry adds at most one entry. -/
theorem loadIds_part (junk : Nat → UInt8) (k : Nat) {len pu f : List UInt8} (m : AMap (List Char) Nat)
    (hl : len.length = 4) (hp : pu.length = 16) {e : List Char × Nat} (he : EntryOk e) {n : Nat}
    (hn : n < (idEntry e).length) (hf : f = (idEntry e).take n) :
    loadIds junk k len pu f m = m ∨ ∃ v, loadIds junk k len pu f m = AMap.insert m e.1 v := by
  cases k with
  | zero => exact Or.inl rfl
  | succ k =>
    have hfl : f.length = n := by rw [hf, List.length_take]; omega
    rw [idEntry_length he] at hn
    unfold loadIds
    cases h1 : rdInto len 4 f with
    | none => exact Or.inl rfl
    | some x =>
      obtain ⟨len1, f1⟩ := x
      obtain ⟨a1, a2, _⟩ := rdInto_some h1 hl
      simp only
      by_cases h4 : n ≤ 4
      · have : f1 = [] := by rw [a2]; exact List.drop_of_length_le (by omega)
        subst this
        rw [rdInto_nil]
        exact Or.inl rfl
      · have hlen : leVal len1 = e.1.length := by
          unfold rdInto at h1
          split at h1
          · cases h1
          · cases h1
            rw [hf, idEntry_ascii he, List.take_take, Nat.min_eq_left (by omega),
              List.take_append_of_le_length (by simp [leBytes_length]),
              List.take_of_length_le (by simp [leBytes_length]), leBytes_length,
              List.drop_of_length_le (by omega), List.append_nil, leVal4 he.2.2.1]
        rw [hlen]
        cases h2 : rdInto ((List.range e.1.length).map junk) e.1.length f1 with
        | none => exact Or.inl rfl
        | some y =>
          obtain ⟨name, f2⟩ := y
          obtain ⟨b1, b2, _⟩ := rdInto_some h2 (by simp)
          simp only
          cases h3 : rdInto pu 16 f2 with
          | none => exact Or.inl rfl
          | some z =>
            obtain ⟨pu1, f3⟩ := z
            obtain ⟨c1, c2, _⟩ := rdInto_some h3 hp
            have : f3 = [] := by
              rw [c2, b2, a2, List.drop_drop, List.drop_drop]
              exact List.drop_of_length_le (by omega)
            subst this
            simp only [loadIds_nil]
            have hbig : 4 + e.1.length < n := by
              have hf2 : f2 ≠ [] := (rdInto_some h3 hp).2.2
              have : 0 < f2.length := List.length_pos_iff.mpr hf2
              rw [b2, a2, List.drop_drop, List.length_drop] at this
              omega
            have hname : name = e.1.map (fun c => UInt8.ofNat c.toNat) := by
              have hf1 : f1 = e.1.map (fun c => UInt8.ofNat c.toNat) ++ (leBytes 16 e.2).take (n - 4 - e.1.length) := by
                rw [a2, hf, idEntry_ascii he, List.drop_take, List.drop_append_of_le_length (by simp [leBytes_length]),
                  List.drop_of_length_le (by simp [leBytes_length]), List.nil_append, List.take_append,
                  List.take_of_length_le (by simp; omega)]
                simp
              rw [hf1, rdInto_append (by simp) (List.length_pos_iff.mpr he.2.1) (by simp)] at h2
              cases h2; rfl
            rw [hname, takeWhile_ascii he.1, fromUtf8_ascii he.1]
            exact Or.inr ⟨_, rfl⟩

/-- Where a cut of a list of entries falls. -/
theorem cut_entries : ∀ (es : List (List Char × Nat)) (n : Nat), (∀ e ∈ es, EntryOk e) →
    ∃ k f, k ≤ es.length ∧ (es.flatMap idEntry).take n = (es.take k).flatMap idEntry ++ f ∧
      (f = [] ∨ ∃ e, es[k]? = some e ∧ EntryOk e ∧ ∃ j, j < (idEntry e).length ∧ f = (idEntry e).take j) := by
  intro es
  induction es with
  | nil => intro n _; exact ⟨0, [], Nat.le_refl _, by simp, Or.inl rfl⟩
  | cons e es ih =>
    intro n h
    have he := h e List.mem_cons_self
    by_cases hn : n < (idEntry e).length
    · refine ⟨0, (idEntry e).take n, Nat.zero_le _, ?_, Or.inr ⟨e, rfl, he, n, hn, rfl⟩⟩
      rw [List.flatMap_cons, List.take_append_of_le_length (by omega)]; rfl
    · obtain ⟨k, f, a, b, c⟩ := ih (n - (idEntry e).length) (fun e he => h e (List.mem_cons_of_mem _ he))
      refine ⟨k+1, f, by simpa using a, ?_, ?_⟩
      · rw [List.flatMap_cons, List.take_append, List.take_of_length_le (by omega), b, List.take_succ_cons,
          List.flatMap_cons, List.append_assoc]
      · simpa using c

theorem foldl_insert_get (es : List (List Char × Nat)) (hn : (es.map (·.1)).Nodup) :
    ∀ (m : AMap (List Char) Nat) (p : List Char),
      AMap.get (es.foldl (fun m e => AMap.insert m e.1 e.2) m) p =
        match AMap.get es p with
        | some v => some v
        | none => AMap.get m p := by
  induction es with
  | nil => intro m p; rfl
  | cons e es ih =>
    intro m p
    rw [List.map_cons, List.nodup_cons] at hn
    rw [List.foldl_cons, ih hn.2]
    by_cases hp : e.1 = p
    · have hnone : AMap.get es p = none := by
        cases hg : AMap.get es p with
        | none => rfl
        | some v =>
          exact absurd (List.mem_map.mpr ⟨(p, v), AMap.mem_of_get hg, rfl⟩) (hp ▸ hn.1)
      obtain ⟨a, b⟩ := e
      simp only at hp
      subst hp
      simp [hnone, AMap.get_insert, AMap.get]
    · obtain ⟨a, b⟩ := e
      simp only at hp
      cases hg : AMap.get es p with
      | some v => simp [AMap.get, Ne.symm hp, hg]
      | none => simp [AMap.get, hg, AMap.get_insert, Ne.symm hp]

end Mtp
