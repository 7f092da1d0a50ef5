import Verif.Lemmas.Persist
/-! Property theorems C56: the table of persistent ids on disk. -/
namespace Props
open Mtp

theorem readIds_header (junk : Nat → UInt8) {largest n : Nat} (hl : largest < 2^128) (hn : n < 2^32) (f : List UInt8) :
    readIds junk (leBytes 16 largest ++ leBytes 4 n ++ f) =
      (largest, loadIds junk n (leBytes 4 0) (leBytes 16 0) f []) := by
  unfold readIds
  rw [List.append_assoc, rdInto_append (leBytes_length _ _) (by omega) (by simp [leBytes_length])]
  simp only
  rw [rdInto_append (leBytes_length _ _) (by omega) (by simp [leBytes_length])]
  simp only [leVal16 hl, leVal4 hn]

/-- C56. What is written is read back: the high-water mark and the id of every path, for every table of ASCII paths in any
order. Missing: paths with other characters (`C56_non_ascii_violated`). -/
theorem C56_roundtrip_partial (junk : Nat → UInt8) (largest : Nat) (ids : List (List Char × Nat)) (hl : largest < 2^128)
    (hc : ids.length < 2^32) (hok : ∀ e ∈ ids, EntryOk e) (hn : (ids.map (·.1)).Nodup) :
    (readIds junk (storeIds largest ids)).1 = largest ∧
    ∀ p, AMap.get (readIds junk (storeIds largest ids)).2 p = AMap.get ids p := by
  have h : readIds junk (storeIds largest ids) = (largest, ids.foldl (fun m e => AMap.insert m e.1 e.2) []) := by
    unfold storeIds
    rw [readIds_header junk hl hc]
    obtain ⟨l', p', _, _, e⟩ := loadIds_entries junk [] 0 ids (leBytes 4 0) (leBytes 16 0) [] (leBytes_length _ _)
      (leBytes_length _ _) hok
    rw [List.append_nil, Nat.add_zero] at e
    rw [e]; rfl
  rw [h]
  refine ⟨rfl, fun p => ?_⟩
  show AMap.get (ids.foldl _ []) p = _
  rw [foldl_insert_get ids hn]
  cases AMap.get ids p <;> rfl

/-- C56. A file cut off anywhere: the high-water mark is intact unless the cut falls into the first 16 bytes, and the table
read is that of the first entries written, possibly with the path of the next one. Missing: that path may come with an id that
was never written (`C56_cut_violated`). -/
theorem C56_cut_partial (junk : Nat → UInt8) (largest : Nat) (ids : List (List Char × Nat)) (hl : largest < 2^128)
    (hc : ids.length < 2^32) (hok : ∀ e ∈ ids, EntryOk e) (hn : (ids.map (·.1)).Nodup) (n : Nat) :
    (16 ≤ n → (readIds junk ((storeIds largest ids).take n)).1 = largest) ∧
    ∃ k, (∀ p, AMap.get (readIds junk ((storeIds largest ids).take n)).2 p = AMap.get (ids.take k) p) ∨
      ∃ e v, ids[k]? = some e ∧ ∀ p, AMap.get (readIds junk ((storeIds largest ids).take n)).2 p =
        if p = e.1 then some v else AMap.get (ids.take k) p := by
  by_cases h20 : 20 ≤ n
  · have hs : (storeIds largest ids).take n =
        leBytes 16 largest ++ leBytes 4 ids.length ++ (ids.flatMap idEntry).take (n - 20) := by
      unfold storeIds
      rw [List.take_append, List.take_of_length_le (by simp [leBytes_length]; omega)]
      simp [leBytes_length]
    rw [hs, readIds_header junk hl hc]
    refine ⟨fun _ => rfl, ?_⟩
    obtain ⟨k, f, hk, e1, e2⟩ := cut_entries ids (n - 20) hok
    refine ⟨k, ?_⟩
    rw [e1]
    obtain ⟨l', p', hl', hp', e⟩ := loadIds_entries junk f (ids.length - k) (ids.take k) (leBytes 4 0) (leBytes 16 0) []
      (leBytes_length _ _) (leBytes_length _ _) (fun e he => hok e (List.mem_of_mem_take he))
    rw [List.length_take, show min k ids.length + (ids.length - k) = ids.length by omega] at e
    rw [e]
    have hnk : ((ids.take k).map (·.1)).Nodup := by
      rw [List.map_take]; exact List.Nodup.sublist (List.take_sublist _ _) hn
    have hg := foldl_insert_get (ids.take k) hnk []
    have hg' : ∀ p, AMap.get (List.foldl (fun m e => AMap.insert m e.1 e.2) [] (ids.take k)) p =
        AMap.get (ids.take k) p := by
      intro p; rw [hg]; cases AMap.get (ids.take k) p <;> rfl
    rcases e2 with rfl | ⟨e', hek, heo, j, hj, hf⟩
    · left; intro p; rw [loadIds_nil]; exact hg' p
    · rcases loadIds_part junk (ids.length - k) (List.foldl (fun m e => AMap.insert m e.1 e.2) [] (ids.take k))
        hl' hp' heo hj hf with g | ⟨v, g⟩
      · left; intro p; rw [g]; exact hg' p
      · right
        refine ⟨e', v, hek, fun p => ?_⟩
        rw [g, AMap.get_insert, hg']
  · have hlen : (leBytes 16 largest ++ leBytes 4 ids.length).length = 20 := by simp [leBytes_length]
    have hs : (storeIds largest ids).take n = (leBytes 16 largest ++ leBytes 4 ids.length).take n := by
      unfold storeIds
      rw [List.take_append_of_le_length (by omega)]
    rw [hs]
    have h2 : (readIds junk ((leBytes 16 largest ++ leBytes 4 ids.length).take n)).2 = [] := by
      unfold readIds
      cases h1 : rdInto (leBytes 16 0) 16 ((leBytes 16 largest ++ leBytes 4 ids.length).take n) with
      | none => rfl
      | some x =>
        obtain ⟨v, f⟩ := x
        simp only
        obtain ⟨_, b, _⟩ := rdInto_some h1 (leBytes_length _ _)
        cases h3 : rdInto (leBytes 4 0) 4 f with
        | none => rfl
        | some y =>
          obtain ⟨w, f'⟩ := y
          obtain ⟨_, b', _⟩ := rdInto_some h3 (leBytes_length _ _)
          have : f' = [] := by
            rw [b', b, List.drop_drop]
            exact List.drop_of_length_le (by rw [List.length_take]; omega)
          subst this
          exact loadIds_nil _ _ _ _ _
    refine ⟨fun h16 => ?_, 0, Or.inl (fun p => by rw [h2]; rfl)⟩
    rw [List.take_append, List.take_of_length_le (by simp [leBytes_length]; omega)]
    unfold readIds
    rw [rdInto_append (leBytes_length _ _) (by omega) (by simp [leBytes_length])]
    simp only
    cases rdInto (leBytes 4 0) 4 (List.take (n - (leBytes 16 largest).length) (leBytes 4 ids.length)) <;>
      simp [leVal16 hl]

/-- C56. A file cut off between two entries yields exactly the entries before the cut. -/
theorem C56_cut_between (junk : Nat → UInt8) (largest : Nat) (ids : List (List Char × Nat)) (hl : largest < 2^128)
    (hc : ids.length < 2^32) (hok : ∀ e ∈ ids, EntryOk e) (hn : (ids.map (·.1)).Nodup) (k : Nat) :
    (readIds junk (leBytes 16 largest ++ leBytes 4 ids.length ++ (ids.take k).flatMap idEntry)).1 = largest ∧
    ∀ p, AMap.get (readIds junk (leBytes 16 largest ++ leBytes 4 ids.length ++ (ids.take k).flatMap idEntry)).2 p =
      AMap.get (ids.take k) p := by
  rw [readIds_header junk hl hc]
  refine ⟨rfl, fun p => ?_⟩
  obtain ⟨l', p', _, _, e⟩ := loadIds_entries junk [] (ids.length - k) (ids.take k) (leBytes 4 0) (leBytes 16 0) []
    (leBytes_length _ _) (leBytes_length _ _) (fun e he => hok e (List.mem_of_mem_take he))
  rw [List.append_nil, List.length_take, show min k ids.length + (ids.length - k) = ids.length by omega] at e
  simp only
  rw [e, loadIds_nil]
  have hnk : ((ids.take k).map (·.1)).Nodup := by
    rw [List.map_take]; exact List.Nodup.sublist (List.take_sublist _ _) hn
  rw [foldl_insert_get (ids.take k) hnk]
  cases AMap.get (ids.take k) p <;> rfl

/-- C56. The length written never exceeds the bytes available: no byte beyond the encoded path is written. -/
theorem C56_no_overread (p : List Char) : utf16Len p ≤ (utf8 p).length := by
  induction p with
  | nil => exact Nat.le_refl _
  | cons c r ih =>
    unfold utf16Len utf8 at ih ⊢
    simp only [List.map_cons, List.sum_cons, List.flatMap_cons, List.length_append]
    have : (if c.toNat < 0x10000 then 1 else 2) ≤ (utf8Char c).length := by
      unfold utf8Char
      simp only
      repeat' split
      all_goals simp
      all_goals omega
    omega

/-- C56 is violated for other characters: the length is counted in UTF-16 units, so the end of the UTF-8 text is lost, and
with it the id: "/é" comes back as "/" followed by an undecodable byte. -/
theorem C56_non_ascii_violated (junk : Nat → UInt8) :
    AMap.get (readIds junk (storeIds 7 [(['/', 'é'], 7)])).2 ['/', 'é'] = none ∧
    AMap.get (readIds junk (storeIds 7 [(['/', 'é'], 7)])).2 ['/', replChar] = some 7 := by
  constructor <;> rfl

/-- C56 is violated for a cut inside an entry: with the file ending inside the second id, that path gets an id that was never
given out (here the new low byte in front of the first id's other bytes). -/
theorem C56_cut_violated :
    (readIds (fun _ => 0) ((storeIds 0x302 [(['/', 'a'], 0x101), (['/', 'b'], 0x302)]).take 49)).2 =
      [(['/', 'b'], 0x102), (['/', 'a'], 0x101)] := by
  decide +kernel

theorem C56_witness : EntryOk (['/', 's', '/', 'a'], 5) ∧
    readIds (fun _ => 0) (storeIds 6 [(['/', 'a'], 5), (['/', 'b'], 6)]) = (6, [(['/', 'b'], 6), (['/', 'a'], 5)]) := by
  refine ⟨⟨?_, by decide, by decide, by decide⟩, by decide +kernel⟩
  intro c hc
  simp only [List.mem_cons, List.not_mem_nil, or_false] at hc
  rcases hc with rfl | rfl | rfl | rfl <;> decide

end Props
