import Verif.Lemmas.FileIO
import Verif.Spec.FileIO
/-! Property theorems C27–C30: reading, writing, editing and copying object contents. -/
namespace Props
open Mtp

/-! ### C27 -/

/-- C27: a read reported successful returned exactly the requested range of the object's file, which
reaches that far; for all ways the system splits the reads. -/
theorem C27_read_exact (s : FStore) (io : FileIO) (h len off : Nat) (hl : len < 2 ^ 32)
    (d : List UInt8) (hr : s.readData io h len off = (.ok, d)) :
    ∃ it c, s.items.get h = some it ∧ s.files.get it.path = some c ∧
      off + len ≤ c.length ∧ d = (c.drop off).take len := by
  unfold FStore.readData at hr
  cases hi : s.items.get h with
  | none => simp [hi] at hr
  | some it =>
    simp only [hi] at hr
    cases ho : io.openOk <;> cases hf : s.files.get it.path <;> simp only [ho, hf] at hr
    · simp at hr
    · simp at hr
    · simp at hr
    · next c =>
      split at hr
      · simp at hr
      · next h1 =>
        split at hr
        · simp at hr
        · next h2 =>
          cases hq : readLoop (c.drop off) len io.reads with
          | none => simp [hq] at hr
          | some d' =>
            simp only [hq, Prod.mk.injEq, true_and] at hr
            subst hr
            obtain ⟨a, b⟩ := readLoop_ok _ _ _ _ hq
            rw [List.length_drop] at a
            unfold u64 at h1
            exact ⟨it, c, rfl, hf, by omega, b⟩

/-- C27: a range that does not lie inside the file is refused. -/
theorem C27_past_end_refused (s : FStore) (io : FileIO) (h len off : Nat) (hl : len < 2 ^ 32)
    (it : FItem) (c : List UInt8) (hi : s.items.get h = some it) (hf : s.files.get it.path = some c)
    (hp : c.length < off + len) : (s.readData io h len off).1 ≠ .ok := by
  intro he
  obtain ⟨it', c', h1, h2, h3, _⟩ := C27_read_exact s io h len off hl (s.readData io h len off).2
    (by rw [← he])
  rw [hi] at h1; cases h1
  rw [hf] at h2; cases h2
  omega

/-- C27: a range inside the file is delivered if the file can be opened and the reads make progress. -/
theorem C27_read_succeeds (s : FStore) (io : FileIO) (h len off : Nat) (it : FItem) (c : List UInt8)
    (hi : s.items.get h = some it) (hf : s.files.get it.path = some c) (hc : c.length < 2 ^ 63)
    (hr : off + len ≤ c.length) (ho : io.openOk = true)
    (hio : ∀ r ∈ io.reads, ∃ k, r = some k ∧ 0 < k) :
    0 < len → s.readData io h len off = (.ok, (c.drop off).take len) := by
  intro hlen
  have hu : u64 (off + len) = off + len := by unfold u64; omega
  simp only [FStore.readData, hi, ho, hf, hu]
  rw [if_neg (by omega), if_neg (by omega),
    readLoop_total _ _ _ hio (by rw [List.length_drop]; omega)]

example : FStore.readData ⟨[("a", [1, 2, 3, 4, 5])], [(7, ⟨"a", false, 5⟩)], none, 0⟩
    { reads := [some 2, some 100] } 7 3 1 = (.ok, [2, 3, 4]) := by decide

/-! ### C28 -/

/-- The data phase of an upload: segments in order, the first marked, `last` as the caller pleases. -/
def writeSegs (s : FStore) (h : Nat) : Bool → List (FileIO × List UInt8 × Bool) → FStore × List Resp
  | _, [] => (s, [])
  | first, (io, d, last) :: r =>
    ((writeSegs (s.writeData io h (some d) first last).1 h false r).1,
      (s.writeData io h (some d) first last).2 ::
        (writeSegs (s.writeData io h (some d) first last).1 h false r).2)

/-- The whole upload: the segments, then the closing call. -/
def upload (s : FStore) (h : Nat) (segs : List (FileIO × List UInt8 × Bool)) (fin : FileIO) :
    FStore × List Resp :=
  (((writeSegs s h true segs).1.writeData fin h none false true).1,
    (writeSegs s h true segs).2 ++ [((writeSegs s h true segs).1.writeData fin h none false true).2])

private theorem writeSegs_more {h : Nat} {it : FItem} :
    ∀ (segs : List (FileIO × List UInt8 × Bool)) (s : FStore) (pos : Nat) (c : List UInt8),
    s.items.get h = some it → s.dataFile = some (it.path, pos) → s.files.get it.path = some c →
    pos ≤ c.length → (∀ r ∈ (writeSegs s h false segs).2, r = .ok) →
    ∃ c', (writeSegs s h false segs).1.items = s.items ∧
      (writeSegs s h false segs).1.dataFile = some (it.path, pos + (segs.map (·.2.1)).flatten.length) ∧
      (writeSegs s h false segs).1.files.get it.path = some c' ∧
      pos + (segs.map (·.2.1)).flatten.length ≤ c'.length ∧
      c'.take (pos + (segs.map (·.2.1)).flatten.length) = c.take pos ++ (segs.map (·.2.1)).flatten ∧
      ∀ p, p ≠ it.path → (writeSegs s h false segs).1.files.get p = s.files.get p := by
  intro segs
  induction segs with
  | nil =>
    intro s pos c hi hd hf hp _
    exact ⟨c, by simpa [writeSegs] using ⟨hd, hf, hp⟩⟩
  | cons g segs ih =>
    obtain ⟨io, d, last⟩ := g
    intro s pos c hi hd hf hp hok
    simp only [writeSegs, List.mem_cons, forall_eq_or_imp] at hok
    obtain ⟨a1, a2, a3, a4⟩ := writeData_seg (first := false) (last := last) hi (path := it.path)
      (pos := pos) (c := c) (fun _ => ⟨hd, hf, hp⟩) (by simp) hok.1
    obtain ⟨c', b1, b2, b3, b4, b5, b6⟩ := ih _ (pos + d.length) (writeAt c pos d) (by rw [a1]; exact hi)
      a2 a3 (by rw [writeAt_length]; omega) hok.2
    refine ⟨c', ?_⟩
    simp only [writeSegs, List.map_cons, List.flatten_cons, List.length_append]
    rw [writeAt_take c pos d hp] at b5
    rw [← Nat.add_assoc]
    refine ⟨by rw [b1, a1], b2, b3, b4, by rw [b5, List.append_assoc], fun p hp => ?_⟩
    rw [b6 p hp, a4 p hp]

/-- C28: if every call of an upload reports success and the final flush stores the buffered data, the
object's file contains exactly the concatenation of the segments, whatever it held before and however the
system splits the writes; no other file and no object is changed. -/
theorem C28_upload_exact_partial (s : FStore) (h : Nat) (it : FItem) (hi : s.items.get h = some it)
    (segs : List (FileIO × List UInt8 × Bool)) (hne : segs ≠ []) (fin : FileIO) (hfl : fin.lost = 0)
    (hok : ∀ r ∈ (upload s h segs fin).2, r = .ok) :
    (upload s h segs fin).1.files.get it.path = some (segs.map (·.2.1)).flatten ∧
    (∀ p, p ≠ it.path → (upload s h segs fin).1.files.get p = s.files.get p) ∧
    (upload s h segs fin).1.items = s.items ∧ (upload s h segs fin).1.dataFile = none := by
  cases segs with
  | nil => exact absurd rfl hne
  | cons g segs =>
    obtain ⟨io, d, last⟩ := g
    unfold upload at hok ⊢
    simp only [writeSegs, List.mem_append, List.mem_cons, or_imp, forall_and,
      forall_eq] at hok ⊢
    obtain ⟨⟨h1, h2⟩, h3⟩ := hok
    obtain ⟨a1, a2, a3, a4⟩ := writeData_seg (first := true) (last := last) hi (path := it.path)
      (pos := 0) (c := (s.files.get it.path).getD []) (by simp) (fun _ => ⟨rfl, rfl, rfl⟩) h1
    obtain ⟨c', b1, b2, b3, b4, b5, b6⟩ := writeSegs_more segs _ _ _ (by rw [a1]; exact hi) a2 a3
      (by rw [writeAt_length]; omega) h2
    rw [writeAt_take _ 0 d (Nat.zero_le _)] at b5
    generalize (writeSegs (s.writeData io h (some d) true last).1 h false segs).1 = S at *
    have hiS : S.items.get h = some it := by rw [b1, a1]; exact hi
    simp only [FStore.writeData, hiS, FStore.closeCut, b2, b3, hfl]
    refine ⟨?_, fun p hp => ?_, by rw [b1, a1], by simp⟩
    · simp only [AMap.get_insert, if_true]
      rw [resize_pos b4, b5]
      simp
    · simp only [AMap.get_insert, hp, if_false]
      rw [b6 p hp, a4 p hp]

/-- An upload over an older, longer file. -/
example : (upload ⟨[("a", [9, 9, 9, 9, 9, 9])], [(7, ⟨"a", false, 4⟩)], none, 0⟩ 7
    [({}, [1, 2], false), ({ writes := [some 1] }, [3, 4], true)] {}).1.files = [("a", [1, 2, 3, 4])] ∧
  (upload ⟨[("a", [9, 9, 9, 9, 9, 9])], [(7, ⟨"a", false, 4⟩)], none, 0⟩ 7
    [({}, [1, 2], false), ({ writes := [some 1] }, [3, 4], true)] {}).2 = [.ok, .ok, .ok] := by
  decide

/-- C28 is violated when the final flush fails (disk full): every call reports success, but the file
does not contain the data. -/
theorem C28_flush_violated : ∃ (s : FStore) (segs : List (FileIO × List UInt8 × Bool)) (fin : FileIO),
    (∀ r ∈ (upload s 7 segs fin).2, r = .ok) ∧ s.items.get 7 = some ⟨"a", false, 2⟩ ∧
    (upload s 7 segs fin).1.files.get "a" ≠ some (segs.map (·.2.1)).flatten :=
  ⟨⟨[("a", [])], [(7, ⟨"a", false, 2⟩)], none, 0⟩, [({}, [1, 2], true)], { lost := 2 },
    by decide, by decide, by decide⟩

/-- C28: after a first segment that could not be stored (reported), the following segments report
success although nothing is written. -/
theorem C28_after_failed_open_violated (s : FStore) (h : Nat) (it : FItem)
    (hi : s.items.get h = some it) (io io' : FileIO) (ho : io.openOk = false) (d d' : List UInt8) :
    (s.writeData io h (some d) true false).2 = .generalError ∧
    ((s.writeData io h (some d) true false).1.writeData io' h (some d') false false).2 = .ok ∧
    ((s.writeData io h (some d) true false).1.writeData io' h (some d') false false).1.files = s.files := by
  simp [FStore.writeData, hi, ho]

/-! ### C29 -/

/-- The data phase of a partial write: each segment at the position where the previous one ended
(mtpresponder.cpp:1602-1609), first and last marked. -/
def partialWrite (s : FStore) (h : Nat) : Bool → Nat → List (FileIO × List UInt8) → Res (FStore × List Resp)
  | _, _, [] => .ok (s, [])
  | first, off, (io, d) :: r =>
    match s.writePartial io h off d first r.isEmpty with
    | .ub w => .ub w
    | .ok (s1, c) =>
      match partialWrite s1 h false (off + d.length) r with
      | .ub w => .ub w
      | .ok (s2, cs) => .ok (s2, c :: cs)

theorem writePartial_seg {s : FStore} {io : FileIO} {h off q : Nat} {d c : List UInt8}
    {first last : Bool} {it : FItem} (hi : s.items.get h = some it)
    (hd : first = false → s.dataFile = some (it.path, q) ∧ s.writing = h ∧ s.files.get it.path = some c)
    (hp : first = true → c = (s.files.get it.path).getD [])
    {s' : FStore} (hok : s.writePartial io h off d first last = .ok (s', .ok)) :
    s'.files.get it.path = some (if d = [] then c else writeAt c off d) ∧
    (∀ p, p ≠ it.path → s'.files.get p = s.files.get p) ∧
    (last = false → s'.items = s.items ∧ s'.dataFile = some (it.path, off + d.length) ∧ s'.writing = h) ∧
    (last = true → s'.items = s.items.insert h
      { it with size := (if d = [] then c else writeAt c off d).length } ∧ s'.dataFile = none) := by
  have main : ∀ S : FStore, S.items = s.items → S.writing = h → S.files.get it.path = some c →
      (∀ p, p ≠ it.path → S.files.get p = s.files.get p) →
      (match S.writeLoop it.path off d io.writes with
        | (t, pos', ok) =>
          if ok = true then
            Res.ok (if last = true then FStore.closePartial { t with dataFile := some (it.path, pos') } h it
              else { t with dataFile := some (it.path, pos') }, Resp.ok)
          else Res.ok (FStore.closePartial { t with dataFile := some (it.path, pos') } h it,
            Resp.generalError)) = Res.ok (s', Resp.ok) →
      s'.files.get it.path = some (if d = [] then c else writeAt c off d) ∧
      (∀ p, p ≠ it.path → s'.files.get p = s.files.get p) ∧
      (last = false → s'.items = s.items ∧ s'.dataFile = some (it.path, off + d.length) ∧ s'.writing = h) ∧
      (last = true → s'.items = s.items.insert h
        { it with size := (if d = [] then c else writeAt c off d).length } ∧ s'.dataFile = none) := by
    intro S h1 h2 h3 h4 h5
    have hframe := writeLoop_frame io.writes S it.path off d
    have hw := writeLoop_ok io.writes S it.path off d c h3
    generalize S.writeLoop it.path off d io.writes = o at *
    obtain ⟨t, pos', ok⟩ := o
    simp only at h5 hw hframe
    cases ok with
    | false => simp at h5
    | true =>
      obtain ⟨w1, w2⟩ := hw rfl
      simp only [if_true, Res.ok.injEq, Prod.mk.injEq, and_true] at h5
      cases last with
      | false =>
        simp only [Bool.false_eq_true, if_false] at h5
        subst h5
        refine ⟨w2, fun p hp => by rw [hframe.2.2.2 p hp, h4 p hp], fun _ => ⟨by rw [hframe.1, h1], by rw [w1],
          by rw [hframe.2.2.1, h2]⟩, by simp⟩
      | true =>
        simp only [if_true, FStore.closePartial] at h5
        subst h5
        refine ⟨w2, fun p hp => by rw [hframe.2.2.2 p hp, h4 p hp], by simp, fun _ => ⟨?_, rfl⟩⟩
        simp only [w2, Option.getD_some, hframe.1, h1]
  unfold FStore.writePartial at hok
  simp only [hi] at hok
  cases first with
  | false =>
    obtain ⟨h1, h2, h3⟩ := hd rfl
    simp only [Bool.false_eq_true, false_and, if_false, h1, h2] at hok
    by_cases hb : off ≥ 2 ^ 63
    · simp [hb] at hok
    · simp only [ne_eq, not_true_eq_false, false_or, hb, if_false] at hok
      exact main s rfl h2 h3 (fun _ _ => rfl) hok
  | true =>
    cases ho : io.openOk with
    | false => simp [ho] at hok
    | true =>
      simp only [ho, Bool.true_eq_false, and_false, if_false, if_true, FStore.openRW] at hok
      by_cases hb : off ≥ 2 ^ 63
      · simp [hb] at hok
      · simp only [ne_eq, not_true_eq_false, false_or, hb, if_false] at hok
        refine main (FStore.mk (if (s.files.get it.path).isSome = true then s.files
          else s.files.insert it.path []) s.items (some (it.path, 0)) h) rfl rfl ?_ ?_ hok
        · simp only
          have := hp rfl
          cases hg : s.files.get it.path with
          | none => simp [AMap.get_insert, this, hg]
          | some x => simp [hg, this]
        · intro p hp
          simp only
          split
          · rfl
          · simp [AMap.get_insert, hp]

private theorem partial_more {h : Nat} {it : FItem} :
    ∀ (segs : List (FileIO × List UInt8)) (_ : segs ≠ []) (s : FStore) (first : Bool) (off q : Nat)
    (c : List UInt8),
    s.items.get h = some it →
    (first = false → s.dataFile = some (it.path, q) ∧ s.writing = h ∧ s.files.get it.path = some c) →
    (first = true → c = (s.files.get it.path).getD []) →
    ∀ s' cs, partialWrite s h first off segs = .ok (s', cs) → (∀ r ∈ cs, r = .ok) →
    ∃ c', s'.files.get it.path = some c' ∧
      c' = (if (segs.map (·.2)).flatten = [] then c else writeAt c off (segs.map (·.2)).flatten) ∧
      s'.items = s.items.insert h { it with size := c'.length } ∧ s'.dataFile = none ∧
      ∀ p, p ≠ it.path → s'.files.get p = s.files.get p := by
  intro segs
  induction segs with
  | nil => intro hne; exact absurd rfl hne
  | cons g segs ih =>
    obtain ⟨io, d⟩ := g
    intro _ s first off q c hi hd hp s' cs hr hok
    unfold partialWrite at hr
    cases hw : s.writePartial io h off d first segs.isEmpty with
    | ub w => simp [hw] at hr
    | ok o =>
      obtain ⟨s1, c1⟩ := o
      simp only [hw] at hr
      cases hm : partialWrite s1 h false (off + d.length) segs with
      | ub w => simp [hm] at hr
      | ok o2 =>
        obtain ⟨s2, cs2⟩ := o2
        simp only [hm, Res.ok.injEq, Prod.mk.injEq] at hr
        obtain ⟨rfl, rfl⟩ := hr
        have hc1 : c1 = .ok := hok c1 (by simp)
        subst hc1
        obtain ⟨a1, a2, a3, a4⟩ := writePartial_seg hi hd hp hw
        cases segs with
        | nil =>
          simp only [partialWrite, Res.ok.injEq, Prod.mk.injEq] at hm
          obtain ⟨rfl, rfl⟩ := hm
          obtain ⟨b1, b2⟩ := a4 rfl
          refine ⟨_, a1, ?_, b1, b2, a2⟩
          simp
        | cons g2 segs2 =>
          obtain ⟨b1, b2, b3⟩ := a3 rfl
          obtain ⟨c', e1, e2, e3, e4, e5⟩ := ih (by simp) s1 false (off + d.length) (off + d.length)
            (if d = [] then c else writeAt c off d) (by rw [b1]; exact hi) (fun _ => ⟨b2, b3, a1⟩) (by simp)
            _ _ hm (fun r hr => hok r (by simp [hr]))
          refine ⟨c', e1, ?_, by rw [e3, b1], e4, fun p hp => by rw [e5 p hp, a2 p hp]⟩
          generalize hD : ((g2 :: segs2).map (·.2)).flatten = D at e2
          have hD' : (((io, d) :: g2 :: segs2).map (·.2)).flatten = d ++ D := by rw [← hD]; simp
          rw [e2, hD']
          by_cases h1 : d = []
          · subst h1; simp
          · by_cases h2 : D = []
            · subst h2; simp [h1]
            · rw [if_neg h2, if_neg h1, if_neg (by simp [h1]), writeAt_writeAt]

theorem overwritten_writeAt (c : List UInt8) (off : Nat) (d : List UInt8) :
    Spec.Overwritten c off d (writeAt c off d) := by
  refine ⟨writeAt_length c off d, fun i hi => ?_⟩
  rw [writeAt_length] at hi
  rw [writeAt_get]
  by_cases h1 : i < off
  · have h2 : ¬ (off ≤ i ∧ i < off + d.length) := by omega
    simp only [h1, h2, if_true, if_false]
  · by_cases h2 : i < off + d.length
    · have h3 : off ≤ i ∧ i < off + d.length := by omega
      simp only [h1, h2, h3, if_true, if_false, and_self]
    · have h3 : ¬ (off ≤ i ∧ i < off + d.length) := by omega
      have h4 : i < c.length := by omega
      simp only [h1, h2, h4, if_true, if_false, and_false]

/-- C29: a partial write of any number of packets, all reported successful, replaces exactly the addressed
bytes (filling a gap with zeros); other files and objects are unchanged, and the size reported for the
object is the size of its file. -/
theorem C29_partial_write (s : FStore) (h off : Nat) (it : FItem) (hi : s.items.get h = some it)
    (segs : List (FileIO × List UInt8)) (hne : (segs.map (·.2)).flatten ≠ []) (s' : FStore)
    (cs : List Resp) (hr : partialWrite s h true off segs = .ok (s', cs)) (hok : ∀ r ∈ cs, r = .ok) :
    ∃ c', s'.files.get it.path = some c' ∧
      Spec.Overwritten ((s.files.get it.path).getD []) off (segs.map (·.2)).flatten c' ∧
      s'.items = s.items.insert h { it with size := c'.length } ∧
      ∀ p, p ≠ it.path → s'.files.get p = s.files.get p := by
  have hsegs : segs ≠ [] := by rintro rfl; exact hne rfl
  obtain ⟨c', a1, a2, a3, a4, a5⟩ := partial_more segs hsegs s true off 0 _ hi (by simp) (fun _ => rfl)
    s' cs hr hok
  rw [if_neg hne] at a2
  subst a2
  exact ⟨_, a1, overwritten_writeAt _ _ _, a3, a5⟩

/-- C29: a truncation reported successful cuts or zero-extends the file to the requested size, which is
the size reported from then on; nothing else changes. Otherwise nothing changes at all. -/
theorem C29_truncate (s : FStore) (io : FileIO) (h n : Nat) :
    ((s.truncateItem io h n).2 = .ok →
      ∃ it c c', s.items.get h = some it ∧ s.files.get it.path = some c ∧
        (s.truncateItem io h n).1.files.get it.path = some c' ∧ Spec.Resized c n c' ∧
        (s.truncateItem io h n).1.items = s.items.insert h { it with size := n } ∧
        ∀ p, p ≠ it.path → (s.truncateItem io h n).1.files.get p = s.files.get p) ∧
    ((s.truncateItem io h n).2 ≠ .ok → (s.truncateItem io h n).1 = s) := by
  unfold FStore.truncateItem
  cases hi : s.items.get h with
  | none => simp
  | some it =>
    simp only
    by_cases hd : it.isDir = true
    · simp [hd]
    · rw [if_neg hd]
      cases ho : io.openOk <;> cases hf : s.files.get it.path
      · simp
      · simp
      · simp
      · next c =>
        simp only [ne_eq, not_true_eq_false, false_imp_iff, and_true, true_imp_iff]
        refine ⟨it, c, resizeTo c n, rfl, hf, by simp [AMap.get_insert], ⟨?_, fun i hi => ?_⟩, rfl,
          fun p hp => by simp [AMap.get_insert, hp]⟩
        · simp [resizeTo]; omega
        · unfold resizeTo
          rw [List.getElem?_append, List.length_take]
          by_cases h1 : i < c.length
          · rw [if_pos (by omega), if_pos h1, List.getElem?_take, if_pos hi]
          · rw [if_neg (by omega), if_neg h1, List.getElem?_replicate, if_pos (by omega)]

example : partialWrite ⟨[("a", [1, 2, 3])], [(7, ⟨"a", false, 3⟩)], none, 0⟩ 7 true 4
      [({}, [8]), ({}, [9])] =
    .ok (⟨[("a", [1, 2, 3, 0, 8, 9])], [(7, ⟨"a", false, 6⟩)], none, 0⟩, [.ok, .ok]) ∧
  (FStore.truncateItem ⟨[("a", [1, 2, 3])], [(7, ⟨"a", false, 3⟩)], none, 0⟩ {} 7 2).1.files =
    [("a", [1, 2])] := by decide

/-! ### C30 -/

/-- One successful chunk. -/
private theorem copyChunk_ok {src dst : Nat} {si di : FItem} {c : List UInt8}
    {rio wio : FileIO} {cancel : Bool} {s : FStore} {off len : Nat} {final : Bool}
    (hlen : len ≤ 65536)
    (hsi : s.items.get src = some si) (hdi : s.items.get dst = some di) (hsf : s.files.get si.path = some c)
    (hlost : wio.lost = 0) (hlast : final = true → wio.openOk = true ∧ none ∉ wio.writes)
    (hinv : 0 < off → ∃ c2, s.dataFile = some (di.path, off) ∧ s.files.get di.path = some c2 ∧
      off ≤ c2.length ∧ c2.take off = c.take off)
    {s' : FStore} {b : Bool}
    (hr : s.copyChunk rio wio cancel src dst off len final = (s', .ok, b)) :
    off + len ≤ c.length ∧ b = false ∧ s'.items = s.items ∧
    (∀ p, p ≠ di.path → s'.files.get p = s.files.get p) ∧
    (final = true → s'.files.get di.path = some (c.take (off + len))) ∧
    (final = false → ∃ c2, s'.dataFile = some (di.path, off + len) ∧ s'.files.get di.path = some c2 ∧
      off + len ≤ c2.length ∧ c2.take (off + len) = c.take (off + len)) := by
  unfold FStore.copyChunk at hr
  cases hrd : s.readData rio src len off with
  | mk r d =>
  simp only [hrd] at hr
  split at hr
  · simp at hr
  split at hr
  · next hne =>
    simp only [Prod.mk.injEq] at hr
    exact absurd hr.2.1 hne
  next hrok =>
  have hrok' : r = .ok := by simpa using hrok
  subst hrok'
  obtain ⟨it, c', e1, e2, e3, e4⟩ := C27_read_exact s rio src len off (by omega) d hrd
  rw [hsi] at e1; cases e1
  rw [hsf] at e2; cases e2
  have hdl : d.length = len := by rw [e4, List.length_take, List.length_drop]; omega
  cases hw : s.writeData wio dst (some d) (decide (off = 0)) false with
  | mk s1 r1 =>
  simp only [hw] at hr
  have hwok : r1 = .ok →
      ∃ c2, s1.items = s.items ∧ s1.dataFile = some (di.path, off + len) ∧
        s1.files.get di.path = some c2 ∧ off + len ≤ c2.length ∧
        c2.take (off + len) = c.take (off + len) ∧
        (∀ p, p ≠ di.path → s1.files.get p = s.files.get p) := by
    intro ho
    have ho' : (s.writeData wio dst (some d) (decide (off = 0)) false).2 = .ok := by rw [hw]; exact ho
    by_cases hk : off = 0
    · subst hk
      simp only [decide_true] at ho' hw
      have := writeData_seg (first := true) hdi (path := di.path) (pos := 0)
        (c := (s.files.get di.path).getD []) (by simp) (fun _ => ⟨rfl, rfl, rfl⟩) ho'
      rw [hw] at this
      obtain ⟨a1, a2, a3, a4⟩ := this
      refine ⟨_, a1, by rw [a2, hdl], a3, by rw [writeAt_length]; omega, ?_, a4⟩
      have h5 := writeAt_take ((s.files.get di.path).getD []) 0 d (Nat.zero_le _)
      rw [hdl] at h5
      rw [h5, e4]
      simp
    · have hk0 : decide (off = 0) = false := by
        rw [decide_eq_false_iff_not]; exact hk
      rw [hk0] at ho' hw
      obtain ⟨c2, i1, i2, i3, i4⟩ := hinv (Nat.pos_of_ne_zero hk)
      have := writeData_seg (first := false) hdi (path := di.path)
        (pos := off) (c := c2) (fun _ => ⟨i1, i2, i3⟩) (by simp) ho'
      rw [hw] at this
      obtain ⟨a1, a2, a3, a4⟩ := this
      refine ⟨_, a1, by rw [a2, hdl], a3, by rw [writeAt_length]; omega, ?_, a4⟩
      have h5 := writeAt_take c2 off d i3
      rw [hdl] at h5
      rw [h5, i4, e4, ← List.take_add]
  cases final with
  | false =>
    simp only [Bool.false_eq_true, if_false, Prod.mk.injEq] at hr
    obtain ⟨rfl, rfl, rfl⟩ := hr
    obtain ⟨c2, a1, a2, a3, a4, a5, a6⟩ := hwok rfl
    exact ⟨e3, rfl, a1, a6, by simp, fun _ => ⟨c2, a2, a3, a4, a5⟩⟩
  | true =>
    obtain ⟨l1, l2⟩ := hlast rfl
    have ho := writeData_noerr s wio dst d (decide (off = 0)) di hdi (fun _ => l1) l2 (by omega)
    rw [hw] at ho
    obtain ⟨c2, a1, a2, a3, a4, a5, a6⟩ := hwok ho
    have hi1 : s1.items.get dst = some di := by rw [a1]; exact hdi
    have hcl : s1.writeData wio dst none false true =
        ({ s1 with
            writing := 0
            dataFile := none
            files := s1.files.insert di.path (c.take (off + len)) }, .ok) := by
      simp only [FStore.writeData, hi1, FStore.closeCut, a2, a3, hlost]
      rw [resize_pos a4, a5]
    simp only [if_true, hcl, Prod.mk.injEq] at hr
    obtain ⟨rfl, _, rfl⟩ := hr
    refine ⟨e3, rfl, a1, fun p hp => ?_, fun _ => by simp [AMap.get_insert], by simp⟩
    simp only [AMap.get_insert, hp, if_false]
    exact a6 p hp

private theorem copyLoop_done (rio wio : Nat → FileIO) (cancel : Nat → Bool) (src dst : Nat) (S : FStore)
    (n o : Nat) : S.copyLoop rio wio cancel src dst n o 0 = (S, .ok, false) := by
  cases n <;> simp [FStore.copyLoop]

private theorem last_chunk {total k : Nat} (hpos : 0 < total - k * COPY_CHUNK)
    (h : total - k * COPY_CHUNK - min COPY_CHUNK (total - k * COPY_CHUNK) = 0) :
    (total - 1) / COPY_CHUNK = k ∧ k * COPY_CHUNK + min COPY_CHUNK (total - k * COPY_CHUNK) = total := by
  simp only [COPY_CHUNK] at hpos h ⊢
  omega

private theorem copyLoop_spec {src dst : Nat} {si di : FItem} {c : List UInt8} (hpath : di.path ≠ si.path)
    (rio wio : Nat → FileIO) (cancel : Nat → Bool) (total : Nat) (ht : total < 2 ^ 32)
    (hlost : ∀ i, (wio i).lost = 0)
    (hlast : (wio ((total - 1) / COPY_CHUNK)).openOk = true ∧ none ∉ (wio ((total - 1) / COPY_CHUNK)).writes) :
    ∀ (n : Nat) (s : FStore) (k : Nat), total - k * COPY_CHUNK < n * COPY_CHUNK →
    0 < total - k * COPY_CHUNK →
    s.items.get src = some si → s.items.get dst = some di → s.files.get si.path = some c →
    (0 < k * COPY_CHUNK → ∃ c2, s.dataFile = some (di.path, k * COPY_CHUNK) ∧ s.files.get di.path = some c2 ∧
      k * COPY_CHUNK ≤ c2.length ∧ c2.take (k * COPY_CHUNK) = c.take (k * COPY_CHUNK)) →
    ∀ s' b, s.copyLoop rio wio cancel src dst n (k * COPY_CHUNK) (total - k * COPY_CHUNK) = (s', .ok, b) →
    total ≤ c.length ∧ b = false ∧ s'.files.get di.path = some (c.take total) ∧
      (∀ p, p ≠ di.path → s'.files.get p = s.files.get p) ∧ s'.items = s.items := by
  intro n
  induction n with
  | zero => intro s k h; omega
  | succ n ih =>
    intro s k hn hpos hsi hdi hsf hinv s' b hr
    have hC : COPY_CHUNK = 65536 := rfl
    unfold FStore.copyLoop at hr
    rw [if_neg (Nat.ne_of_gt hpos)] at hr
    have hdiv : k * COPY_CHUNK / COPY_CHUNK = k := Nat.mul_div_cancel _ (by decide)
    simp only [hdiv] at hr
    have hlenle : (if total - k * COPY_CHUNK ≥ COPY_CHUNK then COPY_CHUNK else total - k * COPY_CHUNK) =
        min COPY_CHUNK (total - k * COPY_CHUNK) := by split <;> omega
    rw [hlenle] at hr
    cases hch : s.copyChunk (rio k) (wio k) (cancel k) src dst (k * COPY_CHUNK)
      (min COPY_CHUNK (total - k * COPY_CHUNK))
      (decide (total - k * COPY_CHUNK - min COPY_CHUNK (total - k * COPY_CHUNK) = 0)) with
    | mk s1 q =>
    obtain ⟨r1, b1⟩ := q
    simp only [hch] at hr
    split at hr
    · next hne =>
      simp only [Prod.mk.injEq] at hr
      exact absurd hr.2.1 hne
    next hr1 =>
    have hr1' : r1 = .ok := by simpa using hr1
    subst hr1'
    obtain ⟨a1, a2, a3, a4, a5, a6⟩ := copyChunk_ok (by rw [← hC]; exact Nat.min_le_left _ _) hsi hdi hsf
      (hlost k) (by
        intro hf
        rw [(last_chunk hpos (of_decide_eq_true hf)).1] at hlast
        exact hlast) hinv hch
    by_cases hl : total - k * COPY_CHUNK - min COPY_CHUNK (total - k * COPY_CHUNK) = 0
    · rw [hl, copyLoop_done] at hr
      simp only [Prod.mk.injEq, true_and] at hr
      obtain ⟨rfl, rfl⟩ := hr
      have h5 := a5 (decide_eq_true hl)
      have he : k * COPY_CHUNK + min COPY_CHUNK (total - k * COPY_CHUNK) = total :=
        (last_chunk hpos hl).2
      rw [he] at h5 a1
      exact ⟨a1, rfl, h5, a4, a3⟩
    · have h6 := a6 (decide_eq_false hl)
      have hm : min COPY_CHUNK (total - k * COPY_CHUNK) = COPY_CHUNK := by omega
      rw [hm] at hr h6
      have h1 : k * COPY_CHUNK + COPY_CHUNK = (k + 1) * COPY_CHUNK := by rw [Nat.add_mul, Nat.one_mul]
      have hu : u32 (k * COPY_CHUNK + COPY_CHUNK) = (k + 1) * COPY_CHUNK := by
        unfold u32; rw [← h1]; omega
      rw [hu, Nat.sub_sub, h1] at hr
      rw [h1] at h6
      obtain ⟨b1, b2, b3, b4, b5⟩ := ih s1 (k + 1) (by rw [← h1]; rw [Nat.add_mul, Nat.one_mul] at hn; omega)
        (by rw [← h1]; omega)
        (by rw [a3]; exact hsi) (by rw [a3]; exact hdi) (by rw [a4 _ (Ne.symm hpath)]; exact hsf)
        (fun _ => h6) s' b hr
      exact ⟨b1, b2, b3, fun p hp => by rw [b4 p hp, a4 p hp], by rw [b5, a3]⟩

/-- C30: a copy reported successful has exactly the source's bytes (whose recorded size is that of the
file, below 4 GiB), nothing else changed — provided opening and writing the last chunk did not fail, which
the code overlooks, and the final flush stored the data. -/
theorem C30_copy_exact_partial (s : FStore) (rio wio : Nat → FileIO) (cancel : Nat → Bool) (src dst : Nat)
    (si di : FItem) (c : List UInt8) (hsi : s.items.get src = some si) (hdi : s.items.get dst = some di)
    (hpath : di.path ≠ si.path) (hsf : s.files.get si.path = some c)
    (hsize : si.size = c.length) (hsmall : c.length < 2 ^ 32) (hpos : 0 < c.length)
    (hlost : ∀ i, (wio i).lost = 0)
    (hlast : (wio ((c.length - 1) / 65536)).openOk = true ∧ none ∉ (wio ((c.length - 1) / 65536)).writes)
    (s' : FStore) (b : Bool) (hr : s.copyData rio wio cancel src dst = (s', .ok, b)) :
    b = false ∧ s'.files.get di.path = some c ∧
      (∀ p, p ≠ di.path → s'.files.get p = s.files.get p) ∧ s'.items = s.items := by
  have hC : COPY_CHUNK = 65536 := rfl
  unfold FStore.copyData at hr
  have hu : u32 si.size = c.length := by unfold u32; omega
  simp only [hsi, hdi, hu] at hr
  have hr' : s.copyLoop rio wio cancel src dst (c.length / COPY_CHUNK + 1) (0 * COPY_CHUNK)
      (c.length - 0 * COPY_CHUNK) = (s', .ok, b) := by
    rw [Nat.zero_mul, Nat.sub_zero]; exact hr
  obtain ⟨_, h1, h2, h3, h4⟩ := copyLoop_spec hpath rio wio cancel c.length hsmall hlost hlast _ s 0
    (by rw [Nat.zero_mul, Nat.sub_zero, hC]; omega) (by omega) hsi hdi hsf (by omega) s' b hr'
  rw [List.take_length] at h2
  exact ⟨h1, h2, h3, h4⟩

/-- C30: a cancel reaching the copy is reported as failure. -/
theorem C30_cancel_reported (s : FStore) (rio wio : Nat → FileIO) (cancel : Nat → Bool) (src dst : Nat)
    (s' : FStore) (r : Resp) (h : s.copyData rio wio cancel src dst = (s', r, true)) :
    r = .generalError := by
  have loop : ∀ (n : Nat) (s : FStore) (off rem : Nat),
      s.copyLoop rio wio cancel src dst n off rem = (s', r, true) → r = .generalError := by
    intro n
    induction n with
    | zero => intro s off rem h; simp [FStore.copyLoop] at h
    | succ n ih =>
      intro s off rem h
      unfold FStore.copyLoop at h
      split at h
      · simp at h
      · simp only at h
        generalize (if rem ≥ COPY_CHUNK then COPY_CHUNK else rem) = len at h
        cases hch : s.copyChunk (rio (off / COPY_CHUNK)) (wio (off / COPY_CHUNK)) (cancel (off / COPY_CHUNK))
          src dst off len (decide (rem - len = 0)) with
        | mk s1 q =>
        obtain ⟨r1, b1⟩ := q
        simp only [hch] at h
        split at h
        · simp only [Prod.mk.injEq] at h
          obtain ⟨rfl, rfl, rfl⟩ := h
          unfold FStore.copyChunk at hch
          simp only at hch
          split at hch
          · simp only [Prod.mk.injEq] at hch; exact hch.2.1.symm
          · split at hch
            · simp at hch
            · split at hch <;> simp at hch
        · exact ih _ _ _ h
  unfold FStore.copyData at h
  split at h
  · exact loop _ _ _ _ h
  · simp at h

/-- A copy of 3 bytes. -/
example : (FStore.copyData ⟨[("a", [1, 2, 3]), ("b", [])], [(1, ⟨"a", false, 3⟩), (2, ⟨"b", false, 3⟩)], none, 0⟩
    (fun _ => { reads := [some 1] }) (fun _ => { writes := [some 2] }) (fun _ => false) 1 2).2 = (.ok, false) ∧
  (FStore.copyData ⟨[("a", [1, 2, 3]), ("b", [])], [(1, ⟨"a", false, 3⟩), (2, ⟨"b", false, 3⟩)], none, 0⟩
    (fun _ => { reads := [some 1] }) (fun _ => { writes := [some 2] }) (fun _ => false) 1 2).1.files.get "b" =
    some [1, 2, 3] := by decide +kernel

/-- C30 is violated when writing the last chunk fails: success is reported, the copy is incomplete. -/
theorem C30_last_write_violated : ∃ s : FStore,
    s.items.get 1 = some ⟨"a", false, 3⟩ ∧ s.items.get 2 = some ⟨"b", false, 3⟩ ∧
    s.files.get "a" = some [1, 2, 3] ∧
    (s.copyData (fun _ => {}) (fun _ => { writes := [some 1, none] }) (fun _ => false) 1 2).2 = (.ok, false) ∧
    (s.copyData (fun _ => {}) (fun _ => { writes := [some 1, none] }) (fun _ => false) 1 2).1.files.get "b" =
      some [1] :=
  ⟨⟨[("a", [1, 2, 3]), ("b", [])], [(1, ⟨"a", false, 3⟩), (2, ⟨"b", false, 3⟩)], none, 0⟩,
    by decide, by decide, by decide, by decide +kernel, by decide +kernel⟩

/-- C30 is violated from 4 GiB on: only the size modulo 2^32 is copied (here one byte), with success
reported. -/
theorem C30_large_violated (c : List UInt8) (hc : c.length = 2 ^ 32 + 1) :
    let s : FStore := ⟨[("a", c), ("b", [])], [(1, ⟨"a", false, c.length⟩), (2, ⟨"b", false, 0⟩)], none, 0⟩
    (s.copyData (fun _ => {}) (fun _ => {}) (fun _ => false) 1 2).2 = (.ok, false) ∧
    (s.copyData (fun _ => {}) (fun _ => {}) (fun _ => false) 1 2).1.files.get "b" = some (c.take 1) := by
  intro s
  have hi1 : s.items.get 1 = some ⟨"a", false, c.length⟩ := rfl
  have hi2 : s.items.get 2 = some ⟨"b", false, 0⟩ := rfl
  have hfa : s.files.get "a" = some c := rfl
  have hu : u32 c.length = 1 := by unfold u32; omega
  have hrd : s.readData {} 1 1 0 = (.ok, c.take 1) := by
    have := C27_read_succeeds s {} 1 1 0 _ c hi1 hfa (by omega) (by omega) rfl (by simp) (by omega)
    simpa using this
  have hlen : (c.take 1).length = 1 := by rw [List.length_take]; omega
  have hne : c.take 1 ≠ [] := by intro h; rw [h] at hlen; simp at hlen
  have hcopy : s.copyData (fun _ => {}) (fun _ => {}) (fun _ => false) 1 2 =
      s.copyLoop (fun _ => {}) (fun _ => {}) (fun _ => false) 1 2 1 0 1 := by
    unfold FStore.copyData
    simp only [hi1, hi2, hu]
    rfl
  have hw : (s.writeData {} 2 (some (c.take 1)) true false).2 = .ok :=
    writeData_noerr s {} 2 (c.take 1) true _ hi2 (fun _ => rfl) (by simp) (by omega)
  have hseg := writeData_seg (first := true) hi2 (path := "b") (pos := 0)
    (c := []) (by simp) (fun _ => ⟨rfl, rfl, rfl⟩) hw
  cases hW : s.writeData {} 2 (some (c.take 1)) true false with
  | mk s1 r1 =>
  rw [hW] at hw hseg
  simp only at hw hseg
  subst hw
  obtain ⟨a1, a2, a3, a4⟩ := hseg
  rw [hlen] at a2
  have hi : s1.items.get 2 = some ⟨"b", false, 0⟩ := by rw [a1]; exact hi2
  have hcl : s1.writeData {} 2 none false true =
      ({ s1 with
          writing := 0
          dataFile := none
          files := s1.files.insert "b" (c.take 1) }, .ok) := by
    simp only [FStore.writeData, hi, FStore.closeCut, a2, a3]
    rw [resize_pos (by rw [writeAt_length, hlen]; omega)]
    have h5 := writeAt_take [] 0 (c.take 1) (Nat.zero_le _)
    rw [hlen] at h5
    rw [h5]
    rfl
  have hch : s.copyChunk {} {} false 1 2 0 1 true =
      ({ s1 with
          writing := 0
          dataFile := none
          files := s1.files.insert "b" (c.take 1) }, .ok, false) := by
    unfold FStore.copyChunk
    simp only [hrd, decide_true, hW, hcl]
    simp
  have hloop : s.copyLoop (fun _ => {}) (fun _ => {}) (fun _ => false) 1 2 1 0 1 =
      ({ s1 with
          writing := 0
          dataFile := none
          files := s1.files.insert "b" (c.take 1) }, .ok, false) := by
    have hlt : (if 1 ≥ COPY_CHUNK then COPY_CHUNK else 1) = 1 := by decide
    unfold FStore.copyLoop
    simp only [hlt, Nat.sub_self, decide_true, hch, copyLoop_done]
    simp
  rw [hcopy, hloop]
  exact ⟨rfl, by simp [AMap.get_insert]⟩

end Props
