import Verif.Lemmas.Bytes
/-! Refinement of the container code to the wire specification. -/
namespace Mtp

/-- The outgoing container holds exactly the bytes `all` (header included), all initialised,
inside its allocation. -/
structure Tx.Holds (t : Tx) (all : List UInt8) : Prop where
  memcap : t.mem.length = t.cap
  caplt : t.cap < 4294967296
  offeq : t.off = all.length
  offle : t.off ≤ t.cap
  bytes : t.mem.take all.length = all.map some

/-- Two containers agree on the flags that `buffer()` looks at. -/
def Tx.SameFlags (t t' : Tx) : Prop := t'.computeLen = t.computeLen ∧ t'.extraLarge = t.extraLarge

theorem Tx.SameFlags.refl (t : Tx) : t.SameFlags t := ⟨rfl, rfl⟩
theorem Tx.SameFlags.trans {a b c : Tx} (h : a.SameFlags b) (h' : b.SameFlags c) : a.SameFlags c :=
  ⟨h'.1.trans h.1, h'.2.trans h.2⟩

theorem Tx.expand_holds {t : Tx} {all : List UInt8} (h : t.Holds all) {req : Nat}
    (hlt : t.cap + req + 512 < 4294967296) :
    (t.expandBuffer req).Holds all ∧ (t.expandBuffer req).cap = t.cap + req + 512 ∧
      t.SameFlags (t.expandBuffer req) := by
  have e1 : u32 (req + 512) = req + 512 := u32_of_lt (by omega)
  have e2 : u32 (t.cap + (req + 512)) = t.cap + req + 512 := by unfold u32; omega
  have hc := h.memcap; have hoff := h.offeq; have hle := h.offle
  refine ⟨⟨?_, ?_, ?_, ?_, ?_⟩, ?_, ?_, ?_⟩
  all_goals simp only [expandBuffer, e1, e2]
  · exact realloc_length _ _
  · omega
  · exact hoff
  · omega
  · rw [realloc_take (by omega) (by omega)]; exact h.bytes

theorem Tx.serialize_holds {t : Tx} {all src : List UInt8} {es n : Nat} (h : t.Holds all)
    (hn : es * n ≤ src.length) (hb : 2 * (all.length + es * n) + 512 ≤ 4294967296) :
    ∃ t', t.serialize src es n = .ok t' ∧ t'.Holds (all ++ src.take (es * n)) ∧ t.SameFlags t' := by
  have e1 : u32 (es * n) = es * n := u32_of_lt (by omega)
  have hoff := h.offeq; have hle := h.offle
  have e2 : u32 (t.off + es * n) = t.off + es * n := u32_of_lt (by omega)
  unfold serialize
  simp only [e1, e2]
  have key : ∀ s : Tx, s.Holds all → s.off = t.off → t.off + es * n ≤ s.cap → t.SameFlags s →
      ∃ t', (do
        let m ← Mem.store s.mem s.off (src.take (es * n))
        pure { s with mem := m, off := u32 (s.off + es * n) } : Res Tx) = .ok t' ∧
        t'.Holds (all ++ src.take (es * n)) ∧ t.SameFlags t' := by
    intro s hs ho hc hf
    have hs' := hs.bytes
    have hl : (src.take (es * n)).length = es * n := by simp; omega
    obtain ⟨m', hm, hlen, htk⟩ := store_extend (src := src.take (es * n)) hs.bytes (by
      rw [hl, hs.memcap]; omega)
    rw [hs.offeq, hm]
    refine ⟨_, rfl, ⟨?_, ?_, ?_, ?_, ?_⟩, hf⟩
    · simp [hlen, hs.memcap]
    · exact hs.caplt
    · simp only [List.length_append, hl]; rw [← hs.offeq, ho]; exact e2
    · simp only []; rw [← hs.offeq, ho, e2]; omega
    · simpa [List.length_append] using htk
  by_cases hc : t.off + es * n > t.cap
  · rw [if_pos hc]
    obtain ⟨a, b, c⟩ := Tx.expand_holds (req := t.off + es * n) h (by omega)
    exact key _ a (by simp only [expandBuffer]) (by omega) c
  · rw [if_neg hc]
    exact key t h rfl (by omega) (Tx.SameFlags.refl t)

theorem Tx.serialize_holds' {t : Tx} {all src : List UInt8} {es n : Nat} (h : t.Holds all)
    (hn : es * n = src.length) (hb : 2 * (all.length + src.length) + 512 ≤ 4294967296) :
    ∃ t', t.serialize src es n = .ok t' ∧ t'.Holds (all ++ src) ∧ t.SameFlags t' := by
  have := Tx.serialize_holds (src := src) (es := es) (n := n) h (by omega) (by omega)
  rwa [List.take_of_length_le (by omega)] at this

theorem Tx.putInt_holds {t : Tx} {all : List UInt8} {w v : Nat} (h : t.Holds all)
    (hb : 2 * (all.length + w) + 512 ≤ 4294967296) :
    ∃ t', t.putInt w v = .ok t' ∧ t'.Holds (all ++ Spec.intBytes w v) ∧ t.SameFlags t' := by
  unfold putInt
  by_cases hw : w = 16
  · subst hw
    rw [if_pos rfl, ← leBytes_eq]
    exact Tx.serialize_holds' h (by simp [leBytes_length]) (by rw [leBytes_length]; omega)
  · rw [if_neg hw, ← leBytes_eq]
    exact Tx.serialize_holds' h (by simp [leBytes_length]) (by rw [leBytes_length]; omega)

theorem vecBytes_length (w : Nat) (vs : List Nat) : (Tx.vecBytes w vs).length = w * vs.length := by
  induction vs with
  | nil => simp [Tx.vecBytes]
  | cons v vs ih =>
    simp only [Tx.vecBytes, List.flatMap_cons, List.length_append, leBytes_length,
      List.length_cons] at *
    rw [ih, Nat.mul_add]; omega

theorem vecBytes_eq (w : Nat) (vs : List Nat) : Tx.vecBytes w vs = vs.flatMap (Spec.intBytes w) := by
  unfold Tx.vecBytes; congr; funext v; exact leBytes_eq w v

theorem Tx.putArr_holds {t : Tx} {all : List UInt8} {w : Nat} {vs : List Nat} (h : t.Holds all)
    (hb : 2 * (all.length + (4 + w * vs.length)) + 512 ≤ 4294967296) (hl : vs.length < 4294967296) :
    ∃ t', t.putArr w vs = .ok t' ∧ t'.Holds (all ++ Spec.enc (.arr w vs)) ∧ t.SameFlags t' := by
  unfold putArr
  rw [u32_of_lt hl]
  obtain ⟨t1, e1, h1, f1⟩ := Tx.putInt_holds (w := 4) (v := vs.length) h (by omega)
  obtain ⟨t2, e2, h2, f2⟩ := Tx.serialize_holds' (src := vecBytes w vs) (es := w) (n := vs.length)
    h1 (by rw [vecBytes_length]) (by
      rw [vecBytes_length, List.length_append, intBytes_length]; omega)
  refine ⟨t2, by simp only [e1, Res.bind_ok]; exact e2, ?_, f1.trans f2⟩
  simpa [Spec.enc, vecBytes_eq, List.append_assoc] using h2

theorem Tx.putInt_noexpand {t : Tx} {all : List UInt8} {w v : Nat} (hw : w ≠ 16) (h : t.Holds all)
    (hc : all.length + w ≤ t.cap) (hw2 : w < 4294967296) :
    ∃ t', t.putInt w v = .ok t' ∧ t'.Holds (all ++ Spec.intBytes w v) ∧ t.SameFlags t' ∧
      t'.cap = t.cap := by
  have hcl := h.caplt; have ho := h.offeq
  unfold putInt serialize
  rw [if_neg hw]
  have e1 : u32 (w * 1) = w := by rw [u32_of_lt] <;> omega
  have e2 : u32 (t.off + w) = t.off + w := u32_of_lt (by omega)
  simp only [e1, e2]
  rw [if_neg (by omega)]
  have hl : (List.take w (leBytes w v)) = leBytes w v := List.take_of_length_le (by simp [leBytes_length])
  obtain ⟨m', hm, hlen, htk⟩ := store_extend (src := leBytes w v) h.bytes (by
      rw [leBytes_length, h.memcap]; omega)
  rw [hl, ho, hm]
  refine ⟨_, rfl, ⟨?_, ?_, ?_, ?_, ?_⟩, ⟨rfl, rfl⟩, rfl⟩
  · simp [hlen, h.memcap]
  · exact hcl
  · simp [intBytes_length]; rw [← ho, e2]
  · simp only []; rw [← ho, e2]; omega
  · rw [← leBytes_eq]; simpa using htk

theorem Tx.putArr128_holds {t : Tx} {all : List UInt8} {vs : List Nat} (h : t.Holds all)
    (hb : 2 * (all.length + (4 + 16 * vs.length)) + 512 ≤ 4294967296) :
    ∃ t', t.putArr128 vs = .ok t' ∧ t'.Holds (all ++ Spec.enc (.arr 16 vs)) ∧ t.SameFlags t' := by
  have ho := h.offeq; have hle := h.offle
  unfold putArr128
  have e0 : u32 vs.length = vs.length := u32_of_lt (by omega)
  have e1 : u32 (4 + vs.length * 16) = 4 + 16 * vs.length := by rw [u32_of_lt] <;> omega
  have e2 : u32 (t.off + (4 + 16 * vs.length)) = t.off + (4 + 16 * vs.length) := u32_of_lt (by omega)
  have e3 : u32 (4 + 16 * vs.length + 4294967296 - 4) = 16 * vs.length := by unfold u32; omega
  simp only [e0, e1, e2, e3]
  have key : ∀ s : Tx, s.Holds all → t.off + (4 + 16 * vs.length) ≤ s.cap → t.SameFlags s →
      ∃ t', (do
        let t ← s.putInt 4 vs.length
        let m ← Mem.store t.mem t.off ((vecBytes 16 vs).take (16 * vs.length))
        pure { t with mem := m, off := u32 (t.off + 16 * vs.length) } : Res Tx) = .ok t' ∧
        t'.Holds (all ++ Spec.enc (.arr 16 vs)) ∧ t.SameFlags t' := by
    intro s hs hc hf
    obtain ⟨s1, q1, h1, f1, c1⟩ := Tx.putInt_noexpand (w := 4) (v := vs.length) (by decide) hs
      (by omega) (by decide)
    have hvl := vecBytes_length 16 vs
    rw [List.take_of_length_le (by omega)]
    obtain ⟨m', hm, hlen, htk⟩ := store_extend (src := vecBytes 16 vs) h1.bytes (by
      rw [hvl, h1.memcap, List.length_append, intBytes_length]; omega)
    rw [q1]; simp only [Res.bind_ok]
    rw [h1.offeq, hm]
    have hal : (all ++ Spec.intBytes 4 vs.length).length = all.length + 4 := by
      simp [intBytes_length]
    have e4 : u32 (all.length + 4 + 16 * vs.length) = all.length + 4 + 16 * vs.length :=
      u32_of_lt (by omega)
    have hel : (Spec.enc (.arr 16 vs)).length = 4 + 16 * vs.length := by
      simp only [Spec.enc, List.length_append, intBytes_length, ← vecBytes_eq, hvl]
    have hcl := h1.caplt
    refine ⟨_, rfl, ⟨?_, ?_, ?_, ?_, ?_⟩, hf.trans f1⟩
    · simp [hlen, h1.memcap]
    · exact h1.caplt
    · simp only [hal, List.length_append, hel]; omega
    · simp only [hal]; omega
    · rw [List.length_append, hel]
      rw [hal, hvl] at htk
      simp only [Spec.enc, ← vecBytes_eq]
      rw [← List.append_assoc, ← Nat.add_assoc]; exact htk
  by_cases hc : t.cap < t.off + (4 + 16 * vs.length)
  · rw [if_pos hc]
    obtain ⟨a, b, c⟩ := Tx.expand_holds (req := 4 + 16 * vs.length) h (by omega)
    exact key _ a (by omega) c
  · rw [if_neg hc]
    exact key t h (by omega) (Tx.SameFlags.refl t)

theorem untilNul_eq (s : QStr) : Tx.untilNul s = s.takeWhile (fun c => c != 0) := by
  induction s with
  | nil => rfl
  | cons c s ih =>
    unfold Tx.untilNul
    by_cases h : c = 0 <;> simp [h, ih]

theorem takeWhile_take_comm {α} (p : α → Bool) (n : Nat) (l : List α) :
    (l.take n).takeWhile p = (l.takeWhile p).take n := by
  induction l generalizing n with
  | nil => simp
  | cons a l ih =>
    cases n with
    | zero => simp
    | succ n =>
      simp only [List.take_succ_cons, List.takeWhile_cons]
      split <;> simp [ih]

theorem untilNul_cut (s : QStr) : Tx.untilNul (s.take 254) = Spec.cut s := by
  rw [untilNul_eq, takeWhile_take_comm]; rfl

theorem cut_length (s : QStr) : (Spec.cut s).length ≤ 254 := by
  unfold Spec.cut; simp; omega

/-- The units copied for a string are exactly the transmitted ones and the terminator. -/
theorem take_untilNul (s : QStr) :
    (s ++ [0]).take ((Tx.untilNul s).length + 1) = Tx.untilNul s ++ [0] := by
  induction s with
  | nil => rfl
  | cons c s ih =>
    unfold Tx.untilNul
    by_cases h : c = 0
    · subst h; simp
    · rw [if_neg h]
      simpa using ih

theorem vecBytes_take (w : Nat) (vs : List Nat) (k : Nat) (hk : k ≤ vs.length) :
    (Tx.vecBytes w vs).take (w * k) = Tx.vecBytes w (vs.take k) := by
  have h1 : vs = vs.take k ++ vs.drop k := (List.take_append_drop k vs).symm
  have h2 : Tx.vecBytes w vs = Tx.vecBytes w (vs.take k) ++ Tx.vecBytes w (vs.drop k) := by
    unfold Tx.vecBytes
    rw [← List.flatMap_append, List.take_append_drop]
  rw [h2, List.take_append_of_le_length, List.take_of_length_le]
  · rw [vecBytes_length, List.length_take, Nat.min_eq_left hk]; exact Nat.le_refl _
  · rw [vecBytes_length, List.length_take, Nat.min_eq_left hk]; exact Nat.le_refl _

theorem strBytes_length_le (s : QStr) : (Spec.strBytes (Spec.cut s)).length ≤ 511 := by
  unfold Spec.strBytes
  have := cut_length s
  split
  · simp
  · rename_i h
    have hl : ((Spec.cut s).flatMap fun c => Spec.intBytes 2 c.toNat).length
        = 2 * (Spec.cut s).length := by
      generalize Spec.cut s = l
      induction l with
      | nil => rfl
      | cons a l ih => simp [List.flatMap_cons, intBytes_length, ih]; omega
    simp only [List.length_cons, List.length_append, hl, List.length_nil]; omega

theorem strBytes_vec (s : QStr) (h : s ≠ []) :
    Spec.strBytes s = UInt8.ofNat (s.length + 1) ::
      Tx.vecBytes 2 ((s ++ [0]).map UInt16.toNat) := by
  unfold Spec.strBytes
  rw [if_neg h]
  congr 1
  rw [vecBytes_eq, List.map_append, List.flatMap_append, List.flatMap_map]
  rfl

theorem Tx.putStr_holds {t : Tx} {all : List UInt8} {s : QStr} (h : t.Holds all)
    (hb : 2 * (all.length + (Spec.strBytes (Spec.cut s)).length) + 512 ≤ 4294967296) :
    ∃ t', t.putStr s = .ok t' ∧ t'.Holds (all ++ Spec.enc (.str s)) ∧ t.SameFlags t' := by
  unfold putStr
  have hcut := untilNul_cut s
  have hl := cut_length s
  simp only [hcut, Spec.enc]
  by_cases hz : Spec.cut s = []
  · simp only [hz, List.length_nil, Nat.lt_irrefl, if_false, gt_iff_lt]
    obtain ⟨t1, e1, h1, f1⟩ := Tx.serialize_holds' (src := leBytes 1 (u8 0)) (es := 1) (n := 1) h
      (by simp [leBytes_length]) (by
        rw [leBytes_length]; simp [hz, Spec.strBytes] at hb; omega)
    refine ⟨t1, ?_, ?_, f1⟩
    · rw [e1]; simp [u8]
    · simpa [Spec.strBytes, leBytes, u8] using h1
  · have hpos : 0 < (Spec.cut s).length := List.length_pos_iff.mpr hz
    have hsb := strBytes_vec _ hz
    have e8 : u8 ((Spec.cut s).length + 1) = (Spec.cut s).length + 1 := u8_of_lt (by omega)
    simp only [gt_iff_lt, hpos, if_true, e8]
    have hvl : (vecBytes 2 ((Spec.cut s ++ [0]).map UInt16.toNat)).length
        = 2 * ((Spec.cut s).length + 1) := by
      rw [vecBytes_length]; simp
    have hlen : (Spec.strBytes (Spec.cut s)).length = 1 + 2 * ((Spec.cut s).length + 1) := by
      rw [hsb, List.length_cons, hvl]; omega
    obtain ⟨t1, e1, h1, f1⟩ := Tx.serialize_holds' (src := leBytes 1 ((Spec.cut s).length + 1))
      (es := 1) (n := 1) h (by simp [leBytes_length]) (by rw [leBytes_length]; omega)
    have hun : (Tx.untilNul (s.take 254)).length ≤ (s.take 254).length := by
      rw [untilNul_eq]; exact (List.takeWhile_prefix _).length_le
    rw [hcut] at hun
    have htake : (vecBytes 2 ((List.take 254 s ++ [0]).map UInt16.toNat)).take
        (2 * ((Spec.cut s).length + 1)) = vecBytes 2 ((Spec.cut s ++ [0]).map UInt16.toNat) := by
      rw [vecBytes_take _ _ _ (by simp at hun ⊢; omega), ← List.map_take, ← hcut, take_untilNul]
    obtain ⟨t2, e2, h2, f2⟩ := Tx.serialize_holds
      (src := vecBytes 2 ((List.take 254 s ++ [0]).map UInt16.toNat)) (es := 2)
      (n := (Spec.cut s).length + 1) h1 (by
        rw [vecBytes_length]; simp at hun ⊢; omega) (by
        rw [List.length_append, leBytes_length]; omega)
    refine ⟨t2, ?_, ?_, f1.trans f2⟩
    · rw [e1]; simp only [Res.bind_ok]
      rw [if_pos (by omega)]; exact e2
    · rw [htake] at h2
      rw [hsb]
      have : leBytes 1 ((Spec.cut s).length + 1) = [UInt8.ofNat ((Spec.cut s).length + 1)] := by
        simp only [leBytes]
        congr 2
      rw [this] at h2
      simpa [List.append_assoc] using h2

theorem Tx.put_holds {t : Tx} {all : List UInt8} {v : Val} (h : t.Holds all) (hv : Spec.Fits v)
    (hb : 2 * (all.length + (Spec.enc v).length) + 512 ≤ 4294967296) :
    ∃ t', t.put v = .ok t' ∧ t'.Holds (all ++ Spec.enc v) ∧ t.SameFlags t' := by
  cases v with
  | int w v => exact Tx.putInt_holds h (by simpa [Spec.enc, intBytes_length] using hb)
  | arr w vs =>
    have hel : (Spec.enc (.arr w vs)).length = 4 + w * vs.length := by
      simp only [Spec.enc, List.length_append, intBytes_length, ← vecBytes_eq, vecBytes_length]
    rw [hel] at hb
    simp only [put]
    by_cases hw : w = 16
    · subst hw; rw [if_pos rfl]; exact Tx.putArr128_holds h hb
    · rw [if_neg hw]; exact Tx.putArr_holds h hb hv.2.1
  | str s => exact Tx.putStr_holds h hb

theorem Tx.puts_holds {t : Tx} {all : List UInt8} {vs : List Val} (h : t.Holds all)
    (hv : ∀ v ∈ vs, Spec.Fits v)
    (hb : 2 * (all.length + (Spec.encs vs).length) + 512 ≤ 4294967296) :
    ∃ t', t.puts vs = .ok t' ∧ t'.Holds (all ++ Spec.encs vs) ∧ t.SameFlags t' := by
  induction vs generalizing t all with
  | nil => exact ⟨t, rfl, by simpa [Spec.encs] using h, Tx.SameFlags.refl t⟩
  | cons v vs ih =>
    have hsplit : Spec.encs (v :: vs) = Spec.enc v ++ Spec.encs vs := by simp [Spec.encs]
    rw [hsplit, List.length_append] at hb
    obtain ⟨t1, e1, h1, f1⟩ := Tx.put_holds h (hv v (by simp)) (by omega)
    obtain ⟨t2, e2, h2, f2⟩ := ih h1 (fun v h => hv v (by simp [h])) (by
      rw [List.length_append]; omega)
    refine ⟨t2, ?_, ?_, f1.trans f2⟩
    · simp only [puts, e1, Res.bind_ok, e2]
    · rw [hsplit, ← List.append_assoc]; exact h2

/-- Storing into the initialised prefix. -/
theorem store_inside {m : Mem} {all src : List UInt8} {off : Nat}
    (hp : m.take all.length = all.map some) (hle : off + src.length ≤ all.length) :
    ∃ m', Mem.store m off src = .ok m' ∧ m'.length = m.length ∧
      m'.take all.length = (all.take off ++ src ++ all.drop (off + src.length)).map some := by
  have hlen : all.length ≤ m.length := by
    have := congrArg List.length hp
    simp at this; omega
  refine ⟨_, by simp only [Mem.store, show off + src.length ≤ m.length by omega, if_true]; rfl, ?_, ?_⟩
  · simp only [List.length_append, List.length_take, List.length_map, List.length_drop]; omega
  · have hm : m = all.map some ++ m.drop all.length := by
      rw [← hp, List.take_append_drop]
    have h1 : m.take off = (all.take off).map some := by
      rw [List.map_take, ← hp, List.take_take, Nat.min_eq_left (by omega)]
    have h2 : m.drop (off + src.length) = (all.drop (off + src.length)).map some ++ m.drop all.length := by
      conv => lhs; rw [hm]
      rw [List.drop_append_of_le_length (by simp; omega), List.map_drop]
    rw [h1, h2, ← List.append_assoc, List.take_append_of_le_length, List.take_of_length_le]
    · simp
    · simp; omega
    · simp; omega

theorem header_length (l t c i : Nat) : (Spec.header l t c i).length = 12 := by
  simp [Spec.header, intBytes_length]

theorem store_alloc_extend (m : Mem) (all src : List UInt8) (hp : m.take all.length = all.map some)
    (hle : all.length + src.length ≤ m.length) (off : Nat) (ho : off = all.length) :
    ∃ m', Mem.store m off src = .ok m' ∧ m'.length = m.length ∧
      m'.take (all ++ src).length = (all ++ src).map some := by
  subst ho
  obtain ⟨m', a, b, c⟩ := store_extend hp hle
  exact ⟨m', a, b, by simpa using c⟩

theorem Tx.new_holds (type code tid est : Nat) (he : est + 12 < 4294967296) :
    ∃ t, Tx.new type code tid est = .ok t ∧ t.Holds (Spec.header 0 type code tid) ∧
      t.computeLen = true ∧ t.extraLarge = false := by
  unfold Tx.new
  have e : u32 est = est := u32_of_lt (by omega)
  have e' : u32 (HDR + est) = HDR + est := u32_of_lt (by unfold HDR; omega)
  simp only [e, e']
  have hl : (Mem.alloc (HDR + est)).length = HDR + est := by simp [Mem.alloc]
  have hH : HDR = 12 := rfl
  obtain ⟨m1, q1, l1, p1⟩ := store_alloc_extend (Mem.alloc (HDR + est)) [] (leBytes 4 0) rfl
    (by rw [hl, leBytes_length]; simp; omega) 0 rfl
  obtain ⟨m2, q2, l2, p2⟩ := store_alloc_extend m1 _ (leBytes 2 type) p1
    (by simp only [l1, hl, leBytes_length, List.length_append, List.length_nil]; omega) 4
    (by simp [leBytes_length])
  obtain ⟨m3, q3, l3, p3⟩ := store_alloc_extend m2 _ (leBytes 2 code) p2
    (by simp only [l2, l1, hl, leBytes_length, List.length_append, List.length_nil]; omega) 6
    (by simp [leBytes_length])
  obtain ⟨m4, q4, l4, p4⟩ := store_alloc_extend m3 _ (leBytes 4 tid) p3
    (by simp only [l3, l2, l1, hl, leBytes_length, List.length_append, List.length_nil]; omega) 8
    (by simp [leBytes_length])
  rw [q1]; simp only [Res.bind_ok]; rw [q2]; simp only [Res.bind_ok]
  rw [q3]; simp only [Res.bind_ok]; rw [q4]
  have hh : Spec.header 0 type code tid
      = [] ++ leBytes 4 0 ++ leBytes 2 type ++ leBytes 2 code ++ leBytes 4 tid := by
    simp [Spec.header, leBytes_eq]
  refine ⟨_, rfl, ⟨?_, ?_, ?_, ?_, ?_⟩, rfl, rfl⟩
  · simp [l4, l3, l2, l1, hl]
  · show HDR + est < _; omega
  · rw [header_length]; rfl
  · show HDR ≤ HDR + est; omega
  · rw [hh]; exact p4

theorem Tx.buffer_holds {t : Tx} {type code tid : Nat} {pay : List UInt8}
    (h : t.Holds (Spec.header 0 type code tid ++ pay)) (hc : t.computeLen = true) :
    ∃ t', t.buffer = .ok (Spec.header (if t.extraLarge then 0xFFFFFFFF else 12 + pay.length)
      type code tid ++ pay, t') := by
  have ho := h.offeq
  rw [List.length_append, header_length] at ho
  have aux : ∀ n : Nat, ∃ m', Mem.store t.mem 0 (leBytes 4 n) = .ok m' ∧
      Mem.load m' 0 t.off = .ok (Spec.header n type code tid ++ pay) := by
    intro n
    obtain ⟨m', q, l, p⟩ := store_inside (src := leBytes 4 n) (off := 0) h.bytes (by
      rw [leBytes_length, List.length_append, header_length]; omega)
    refine ⟨m', q, ?_⟩
    have hre : List.take 0 (Spec.header 0 type code tid ++ pay) ++ leBytes 4 n ++
        List.drop (0 + (leBytes 4 n).length) (Spec.header 0 type code tid ++ pay)
        = Spec.header n type code tid ++ pay := by
      rw [leBytes_length, List.take_zero, List.nil_append, leBytes_eq]
      simp only [Spec.header, List.append_assoc]
      rw [List.drop_append_of_le_length (by simp [intBytes_length]),
        List.drop_of_length_le (by simp [intBytes_length])]
      simp
    rw [hre] at p
    have hlen : (Spec.header 0 type code tid ++ pay).length
        = (Spec.header n type code tid ++ pay).length := by simp [header_length]
    rw [hlen] at p
    rw [load_of_prefix (all := Spec.header n type code tid ++ pay) p (by
      rw [List.length_append, header_length]; omega)]
    simp only [List.drop_zero]
    rw [List.take_of_length_le (by rw [List.length_append, header_length]; omega)]
  unfold buffer
  rw [if_pos hc]
  cases hx : t.extraLarge
  · obtain ⟨m', q, r⟩ := aux t.off
    refine ⟨{ t with mem := m' }, ?_⟩
    simp only [Bool.false_eq_true, if_false, q, Res.bind_ok, r, Res.pure_eq]
    rw [ho, hx]
  · obtain ⟨m', q, r⟩ := aux 0xFFFFFFFF
    refine ⟨{ t with mem := m' }, ?_⟩
    simp only [if_true, q, Res.bind_ok, r, Res.pure_eq]
    rw [hx]

end Mtp
