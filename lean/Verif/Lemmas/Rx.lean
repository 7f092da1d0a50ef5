import Verif.Lemmas.Codec
/-! Reading back what the wire specification describes. -/
namespace Mtp

/-- The incoming container has received the bytes `all`. -/
structure Rx.Has (r : Rx) (all : List UInt8) : Prop where
  bytes : r.mem.take all.length = all.map some
  lt : all.length < 4294967296

/-- `r` is positioned before `bs` in a container that has received at least these bytes. -/
structure Rx.At (r : Rx) (pre bs : List UInt8) : Prop where
  has : r.mem.take (pre ++ bs).length = (pre ++ bs).map some
  lt : (pre ++ bs).length < 4294967296
  pos : r.off = pre.length

theorem Rx.deserialize_at {r : Rx} {pre bs post : List UInt8} {es n : Nat}
    (h : r.At pre (bs ++ post)) (hl : n * es = bs.length) :
    r.deserialize es n = .ok (bs, { r with off := pre.length + bs.length }) := by
  have hlt := h.lt
  simp only [List.length_append] at hlt
  unfold deserialize
  have e : u32 (n * es) = bs.length := by rw [hl]; exact u32_of_lt (by omega)
  simp only [e]
  rw [h.pos, load_of_prefix h.has (by simp)]
  have e2 : u32 (pre.length + bs.length) = pre.length + bs.length := u32_of_lt (by omega)
  simp [e2]

/-- Advancing past `bs`. -/
theorem Rx.At.advance {r : Rx} {pre bs post : List UInt8} (h : r.At pre (bs ++ post)) :
    ({ r with off := pre.length + bs.length } : Rx).At (pre ++ bs) post := by
  refine ⟨?_, ?_, ?_⟩
  · simpa [List.append_assoc] using h.has
  · simpa [List.append_assoc] using h.lt
  · simp

theorem Rx.getInt_at {r : Rx} {pre post : List UInt8} {w v : Nat}
    (h : r.At pre (Spec.intBytes w v ++ post)) (hv : v < 256 ^ w) :
    r.getInt w = .ok (v, { r with off := pre.length + w }) := by
  have hl := intBytes_length w v
  unfold getInt
  by_cases hw : w = 16
  · subst hw
    rw [if_pos rfl, Rx.deserialize_at h (by rw [hl])]
    simp [leVal_intBytes _ _ hv, hl]
  · rw [if_neg hw, Rx.deserialize_at h (by rw [hl]; omega)]
    simp [leVal_intBytes _ _ hv, hl]

theorem chunk_vec (w : Nat) (vs : List Nat) (hv : ∀ v ∈ vs, v < 256 ^ w) :
    Rx.chunk w vs.length (vs.flatMap (Spec.intBytes w)) = vs := by
  induction vs with
  | nil => rfl
  | cons v vs ih =>
    have hl := intBytes_length w v
    simp only [List.length_cons, Rx.chunk, List.flatMap_cons]
    rw [List.take_append_of_le_length (by omega), List.take_of_length_le (by omega),
      List.drop_append_of_le_length (by omega), List.drop_of_length_le (by omega),
      leVal_intBytes _ _ (hv v (by simp))]
    simp only [List.nil_append]
    rw [ih (fun v h => hv v (by simp [h]))]

theorem flatMap_intBytes_length (w : Nat) (vs : List Nat) :
    (vs.flatMap (Spec.intBytes w)).length = w * vs.length := by
  rw [← vecBytes_eq, vecBytes_length]

theorem Rx.getArr_at {r : Rx} {pre post : List UInt8} {w : Nat} {vs : List Nat}
    (h : r.At pre (Spec.enc (.arr w vs) ++ post)) (hl : vs.length < 4294967296)
    (hv : ∀ v ∈ vs, v < 256 ^ w) :
    r.getArr w = .ok (vs, { r with off := pre.length + (Spec.enc (.arr w vs)).length }) := by
  have h1 : r.At pre (Spec.intBytes 4 vs.length ++ (vs.flatMap (Spec.intBytes w) ++ post)) := by
    simpa [Spec.enc, List.append_assoc] using h
  have h2 := h1.advance
  have hbl := flatMap_intBytes_length w vs
  rw [intBytes_length] at h2
  have hel : (Spec.enc (.arr w vs)).length = 4 + w * vs.length := by
    simp only [Spec.enc, List.length_append, intBytes_length, hbl]
  unfold getArr
  rw [Rx.getInt_at h1 (by simpa using hl)]
  simp only [Res.bind_ok]
  by_cases hw : w = 16
  · subst hw
    rw [if_pos rfl]
    have hlt := h2.lt
    simp only [List.length_append, hbl, intBytes_length] at hlt
    have hld := load_of_prefix (off := pre.length + 4) (n := vs.length * 16) h2.has
      (by simp only [List.length_append, hbl, intBytes_length]; omega)
    simp only [hld, Res.bind_ok, Res.pure_eq]
    have e2 : u32 (pre.length + 4 + vs.length * 16) = pre.length + (4 + 16 * vs.length) := by
      unfold u32; omega
    rw [e2, hel]
    have : ((pre ++ Spec.intBytes 4 vs.length ++ (vs.flatMap (Spec.intBytes 16) ++ post)).drop
        (pre.length + 4)).take (vs.length * 16) = vs.flatMap (Spec.intBytes 16) := by
      rw [List.drop_append_of_le_length (by simp [intBytes_length]),
        List.drop_of_length_le (by simp [intBytes_length])]
      simp only [List.nil_append]
      rw [List.take_append_of_le_length (by omega), List.take_of_length_le (by omega)]
    rw [this, chunk_vec 16 vs hv]
  · rw [if_neg hw]
    rw [Rx.deserialize_at h2 (by rw [hbl, Nat.mul_comm])]
    simp only [Res.bind_ok, Res.pure_eq]
    rw [chunk_vec w vs hv, hel, hbl]
    simp [intBytes_length, Nat.add_assoc]

theorem fromUtf16_eq (s : QStr) : Rx.fromUtf16 s = Spec.bom s := by
  cases s <;> rfl

theorem Rx.getStr_at {r : Rx} {pre post : List UInt8} {s : QStr} (hs : s.length ≤ 254)
    (h : r.At pre (Spec.strBytes s ++ post)) :
    r.getStr = .ok (Spec.bom s, { r with off := pre.length + (Spec.strBytes s).length }) := by
  unfold getStr
  by_cases hz : s = []
  · subst hz
    have h' : r.At pre ([0] ++ post) := by simpa [Spec.strBytes] using h
    rw [Rx.deserialize_at h' (by simp)]
    simp [leVal, Spec.bom, Spec.strBytes]
  · have hsb := strBytes_vec s hz
    rw [hsb] at h
    have h1 : r.At pre ([UInt8.ofNat (s.length + 1)] ++
        (((s ++ [0]).map UInt16.toNat).flatMap (Spec.intBytes 2) ++ post)) := by
      rw [← vecBytes_eq]; simpa using h
    have h2 := h1.advance
    have hn : leVal [UInt8.ofNat (s.length + 1)] = s.length + 1 := by
      simp [leVal, UInt8.toNat_ofNat']; omega
    have hml : ((s ++ [0]).map UInt16.toNat).length = s.length + 1 := by simp
    have hbl := flatMap_intBytes_length 2 ((s ++ [0]).map UInt16.toNat)
    rw [hml] at hbl
    rw [Rx.deserialize_at h1 (by simp)]
    simp only [Res.bind_ok, hn]
    rw [if_pos (by omega)]
    rw [Rx.deserialize_at h2 (by rw [hbl]; omega)]
    simp only [Res.bind_ok, Res.pure_eq]
    have hch := chunk_vec 2 ((s ++ [0]).map UInt16.toNat) (by
      intro v hv
      obtain ⟨c, _, rfl⟩ := List.mem_map.1 hv
      have := c.toNat_lt; omega)
    rw [hml] at hch
    rw [hch, List.map_map]
    have hid : (UInt16.ofNat ∘ UInt16.toNat) = id := by funext c; simp
    rw [hid, List.map_id, fromUtf16_eq]
    simp only [Nat.add_sub_cancel, List.take_left]
    rw [hsb]
    simp only [List.length_cons, List.length_append, vecBytes_eq, hbl]
    congr 3
    simp only [List.length_nil]; omega

theorem Rx.get_at {r : Rx} {pre post : List UInt8} {v : Val} (hv : Spec.Fits v)
    (h : r.At pre (Spec.enc v ++ post)) :
    r.get v.ty = .ok (Spec.received v, { r with off := pre.length + (Spec.enc v).length }) := by
  cases v with
  | int w v =>
    simp only [Val.ty, get]
    rw [Rx.getInt_at h hv.2]
    simp [Spec.received, Spec.enc, intBytes_length]
  | arr w vs =>
    simp only [Val.ty, get]
    rw [Rx.getArr_at h hv.2.1 hv.2.2]
    simp [Spec.received]
  | str s =>
    simp only [Val.ty, get]
    rw [Rx.getStr_at (cut_length s) h]
    simp [Spec.received, Spec.enc]

theorem Rx.gets_at {r : Rx} {pre post : List UInt8} {vs : List Val}
    (hv : ∀ v ∈ vs, Spec.Fits v) (h : r.At pre (Spec.encs vs ++ post)) :
    r.gets (vs.map Val.ty) =
      .ok (vs.map Spec.received, { r with off := pre.length + (Spec.encs vs).length }) := by
  induction vs generalizing r pre with
  | nil =>
    have := h.pos
    simp only [List.map_nil, gets, Spec.encs, List.flatMap_nil, List.length_nil]
    rw [Nat.add_zero, ← this]
  | cons v vs ih =>
    have hs : Spec.encs (v :: vs) = Spec.enc v ++ Spec.encs vs := by simp [Spec.encs]
    rw [hs, List.append_assoc] at h
    simp only [List.map_cons, gets]
    rw [Rx.get_at (hv v (by simp)) h]
    simp only [Res.bind_ok]
    rw [ih (fun v h => hv v (by simp [h])) h.advance]
    simp [hs, Nat.add_assoc]

/-- A container whose length field is right is reassembled from any packets. -/
theorem Rx.append_step {r : Rx} {got p : List UInt8} (hcap : r.mem.length = r.expected)
    (hacc : r.accumulated = got.length) (hb : r.mem.take got.length = got.map some)
    (hlt : got.length + p.length ≤ r.expected) (he : r.expected < 4294967296) :
    ∃ r', r.append p = .ok r' ∧ r'.mem.length = r'.expected ∧ r'.expected = r.expected ∧
      r'.accumulated = (got ++ p).length ∧ r'.mem.take (got ++ p).length = (got ++ p).map some ∧
      r'.off = r.off ∧ r'.cap = r.cap := by
  have e : u32 (r.accumulated + p.length) = got.length + p.length := by
    rw [hacc]; exact u32_of_lt (by omega)
  unfold append
  rw [if_pos (by omega)]
  obtain ⟨m', q, l, tk⟩ := store_extend (src := p) hb (by omega)
  rw [hacc, q]
  refine ⟨_, rfl, ?_, rfl, ?_, ?_, rfl, rfl⟩
  · simp [l, hcap]
  · simp only [List.length_append]; exact hacc ▸ e
  · simpa using tk

theorem Rx.appends_ok {r : Rx} {got : List UInt8} {ps : List (List UInt8)}
    (hcap : r.mem.length = r.expected)
    (hacc : r.accumulated = got.length) (hb : r.mem.take got.length = got.map some)
    (hlt : got.length + ps.flatten.length ≤ r.expected) (he : r.expected < 4294967296) :
    ∃ r', r.appends ps = .ok r' ∧ r'.mem.length = r'.expected ∧ r'.expected = r.expected ∧
      r'.accumulated = (got ++ ps.flatten).length ∧
      r'.mem.take (got ++ ps.flatten).length = (got ++ ps.flatten).map some ∧
      r'.off = r.off ∧ r'.cap = r.cap := by
  induction ps generalizing r got with
  | nil => exact ⟨r, rfl, hcap, rfl, by simpa using hacc, by simpa using hb, rfl, rfl⟩
  | cons p ps ih =>
    simp only [List.flatten_cons, List.length_append] at hlt
    obtain ⟨r1, q1, a1, b1, c1, d1, e1, f1⟩ := Rx.append_step (p := p) hcap hacc hb (by omega) he
    obtain ⟨r2, q2, a2, b2, c2, d2, e2, f2⟩ := ih a1 c1 d1 (by
      rw [List.length_append, b1]; omega) (by omega)
    refine ⟨r2, ?_, a2, b2.trans b1, ?_, ?_, e2.trans e1, f2.trans f1⟩
    · simp only [appends, q1, Res.bind_ok, q2]
    · simpa [List.append_assoc] using c2
    · simpa [List.append_assoc] using d2

/-- Reassembly of a container `c` (first four bytes = its length) cut into `p :: ps`. -/
theorem Rx.assemble {p : List UInt8} {ps : List (List UInt8)} {c : List UInt8}
    (hc : (p :: ps).flatten = c) (hp : 4 ≤ p.length)
    (hl : leVal (c.take 4) = c.length) :
    ∃ r, (Rx.new p >>= fun r => r.appends ps) = .ok r ∧ r.mem = c.map some ∧ r.off = 12 ∧
      r.cap = c.length ∧ r.expected = c.length ∧ r.accumulated = c.length := by
  subst hc
  simp only [List.flatten_cons] at *
  have hlt : (p ++ ps.flatten).length < 4294967296 := by
    rw [← hl]
    have h1 := leVal_lt ((p ++ ps.flatten).take 4)
    have h2 : ((p ++ ps.flatten).take 4).length = 4 := by simp; omega
    rw [h2] at h1; exact h1
  rw [List.take_append_of_le_length hp] at hl
  unfold new
  rw [if_neg (by omega)]
  simp only [List.length_append] at hlt
  obtain ⟨m', q, l, tk⟩ := store_alloc_extend (Mem.alloc (leVal (p.take 4))) [] p rfl
    (by simp [Mem.alloc, hl]) 0 rfl
  simp only [q, Res.bind_ok, Res.pure_eq]
  have hml : m'.length = p.length + ps.flatten.length := by
    rw [l]; simp [Mem.alloc, hl]
  obtain ⟨r', q1, a1, b1, c1, d1, e1, f1⟩ := Rx.appends_ok (r := {
      mem := m', off := HDR, cap := leVal (p.take 4), expected := leVal (p.take 4),
      accumulated := u32 p.length, extraLarge := leVal (p.take 4) == 0xFFFFFFFF })
    (got := p) (ps := ps) (by simp [hml, hl]) (u32_of_lt (by omega)) (by simpa using tk)
    (by simp [hl]) (by simp only [hl, List.length_append]; omega)
  refine ⟨r', q1, ?_, e1, ?_, ?_, ?_⟩
  · have hfull : r'.mem.length = (p ++ ps.flatten).length := by
      rw [a1, b1]; simpa using hl
    rw [← d1, List.take_of_length_le (by omega)]
  · rw [f1]; exact hl
  · rw [b1]; exact hl
  · exact c1

end Mtp
