import Verif.Model.Transfer
import Verif.Lemmas.Rx
import Verif.Lemmas.ObjInfo
import Verif.Lemmas.PropDesc
import Verif.Lemmas.Params
/-! Property theorems C01–C11: containers on the wire. -/
namespace Props
open Mtp

/-- Size limit under which the buffer-growth arithmetic of the serializer does not wrap:
the container (header + payload) stays just below 2 GiB. -/
def Small (vs : List Val) : Prop := 12 + (Spec.encs vs).length ≤ 2 ^ 31 - 256

/-- C06: the container handed to the transport is exactly: a header whose length field is the number
of bytes handed over, the type, code and transaction id it was created with, and the encodings of the
written data in order. (Containers below 2 GiB; see C07 for what happens beyond.) -/
theorem C06_container_is_header_and_payload (type code tid est : Nat) (vs : List Val)
    (hv : ∀ v ∈ vs, Spec.Fits v) (hs : Small vs) (he : est ≤ 2 ^ 31) :
    ∃ bytes, transmit type code tid est vs = .ok bytes ∧
      bytes = Spec.header bytes.length type code tid ++ Spec.encs vs := by
  unfold Small at hs
  obtain ⟨t, e1, h1, c1, x1⟩ := Tx.new_holds type code tid est (by omega)
  obtain ⟨t2, e2, h2, f2⟩ := Tx.puts_holds h1 hv (by rw [header_length]; omega)
  obtain ⟨t3, e3⟩ := Tx.buffer_holds h2 (by rw [f2.1, c1])
  refine ⟨Spec.header (12 + (Spec.encs vs).length) type code tid ++ Spec.encs vs, ?_, ?_⟩
  · unfold transmit
    rw [e1]; simp only [Res.bind_ok]
    rw [e2]; simp only [Res.bind_ok]
    rw [e3, f2.2, x1]; rfl
  · rw [List.length_append, header_length]

example : Small [.int 4 7, .str [65, 66], .arr 2 [1, 2, 3]] ∧
    transmit 2 0x1001 9 0 [.int 4 7, .str [65, 66], .arr 2 [1, 2, 3]] =
      .ok [33, 0, 0, 0, 2, 0, 1, 16, 9, 0, 0, 0, 7, 0, 0, 0, 3, 65, 0, 66, 0, 0, 0,
           3, 0, 0, 0, 1, 0, 2, 0, 3, 0] := by
  constructor
  · unfold Small; decide
  · decide +kernel

/-- C07 (up to 2 GiB): whatever is written and whatever the size estimate, no byte is stored
outside the allocation and no uninitialised byte is sent: no undefined behaviour at any prefix of the
write sequence. Missing for the full claim: containers between 2 and 4 GiB (see
`C07_overrun_beyond_2GiB_violated`). -/
theorem C07_no_overrun_partial (type code tid est : Nat) (vs : List Val)
    (hv : ∀ v ∈ vs, Spec.Fits v) (hs : Small vs) (he : est ≤ 2 ^ 31) :
    ∀ done todo, vs = done ++ todo →
      ∃ t, (Tx.new type code tid est >>= fun t => t.puts done) = .ok t ∧
        t.mem.length = t.cap ∧ t.off ≤ t.mem.length ∧ ∃ bs, Mem.load t.mem 0 t.off = .ok bs := by
  intro done todo hd
  subst hd
  unfold Small at hs
  have hlen : (Spec.encs (done ++ todo)).length
      = (Spec.encs done).length + (Spec.encs todo).length := by simp [Spec.encs]
  obtain ⟨t, e1, h1, c1, x1⟩ := Tx.new_holds type code tid est (by omega)
  obtain ⟨t2, e2, h2, f2⟩ := Tx.puts_holds (vs := done) h1
    (fun v h => hv v (List.mem_append_left _ h)) (by rw [header_length]; omega)
  have hle := h2.offle; have hm := h2.memcap; have ho := h2.offeq
  refine ⟨t2, by rw [e1]; exact e2, hm, by omega, _, load_of_prefix h2.bytes (by omega)⟩

example : ∃ vs : List Val, (∀ v ∈ vs, Spec.Fits v) ∧ Small vs ∧ vs.length = 2 :=
  ⟨[.int 8 0xFFFFFFFFFFFFFFFF, .arr 16 [1, 2]], by simp [Spec.Fits], by unfold Small; decide, rfl⟩

/-- C07 is violated beyond 2 GiB: with a capacity of 2 GiB, writing an array that needs a little
more makes the new capacity wrap around and the copy overrun the (shrunk) buffer. -/
theorem C07_overrun_beyond_2GiB_violated :
    ∃ t : Tx, Tx.new 2 0x1009 1 (2 ^ 31) = .ok t ∧
      ∀ src : List UInt8, src.length = 2 ^ 31 + 100 →
        t.serialize src 1 (2 ^ 31 + 100) = .ub .oobWrite := by
  obtain ⟨t, e1, h1, _, _⟩ := Tx.new_holds 2 0x1009 1 (2 ^ 31) (by decide)
  have hcap : t.cap = 2 ^ 31 + 12 := by
    unfold Tx.new at e1
    simp only at e1
    cases ha : Mem.store (Mem.alloc (HDR + u32 (2 ^ 31))) 0 (leBytes 4 0) with
    | ub u => rw [ha] at e1; simp at e1
    | ok m1 =>
      rw [ha] at e1; simp only [Res.bind_ok] at e1
      cases hb : Mem.store m1 4 (leBytes 2 2) with
      | ub u => rw [hb] at e1; simp at e1
      | ok m2 =>
        rw [hb] at e1; simp only [Res.bind_ok] at e1
        cases hc : Mem.store m2 6 (leBytes 2 0x1009) with
        | ub u => rw [hc] at e1; simp at e1
        | ok m3 =>
          rw [hc] at e1; simp only [Res.bind_ok] at e1
          cases hd : Mem.store m3 8 (leBytes 4 1) with
          | ub u => rw [hd] at e1; simp at e1
          | ok m4 =>
            rw [hd] at e1
            simp only [Res.bind_ok, Res.pure_eq, Res.ok.injEq] at e1
            rw [← e1]; rfl
  refine ⟨t, e1, ?_⟩
  intro src hsrc
  have hoff : t.off = 12 := by rw [h1.offeq, header_length]
  have e2 : u32 (1 * (2 ^ 31 + 100)) = 2 ^ 31 + 100 := by decide
  unfold Tx.serialize
  simp only [e2, hoff, hcap]
  rw [if_pos (by decide)]
  have hcap' : u32 (t.cap + u32 (u32 (12 + (2 ^ 31 + 100)) + 512)) = 636 := by
    rw [hcap]; decide
  have hml : (t.expandBuffer (u32 (12 + (2 ^ 31 + 100)))).mem.length = 636 := by
    simp only [Tx.expandBuffer, hcap', realloc_length]
  have hst : ∀ m : Mem, m.length = 636 → Mem.store m 12 (src.take (2 ^ 31 + 100)) = .ub .oobWrite := by
    intro m hm
    unfold Mem.store
    rw [if_neg (by simp [hm, hsrc]), if_neg (by simp [hsrc])]
  have ho2 : (t.expandBuffer (u32 (12 + (2 ^ 31 + 100)))).off = 12 := by
    simp only [Tx.expandBuffer, hoff]
  simp only [ho2, hst _ hml, Res.bind_ub]

/-- Full round trip of any data, for every packetization: what a peer of this code that received
the transmitted container in packets `p :: ps` decodes with the matching types. -/
theorem roundtrip (type code tid est : Nat) (vs : List Val) (rest : List Val)
    (hv : ∀ v ∈ vs ++ rest, Spec.Fits v) (hs : Small (vs ++ rest)) (he : est ≤ 2 ^ 31) :
    ∃ bytes, transmit type code tid est (vs ++ rest) = .ok bytes ∧
      ∀ p ps, (p :: ps).flatten = bytes → 4 ≤ p.length →
        ∃ r r', collect p ps = .ok r ∧ r.gets (vs.map Val.ty) = .ok (vs.map Spec.received, r') := by
  obtain ⟨bytes, ht, hb⟩ := C06_container_is_header_and_payload type code tid est _ hv hs he
  refine ⟨bytes, ht, ?_⟩
  intro p ps hc hp
  unfold Small at hs
  have hlen : bytes.length = 12 + (Spec.encs (vs ++ rest)).length := by
    conv => lhs; rw [hb]
    rw [List.length_append, header_length]
  have hl : leVal (bytes.take 4) = bytes.length := by
    conv => lhs; rw [hb]
    simp only [Spec.header, List.append_assoc]
    rw [List.take_append_of_le_length (by simp [intBytes_length]),
      List.take_of_length_le (by simp [intBytes_length]), leVal_intBytes _ _ (by rw [hlen]; omega)]
  obtain ⟨r, e, hm, ho, _⟩ := Rx.assemble hc hp hl
  have hat : r.At (Spec.header bytes.length type code tid) (Spec.encs vs ++ Spec.encs rest) := by
    have heq : Spec.header bytes.length type code tid ++ (Spec.encs vs ++ Spec.encs rest) = bytes := by
      conv => rhs; rw [hb]
      simp [Spec.encs]
    refine ⟨?_, ?_, ?_⟩
    · rw [heq, hm, List.take_of_length_le (by simp)]
    · rw [heq, hlen]; omega
    · rw [ho, header_length]
  exact ⟨r, _, e, Rx.gets_at (fun v h => hv v (by simp [h])) hat⟩

/-- C01: an integer of any width, written after any data and before any data, arrives unchanged
whatever the packetization, and its bytes on the wire are its little-endian digits. -/
theorem C01_integer_roundtrip (type code tid est w v : Nat) (pre post : List Val)
    (hw : w ∈ [1, 2, 4, 8]) (hv : v < 256 ^ w)
    (hf : ∀ x ∈ pre ++ post, Spec.Fits x) (hs : Small (pre ++ .int w v :: post))
    (he : est ≤ 2 ^ 31) :
    ∃ bytes, transmit type code tid est (pre ++ .int w v :: post) = .ok bytes ∧
      (∀ i, i < w → bytes[12 + (Spec.encs pre).length + i]? =
        some (UInt8.ofNat (v / 256 ^ i % 256))) ∧
      ∀ p ps, (p :: ps).flatten = bytes → 4 ≤ p.length →
        ∃ r r1 r2, collect p ps = .ok r ∧ r.gets (pre.map Val.ty) = .ok (pre.map Spec.received, r1) ∧
          r1.getInt w = .ok (v, r2) := by
  have hfit : ∀ x ∈ (pre ++ [Val.int w v]) ++ post, Spec.Fits x := by
    intro x hx
    simp only [List.mem_append, List.mem_singleton] at hx hf
    rcases hx with (hx | hx) | hx
    · exact hf x (Or.inl hx)
    · subst hx; exact ⟨by simp at hw ⊢; omega, hv⟩
    · exact hf x (Or.inr hx)
  have hre : pre ++ .int w v :: post = (pre ++ [Val.int w v]) ++ post := by simp
  rw [hre] at hs ⊢
  obtain ⟨bytes, ht, hb⟩ := C06_container_is_header_and_payload type code tid est _ hfit hs he
  obtain ⟨bytes', ht', hr⟩ := roundtrip type code tid est _ _ hfit hs he
  have hbb : bytes' = bytes := by rw [ht] at ht'; exact (Res.ok.inj ht').symm
  subst hbb
  refine ⟨bytes', ht, ?_, ?_⟩
  · intro i hi
    rw [hb]
    have hsp : Spec.encs (pre ++ [Val.int w v] ++ post)
        = Spec.encs pre ++ (Spec.intBytes w v ++ Spec.encs post) := by
      simp [Spec.encs, Spec.enc]
    rw [hsp, List.getElem?_append_right (by rw [header_length]; omega), header_length,
      List.getElem?_append_right (by omega), List.getElem?_append_left (by
        rw [intBytes_length]; omega)]
    have hidx : 12 + (Spec.encs pre).length + i - 12 - (Spec.encs pre).length = i := by omega
    rw [hidx, Spec.intBytes, List.getElem?_map, List.getElem?_range hi]
    rfl
  · intro p ps hc hp
    obtain ⟨r, r', hcol, hg⟩ := hr p ps hc hp
    have hsplit : ∀ (l : List Val) (r r' : Rx) (xs : List Val),
        r.gets (l.map Val.ty ++ [.int w]) = .ok (xs ++ [.int w v], r') → xs.length = l.length →
        ∃ r1, r.gets (l.map Val.ty) = .ok (xs, r1) ∧ r1.getInt w = .ok (v, r') := by
      intro l
      induction l with
      | nil =>
        intro r r' xs h hx
        have : xs = [] := by simpa using hx
        subst this
        obtain ⟨r1, a, b⟩ := gets_int_cons (by simpa using h)
        simp only [Rx.gets, Res.ok.injEq, Prod.mk.injEq, true_and] at b
        subst b
        exact ⟨r, rfl, a⟩
      | cons x l ih =>
        intro r r' xs h hx
        cases xs with
        | nil => simp at hx
        | cons y ys =>
          simp only [List.map_cons, List.cons_append, Rx.gets] at h ⊢
          cases hq : r.get x.ty with
          | ub u => rw [hq] at h; simp at h
          | ok q =>
            rw [hq] at h; simp only [Res.bind_ok] at h ⊢
            cases hq2 : q.2.gets (l.map Val.ty ++ [.int w]) with
            | ub u => rw [hq2] at h; simp at h
            | ok q2 =>
              rw [hq2] at h
              simp only [Res.bind_ok, Res.pure_eq, Res.ok.injEq, Prod.mk.injEq,
                List.cons.injEq] at h
              obtain ⟨⟨h1, h2⟩, h3⟩ := h
              obtain ⟨r1, a, b⟩ := ih q.2 r' ys (by rw [hq2, ← h2, ← h3]) (by simpa using hx)
              exact ⟨r1, by rw [a]; simp [h1], b⟩
    obtain ⟨r1, a, b⟩ := hsplit pre r r' (pre.map Spec.received) (by
      simpa [Val.ty, Spec.received] using hg) (by simp)
    exact ⟨r, r1, r', hcol, a, b⟩

/-- C01, signed types: a signed integer is sent as its two's-complement pattern, and
reinterpreting the received pattern as signed gives it back. -/
theorem C01_signed (w : Nat) (hw : w ∈ [1, 2, 4, 8]) (x : Int)
    (h1 : -(2 ^ (8 * w - 1) : Int) ≤ x) (h2 : x < 2 ^ (8 * w - 1)) :
    let v := (x % 256 ^ w).toNat
    v < 256 ^ w ∧ (if v < 2 ^ (8 * w - 1) then (v : Int) else v - 256 ^ w) = x := by
  simp only [List.mem_cons, List.not_mem_nil, or_false] at hw
  rcases hw with rfl | rfl | rfl | rfl <;> simp only [Nat.reduceMul, Nat.reduceSub, Nat.reducePow,
    Int.reducePow] at * <;> constructor <;> first | omega | (split <;> omega)

example : ∃ pre post : List Val, (∀ x ∈ pre ++ post, Spec.Fits x) ∧
    Small (pre ++ .int 4 0xDEADBEEF :: post) :=
  ⟨[.str [1, 2]], [.int 1 3], by simp [Spec.Fits], by unfold Small; decide⟩

/-- C02/C04 (arrays): an array arrives unchanged (count, then elements in order), whatever the
packetization, for 8- to 128-bit elements, and takes `4 + width * count` bytes. -/
theorem C02_array_roundtrip (type code tid est w : Nat) (vs : List Nat) (post : List Val)
    (hf : ∀ x ∈ Val.arr w vs :: post, Spec.Fits x) (hs : Small (.arr w vs :: post))
    (he : est ≤ 2 ^ 31) :
    ∃ bytes, transmit type code tid est (.arr w vs :: post) = .ok bytes ∧
      bytes.length = 12 + (4 + w * vs.length) + (Spec.encs post).length ∧
      (bytes.drop 12).take (4 + w * vs.length) =
        Spec.intBytes 4 vs.length ++ vs.flatMap (Spec.intBytes w) ∧
      ∀ p ps, (p :: ps).flatten = bytes → 4 ≤ p.length →
        ∃ r r', collect p ps = .ok r ∧ r.getArr w = .ok (vs, r') ∧
          r'.off = 12 + (4 + w * vs.length) := by
  obtain ⟨bytes, ht, hb⟩ := C06_container_is_header_and_payload type code tid est _ hf hs he
  have hbl := flatMap_intBytes_length w vs
  have hsp : Spec.encs (.arr w vs :: post) =
      Spec.intBytes 4 vs.length ++ vs.flatMap (Spec.intBytes w) ++ Spec.encs post := by
    simp [Spec.encs, Spec.enc]
  have hlen : bytes.length = 12 + (4 + w * vs.length) + (Spec.encs post).length := by
    conv => lhs; rw [hb]
    simp only [hsp, List.length_append, header_length, intBytes_length, hbl]; omega
  refine ⟨bytes, ht, hlen, ?_, ?_⟩
  · rw [hb, hsp, List.drop_append_of_le_length (by rw [header_length]; omega),
      List.drop_of_length_le (by rw [header_length]; omega), List.nil_append,
      List.take_append_of_le_length (by simp only [List.length_append, intBytes_length, hbl]; omega),
      List.take_of_length_le (by simp only [List.length_append, intBytes_length, hbl]; omega)]
  · intro p ps hc hp
    unfold Small at hs
    have hl : leVal (bytes.take 4) = bytes.length := by
      conv => lhs; rw [hb]
      simp only [Spec.header, List.append_assoc]
      rw [List.take_append_of_le_length (by simp [intBytes_length]),
        List.take_of_length_le (by simp [intBytes_length]),
        leVal_intBytes _ _ (by
          have : (Spec.encs (.arr w vs :: post)).length
              = 4 + w * vs.length + (Spec.encs post).length := by
            simp only [hsp, List.length_append, intBytes_length, hbl]
          rw [hlen]; omega)]
    obtain ⟨r, e, hm, ho, _⟩ := Rx.assemble hc hp hl
    have hat : r.At (Spec.header bytes.length type code tid)
        (Spec.enc (.arr w vs) ++ Spec.encs post) := by
      have heq : Spec.header bytes.length type code tid ++ (Spec.enc (.arr w vs) ++ Spec.encs post)
          = bytes := by
        conv => rhs; rw [hb]
        simp [Spec.encs]
      refine ⟨?_, ?_, ?_⟩
      · rw [heq, hm, List.take_of_length_le (by simp)]
      · have := hsp
        have h2 : (Spec.encs (.arr w vs :: post)).length
              = 4 + w * vs.length + (Spec.encs post).length := by
            simp only [hsp, List.length_append, intBytes_length, hbl]
        rw [heq, hlen]; omega
      · rw [ho, header_length]
    have hfit := hf (.arr w vs) (by simp)
    have hg := Rx.getArr_at hat hfit.2.1 hfit.2.2
    refine ⟨r, _, e, hg, ?_⟩
    simp only [Spec.enc, List.length_append, intBytes_length, hbl, header_length]

example : (∀ x ∈ [Val.arr 2 [1, 0xFFFF, 3], .int 1 5], Spec.Fits x) ∧
    Small [.arr 2 [1, 0xFFFF, 3], .int 1 5] := by
  constructor
  · simp [Spec.Fits]
  · unfold Small; decide

/-- C04: a 128-bit identifier takes 16 bytes and arrives unchanged. -/
theorem C04_int128_roundtrip (type code tid est v : Nat) (hv : v < 2 ^ 128) (he : est ≤ 2 ^ 31) :
    ∃ bytes, transmit type code tid est [.int 16 v] = .ok bytes ∧ bytes.length = 28 ∧
      ∀ p ps, (p :: ps).flatten = bytes → 4 ≤ p.length →
        ∃ r r', collect p ps = .ok r ∧ r.getInt 16 = .ok (v, r') := by
  have hf : ∀ x ∈ [Val.int 16 v] ++ [], Spec.Fits x := by
    intro x hx
    simp at hx; subst hx
    exact ⟨by simp, by simpa using hv⟩
  have hs : Small ([Val.int 16 v] ++ []) := by
    unfold Small; simp [Spec.encs, Spec.enc, intBytes_length]
  obtain ⟨bytes, ht, hr⟩ := roundtrip type code tid est _ _ hf hs he
  obtain ⟨bytes', ht', hb⟩ := C06_container_is_header_and_payload type code tid est _ hf hs he
  have hbb : bytes' = bytes := by rw [ht] at ht'; exact (Res.ok.inj ht').symm
  subst hbb
  refine ⟨bytes', ht, ?_, ?_⟩
  · rw [hb]; simp [header_length, Spec.encs, Spec.enc, intBytes_length]
  · intro p ps hc hp
    obtain ⟨r, r', hcol, hg⟩ := hr p ps hc hp
    obtain ⟨r1, a, _⟩ := gets_int_cons (r := r) (w := 16) (v := v) (ts := []) (vs := []) (out := r')
      (by simpa [Val.ty, Spec.received] using hg)
    exact ⟨r, r1, hcol, a⟩

/-- C04, arrays of 128-bit identifiers. -/
theorem C04_int128_array_roundtrip (type code tid est : Nat) (vs : List Nat)
    (hv : ∀ v ∈ vs, v < 2 ^ 128) (hs : Small [.arr 16 vs]) (he : est ≤ 2 ^ 31) :
    ∃ bytes, transmit type code tid est [.arr 16 vs] = .ok bytes ∧
      bytes.length = 12 + (4 + 16 * vs.length) ∧
      ∀ p ps, (p :: ps).flatten = bytes → 4 ≤ p.length →
        ∃ r r', collect p ps = .ok r ∧ r.getArr 16 = .ok (vs, r') := by
  have hl : vs.length < 2 ^ 32 := by
    unfold Small at hs
    simp only [Spec.encs, List.flatMap_cons, List.flatMap_nil, List.append_nil, Spec.enc,
      List.length_append, flatMap_intBytes_length, intBytes_length] at hs
    omega
  obtain ⟨b, h1, h2, _, h3⟩ := C02_array_roundtrip type code tid est 16 vs [] (by
    intro x hx; simp at hx; subst hx
    exact ⟨by simp, hl, fun v h => by simpa using hv v h⟩) hs he
  refine ⟨b, h1, by simpa [Spec.encs] using h2, ?_⟩
  intro p ps hc hp
  obtain ⟨r, r', a, c, _⟩ := h3 p ps hc hp
  exact ⟨r, r', a, c⟩

/-- C03: a string is received as its first 254 units before any NUL (a leading byte-order mark is
consumed by Qt's import); the wire form is `Spec.strBytes`, never announcing more than 255 units. -/
theorem C03_string_roundtrip (type code tid est : Nat) (s : QStr) (he : est ≤ 2 ^ 31) :
    ∃ bytes, transmit type code tid est [.str s] = .ok bytes ∧
      bytes.drop 12 = Spec.strBytes (Spec.cut s) ∧
      (Spec.cut s).length + 1 ≤ 255 ∧
      ∀ p ps, (p :: ps).flatten = bytes → 4 ≤ p.length →
        ∃ r r', collect p ps = .ok r ∧ r.getStr = .ok (Spec.bom (Spec.cut s), r') := by
  have hf : ∀ x ∈ [Val.str s] ++ [], Spec.Fits x := by
    intro x hx; simp at hx; subst hx; trivial
  have hs : Small ([Val.str s] ++ []) := by
    unfold Small
    have := strBytes_length_le s
    simp only [Spec.encs, List.append_nil, List.flatMap_cons, List.flatMap_nil, Spec.enc]
    omega
  obtain ⟨bytes, ht, hr⟩ := roundtrip type code tid est _ _ hf hs he
  obtain ⟨bytes', ht', hb⟩ := C06_container_is_header_and_payload type code tid est _ hf hs he
  have hbb : bytes' = bytes := by rw [ht] at ht'; exact (Res.ok.inj ht').symm
  subst hbb
  refine ⟨bytes', ht, ?_, ?_, ?_⟩
  · rw [hb, List.drop_append_of_le_length (by rw [header_length]; omega),
      List.drop_of_length_le (by rw [header_length]; omega)]
    simp [Spec.encs, Spec.enc]
  · have := cut_length s; omega
  · intro p ps hc hp
    obtain ⟨r, r', hcol, hg⟩ := hr p ps hc hp
    obtain ⟨r1, a, _⟩ := gets_str_cons (r := r) (s := Spec.bom (Spec.cut s)) (ts := []) (vs := [])
      (out := r') (by simpa [Val.ty, Spec.received] using hg)
    exact ⟨r, r1, hcol, a⟩

/-- C03: strings of at most 254 units without NUL and without a leading byte-order mark are
received exactly as sent. -/
theorem C03_string_exact (type code tid est : Nat) (s : QStr) (he : est ≤ 2 ^ 31)
    (hlen : s.length ≤ 254) (hnul : ∀ c ∈ s, c ≠ 0)
    (hbom : s.head? ≠ some 0xFEFF ∧ s.head? ≠ some 0xFFFE) :
    ∃ bytes, transmit type code tid est [.str s] = .ok bytes ∧
      ∀ p ps, (p :: ps).flatten = bytes → 4 ≤ p.length →
        ∃ r r', collect p ps = .ok r ∧ r.getStr = .ok (s, r') := by
  obtain ⟨b, h1, _, _, h2⟩ := C03_string_roundtrip type code tid est s he
  have hc : Spec.cut s = s := by
    unfold Spec.cut
    have : s.takeWhile (fun c => c != 0) = s := by
      clear h2 h1 hbom hlen
      rename_i h3 h4
      clear h3 h4
      induction s with
      | nil => rfl
      | cons c cs ih =>
        rw [List.takeWhile_cons_of_pos (by simpa using hnul c (by simp)),
          ih (fun x hx => hnul x (by simp [hx]))]
    rw [this, List.take_of_length_le hlen]
  have hb : Spec.bom s = s := by
    cases s with
    | nil => rfl
    | cons c cs =>
      simp only [List.head?_cons, ne_eq, Option.some.injEq] at hbom
      simp [Spec.bom, hbom.1, hbom.2]
  rw [hc, hb] at h2
  exact ⟨b, h1, h2⟩

example : (List.replicate 254 (0x41 : UInt16)).length ≤ 254 ∧
    (∀ c ∈ List.replicate 254 (0x41 : UInt16), c ≠ 0) ∧ Spec.cut (List.replicate 300 0x41) =
    List.replicate 254 0x41 := by decide +kernel

/-- C03 is not exact for strings that start with U+FEFF: the mark is lost. -/
theorem C03_bom_violated : ∃ s : QStr, s.length = 2 ∧ (∀ c ∈ s, c ≠ 0) ∧
    (transmit 2 0x100C 1 0 [.str s] >>= fun b => collect b [] >>= fun r => r.getStr >>= fun p =>
      pure p.1) = .ok [0x41] ∧ s ≠ [0x41] :=
  ⟨[0xFEFF, 0x41], rfl, by decide, by decide +kernel, by decide⟩

/-- C05: the object-info dataset arrives with every field in place, the size reduced to 32 bits and
each string as in C03, whatever the packetization. -/
theorem C05_objectinfo_roundtrip (type code tid est : Nat) (o : ObjInfo) (hf : Spec.ObjInfoFits o)
    (he : est ≤ 2 ^ 31) :
    ∃ t bytes t', Tx.new type code tid est = .ok t ∧
      (t.putObjInfo o >>= Tx.buffer) = .ok (bytes, t') ∧
      ∀ p ps, (p :: ps).flatten = bytes → 4 ≤ p.length →
        ∃ r r', collect p ps = .ok r ∧ r.getObjInfo = .ok (Spec.objInfoReceived o, r') := by
  have hfit := objInfo_fits o hf
  have hlen : (Spec.encs (Spec.objInfoVals o)).length ≤ 3000 := by
    clear hf hfit he
    have h1 := strBytes_length_le o.fileName
    have h2 := strBytes_length_le o.captureDate
    have h3 := strBytes_length_le o.modDate
    have h4 := strBytes_length_le o.keywords
    simp only [Spec.encs, Spec.objInfoVals, List.flatMap_cons, List.flatMap_nil, Spec.enc,
      List.length_append, intBytes_length, List.length_nil]
    rw [← Nat.sub_eq_zero_iff_le]
    omega
  obtain ⟨t, e1, h1, c1, x1⟩ := Tx.new_holds type code tid est (by omega)
  obtain ⟨t2, e2, h2, f2⟩ := Tx.puts_holds h1 hfit (by rw [header_length]; omega)
  obtain ⟨t3, e3⟩ := Tx.buffer_holds h2 (by rw [f2.1, c1])
  rw [f2.2, x1] at e3
  simp only [Bool.false_eq_true, if_false] at e3
  have e4 : (t.putObjInfo o >>= Tx.buffer) = Tx.buffer t2 := by rw [putObjInfo_eq, e2, Res.bind_ok]
  rw [e3] at e4
  refine ⟨t, _, t3, e1, e4, ?_⟩
  intro p ps hc hp
  have hl : leVal ((Spec.header (12 + (Spec.encs (Spec.objInfoVals o)).length) type code tid ++
      Spec.encs (Spec.objInfoVals o)).take 4) =
      (Spec.header (12 + (Spec.encs (Spec.objInfoVals o)).length) type code tid ++
      Spec.encs (Spec.objInfoVals o)).length := by
    rw [List.length_append, header_length]
    simp only [Spec.header, List.append_assoc]
    rw [List.take_append_of_le_length (by simp [intBytes_length]),
      List.take_of_length_le (by simp [intBytes_length]), leVal_intBytes _ _ (by omega)]
  obtain ⟨r, e, hm, ho, _⟩ := Rx.assemble hc hp hl
  have hat : r.At (Spec.header (12 + (Spec.encs (Spec.objInfoVals o)).length) type code tid)
      (Spec.encs (Spec.objInfoVals o) ++ []) := by
    rw [List.append_nil]
    refine ⟨?_, ?_, ?_⟩
    · rw [hm, List.take_of_length_le (by simp)]
    · rw [List.length_append, header_length]; omega
    · rw [ho, header_length]
  exact ⟨r, _, e, getObjInfo_at hf hat⟩

/-- A concrete object info with distinct field values. -/
def sampleInfo : ObjInfo :=
  { storageId := 0x10001, format := 0x3801, protection := 1, size := 5000000000, thumbFormat := 2,
    thumbSize := 3, thumbWidth := 4, thumbHeight := 5, imageWidth := 6, imageHeight := 7,
    bitDepth := 8, parent := 9, assocType := 10, assocDesc := 11, sequence := 12,
    fileName := [97, 46, 106], captureDate := [], modDate := [50], keywords := [107] }
example : Spec.ObjInfoFits sampleInfo ∧ (Spec.objInfoReceived sampleInfo).size = 705032704 := by
  constructor
  · unfold Spec.ObjInfoFits sampleInfo; decide
  · decide

end Props
