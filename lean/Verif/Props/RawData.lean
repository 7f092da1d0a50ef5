import Verif.Model.RawData
import Verif.Props.Codec
import Verif.Props.Download
/-! Property theorems C06, C07 and C31 for payloads copied into the container. -/
namespace Props
open Mtp

private theorem new_cap {type code tid est : Nat} {t : Tx} (h : Tx.new type code tid est = .ok t) :
    t.cap = u32 (HDR + u32 est) ∧ t.off = 12 := by
  simp only [Tx.new] at h
  generalize Mem.store (Mem.alloc (HDR + u32 est)) 0 (leBytes 4 0) = a at h
  cases a with
  | ub w => cases h
  | ok m1 =>
    simp only [Res.bind_ok] at h
    generalize Mem.store m1 4 (leBytes 2 type) = a at h
    cases a with
    | ub w => cases h
    | ok m2 =>
      simp only [Res.bind_ok] at h
      generalize Mem.store m2 6 (leBytes 2 code) = a at h
      cases a with
      | ub w => cases h
      | ok m3 =>
        simp only [Res.bind_ok] at h
        generalize Mem.store m3 8 (leBytes 4 tid) = a at h
        cases a with
        | ub w => cases h
        | ok m4 =>
          have := Res.ok.inj h
          subst this
          exact ⟨rfl, rfl⟩

/-- Replacing the length field of a container. -/
private theorem set_length {t : Tx} {l type code tid : Nat} {pay : List UInt8}
    (h : t.Holds (Spec.header l type code tid ++ pay)) (n : Nat) :
    ∃ m', Mem.store t.mem 0 (leBytes 4 n) = .ok m' ∧ m'.length = t.mem.length ∧
      m'.take (Spec.header n type code tid ++ pay).length = (Spec.header n type code tid ++ pay).map some := by
  obtain ⟨m', q, l', p⟩ := store_inside (src := leBytes 4 n) (off := 0) h.bytes (by
    rw [leBytes_length, List.length_append, header_length]; omega)
  refine ⟨m', q, l', ?_⟩
  have hre : List.take 0 (Spec.header l type code tid ++ pay) ++ leBytes 4 n ++
      List.drop (0 + (leBytes 4 n).length) (Spec.header l type code tid ++ pay)
      = Spec.header n type code tid ++ pay := by
    rw [leBytes_length, List.take_zero, List.nil_append, leBytes_eq]
    simp only [Spec.header, List.append_assoc]
    rw [List.drop_append_of_le_length (by simp [intBytes_length]),
      List.drop_of_length_le (by simp [intBytes_length])]
    simp
  rw [hre] at p
  have hlen : (Spec.header l type code tid ++ pay).length
      = (Spec.header n type code tid ++ pay).length := by simp [header_length]
  rw [hlen] at p
  exact p

private theorem i32_small {n : Nat} (h : n < 2147483648) : i32 n = Int.ofNat n := by
  unfold i32
  rw [u32_of_lt (by omega), if_pos h]

private theorem seek_payload {cap n : Nat} (hc : 12 + n = cap) (hl : cap < 4294967296)
    (hn : n < 2147483648) : Tx.seekOff 12 cap (i32 n) = 12 + n := by
  rw [i32_small hn]
  unfold Tx.seekOff HDR
  have e : ((Int.ofNat 12 + Int.ofNat n) % 4294967296).toNat = 12 + n := by
    have : (Int.ofNat 12 + Int.ofNat n) % 4294967296 = Int.ofNat (12 + n) := by
      simp only [Int.ofNat_eq_natCast]; omega
    rw [this]; rfl
  simp only [e]
  by_cases h0 : n = 0
  · subst h0; simp
  · rw [if_pos ⟨by simp only [Int.ofNat_eq_natCast]; omega, by omega⟩]

/-- C06: a container whose payload is copied in as a block (first packet of a download, thumbnails)
is exactly a header (announcing the length given, or the number of bytes handed over), followed by
that payload, for every payload below 2 GiB, including the empty one. -/
theorem C06_copied_payload (type code tid : Nat) (len : Option Nat) (bs : List UInt8)
    (hb : bs.length < 2 ^ 31) (hl : ∀ n, len = some n → n < 2 ^ 32) :
    transmitRaw type code tid len bs =
      .ok (Spec.header (len.getD (12 + bs.length)) type code tid ++ bs) := by
  have hb' : bs.length < 2147483648 := hb
  obtain ⟨t, e1, h1, c1, x1⟩ := Tx.new_holds type code tid bs.length (by omega)
  obtain ⟨hcap, hoff⟩ := new_cap e1
  have hcap' : t.cap = 12 + bs.length := by
    rw [hcap, u32_of_lt (n := bs.length) (by omega), u32_of_lt (by unfold HDR; omega)]; rfl
  unfold transmitRaw
  rw [e1]; simp only [Res.bind_ok]
  -- the container before the payload is copied
  have key : ∀ (t' : Tx) (l : Nat), t'.Holds (Spec.header l type code tid) → t'.cap = t.cap →
      t'.off = 12 → t'.extraLarge = false →
      ∃ m, t'.fill bs = .ok { t' with mem := m } ∧ m.length = t'.cap ∧
        m.take (Spec.header l type code tid ++ bs).length
          = (Spec.header l type code tid ++ bs).map some := by
    intro t' l hh hc ho hx
    obtain ⟨m, q, lm, p⟩ := store_extend (src := bs) hh.bytes (by
      rw [hh.memcap, hc, hcap', header_length]; omega)
    rw [header_length] at q
    refine ⟨m, ?_, by rw [lm, hh.memcap], ?_⟩
    · unfold Tx.fill
      show (Mem.store t'.mem 12 bs >>= _) = _
      rw [q]; rfl
    · rw [List.length_append]
      exact p
  cases len with
  | none =>
    obtain ⟨m, q, lm, p⟩ := key t 0 h1 rfl hoff x1
    simp only [Res.bind_ok]
    rw [q]
    simp only [Res.bind_ok]
    have hseek : Tx.seekOff t.off t.cap (i32 bs.length) = 12 + bs.length := by
      rw [hoff]; exact seek_payload hcap'.symm h1.caplt hb'
    have hh : Tx.Holds (Tx.seek { t with mem := m } (i32 bs.length))
        (Spec.header 0 type code tid ++ bs) := by
      refine ⟨lm, h1.caplt, ?_, ?_, p⟩
      · show Tx.seekOff t.off t.cap _ = _
        rw [hseek, List.length_append, header_length]
      · show Tx.seekOff t.off t.cap _ ≤ t.cap
        rw [hseek, hcap']; omega
    obtain ⟨t3, e3⟩ := Tx.buffer_holds hh c1
    rw [e3]
    show Res.ok _ = Res.ok _
    have hx : (Tx.seek { t with mem := m } (i32 bs.length)).extraLarge = false := x1
    rw [hx]; rfl
  | some n =>
    have hn : n < 4294967296 := hl n rfl
    obtain ⟨m0, q0, l0, p0⟩ := set_length (pay := []) (by rw [List.append_nil]; exact h1) n
    rw [List.append_nil] at p0
    have hset : t.setContainerLength (u32 n) = .ok { t with mem := m0, computeLen := false } := by
      unfold Tx.setContainerLength
      rw [u32_of_lt hn, q0]; rfl
    simp only []
    rw [hset]; simp only [Res.bind_ok]
    have h2 : Tx.Holds { t with mem := m0, computeLen := false } (Spec.header n type code tid) := by
      refine ⟨by rw [l0]; exact h1.memcap, h1.caplt, ?_, h1.offle, p0⟩
      rw [header_length]; exact hoff
    obtain ⟨m, q, lm, p⟩ := key _ n h2 rfl hoff x1
    rw [q]; simp only [Res.bind_ok]
    have hseek : Tx.seekOff t.off t.cap (i32 bs.length) = 12 + bs.length := by
      rw [hoff]; exact seek_payload hcap'.symm h1.caplt hb'
    unfold Tx.buffer Tx.seek
    simp only [Bool.false_eq_true, if_false, Res.bind_ok, hseek]
    rw [load_of_prefix (all := Spec.header n type code tid ++ bs) p (by
      rw [List.length_append, header_length]; omega)]
    simp only [Res.bind_ok, List.drop_zero, Res.pure_eq, Option.getD_some]
    rw [List.take_of_length_le (by rw [List.length_append, header_length]; omega)]

example : transmitRaw 2 0x1009 7 (some 0x100C) [1, 2, 3] =
    .ok [0x0C, 0x10, 0, 0, 2, 0, 9, 0x10, 7, 0, 0, 0, 1, 2, 3] := by decide +kernel
example : transmitRaw 2 0x100A 7 none [1, 2, 3] =
    .ok [15, 0, 0, 0, 2, 0, 0x0A, 0x10, 7, 0, 0, 0, 1, 2, 3] := by decide +kernel

/-- C07: moving the write position, forwards or back to within the container, never takes it into the
header or behind the allocation: subsequent writes and the transmission stay inside. -/
theorem C07_seek_stays_inside (t : Tx) (pos : Int) (h1 : 12 ≤ t.off) (h2 : t.off ≤ t.cap)
    (h4 : - (t.off : Int) ≤ pos) (h5 : t.off + pos < 2 ^ 32) :
    12 ≤ (t.seek pos).off ∧ (t.seek pos).off ≤ t.cap ∧
    (pos ≤ 0 → (t.seek pos).off ≤ t.off) ∧
    (0 ≤ pos → t.off + pos ≤ t.cap → ((t.seek pos).off : Int) = t.off + pos) ∧
    (pos ≤ 0 → 12 < t.off + pos → ((t.seek pos).off : Int) = t.off + pos) := by
  have hw : (t.off : Int) + pos < 4294967296 := h5
  unfold Tx.seek Tx.seekOff HDR
  simp only [Int.ofNat_eq_natCast]
  have e : ((t.off : Int) + pos) % 4294967296 = t.off + pos := Int.emod_eq_of_lt (by omega) hw
  rw [e]
  split
  · rename_i hc; omega
  · split
    · rename_i hc; omega
    · rename_i hc hd; omega

/-- C07 violated in its general form: moving back by more than was written wraps around, and the write
position lands about 4 GiB behind the allocation. (No caller in the responder moves back.) -/
theorem C07_seek_back_violated (t : Tx) (pos : Int) (h1 : 12 ≤ t.off) (h3 : t.cap < 2 ^ 31)
    (h2 : t.off ≤ t.cap) (h4 : pos < - (t.off : Int)) (h5 : - 2 ^ 31 ≤ pos) :
    t.cap < (t.seek pos).off := by
  have h3' : t.cap < 2147483648 := h3
  have h5' : -2147483648 ≤ pos := h5
  unfold Tx.seek Tx.seekOff HDR
  simp only [Int.ofNat_eq_natCast]
  have e : ((t.off : Int) + pos) % 4294967296 = t.off + pos + 4294967296 := by omega
  rw [e, if_neg (by omega), if_pos (by omega)]
  show t.cap < _
  omega

example : ((Tx.new 2 0x1009 7 0 >>= fun t => Res.ok (t.seek (-13)).off)) = .ok 4294967295 := by
  decide +kernel

private theorem wires_plain (op tid : Nat) : ∀ fs : List Frame, (∀ g ∈ fs, g.header = none) →
    wires op tid fs = .ok (fs.map (·.payload)).flatten
  | [], _ => rfl
  | f :: fs, h => by
    unfold wires Frame.wire
    rw [h f (by simp)]
    simp only [Res.bind_ok]
    rw [wires_plain op tid fs (fun g hg => h g (by simp [hg]))]
    simp

/-- C31 on the wire: the bytes of a correct data phase, packet after packet, are one container: a
header announcing its total length (0xFFFFFFFF if that needs more than 32 bits), of type data, with
the operation and transaction id of the request, and the content; no undefined behaviour. -/
theorem C31_wire_bytes (op tid : Nat) (d : List UInt8) (fs : List Frame) (h : Spec.DataPhase d fs) :
    wires op tid fs =
      .ok (Spec.header (if d.length + 12 > 0xFFFFFFFF then 0xFFFFFFFF else d.length + 12) 2 op tid ++ d) := by
  obtain ⟨⟨f, rest, rfl, hh, hlen, hrest⟩, -, hcat⟩ := h
  unfold wires Frame.wire
  rw [hh]
  simp only []
  rw [C06_copied_payload 2 op tid _ f.payload (by omega) (by
    intro n hn
    have := Option.some.inj hn
    subst this
    split <;> omega)]
  simp only [Res.bind_ok]
  rw [wires_plain op tid rest (fun g hg => (hrest g hg).1)]
  rw [← hcat]
  simp

/-- C31 end to end: the bytes a host reads in answer to GetObject of a file below 4 GiB, when reads
and sends succeed, are one data container holding exactly the file. -/
theorem C31_wire_exact (s : FStore) (io : Nat → FileIO)
    (hio : ∀ i, (io i).openOk = true ∧ ∀ r ∈ (io i).reads, ∃ k, r = some k ∧ 0 < k) (h tid : Nat) (it : FItem) (c : List UInt8)
    (hi : s.items.get h = some it) (hf : s.files.get it.path = some c) (hd : it.isDir = false)
    (hsz : it.size = c.length) (hmax : c.length ≤ 0xFFFFFFFF - 12) :
    wires 0x1009 tid (getObject s io (fun _ => true) h).frames =
      .ok (Spec.header (c.length + 12) 2 0x1009 tid ++ c) := by
  have hr := C31_download_succeeds s io hio h it c hi hf hd hsz hmax
  rw [C31_wire_bytes 0x1009 tid c _
    (C31_download_exact_partial s io (fun _ => true) h it c hi hf hsz hmax rfl _ hr),
    if_neg (by omega)]

end Props
