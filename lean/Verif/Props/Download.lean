import Verif.Spec.Download
import Verif.Props.FileIO
import Mathlib.Tactic.ByContra
/-! Property theorems C31, C32: downloads. -/
namespace Props
open Mtp

private theorem ite_min (a b : Nat) : (if a < b then a else b) = min a b := by
  by_cases h : a < b
  · rw [if_pos h]; omega
  · rw [if_neg h]; omega

private theorem announce_eq (r : Nat) :
    (if r > MAX_CONTENT then 0xFFFFFFFF else u32 (12 + r)) =
      (if r + 12 > 0xFFFFFFFF then 0xFFFFFFFF else r + 12) := by
  have hM : MAX_CONTENT = 4294967283 := rfl
  by_cases h : r > MAX_CONTENT
  · rw [if_pos h, if_pos (by omega)]
  · rw [if_neg h, if_neg (by omega)]
    unfold u32
    omega

private theorem sendRest_spec (s : FStore) (io : Nat → FileIO) (snd : Nat → Bool) (h : Nat) (it : FItem)
    (c : List UInt8) (hi : s.items.get h = some it) (hf : s.files.get it.path = some c) :
    ∀ (fuel i off rem : Nat) (fs : List Frame), 0 < rem → sendRest s io snd h fuel i off rem = (fs, true) →
      (∀ g ∈ fs, g.header = none ∧ 0 < g.payload.length ∧ g.payload.length ≤ 16384) ∧
      (∃ init l, fs = init ++ [l] ∧ l.last = true ∧ ∀ g ∈ init, g.last = false) ∧
      (fs.map (·.payload)).flatten = (c.drop off).take rem ∧ off + rem ≤ c.length := by
  intro fuel
  induction fuel with
  | zero => intro i off rem fs _ h; simp [sendRest] at h
  | succ fuel ih =>
    intro i off rem fs hpos hr
    unfold sendRest at hr
    rw [if_neg (Nat.ne_of_gt hpos)] at hr
    simp only at hr
    have hlen : (if rem < FRAME_MAX then rem else FRAME_MAX) = min rem 16384 := by
      unfold FRAME_MAX; exact (ite_min _ _)
    rw [hlen] at hr
    cases hrd : s.readData (io i) h (min rem 16384) off with
    | mk r d =>
    rw [hrd] at hr
    by_cases hrok : r = .ok
    · subst hrok
      simp only at hr
      obtain ⟨it', c', e1, e2, e3, e4⟩ := C27_read_exact s (io i) h _ off (by omega) d hrd
      rw [hi] at e1; cases e1
      rw [hf] at e2; cases e2
      have hdl : d.length = min rem 16384 := by
        rw [e4, List.length_take, List.length_drop]; omega
      split at hr
      · cases hm : sendRest s io snd h fuel (i + 1) (off + min rem 16384) (rem - min rem 16384) with
        | mk fs' done =>
        simp only [hm, Prod.mk.injEq] at hr
        obtain ⟨rfl, rfl⟩ := hr
        by_cases hlast : rem ≤ 16384
        · have hm0 : min rem 16384 = rem := by omega
          rw [hm0, Nat.sub_self] at hm
          rw [hm0] at hdl e4 e3
          have hfs : fs' = [] := by
            cases fuel with
            | zero => simp [sendRest] at hm
            | succ n => simpa [sendRest, eq_comm] using hm
          subst hfs
          refine ⟨?_, ⟨[], _, rfl, ?_, by simp⟩, ?_, e3⟩
          · intro g hg
            simp only [List.mem_singleton] at hg
            subst hg
            exact ⟨rfl, by simp only; omega, by simp only; omega⟩
          · simp [hm0]
          · simp [e4]
        · have hm0 : min rem 16384 = 16384 := by omega
          rw [hm0] at hm hdl e4 e3
          obtain ⟨a1, ⟨init, l, a2, a3, a4⟩, a5, a6⟩ := ih _ _ _ _ (by omega) hm
          refine ⟨?_, ⟨_ :: init, l, by rw [a2]; rfl, a3, ?_⟩, ?_, by omega⟩
          · intro g hg
            rcases List.mem_cons.mp hg with rfl | hg
            · exact ⟨rfl, by simp only; omega, by simp only; omega⟩
            · exact a1 g hg
          · intro g hg
            rcases List.mem_cons.mp hg with rfl | hg
            · simp only [decide_eq_false_iff_not]; omega
            · exact a4 g hg
          · simp only [List.map_cons, List.flatten_cons, a5, e4]
            have : rem = 16384 + (rem - 16384) := by omega
            conv_rhs => rw [this, List.take_add, List.drop_drop]
      · simp at hr
    · cases r <;> simp at hr hrok

private theorem sendSegmented_spec (s : FStore) (io : Nat → FileIO) (snd : Nat → Bool) (h off tail : Nat)
    (it : FItem) (c : List UInt8) (hi : s.items.get h = some it) (hf : s.files.get it.path = some c)
    (hle : off ≤ tail) (n : Nat) (hr : (sendSegmented s io snd h off tail).response = some (.ok, n))
    (hs : snd 0 = true) :
    Spec.DataPhase ((c.drop off).take (tail - off)) (sendSegmented s io snd h off tail).frames ∧
      n = tail - off ∧ tail ≤ c.length := by
  unfold sendSegmented at hr ⊢
  simp only [hs, if_true] at hr ⊢
  have hlen : (if tail - off < FRAME_MAX - 12 then tail - off else FRAME_MAX - 12) = min (tail - off) 16372 := ite_min _ _
  rw [hlen] at hr ⊢
  cases hrd : s.readData (io 0) h (min (tail - off) 16372) off with
  | mk r d =>
  simp only [hrd] at hr ⊢
  by_cases hrok : r = .ok
  · subst hrok
    simp only at hr ⊢
    obtain ⟨it', c', e1, e2, e3, e4⟩ := C27_read_exact s (io 0) h _ off (by omega) d hrd
    rw [hi] at e1; cases e1
    rw [hf] at e2; cases e2
    have hdl : d.length = min (tail - off) 16372 := by
      rw [e4, List.length_take, List.length_drop]; omega
    cases hm : sendRest s io snd h ((tail - off) / FRAME_MAX + 2) 1 (off + min (tail - off) 16372)
        (tail - off - min (tail - off) 16372) with
    | mk fs done =>
    cases done with
    | false => simp [hm] at hr
    | true =>
      simp only [hm, Option.some.injEq, Prod.mk.injEq, true_and] at hr ⊢
      subst hr
      by_cases hlast : tail - off ≤ 16372
      · have hm0 : min (tail - off) 16372 = tail - off := by omega
        rw [hm0, Nat.sub_self] at hm
        rw [hm0] at hdl e4 e3
        have hfs : fs = [] := by
          simpa [sendRest, eq_comm] using hm
        subst hfs
        have hlt : ((c.drop off).take (tail - off)).length = tail - off := by rw [← e4]; exact hdl
        refine ⟨⟨⟨_, [], rfl, ?_, ?_, by simp⟩, ⟨[], _, rfl, ?_, by simp⟩, ?_⟩, rfl, by omega⟩
        · rw [hlt]
          exact congrArg some (announce_eq _)
        · simp only [hdl]; omega
        · simp [hm0]
        · simp [e4]
      · have hm0 : min (tail - off) 16372 = 16372 := by omega
        rw [hm0] at hm hdl e4 e3
        obtain ⟨a1, ⟨init, l, a2, a3, a4⟩, a5, a6⟩ := sendRest_spec s io snd h it c hi hf _ _ _ _ _ (by omega) hm
        have hlt : ((c.drop off).take (tail - off)).length = tail - off := by
          rw [List.length_take, List.length_drop]; omega
        refine ⟨⟨⟨_, fs, rfl, ?_, ?_, a1⟩, ⟨_ :: init, l, by rw [a2]; rfl, a3, ?_⟩, ?_⟩, rfl, by omega⟩
        · rw [hlt]
          exact congrArg some (announce_eq _)
        · simp only [hdl]; omega
        · intro g hg
          rcases List.mem_cons.mp hg with rfl | hg
          · simp only [decide_eq_false_iff_not]; omega
          · exact a4 g hg
        · simp only [List.map_cons, List.flatten_cons, a5, e4]
          have : tail - off = 16372 + (tail - off - 16372) := by omega
          conv_rhs => rw [this, List.take_add, List.drop_drop]
  · cases r <;> simp at hr hrok

/-- C31: a download answered OK whose first packet was accepted by the transport carried exactly the
object's bytes (whose recorded size is that of its file, at most 0xFFFFFFF3) in correct packets. -/
theorem C31_download_exact_partial (s : FStore) (io : Nat → FileIO) (snd : Nat → Bool) (h : Nat)
    (it : FItem) (c : List UInt8) (hi : s.items.get h = some it) (hf : s.files.get it.path = some c)
    (hsz : it.size = c.length) (hmax : c.length ≤ 0xFFFFFFFF - 12) (hs : snd 0 = true) (n : Nat)
    (hr : (getObject s io snd h).response = some (.ok, n)) :
    Spec.DataPhase c (getObject s io snd h).frames := by
  unfold getObject getObjectCommon at hr ⊢
  simp only [hi] at hr ⊢
  by_cases hd : it.isDir = true
  · simp [hd] at hr
  · have h2 : ¬ (0 > it.size) := by omega
    have h3 : ¬ (u64 (0 + MAX_CONTENT) < 0) := by omega
    have h4 : min (u64 (0 + MAX_CONTENT)) it.size = c.length := by
      have : u64 (0 + MAX_CONTENT) = 4294967283 := by decide
      omega
    rw [if_neg hd, if_neg h2, if_neg h3, Nat.zero_min, h4] at hr ⊢
    obtain ⟨a, _, _⟩ := sendSegmented_spec s io snd h 0 c.length it c hi hf (Nat.zero_le _) n hr hs
    simpa using a

/-- C31: in general, if some packet was sent but not all, no response is sent at all — in particular not
OK — and the host is left to time out. -/
theorem C31_broken_never_ok (s : FStore) (io : Nat → FileIO) (snd : Nat → Bool) (h off size : Nat)
    (it : FItem) (c : List UInt8) (hi : s.items.get h = some it) (hf : s.files.get it.path = some c)
    (hne : (getObjectCommon s io snd h off size).frames ≠ [])
    (hinc : ¬ Spec.DataPhase ((c.drop off).take (min (off + size) it.size - off))
      (getObjectCommon s io snd h off size).frames)
    (ho : off + size < 2 ^ 64) :
    (getObjectCommon s io snd h off size).response = none := by
  have hu : u64 (off + size) = off + size := by unfold u64; omega
  unfold getObjectCommon at hne hinc ⊢
  simp only [hi, hu] at hne hinc ⊢
  by_cases hd : it.isDir = true
  · simp [hd] at hne
  by_cases h2 : off > it.size
  · simp [hd, h2] at hne
  rw [if_neg hd, if_neg h2, if_neg (by omega), Nat.min_eq_left (Nat.le_of_not_lt h2)] at hne hinc ⊢
  cases hr : (sendSegmented s io snd h off (min (off + size) it.size)).response with
  | none => rfl
  | some p =>
    exfalso
    obtain ⟨r, n⟩ := p
    have hs : snd 0 = true := by
      by_contra hs
      apply hne
      unfold sendSegmented
      simp only [hs]
      split <;> simp
    have hok : r = .ok := by
      by_contra hr'
      apply hne
      unfold sendSegmented at hr ⊢
      simp only [hs, if_true] at hr ⊢
      generalize hrd : s.readData (io 0) h
        (if min (off + size) it.size - off < FRAME_MAX - 12 then min (off + size) it.size - off
          else FRAME_MAX - 12) off = q at hr ⊢
      obtain ⟨q1, q2⟩ := q
      cases q1 <;> first
        | rfl
        | (exfalso
           simp only at hr
           split at hr <;> simp at hr
           exact hr' hr.1.symm)
    subst hok
    exact hinc (sendSegmented_spec s io snd h off _ it c hi hf (by omega) n hr hs).1

private theorem sendSegmented_succeeds (s : FStore) (io : Nat → FileIO)
    (hio : ∀ i, (io i).openOk = true ∧ ∀ r ∈ (io i).reads, ∃ k, r = some k ∧ 0 < k) (h : Nat) (it : FItem) (c : List UInt8)
    (hi : s.items.get h = some it) (hf : s.files.get it.path = some c) (hmax : c.length < 2 ^ 63) (off tail : Nat)
    (h1 : off ≤ tail) (h2 : tail ≤ c.length) :
    (sendSegmented s io (fun _ => true) h off tail).response = some (.ok, tail - off) := by
  have hread : ∀ i len off, off + len ≤ c.length →
      s.readData (io i) h len off = (.ok, (c.drop off).take len) := by
    intro i len off hl
    by_cases h0 : 0 < len
    · exact C27_read_succeeds s (io i) h len off it c hi hf (by omega) hl (hio i).1 (hio i).2 h0
    · have : len = 0 := by omega
      subst this
      have hu : u64 (off + 0) = off := by unfold u64; omega
      simp only [FStore.readData, hi, hf, hu, (hio i).1]
      rw [if_neg (by omega), if_neg (by omega)]
      cases (io i).reads <;> simp [readLoop]
  have hrest : ∀ k i off rem, rem ≤ k * 16384 → off + rem ≤ c.length →
      (sendRest s io (fun _ => true) h (k + 1) i off rem).2 = true := by
    intro k
    induction k with
    | zero =>
      intro i off rem h _
      have : rem = 0 := by omega
      subst this
      simp [sendRest]
    | succ k ih =>
      intro i off rem hfu hl
      unfold sendRest
      by_cases h0 : rem = 0
      · simp [h0]
      · rw [if_neg h0]
        have hlen : (if rem < FRAME_MAX then rem else FRAME_MAX) = min rem 16384 := by
          unfold FRAME_MAX; exact (ite_min _ _)
        simp only [hlen, hread i (min rem 16384) off (by omega), if_true]
        exact ih _ _ _ (by omega) (by omega)
  unfold sendSegmented
  have hlen : (if tail - off < FRAME_MAX - 12 then tail - off else FRAME_MAX - 12) = min (tail - off) 16372 := ite_min _ _
  simp only [hlen, hread 0 (min (tail - off) 16372) off (by omega), if_true]
  have := hrest ((tail - off) / FRAME_MAX + 1) 1 (off + min (tail - off) 16372) (tail - off - min (tail - off) 16372)
    (by have : FRAME_MAX = 16384 := rfl
        rw [this]; omega) (by omega)
  generalize sendRest s io (fun _ => true) h ((tail - off) / FRAME_MAX + 2) 1
    (off + min (tail - off) 16372) (tail - off - min (tail - off) 16372) = q at *
  obtain ⟨fs, done⟩ := q
  simp only at this
  subst this
  simp

/-- C31/C32: a download of an intact object over a working transport succeeds if the system lets the file be opened and its reads
make progress, however it splits them. -/
theorem C31_download_succeeds (s : FStore) (io : Nat → FileIO)
    (hio : ∀ i, (io i).openOk = true ∧ ∀ r ∈ (io i).reads, ∃ k, r = some k ∧ 0 < k) (h : Nat) (it : FItem) (c : List UInt8)
    (hi : s.items.get h = some it) (hf : s.files.get it.path = some c) (hd : it.isDir = false)
    (hsz : it.size = c.length) (hmax : c.length ≤ 0xFFFFFFFF - 12) :
    (getObject s io (fun _ => true) h).response = some (.ok, c.length) := by
  have h4 : min (u64 (0 + MAX_CONTENT)) it.size = c.length := by
    have : u64 (0 + MAX_CONTENT) = 4294967283 := by decide
    omega
  unfold getObject getObjectCommon
  simp only [hi, hd, Bool.false_eq_true, if_false]
  rw [if_neg (by omega), if_neg (by omega), Nat.zero_min, h4]
  exact sendSegmented_succeeds s io hio h it c hi hf (by omega) 0 c.length (Nat.zero_le _) (Nat.le_refl _)

/-- C31 is violated for objects of 4 GiB - 12 bytes and more: only the first 0xFFFFFFF3 bytes are sent,
followed by OK. -/
theorem C31_large_violated (s : FStore) (io : Nat → FileIO) (snd : Nat → Bool) (h : Nat)
    (it : FItem) (c : List UInt8) (hi : s.items.get h = some it) (hf : s.files.get it.path = some c)
    (hsz : it.size = c.length) (hmax : c.length > 0xFFFFFFFF - 12) (hs : snd 0 = true) (n : Nat)
    (hr : (getObject s io snd h).response = some (.ok, n)) :
    ((getObject s io snd h).frames.map (·.payload)).flatten = c.take 0xFFFFFFF3 := by
  unfold getObject getObjectCommon at hr ⊢
  simp only [hi] at hr ⊢
  by_cases hd : it.isDir = true
  · simp [hd] at hr
  · have h4 : min (u64 (0 + MAX_CONTENT)) it.size = 4294967283 := by
      have : u64 (0 + MAX_CONTENT) = 4294967283 := by decide
      omega
    rw [if_neg hd, if_neg (by omega), if_neg (by omega), Nat.zero_min, h4] at hr ⊢
    obtain ⟨a, _, _⟩ := sendSegmented_spec s io snd h 0 4294967283 it c hi hf (Nat.zero_le _) n hr hs
    simpa using a.2.2

/-- C31 is violated when the first packet cannot be sent (the device is suspended): nothing is sent, and
yet the response is OK. -/
theorem C31_unsent_violated (s : FStore) (io : Nat → FileIO) (snd : Nat → Bool) (h off tail : Nat)
    (hs : snd 0 = false) (d : List UInt8)
    (hrd : s.readData (io 0) h (if tail - off < FRAME_MAX - 12 then tail - off else FRAME_MAX - 12) off =
      (.ok, d)) :
    sendSegmented s io snd h off tail = { frames := [], response := some (.ok, 0) } := by
  unfold sendSegmented
  simp only [hrd, hs]
  simp

example : getObject ⟨[("a", [1, 2, 3])], [(7, ⟨"a", false, 3⟩)], none, 0⟩ (fun _ => {}) (fun _ => true) 7 =
    { frames := [{ header := some 15, payload := [1, 2, 3], last := true }], response := some (.ok, 3) } := by
  decide +kernel

/-! ### C32 -/

private theorem common_exact (s : FStore) (io : Nat → FileIO) (snd : Nat → Bool) (h off size : Nat)
    (ho : off < 2 ^ 64) (hsz32 : size < 2 ^ 32)
    (it : FItem) (c : List UInt8) (hi : s.items.get h = some it) (hf : s.files.get it.path = some c)
    (hsz : it.size = c.length) (hs : snd 0 = true) (n : Nat)
    (hr : (getObjectCommon s io snd h off size).response = some (.ok, n)) :
    off ≤ c.length ∧
    Spec.DataPhase ((c.drop off).take size) (getObjectCommon s io snd h off size).frames ∧
    n = ((c.drop off).take size).length := by
  unfold getObjectCommon at hr ⊢
  simp only [hi] at hr ⊢
  by_cases hd : it.isDir = true
  · simp [hd] at hr
  by_cases h4 : off > it.size
  · simp [hd, h4] at hr
  by_cases h5 : u64 (off + size) < off
  · simp [hd, h4, h5] at hr
  have h3 : u64 (off + size) = off + size := by unfold u64 at h5 ⊢; omega
  rw [if_neg hd, if_neg h4, if_neg h5, h3, Nat.min_eq_left (by omega)] at hr ⊢
  obtain ⟨a, b, e⟩ := sendSegmented_spec s io snd h off _ it c hi hf (by omega) n hr hs
  have hcut : (c.drop off).take (min (off + size) it.size - off) = (c.drop off).take size := by
    rcases Nat.le_total (off + size) it.size with g | g
    · rw [Nat.min_eq_left g, Nat.add_sub_cancel_left]
    · rw [Nat.min_eq_right g, List.take_of_length_le (by rw [List.length_drop]; omega),
        List.take_of_length_le (by rw [List.length_drop]; omega)]
  rw [hcut] at a
  refine ⟨by omega, a, ?_⟩
  rw [b, List.length_take, List.length_drop]
  omega

/-- C32: a partial read (32-bit parameters) answered OK carried exactly the bytes from the offset up to
the requested or the object's end, and reports their number. -/
theorem C32_partial_exact (s : FStore) (io : Nat → FileIO) (snd : Nat → Bool) (h off size : Nat)
    (ho : off < 2 ^ 32) (hsz32 : size < 2 ^ 32)
    (it : FItem) (c : List UInt8) (hi : s.items.get h = some it) (hf : s.files.get it.path = some c)
    (hsz : it.size = c.length) (hs : snd 0 = true) (n : Nat)
    (hr : (getPartialObject s io snd h off size).response = some (.ok, n)) :
    off ≤ c.length ∧
    Spec.DataPhase ((c.drop off).take size) (getPartialObject s io snd h off size).frames ∧
    n = ((c.drop off).take size).length := by
  unfold getPartialObject at hr ⊢
  have h1 : u32 off = off := by unfold u32; omega
  have h2 : u32 size = size := by unfold u32; omega
  rw [h1, h2] at hr ⊢
  exact common_exact s io snd h off size (by omega) hsz32 it c hi hf hsz hs n hr

/-- C32: the same for the 64-bit offset, given as low and high 32-bit half. -/
theorem C32_partial64_exact (s : FStore) (io : Nat → FileIO) (snd : Nat → Bool) (h lo hi' size : Nat)
    (hlo : lo < 2 ^ 32) (hhi : hi' < 2 ^ 32) (hsz32 : size < 2 ^ 32)
    (it : FItem) (c : List UInt8) (hi : s.items.get h = some it) (hf : s.files.get it.path = some c)
    (hsz : it.size = c.length) (hs : snd 0 = true) (n : Nat)
    (hr : (getPartialObject64 s io snd h lo hi' size).response = some (.ok, n)) :
    hi' * 2 ^ 32 + lo ≤ c.length ∧
    Spec.DataPhase ((c.drop (hi' * 2 ^ 32 + lo)).take size) (getPartialObject64 s io snd h lo hi' size).frames ∧
    n = ((c.drop (hi' * 2 ^ 32 + lo)).take size).length := by
  unfold getPartialObject64 at hr ⊢
  have h1 : u32 lo = lo := by unfold u32; omega
  have h1' : u32 hi' = hi' := by unfold u32; omega
  have h2 : u32 size = size := by unfold u32; omega
  have hp : (2 : Nat) ^ 32 = 4294967296 := by decide
  rw [h1, h1', h2] at hr ⊢
  rw [hp]
  exact common_exact s io snd h _ size (by omega) hsz32 it c hi hf hsz hs n hr

/-- C32: a partial read of an intact object that begins inside it succeeds over a working transport if the system lets the file be
opened and its reads make progress. `off` is the offset: the 32-bit one, or that made of the two halves. -/
theorem C32_partial_succeeds (s : FStore) (io : Nat → FileIO)
    (hio : ∀ i, (io i).openOk = true ∧ ∀ r ∈ (io i).reads, ∃ k, r = some k ∧ 0 < k) (h : Nat) (it : FItem) (c : List UInt8)
    (hi : s.items.get h = some it) (hf : s.files.get it.path = some c) (hd : it.isDir = false)
    (hsz : it.size = c.length) (hmax : c.length < 2 ^ 63) (size : Nat) (hs : size < 2 ^ 32) :
    (∀ off, off < 2 ^ 32 → off ≤ c.length →
      (getPartialObject s io (fun _ => true) h off size).response = some (.ok, ((c.drop off).take size).length)) ∧
    ∀ lo hi', lo < 2 ^ 32 → hi' < 2 ^ 32 → hi' * 2 ^ 32 + lo ≤ c.length →
      (getPartialObject64 s io (fun _ => true) h lo hi' size).response =
        some (.ok, ((c.drop (hi' * 2 ^ 32 + lo)).take size).length) := by
  have key : ∀ off, off ≤ c.length →
      (getObjectCommon s io (fun _ => true) h off size).response = some (.ok, ((c.drop off).take size).length) := by
    intro off ho
    have h3 : u64 (off + size) = off + size := by unfold u64; omega
    unfold getObjectCommon
    simp only [hi, hd, Bool.false_eq_true, if_false]
    rw [h3, if_neg (by omega), if_neg (by omega), Nat.min_eq_left (by omega),
      sendSegmented_succeeds s io hio h it c hi hf hmax off _ (by omega) (by omega)]
    congr 2
    rw [List.length_take, List.length_drop]
    omega
  have h2 : u32 size = size := by unfold u32; omega
  refine ⟨fun off h1 ho => ?_, fun lo hi' h1 h1' ho => ?_⟩
  · unfold getPartialObject
    rw [h2, show u32 off = off by unfold u32; omega]
    exact key off ho
  · unfold getPartialObject64
    rw [h2, show u32 lo = lo by unfold u32; omega, show u32 hi' = hi' by unfold u32; omega]
    exact key _ ho

/-- C32: an offset beyond the object's end is refused and nothing is sent. -/
theorem C32_past_end_refused (s : FStore) (io : Nat → FileIO) (snd : Nat → Bool) (h off size : Nat)
    (it : FItem) (hi : s.items.get h = some it) (hd : it.isDir = false) (hp : off > it.size) :
    getObjectCommon s io snd h off size = { frames := [], response := some (.invalidParameter, 0) } := by
  unfold getObjectCommon
  simp [hi, hd, hp]

example : getPartialObject ⟨[("a", [1, 2, 3, 4])], [(7, ⟨"a", false, 4⟩)], none, 0⟩ (fun _ => {})
    (fun _ => true) 7 1 2 =
    { frames := [{ header := some 14, payload := [2, 3], last := true }], response := some (.ok, 2) } := by
  decide +kernel

end Props
