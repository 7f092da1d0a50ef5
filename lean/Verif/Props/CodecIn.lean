import Verif.Model.Transfer
import Verif.Lemmas.Decode
import Verif.Lemmas.Params
/-! Property theorems C08–C11: incoming containers, command parameters, property descriptions. -/
namespace Props
open Mtp

/-- `c` is a received container whose length field is its length. -/
def Framed (c : List UInt8) : Prop := 4 ≤ c.length ∧ leVal (c.take 4) = c.length

theorem framed_collect {c p : List UInt8} {ps : List (List UInt8)} (hf : Framed c)
    (hc : (p :: ps).flatten = c) (hp : 4 ≤ p.length) :
    ∃ r, collect p ps = .ok r ∧ r.mem = c.map some ∧ r.off = 12 ∧ r.cap = c.length ∧
      c.length < 4294967296 := by
  obtain ⟨r, e, hm, ho, hcap, _⟩ := Rx.assemble hc hp hf.2
  have hl : c.length < 4294967296 := by
    have := leVal_lt (c.take 4)
    rw [hf.2, List.length_take, Nat.min_eq_left hf.1] at this
    simpa using this
  exact ⟨r, e, hm, ho, hcap, hl⟩

/-- C09: a container cut into packets in any way (first packet with at least the length field) is
reassembled to exactly its bytes, without storing outside the buffer. -/
theorem C09_reassembly_exact (c p : List UInt8) (ps : List (List UInt8)) (hf : Framed c)
    (hc : (p :: ps).flatten = c) (hp : 4 ≤ p.length) :
    ∃ r, collect p ps = .ok r ∧ r.mem = c.map some := by
  obtain ⟨r, e, hm, _⟩ := framed_collect hf hc hp
  exact ⟨r, e, hm⟩

example : Framed [16, 0, 0, 0, 1, 0, 2, 16, 7, 0, 0, 0, 1, 0, 0, 0] ∧
    ([16, 0, 0, 0, 1] :: [[0, 2, 16], [], [7, 0, 0, 0, 1, 0, 0, 0]] : List (List UInt8)).flatten =
      [16, 0, 0, 0, 1, 0, 2, 16, 7, 0, 0, 0, 1, 0, 0, 0] := by
  unfold Framed; decide

/-- C09, arbitrary traffic: if the first packet does not exceed the announced length `L`, then for
every sequence of further packets nothing is stored outside the buffer, whose size stays `L`, and the
buffer starts with exactly the packets that fitted, in order. Restriction: `L` plus a packet length
stays below 4 GiB. -/
theorem C09_no_overrun_partial (p : List UInt8) (ps : List (List UInt8)) (hp : 4 ≤ p.length)
    (hfit : p.length ≤ leVal (p.take 4)) (hlt : ∀ q ∈ ps, leVal (p.take 4) + q.length < 2 ^ 32) :
    ∃ r, collect p ps = .ok r ∧ r.mem.length = leVal (p.take 4) ∧
      let kept := Spec.keepFitting (leVal (p.take 4)) p ps
      r.mem.take kept.length = kept.map some := by
  have hl : leVal (p.take 4) < 4294967296 := by
    have := leVal_lt (p.take 4)
    rw [List.length_take, Nat.min_eq_left hp] at this
    simpa using this
  obtain ⟨m, e, hm1, hm2⟩ := store_extend (m := Mem.alloc (leVal (p.take 4))) (all := []) (src := p)
    (by simp) (by simpa [Mem.alloc] using hfit)
  simp only [List.length_nil, Nat.zero_add, List.nil_append] at e hm2
  have hnew : Rx.new p = .ok (Rx.mk m HDR (leVal (p.take 4)) (leVal (p.take 4)) p.length
      (leVal (p.take 4) == 0xFFFFFFFF)) := by
    unfold Rx.new
    rw [if_neg (by omega)]
    simp only [e, Res.bind_ok, Res.pure_eq]
    rw [u32_of_lt (by omega)]
  obtain ⟨r', e', a, b, c⟩ := appends_keep (Rx.mk m HDR (leVal (p.take 4)) (leVal (p.take 4)) p.length
      (leVal (p.take 4) == 0xFFFFFFFF)) p ps
      (by simp [hm1, Mem.alloc]) rfl hm2 hfit hlt
  refine ⟨r', ?_, a, c⟩
  unfold collect
  rw [hnew]
  exact e'

example : Spec.keepFitting 20 [20, 0, 0, 0, 9] [[1, 2, 3], List.replicate 30 7, [4, 5]] =
    [20, 0, 0, 0, 9, 1, 2, 3, 4, 5] := by decide

/-- C09 is violated for a first packet longer than its length field: the copy overruns the buffer. -/
theorem C09_first_packet_overrun_violated :
    collect [8, 0, 0, 0, 1, 0, 2, 16, 7, 0, 0, 0] [] = .ub .oobWrite := by decide

/-- C08 (well-formed containers): if the container holds the complete dataset, decoding it in
whatever packetization it arrived reads only inside the container. Missing for the full claim:
malformed datasets, see `C08_incomplete_reads_outside`. -/
theorem C08_complete_is_safe_partial (c p : List UInt8) (ps : List (List UInt8)) (ts : List Ty)
    (hf : Framed c) (hc : (p :: ps).flatten = c) (hp : 4 ≤ p.length)
    (ht : ∀ t ∈ ts, Spec.TyOk t) (hd : Spec.complete ts (c.drop 12) = true) :
    ∃ r vs r', collect p ps = .ok r ∧ r.gets ts = .ok (vs, r') := by
  obtain ⟨r, e, hm, ho, _, hl⟩ := framed_collect hf hc hp
  obtain ⟨vs, r', h⟩ := gets_complete r c hm hl ts ht (by rw [ho]; exact hd)
  exact ⟨r, vs, r', e, h⟩

example : Framed [18, 0, 0, 0, 2, 0, 2, 16, 7, 0, 0, 0, 5, 2, 65, 0, 0, 0] ∧
    Spec.complete [.int 1, .str] ([18, 0, 0, 0, 2, 0, 2, 16, 7, 0, 0, 0, 5, 2, 65, 0, 0, 0].drop 12)
      = true := by unfold Framed; decide

/-- C08 is violated by every truncated dataset: decoding reads outside the container (integers,
strings, 8- and 128-bit arrays). -/
theorem C08_incomplete_reads_outside_violated (c p : List UInt8) (ps : List (List UInt8))
    (ts : List Ty) (hf : Framed c) (hc : (p :: ps).flatten = c) (hp : 4 ≤ p.length)
    (ht : ∀ t ∈ ts, Spec.TyOk t) (hna : ∀ w, Ty.arr w ∈ ts → w = 1 ∨ w = 16)
    (hd : Spec.complete ts (c.drop 12) = false) :
    ∃ r, collect p ps = .ok r ∧ r.gets ts = .ub .oobRead := by
  obtain ⟨r, e, hm, ho, _, hl⟩ := framed_collect hf hc hp
  exact ⟨r, e, gets_incomplete r c hm hl ts ht hna (by rw [ho]; exact hd)⟩

/-- Concrete case: a string announcing 200 units in a container with two bytes of payload. -/
example : Framed [14, 0, 0, 0, 2, 0, 2, 16, 7, 0, 0, 0, 200, 65] ∧
    Spec.complete [.str] ([14, 0, 0, 0, 2, 0, 2, 16, 7, 0, 0, 0, 200, 65].drop 12) = false := by
  unfold Framed; decide

/-- A command container as the standard lays it out. -/
def command (code tid : Nat) (ps : List Nat) (junk : List UInt8) : List UInt8 :=
  Spec.header (12 + 4 * ps.length + junk.length) 1 code tid ++ ps.flatMap (Spec.intBytes 4) ++ junk

theorem command_length (code tid : Nat) (ps : List Nat) (junk : List UInt8) :
    (command code tid ps junk).length = 12 + 4 * ps.length + junk.length := by
  simp only [command, List.length_append, header_length, flatMap_intBytes_length]

theorem command_framed (code tid : Nat) (ps : List Nat) (junk : List UInt8)
    (hk : 12 + 4 * ps.length + junk.length < 2 ^ 32) : Framed (command code tid ps junk) := by
  refine ⟨by rw [command_length]; omega, ?_⟩
  rw [command_length]
  simp only [command, Spec.header, List.append_assoc]
  rw [List.take_append_of_le_length (by simp [intBytes_length]),
    List.take_of_length_le (by simp [intBytes_length]), leVal_intBytes _ _ (by omega)]

theorem command_params (code tid : Nat) (ps : List Nat) (junk : List UInt8)
    (hv : ∀ v ∈ ps, v < 2 ^ 32) (hj : junk.length < 4)
    (hk : 12 + 4 * ps.length + junk.length < 2 ^ 32) (p : List UInt8) (pk : List (List UInt8))
    (hc : (p :: pk).flatten = command code tid ps junk) (hp : 4 ≤ p.length) :
    ∃ r, collect p pk = .ok r ∧ r.params = if ps.length ≤ 5 then
      .ok (ps ++ List.replicate (5 - ps.length) 0) else .ub .oobWrite := by
  obtain ⟨r, e, hm, _, hcap, _⟩ := framed_collect (command_framed code tid ps junk hk) hc hp
  refine ⟨r, e, ?_⟩
  have hty : r.containerType = .ok 1 := by
    unfold Rx.containerType
    rw [hm, load_full, if_pos (Or.inr (by rw [command_length]; omega))]
    simp only [Res.bind_ok, Res.pure_eq, command, Spec.header, List.append_assoc]
    rw [List.drop_append_of_le_length (by simp [intBytes_length]),
      List.drop_of_length_le (by simp [intBytes_length]), List.nil_append,
      List.take_append_of_le_length (by simp [intBytes_length]),
      List.take_of_length_le (by simp [intBytes_length]), leVal_intBytes _ _ (by decide)]
  rw [params_of_command r ps.length hty (params_count r ps.length junk.length hj hk
    (by rw [hcap, command_length]))]
  exact paramLoop_spec r.mem (Spec.header (12 + 4 * ps.length + junk.length) 1 code tid)
    (header_length _ _ _ _) ps junk hv (by rw [hm]; rfl) ps.length 0 (List.replicate 5 0)
    (by omega) (by simp) (by simp) (by omega)

/-- C10: a command carrying up to five parameters (and fewer than four stray bytes), arriving in
any packets, is seen with exactly these values followed by zeros. -/
theorem C10_params_exact (code tid : Nat) (ps : List Nat) (junk : List UInt8)
    (hv : ∀ v ∈ ps, v < 2 ^ 32) (h5 : ps.length ≤ 5) (hj : junk.length < 4)
    (p : List UInt8) (pk : List (List UInt8))
    (hc : (p :: pk).flatten = command code tid ps junk) (hp : 4 ≤ p.length) :
    ∃ r vals, collect p pk = .ok r ∧ r.params = .ok vals ∧ vals.length = 5 ∧
      ∀ i, i < 5 → vals[i]? = some (ps[i]?.getD 0) := by
  obtain ⟨r, e, h⟩ := command_params code tid ps junk hv hj (by omega) p pk hc hp
  rw [if_pos h5] at h
  refine ⟨r, _, e, h, by simp; omega, ?_⟩
  intro i hi
  by_cases hlt : i < ps.length
  · rw [List.getElem?_append_left hlt, List.getElem?_eq_getElem hlt]; rfl
  · rw [List.getElem?_append_right (by omega), List.getElem?_replicate, if_pos (by omega),
      List.getElem?_eq_none (by omega)]; rfl

example : (command 0x1007 3 [0xFFFFFFFF, 0, 0x10001] []).length = 24 := by
  rw [command_length]; rfl

/-- C10 is violated by every command with more than five parameters: they are stored outside the
five slots. -/
theorem C10_too_many_params_violated (code tid : Nat) (ps : List Nat)
    (hv : ∀ v ∈ ps, v < 2 ^ 32) (h5 : 5 < ps.length) (hk : 12 + 4 * ps.length < 2 ^ 32) :
    ∃ r, collect (command code tid ps []) [] = .ok r ∧ r.params = .ub .oobWrite := by
  obtain ⟨r, e, h⟩ := command_params code tid ps [] hv (by simp) (by simpa using hk)
    (command code tid ps []) [] (by simp) (by rw [command_length]; omega)
  rw [if_neg (by omega)] at h
  exact ⟨r, e, h⟩

example : ∃ ps : List Nat, (∀ v ∈ ps, v < 2 ^ 32) ∧ 5 < ps.length ∧ 12 + 4 * ps.length < 2 ^ 32 :=
  ⟨[1, 2, 3, 4, 5, 6], by decide, by decide, by decide⟩

/-- C11: a device property description is decoded by a host following the standard layout to the
same values (strings cut as in C03), with nothing left over. -/
theorem C11_device_description (type code tid est : Nat) (d : DevPropDesc) (h : Spec.DevTyped d)
    (hs : 12 + (Spec.encs (devVals d)).length ≤ 2 ^ 31 - 256) (he : est ≤ 2 ^ 31) :
    ∃ t bytes t', Tx.new type code tid est = .ok t ∧
      (t.putDevPropDesc d >>= Tx.buffer) = .ok (bytes, t') ∧
      Spec.takeDevPropDesc (bytes.drop 12) =
        some ({ d with defVal := Spec.shown d.defVal, curVal := Spec.shown d.curVal,
                       form := Spec.shownForm d.form }, []) := by
  obtain ⟨t, e1, h1, c1, x1⟩ := Tx.new_holds type code tid est (by omega)
  obtain ⟨t2, e2, h2, f2⟩ := Tx.puts_holds h1 (devVals_fits d h) (by rw [header_length]; omega)
  obtain ⟨t3, e3⟩ := Tx.buffer_holds h2 (by rw [f2.1, c1])
  have e4 : (t.putDevPropDesc d >>= Tx.buffer) = t2.buffer := by
    rw [putDev_eq _ _ h, e2, Res.bind_ok]
  rw [e3] at e4
  refine ⟨t, _, t3, e1, e4, ?_⟩
  rw [List.drop_append_of_le_length (by rw [header_length]; omega),
    List.drop_of_length_le (by rw [header_length]; omega), List.nil_append]
  have := takeDev_at d h []
  rwa [List.append_nil] at this

/-- C11, object property descriptions. -/
theorem C11_object_description (type code tid est : Nat) (d : ObjPropDesc) (h : Spec.ObjTyped d)
    (hs : 12 + (Spec.encs (objVals d)).length ≤ 2 ^ 31 - 256) (he : est ≤ 2 ^ 31) :
    ∃ t bytes t', Tx.new type code tid est = .ok t ∧
      (t.putObjPropDesc d >>= Tx.buffer) = .ok (bytes, t') ∧
      Spec.takeObjPropDesc (bytes.drop 12) =
        some ({ d with defVal := Spec.shown d.defVal, form := Spec.shownForm d.form }, []) := by
  obtain ⟨t, e1, h1, c1, x1⟩ := Tx.new_holds type code tid est (by omega)
  obtain ⟨t2, e2, h2, f2⟩ := Tx.puts_holds h1 (objVals_fits d h) (by rw [header_length]; omega)
  obtain ⟨t3, e3⟩ := Tx.buffer_holds h2 (by rw [f2.1, c1])
  have e4 : (t.putObjPropDesc d >>= Tx.buffer) = t2.buffer := by
    rw [putObj_eq _ _ h, e2, Res.bind_ok]
  rw [e3] at e4
  refine ⟨t, _, t3, e1, e4, ?_⟩
  rw [List.drop_append_of_le_length (by rw [header_length]; omega),
    List.drop_of_length_le (by rw [header_length]; omega), List.nil_append]
  have := takeObj_at d h []
  rwa [List.append_nil] at this

/-- An enumeration of 16-bit values and a string property meet the hypotheses. -/
example :
    Spec.ObjTyped (ObjPropDesc.mk 0xDC02 4 false (.int 2 0x3000) 0 2
      (.enum 2 [.int 2 0x3801, .int 2 0x3009])) ∧
    Spec.DevTyped (DevPropDesc.mk 0xD402 0xFFFF true (.str []) (.str [77]) 0 .none) := by
  constructor
  · refine ⟨by decide, by decide, ⟨by simp [Spec.Fits], by decide +kernel⟩, by decide, rfl, rfl,
      by decide, ?_⟩
    intro v hv
    simp only [List.mem_cons, List.not_mem_nil, or_false] at hv
    rcases hv with rfl | rfl <;> exact ⟨by simp [Spec.Fits], by decide +kernel⟩
  · exact ⟨by decide, by decide, ⟨trivial, by decide +kernel⟩, ⟨trivial, by decide +kernel⟩,
      Or.inl rfl⟩

end Props
