import Verif.Lemmas.ServerParts
import Verif.Lemmas.ServerPlace
import Verif.Lemmas.ServerEdit
import Verif.Props.Survive
import Verif.Props.Edit
/-! Property theorems C89–C92: a host reading parts of files, counting, moving, renaming and editing. -/
namespace Props
open Mtp Spec
open Mtp.Server (New Edited Undisturbed Quiet)

private theorem holds_size {s : Server} {h : Nat} {c : List UInt8} (hc : Holds s h c) : s.sizeOf h = c.length := by
  obtain ⟨o, e, hs⟩ := hc.told
  rw [Server.size_info e, hs]

/-! ### C89 -/

/-- C89. GetPartialObject from any position within a file, for any number of bytes: answered OK with exactly the bytes there are from
there on, at most as many as asked for, and the response says how many. GetPartialObject64 likewise (it does not say how many). -/
theorem C89_parts (r : Rsp Server) (ho : Open r) (hw : Willing r.dev) (q : List UInt8) (c : List UInt8)
    (hc : Holds r.dev (cParam q 0) c) (hm : c.length < 2 ^ 63) :
    (Asking q 0x101B → cParam q 1 ≤ c.length →
      ∃ r', Answered r r' (ask q) q .ok [((c.drop (cParam q 1)).take (cParam q 2)).length] ∧
        dataOf r'.out = dataOf r.out ++ (c.drop (cParam q 1)).take (cParam q 2)) ∧
    (Asking q 0x95C1 → cParam q 2 * 2 ^ 32 + cParam q 1 ≤ c.length →
      ∃ r', Answered r r' (ask q) q .ok [] ∧
        dataOf r'.out = dataOf r.out ++ (c.drop (cParam q 2 * 2 ^ 32 + cParam q 1)).take (cParam q 3)) := by
  refine ⟨fun hq hoff => ?_, fun hq hoff => ?_⟩
  · obtain ⟨r', a, b, _⟩ := Server.get_partial r ho hw q hq c hc.contents (holds_size hc) hm hoff
    exact ⟨r', a, b⟩
  · obtain ⟨r', a, b, _⟩ := Server.get_partial64 r ho hw q hq c hc.contents (holds_size hc) hm hoff
    exact ⟨r', a, b⟩

/-- C89. Asking for bytes from beyond the end is answered InvalidParameter, asking for bytes of an unknown object
InvalidObjectHandle, without data. -/
theorem C89_parts_refused (r : Rsp Server) (ho : Open r) (q : List UInt8) :
    (∀ c, Holds r.dev (cParam q 0) c →
      (Asking q 0x101B → c.length < cParam q 1 → ∃ r', Answered r r' (ask q) q .invalidParameter [0] ∧ dataOf r'.out = dataOf r.out) ∧
      (Asking q 0x95C1 → c.length < cParam q 2 * 2 ^ 32 + cParam q 1 →
        ∃ r', Answered r r' (ask q) q .invalidParameter [] ∧ dataOf r'.out = dataOf r.out)) ∧
    (r.dev.tree.has (cParam q 0) = false →
      (Asking q 0x101B → ∃ r', Answered r r' (ask q) q .invalidObjectHandle [0] ∧ dataOf r'.out = dataOf r.out) ∧
      (Asking q 0x95C1 → ∃ r', Answered r r' (ask q) q .invalidObjectHandle [] ∧ dataOf r'.out = dataOf r.out)) :=
  ⟨fun c hc => Server.get_partial_beyond r ho q c hc.contents (holds_size hc), fun h => Server.get_partial_gone r ho q h⟩

/-- C89 with C82: every part of what was uploaded can be downloaded. -/
theorem C89_upload_parts (r : Rsp Server) (ho : Open r) (w : ServerOk r.dev) (hw : Willing r.dev) (o : ObjInfo)
    (data q1 : List UInt8) (bs : List (List UInt8)) (q2 : List UInt8) (ds : List (List UInt8))
    (hu : Uploading r.dev o data q1 bs q2 ds) :
    ∃ r1 h r2, Answered r r1 (sendObject q1 bs) q1 .ok [r.dev.sid, folderOf q1, h] ∧
      Answered r1 r2 (sendObject q2 ds) q2 .ok [] ∧
      ∀ q3, Asking q3 0x101B → cParam q3 0 = h → cParam q3 1 ≤ data.length →
        ∃ r3, Answered r2 r3 (ask q3) q3 .ok [((data.drop (cParam q3 1)).take (cParam q3 2)).length] ∧
          dataOf r3.out = dataOf r2.out ++ (data.drop (cParam q3 1)).take (cParam q3 2) := by
  obtain ⟨r1, h, r2, a1, _, a2, hw2, _, hc2, _, ⟨_, _, hi2⟩, _⟩ := uploaded r ho w hw o data q1 bs q2 ds hu
  refine ⟨r1, h, r2, a1, a2, fun q3 hq3 hp3 hoff => ?_⟩
  have h1 := hu.size
  have h2 := hu.small
  refine (C89_parts r2 a2.again hw2 q3 data ⟨by rw [hp3]; exact hc2, ⟨_, by rw [hp3]; exact hi2, ?_⟩⟩ (by omega)).1 hq3 hoff
  show o.size % 2 ^ 32 = _
  omega

/-! ### C90 -/

/-- C90. Counting agrees with listing: GetNumObjects for a storage, a format and a folder is answered OK with the number of the
objects that meet the request, which is the number of handles GetObjectHandles with the same parameters lists. -/
theorem C90_count (r : Rsp Server) (ho : Open r) (w : ServerOk r.dev) (q : List UInt8) (hq : Asking q 0x1006)
    (hs : cParam q 0 = r.dev.sid) (hs1 : r.dev.sid ≠ ALL) (hfm : cParam q 1 = 0 ∨ cParam q 1 ∈ r.dev.fmts)
    (hf16 : cParam q 1 < 65536) (hun : cParam q 2 = 0 ∨ cParam q 1 ≠ UNDEF)
    (ha : cParam q 2 = 0 ∨ cParam q 2 = ALL ∨ ∃ it, r.dev.tree.get (cParam q 2) = some it ∧ it.fmt = ASSOC) :
    ∃ (r' : Rsp Server) (l : List Nat), Answered r r' (ask q) q .ok [l.length] ∧ dataOf r'.out = dataOf r.out ∧
      l.Pairwise (· < ·) ∧ ∀ x, x ∈ l ↔ Asked r.dev.tree (cParam q 1) (cParam q 2) x := by
  obtain ⟨r', l, a, b, _, c⟩ := Server.get_count r ho w q hq hs hs1 hfm hf16 hun ha
  exact ⟨r', l, a, b, c⟩

private theorem sorted_ext : ∀ (l m : List Nat), l.Pairwise (· < ·) → m.Pairwise (· < ·) → (∀ x, x ∈ l ↔ x ∈ m) →
    l.length = m.length := by
  intro l m h1 h2 h
  have n1 : l.Nodup := h1.imp fun h => Nat.ne_of_lt h
  have n2 : m.Nodup := h2.imp fun h => Nat.ne_of_lt h
  exact Nat.le_antisymm (n1.length_le_of_subset fun x hx => (h x).mp hx) (n2.length_le_of_subset fun x hx => (h x).mpr hx)

/-- C90. GetObjectHandles and then GetNumObjects, with the same parameters (any format): the number is the length of the list. -/
theorem C90_count_is_length (r : Rsp Server) (ho : Open r) (w : ServerOk r.dev) (q1 q2 : List UInt8) (hq1 : Asking q1 0x1007)
    (hq2 : Asking q2 0x1006) (hsame : ∀ i, cParam q2 i = cParam q1 i) (hs : cParam q1 0 = r.dev.sid) (hs1 : r.dev.sid ≠ ALL)
    (hfm : cParam q1 1 = 0) (hb : r.dev.tree.asked < 2 ^ 26)
    (ha : cParam q1 2 = 0 ∨ cParam q1 2 = ALL ∨ ∃ it, r.dev.tree.get (cParam q1 2) = some it ∧ it.fmt = ASSOC) :
    ∃ r1 p l r2, Answered r r1 (ask q1) q1 .ok [] ∧ dataOf r1.out = dataOf r.out ++ p ∧
      readHandles 0x1007 0 (dataContainer 0x1007 0 p) = some l ∧ Answered r1 r2 (ask q2) q2 .ok [l.length] := by
  obtain ⟨r1, p, l, a1, a2, a3, a4, a5, a6⟩ := Server.get_handles r ho w q1 hq1 hs hs1 hb hfm ha
  obtain ⟨r2, l2, b1, _, _, b4, b5⟩ := Server.get_count r1 a1.again (by rw [a3]; exact w) q2 hq2 (by rw [hsame, a3]; exact hs)
    (by rw [a3]; exact hs1) (by rw [hsame]; exact Or.inl hfm) (by rw [hsame, hfm]; decide)
    (by rw [hsame, hsame, hfm]; exact Or.inr (by decide)) (by rw [hsame, a3]; exact ha)
  rw [a3, hsame, hsame, hfm] at b5
  have := sorted_ext l l2 a5 b4 fun x => (a6 x).trans (b5 x).symm
  exact ⟨r1, p, l, r2, a1, a2, a4, by rw [this]; exact b1⟩

/-! ### C91 -/

private theorem quiet_unchanged {s s' : Server} (w : ServerOk s) (h : Quiet s s') : Unchanged s s' :=
  ⟨h.sid, h.ok w, h.has, h.contents, h.infoOf⟩

private theorem move_possible {s : Server} (w : ServerOk s) {h sid p : Nat} (hok : (s.move h sid p).2 = .ok) :
    sid = s.sid ∧ Movable s h p := by
  rcases Server.move_cases' w h sid p with ⟨_, h2⟩ | ⟨_, hs, it, pit, e1, e2, _⟩
  · exact absurd hok h2
  refine ⟨hs, ?_⟩
  unfold Server.move at hok
  rw [e1] at hok
  simp only at hok
  rw [if_neg (by simp [hs]), e2] at hok
  simp only at hok
  generalize hb : (decide (pit.fmt = ASSOC) && (AMap.get s.tree.paths (join pit.path it.name)).isNone &&
    !(it.path ++ ['/']).isPrefixOf (join pit.path it.name)) = b at hok
  rcases move_cases (t := Server.grant s.tree b) h p true with ⟨_, _, _, _, _, h6⟩ | ⟨it1, pit1, f1, f2, hf, _⟩
  · split at hok
    · next t et => rw [et] at h6; exact absurd rfl h6
    · next t r hne et => rw [et] at h6; exact absurd hok h6
  · have hg := hf rfl
    simp only [Server.grant, Bool.and_eq_true] at hg
    rw [hg.2] at hb
    simp only [Bool.and_eq_true, decide_eq_true_eq, Option.isNone_iff_eq_none, Bool.not_eq_true'] at hb
    obtain ⟨⟨hfolder, hfree⟩, hno⟩ := hb
    refine ⟨⟨it, pit, e1, e2, hfolder, hfree⟩, fun hbe => ?_, hg.1⟩
    have hu := (w.wf.below_iff e1 e2).mp hbe
    have : (it.path ++ ['/']).isPrefixOf (join pit.path it.name) = true := by
      rw [List.isPrefixOf_iff_prefix]
      rcases hu with hu | ⟨u, hu⟩
      · rw [hu]; exact ⟨it.name, by simp [join]⟩
      · exact ⟨u ++ '/' :: it.name, by rw [hu]; simp [join]⟩
    rw [this] at hno
    cases hno

/-- C91. MoveObject: answered OK if and only if it is possible, that is, object and folder exist, the folder is on this storage,
is not in the object, has no entry of the object's name, and the file system agrees. Then the object is in the folder; its name,
what is told about it and about all others, and what every object holds, is as before. Otherwise nothing is different. -/
theorem C91_move (r : Rsp Server) (ho : Open r) (w : ServerOk r.dev) (q : List UInt8) (hq : Asking q 0x1019) :
    ∃ r' c, Answered r r' (ask q) q c [] ∧ dataOf r'.out = dataOf r.out ∧
      (c = .ok ↔ cParam q 1 = r.dev.sid ∧ Movable r.dev (cParam q 0) (cParam q 2)) ∧
      (c = .ok → Placed r.dev r'.dev (cParam q 0) (cParam q 2) (r.dev.infoOf (cParam q 0)).2.fileName) ∧
      (c ≠ .ok → Unchanged r.dev r'.dev) := by
  by_cases hc : (r.dev.move (cParam q 0) (cParam q 1) (cParam q 2)).2 = .ok
  · obtain ⟨hs, hm⟩ := move_possible w hc
    obtain ⟨r', a, b, c⟩ := Server.move_answer r ho w q hq hs hm
    exact ⟨r', .ok, a, b, ⟨fun _ => ⟨hs, hm⟩, fun _ => rfl⟩, fun _ => c, fun h => absurd rfl h⟩
  · obtain ⟨r', a, b, c⟩ := Server.move_refused r ho w q hq _ rfl hc
    refine ⟨r', _, a, b, ⟨fun h => absurd h hc, fun ⟨h1, h2⟩ => ?_⟩, fun h => absurd h hc, fun _ => quiet_unchanged w c⟩
    rw [h1]
    exact Server.move_done w h2

private theorem move_answers (t : Tree) {h p : Nat} {it pit : Item} (e1 : t.get h = some it) (e2 : t.get p = some pit) :
    (t.move h p true).2 = .ok ∨ (t.move h p true).2 = .invalidParentObject := by
  unfold Tree.move
  rw [e1, e2]
  simp only
  by_cases h1 : it.fmt = ASSOC ∧ (AMap.get t.paths (join pit.path it.name)).isSome
  · rw [if_pos h1]; exact Or.inr rfl
  · rw [if_neg h1]
    simp only [if_true]
    generalize t.ask = x
    obtain ⟨g, t'⟩ := x
    cases g
    · exact Or.inr rfl
    · exact Or.inl rfl

/-- C91. Why a move is refused: an unknown object, another storage, an unknown folder. -/
theorem C91_move_reasons (r : Rsp Server) (ho : Open r) (w : ServerOk r.dev) (q : List UInt8) (hq : Asking q 0x1019) :
    (r.dev.tree.has (cParam q 0) = false → ∃ r', Answered r r' (ask q) q .invalidObjectHandle []) ∧
    (r.dev.tree.has (cParam q 0) = true → cParam q 1 ≠ r.dev.sid → ∃ r', Answered r r' (ask q) q .invalidStorageID []) ∧
    (r.dev.tree.has (cParam q 0) = true → cParam q 1 = r.dev.sid → ¬ Movable r.dev (cParam q 0) (cParam q 2) →
      ∃ r', Answered r r' (ask q) q .invalidParentObject []) := by
  refine ⟨fun h => ?_, fun h hs => ?_, fun h hs hm => ?_⟩
  · obtain ⟨r', a, _⟩ := Server.move_refused r ho w q hq .invalidObjectHandle (by unfold Server.move; rw [has_false.mp h]) (by simp)
    exact ⟨r', a⟩
  · obtain ⟨it, e⟩ := has_iff.mp h
    obtain ⟨r', a, _⟩ := Server.move_refused r ho w q hq .invalidStorageID
      (by unfold Server.move; rw [e]; simp only; rw [if_pos hs]) (by simp)
    exact ⟨r', a⟩
  · obtain ⟨it, e⟩ := has_iff.mp h
    have hne : (r.dev.move (cParam q 0) (cParam q 1) (cParam q 2)).2 ≠ .ok := fun hc => hm (move_possible w hc).2
    obtain ⟨r', a, _⟩ := Server.move_refused r ho w q hq .invalidParentObject (by
      unfold Server.move at hne ⊢
      rw [e] at hne ⊢
      simp only at hne ⊢
      rw [if_neg (by simp [hs])] at hne ⊢
      cases ep : r.dev.tree.get (cParam q 2) with
      | none => rfl
      | some pit =>
        rw [ep] at hne
        simp only at hne ⊢
        have hgg : ∀ b x, (Server.grant r.dev.tree b).get x = r.dev.tree.get x := fun _ _ => rfl
        generalize hgd : (Server.grant r.dev.tree (decide (pit.fmt = ASSOC) && (AMap.get r.dev.tree.paths (join pit.path it.name)).isNone &&
          !(it.path ++ ['/']).isPrefixOf (join pit.path it.name))) = g at *
        replace hgg : ∀ x, g.get x = r.dev.tree.get x := fun x => by rw [← hgd]; rfl
        have hg := move_answers g (h := cParam q 0) (p := cParam q 2) (by rw [hgg]; exact e) (by rw [hgg]; exact ep)
        generalize g.move (cParam q 0) (cParam q 2) true = m at *
        obtain ⟨t, c⟩ := m
        rcases hg with hg | hg
        · simp only at hg; subst hg; exact absurd rfl hne
        · simp only at hg; subst hg; rfl) (by simp)
    exact ⟨r', a⟩

/-- C91. After a move the object is listed in its new folder and in no other one. -/
theorem C91_listed_where_moved (r : Rsp Server) (ho : Open r) (w : ServerOk r.dev) (q : List UInt8) (hq : Asking q 0x1019)
    (hs : cParam q 1 = r.dev.sid) (m : Movable r.dev (cParam q 0) (cParam q 2)) :
    ∃ r', Answered r r' (ask q) q .ok [] ∧
      ∀ q3, Asking q3 0x1007 → cParam q3 0 = r.dev.sid → r.dev.sid ≠ ALL → cParam q3 1 = 0 → r'.dev.tree.asked < 2 ^ 26 →
        cParam q3 2 ≠ 0 → (cParam q3 2 = ALL ∨ ∃ it, r'.dev.tree.get (cParam q3 2) = some it ∧ it.fmt = ASSOC) →
        ∃ r3 p l, Answered r' r3 (ask q3) q3 .ok [] ∧ dataOf r3.out = dataOf r'.out ++ p ∧
          readHandles 0x1007 0 (dataContainer 0x1007 0 p) = some l ∧
          (cParam q 0 ∈ l ↔ cParam q3 2 = if cParam q 2 = 0 then ALL else cParam q 2) := by
  obtain ⟨r', a, _, c⟩ := Server.move_answer r ho w q hq hs m
  refine ⟨r', a, ?_⟩
  intro q3 hq3 hs3 hall hf3 hb3 h03 ha3
  obtain ⟨r3, p, l, b1, b2, _, b4, _, b6⟩ := Server.get_handles r' a.again c.ok q3 hq3 (hs3.trans c.sid.symm)
    (by rw [c.sid]; exact hall) hb3 hf3 (Or.inr ha3)
  refine ⟨r3, p, l, b1, b2, b4, (b6 _).trans ?_⟩
  obtain ⟨it, pit, e1, e2, _⟩ := m.free
  have hx := c.same (cParam q 0)
  rw [has_iff.mpr ⟨it, e1⟩] at hx
  obtain ⟨it', e'⟩ := has_iff.mp hx
  have hpar := c.folder it' e'
  have h0 : cParam q 0 ≠ 0 := by
    intro h
    exact m.apart (by rw [h]; exact w.wf.below_root e2)
  have hpA : cParam q 2 ≠ ALL := by
    intro h
    have hy := c.same (cParam q 2)
    rw [has_iff.mpr ⟨pit, e2⟩] at hy
    obtain ⟨pit', e3⟩ := has_iff.mp hy
    have := c.ok.issued _ _ e3
    rw [h] at this
    unfold ALL at this
    omega
  constructor
  · rintro ⟨i, g, _, _, hh⟩
    rw [e'] at g; cases g
    rw [hpar] at hh
    rcases hh with hh | ⟨h1, h2⟩ | ⟨h1, h2, h3⟩
    · exact absurd hh h03
    · simp only [Option.some.injEq] at h2
      rw [if_pos h2, h1]
    · simp only [Option.some.injEq] at h3
      rw [if_neg (by rw [h3]; exact h1), h3]
  · intro h
    refine ⟨it', e', h0, Or.inl rfl, ?_⟩
    rw [hpar]
    split at h
    · next hp => exact Or.inr (Or.inl ⟨h, by rw [hp]⟩)
    · next hp => rw [h]; exact Or.inr (Or.inr ⟨hp, hpA, rfl⟩)

/-- C91. SetObjectPropValue of the file name, where the name is possible: answered OK; the object has the new name; its folder, what
is told about it and all others otherwise, and what every object holds, is as before. -/
theorem C91_rename (r : Rsp Server) (ho : Open r) (w : ServerOk r.dev) (q : List UInt8) (hq : Asking q 0x9804)
    (hp : cParam q 1 = 0xDC07) (n : QStr) (bs : List (List UInt8))
    (hc : CarriesDataset bs (dataContainer 0x9804 (cTid q) (enc (.str n)))) (m : Renamable r.dev (cParam q 0) (bom (cut n))) :
    ∃ r', Answered r r' (sendObject q bs) q .ok [] ∧ dataOf r'.out = dataOf r.out ∧
      Placed r.dev r'.dev (cParam q 0) (r.dev.infoOf (cParam q 0)).2.parent (bom (cut n)) :=
  Server.rename_answer r ho w q hq hp n bs hc m

/-- C91. SetObjectPropValue for an unknown object is answered InvalidObjectHandle, and nothing is different. -/
theorem C91_rename_unknown (r : Rsp Server) (ho : Open r) (q : List UInt8) (hq : Asking q 0x9804)
    (hx : r.dev.tree.has (cParam q 0) = false) (bs : List (List UInt8)) (hne : bs ≠ []) :
    ∃ r', Answered r r' (sendObject q bs) q .invalidObjectHandle [] ∧ r'.dev = r.dev :=
  Server.set_refused r ho q 0x9804 hq rfl rfl bs hne .invalidObjectHandle (by rw [Server.check_name, hx]; rfl) (by simp)

/-- C91. SetObjectPropValue of an existing object is all or nothing, whatever is sent: it has the new name and is otherwise as before,
or nothing is different; the latter, too, if the property is not the file name. -/
theorem C91_rename_all_or_nothing (r : Rsp Server) (ho : Open r) (w : ServerOk r.dev) (q : List UInt8) (hq : Asking q 0x9804)
    (hx : r.dev.tree.has (cParam q 0) = true) (n : QStr) (bs : List (List UInt8))
    (hc : CarriesDataset bs (dataContainer 0x9804 (cTid q) (enc (.str n)))) :
    ∃ r' c, Answered r r' (sendObject q bs) q c [] ∧ dataOf r'.out = dataOf r.out ∧
      (Unchanged r.dev r'.dev ∨ c = .ok ∧ cParam q 1 = 0xDC07 ∧
        Placed r.dev r'.dev (cParam q 0) (r.dev.infoOf (cParam q 0)).2.parent (bom (cut n))) := by
  obtain ⟨r', a1, a2, a3⟩ := Server.set_answer r ho q 0x9804 hq true rfl rfl (enc (.str n)) bs hc
    (Nat.le_trans (strBytes_length_le n) (by decide)) (fun _ => by rw [Server.check_name, hx]; rfl)
  by_cases hp : cParam q 1 = 0xDC07
  · have hst : Server.store r.dev 0x9804 (cParams q) (dataContainer 0x9804 (cTid q) (enc (.str n))) =
        ((r.dev.rename (cParam q 0) (bom (cut n))).1, (r.dev.rename (cParam q 0) (bom (cut n))).2, []) := by
      unfold Server.store
      rw [if_pos ⟨rfl, hp⟩, Server.name_decoded]
      rfl
    rw [hst] at a1 a2
    simp only at a1 a2
    refine ⟨r', _, a1, a3, ?_⟩
    rw [a2]
    rcases Server.rename_cases' w (cParam q 0) (bom (cut n)) with hq | ⟨hok, it, p, pit, e1, e2, e3, sh, it', e4, e5, e6, e7, hpl⟩
    · exact Or.inl (quiet_unchanged w hq)
    · refine Or.inr ⟨hok, hp, ?_⟩
      have hp1 := sh.placed w e1 ⟨it', e4, e6⟩
      rw [Server.fromPath_toPath hpl] at hp1
      have : (r.dev.infoOf (cParam q 0)).2.parent = p := by
        obtain ⟨o, ho⟩ := Server.info_at w e1
        unfold Server.infoOf
        rw [e1, ho]
        show it.par = p
        obtain ⟨p', pit', q1, q2, _⟩ := w.wf.parent _ it e1 sh.notRoot
        rw [e2] at q1; cases q1
        exact q2
      rw [this]
      exact hp1
  · have hst : Server.store r.dev 0x9804 (cParams q) (dataContainer 0x9804 (cTid q) (enc (.str n))) =
        (r.dev, .operationNotSupported, []) := by
      unfold Server.store
      rw [if_neg (by rintro ⟨_, h⟩; exact hp h)]
    rw [hst] at a1 a2
    exact ⟨r', _, a1, a3, Or.inl (by rw [a2]; exact quiet_unchanged w (Quiet.refl _))⟩

/-! ### C85 -/

/-- C85. DeleteObject of an unknown object is answered GeneralError, and nothing is different. -/
theorem C85_delete_unknown (r : Rsp Server) (ho : Open r) (q : List UInt8) (hq : Asking q 0x100B)
    (hx : r.dev.tree.has (cParam q 0) = false) (hall : cParam q 0 ≠ ALL) :
    ∃ r', Answered r r' (ask q) q .generalError [] ∧ r'.dev = r.dev ∧ dataOf r'.out = dataOf r.out := by
  have hd : r.dev.delete (cParam q 0) (cParam q 1 % 65536) = (r.dev, .generalError) := by
    unfold Server.delete
    rw [if_pos ⟨hall, hx⟩]
  have hqu : Server.query r.dev 0x100B (cParams q) = ((r.dev.delete (cParam q 0) (cParam q 1 % 65536)).1,
      ⟨[], some ((r.dev.delete (cParam q 0) (cParam q 1 % 65536)).2, [])⟩) := rfl
  rw [hd] at hqu
  obtain ⟨r', a1, a2, a3⟩ := Server.query_answer r ho q 0x100B hq _ rfl rfl .generalError [] (by rw [hqu])
  rw [hqu] at a2 a3
  exact ⟨r', a1, a2, by simpa using a3⟩

/-! ### C83 -/

/-- C83. The announced object exists as soon as the announcement is answered, before its data is sent: it holds as many zeros as
announced if the file system could reserve them, otherwise nothing, and the device tells what was announced. -/
theorem C83_announced (r : Rsp Server) (ho : Open r) (w : ServerOk r.dev) (q : List UInt8) (hq : Asking q 0x100C)
    (o : ObjInfo) (hf : ObjInfoFits o) (hfile : o.format ≠ ASSOC) (bs : List (List UInt8))
    (hc : CarriesDataset bs (dataContainer 0x100C (cTid q) (encs (objInfoVals o)))) (hsz : o.size % 2 ^ 32 ≠ 0xFFFFFFFF)
    (hof : Offer r.dev (cParam q 0) (cParam q 1) o) :
    ∃ r' h, Answered r r' (sendObject q bs) q .ok [r.dev.sid, folderOf q, h] ∧ r.dev.tree.has h = false ∧
      ServerOk r'.dev ∧ (∃ d, Stamped r.dev.times (bom (cut o.modDate)) d ∧ r'.dev.infoOf h = (.ok, toldOf r.dev.sid (folderOf q) o d)) ∧
      contents r'.dev h = some (if r.dev.alloc r.dev.calls then List.replicate (o.size % 2 ^ 32) 0 else []) := by
  obtain ⟨r1, h, a1, an, hios, nw⟩ := Server.offer_taken r ho w q hq o hf bs hc hsz hof
  refine ⟨r1, h, a1, has_false.mpr nw.fresh, nw.ok w, ?_, ?_⟩
  · refine ⟨_, .created r.dev.calls, ?_⟩
    rw [info_new nw hof.name]
    unfold Server.newDate
    rw [if_neg (show (objInfoReceived o).format ≠ ASSOC from hfile)]
    rfl
  · obtain ⟨pit, hp, _, _, ⟨v, hget⟩, hfiles⟩ := nw.parent
    have hg := hget h
    rw [if_pos rfl] at hg
    unfold contents
    rw [hg, hfiles]
    have h1 : ¬ (objInfoReceived o).format = ASSOC := hfile
    simp only
    rw [if_neg h1, if_neg h1, AMap.get_insert, if_pos rfl]
    rfl

/-! ### C92 -/

private theorem answered_of {r r' : Rsp Server} {is : List (Rsp.In Server)} {q : List UInt8} {c : Resp} (ho : Open r)
    (h1 : r.run Server.dev is = .ok r') (h2 : responses r'.out = responses r.out ++ [.response c (u16 (cTid q)) []])
    (h3 : r'.st = .idle) (h4 : Between r r') : Answered r r' is q c [] :=
  ⟨h1, ⟨u16 (cTid q), by unfold u16; omega, h2⟩, h3, h4.req, by rw [h4.ready]; exact ho.ready, by rw [h4.session]; exact ho.session⟩

private theorem ask_run {r r' : Rsp Server} {q : List UInt8} (h : r.receive Server.dev q true true [] = .ok r') :
    r.run Server.dev (ask q) = .ok r' := by
  unfold ask
  simp only [Rsp.run, Rsp.step, h, Res.bind_ok]

/-- C92. BeginEditObject of an existing object is answered OK, the object can be edited from then on, and nothing is different;
EndEditObject of the object being edited is answered OK, ends this, and nothing is different. -/
theorem C92_begin_end (r : Rsp Server) (ho : Open r) (q : List UInt8) :
    (Asking q 0x95C4 → r.dev.tree.has (cParam q 0) = true →
      ∃ r', Answered r r' (ask q) q .ok [] ∧ editing r' = some (cParam q 0) ∧ r'.dev = r.dev) ∧
    (Asking q 0x95C5 → editing r = some (cParam q 0) →
      ∃ r', Answered r r' (ask q) q .ok [] ∧ editing r' = none ∧ r'.dev = r.dev) := by
  refine ⟨fun hq hx => ?_, fun hq he => ?_⟩
  · obtain ⟨r', a, b, c, d, e, f⟩ := (begin_end Server.dev r ho.idle ho.ready ho.session q hq.tid []).1 hq.code (by
      show (if r.dev.tree.has (cParam q 0) then Resp.ok else _) = _
      rw [hx]; rfl)
    exact ⟨r', answered_of ho (ask_run a) d e f, b, c⟩
  · obtain ⟨r', a, b, c, d, e, f⟩ := (begin_end Server.dev r ho.idle ho.ready ho.session q hq.tid []).2 hq.code he
    exact ⟨r', answered_of ho (ask_run a) d e f, b, c⟩

/-- C92. TruncateObject64 of a file being edited: answered OK if the operating system does not fail; if it is answered OK, the file is
cut, or extended by zeros, to the size asked for, the device says so, and nothing else is different; if not, nothing is different. -/
theorem C92_truncate (r : Rsp Server) (ho : Open r) (w : ServerOk r.dev) (q : List UInt8) (hq : Asking q 0x95C3)
    (he : editing r = some (cParam q 0)) (c : List UInt8) (hc : contents r.dev (cParam q 0) = some c) :
    ∃ r' a, Answered r r' (ask q) q a [] ∧ editing r' = editing r ∧ (Willing r.dev → a = .ok ∧ Willing r'.dev) ∧
      (a = .ok → ∃ c', Resized c (cParam q 2 * 2 ^ 32 + cParam q 1) c' ∧ EditedTo r.dev r'.dev (cParam q 0) c') ∧
      (a ≠ .ok → Unchanged r.dev r'.dev) := by
  obtain ⟨r', h1, h2, h3, h4, h5, h6⟩ := C40_truncate Server.dev r ho.idle ho.ready ho.session q hq.code hq.tid he []
  have h2' : r'.dev = (r.dev.truncate (cParam q 0) (cParam q 2 * 2 ^ 32 + cParam q 1)).1 := h2
  have h3' : responses r'.out = responses r.out ++
    [.response (r.dev.truncate (cParam q 0) (cParam q 2 * 2 ^ 32 + cParam q 1)).2 (u16 (cTid q)) []] := h3
  obtain ⟨it, e, hn, _⟩ := Server.contents_item hc
  obtain ⟨t1, t2, t3, t4, t5, t6, t7, t8⟩ := Server.truncate_done w e hn c hc (cParam q 2 * 2 ^ 32 + cParam q 1)
  refine ⟨r', _, answered_of ho (ask_run h1) h3' h4 h6, h5, fun hw => ⟨t8 hw, fun a b => by rw [h2', t4]; exact hw a b⟩, fun hok => ?_, fun hne => ?_⟩
  · obtain ⟨c', k1, k2, k3⟩ := t6 hok
    rw [h2']
    refine ⟨c', k2, t3, t1, fun x => by rw [t2], k1, Server.truncate_times .., ⟨_, Or.inl rfl, ?_⟩, t5⟩
    rw [k3, k2.1]
  · obtain ⟨k1, k2⟩ := t7 hne
    rw [h2']
    refine ⟨t3, t1, fun x => by rw [t2], fun x => ?_, fun x => ?_⟩
    · by_cases hx : x = cParam q 0
      · rw [hx, k1, hc]
      · exact (t5 x hx).1
    · by_cases hx : x = cParam q 0
      · rw [hx, k2]
      · exact (t5 x hx).2

/-- What SendPartialObject of `data` at `off` makes of a file. -/
def Patched (c : List UInt8) (off : Nat) (data c' : List UInt8) : Prop :=
  if data = [] then c' = c else Overwritten c off data c'

/-- C92. SendPartialObject to a file being edited, cut into packets as the host likes: answered OK if the operating system does not
fail; if it is answered OK, the bytes sent are in the file from the position asked for on (beyond the end: after as many zeros as
needed), the device says how long it is now, and nothing else is different. Other objects are as before in any case. -/
theorem C92_send_partial (r : Rsp Server) (ho : Open r) (w : ServerOk r.dev) (q : List UInt8) (hq : Asking q 0x95C2)
    (he : editing r = some (cParam q 0)) (c : List UInt8) (hc : contents r.dev (cParam q 0) = some c) (data : List UInt8)
    (bs : List (List UInt8)) (hb : Carries bs data) (hm : cParam q 2 * 2 ^ 32 + cParam q 1 + data.length < 2 ^ 63) :
    ∃ r' a, Answered r r' (sendObject q bs) q a [] ∧ editing r' = editing r ∧ (Willing r.dev → a = .ok ∧ Willing r'.dev) ∧
      (a = .ok → ∃ c', Patched c (cParam q 2 * 2 ^ 32 + cParam q 1) data c' ∧ EditedTo r.dev r'.dev (cParam q 0) c') ∧
      ServerOk r'.dev ∧ (∀ x, r'.dev.tree.get x = r.dev.tree.get x) ∧
      ∀ x, x ≠ cParam q 0 → contents r'.dev x = contents r.dev x ∧ r'.dev.infoOf x = r.dev.infoOf x := by
  obtain ⟨b1, b2, b3, b4⟩ := hb
  obtain ⟨r', h1, h2, h3, h4, h5, h6⟩ := C40_partial_accepted Server.dev r ho.idle ho.ready ho.session q hq.code hq.tid he bs b1 b2
  obtain ⟨it, e, hn, _⟩ := Server.contents_item hc
  have hne : bodies true bs ≠ [] := by
    cases bs with
    | nil => exact absurd rfl b1
    | cons b bs => simp [bodies]
  obtain ⟨p1, p2, p3⟩ := Server.partial_all hn (bodies true bs) hne r.dev c (cParam q 2 * 2 ^ 32 + cParam q 1) true w e hc
    (fun h => by cases h) (by rw [b3]; exact hm)
  rw [b3] at p2
  refine ⟨r', _, answered_of ho h1 h3 h4 h6, h5, fun hw => ⟨p3 hw, fun a b => by rw [h2, p1.ios]; exact hw a b⟩, fun hok => ?_, by rw [h2]; exact p1.ok, fun x => by rw [h2, p1.tree], by rw [h2]; exact p1.other⟩
  obtain ⟨k1, k2, k3⟩ := p2 hok
  refine ⟨_, ?_, by rw [h2]; exact ⟨p1.sid, p1.ok, fun x => by rw [p1.tree], k1, p1.times, k3, p1.other⟩⟩
  unfold Patched Server.overlay
  split
  · rfl
  · exact overwritten_writeAt c _ data

/-- C92. BeginEditObject of an unknown object is answered InvalidObjectHandle; nothing is different, and no object can be edited that
could not before. -/
theorem C92_begin_unknown (r : Rsp Server) (ho : Open r) (q : List UInt8) (hq : Asking q 0x95C4)
    (hx : r.dev.tree.has (cParam q 0) = false) :
    ∃ r', Answered r r' (ask q) q .invalidObjectHandle [] ∧ editing r' = editing r ∧ r'.dev = r.dev := by
  have hk : opKind (cCode q) = some .beginEdit := by rw [hq.code]; rfl
  have hpc : Rsp.preCheck (r.accept q).session (cTid q) = .ok := by rw [Rsp.accept_session, Rsp.preCheck_ok ho.session hq.tid]
  have hl := Rsp.accept_live r q
  have hh : Server.dev.handleOk (r.accept q).dev (cParam q 0) = .invalidObjectHandle := by
    rw [Rsp.accept_dev]
    show (if r.dev.tree.has (cParam q 0) then Resp.ok else _) = _
    rw [hx]; rfl
  have h1 : r.receive Server.dev q true true [] = .ok ((r.accept q).reply .invalidObjectHandle) := by
    rw [Rsp.receive_idle Server.dev r q [] ho.idle, Rsp.command_accept Server.dev r q [] (Or.inl ho.ready), hk]
    simp only [Rsp.handle, Rsp.beginEditReq]
    rw [hpc, hh]
  have h2 := Rsp.reply_idle (r.accept q) .invalidObjectHandle q (Rsp.accept_req r q) hl
  refine ⟨_, answered_of ho (ask_run h1) ?_ h2.1 ⟨h2.2, ?_, ?_, ?_, ?_⟩, ?_, ?_⟩
  · rw [Rsp.responses_reply _ _ q (Rsp.accept_req r q) hl, Rsp.responses_accept]
  · rw [Rsp.reply_session, Rsp.accept_session]
  · rw [Rsp.reply_ready, Rsp.accept_ready]
  · rw [Rsp.reply_sendSeq, Rsp.accept_sendSeq]
  · rw [Rsp.reply_propList, Rsp.accept_propList]
  · unfold editing; rw [Rsp.reply_edit, Rsp.accept_edit]
  · rw [Rsp.reply_dev, Rsp.accept_dev]

/-- C92. A whole edit: BeginEditObject, TruncateObject64, SendPartialObject, EndEditObject on a file, the operating system not failing,
are all answered OK, and GetObject is then answered OK with the file's bytes, cut and patched as asked for. -/
theorem C92_edit (r : Rsp Server) (ho : Open r) (w : ServerOk r.dev) (hw : Willing r.dev) (h : Nat) (c : List UInt8)
    (hc : contents r.dev h = some c) (qb qt qs qe qg : List UInt8) (hb : Asking qb 0x95C4) (ht : Asking qt 0x95C3)
    (hs : Asking qs 0x95C2) (he : Asking qe 0x95C5) (hg : Asking qg 0x1009) (pb : cParam qb 0 = h) (pt : cParam qt 0 = h)
    (ps : cParam qs 0 = h) (pe : cParam qe 0 = h) (pg : cParam qg 0 = h) (data : List UInt8) (bs : List (List UInt8))
    (hd : Carries bs data)
    (hm : max (cParam qt 2 * 2 ^ 32 + cParam qt 1) (cParam qs 2 * 2 ^ 32 + cParam qs 1 + data.length) ≤ 0xFFFFFFFF - 12) :
    ∃ r1 r2 r3 r4 r5 c1 c2, Answered r r1 (ask qb) qb .ok [] ∧ Answered r1 r2 (ask qt) qt .ok [] ∧
      Answered r2 r3 (sendObject qs bs) qs .ok [] ∧ Answered r3 r4 (ask qe) qe .ok [] ∧ Answered r4 r5 (ask qg) qg .ok [] ∧
      Resized c (cParam qt 2 * 2 ^ 32 + cParam qt 1) c1 ∧ Patched c1 (cParam qs 2 * 2 ^ 32 + cParam qs 1) data c2 ∧
      editing r4 = none ∧ EditedTo r.dev r4.dev h c2 ∧ dataOf r5.out = dataOf r4.out ++ c2 := by
  obtain ⟨it, e, _⟩ := Server.contents_item hc
  obtain ⟨r1, a1, e1, d1⟩ := (C92_begin_end r ho qb).1 hb (by rw [pb]; exact has_iff.mpr ⟨it, e⟩)
  rw [pb] at e1
  obtain ⟨r2, x2, a2, e2, f2, g2, -⟩ := C92_truncate r1 a1.again (by rw [d1]; exact w) qt ht (by rw [pt]; exact e1) c
    (by rw [pt, d1]; exact hc)
  obtain ⟨rfl, w2⟩ := f2 (by rw [d1]; exact hw)
  obtain ⟨c1, rz, t2⟩ := g2 rfl
  rw [pt, d1] at t2
  obtain ⟨r3, x3, a3, e3, f3, g3, -⟩ := C92_send_partial r2 a2.again t2.ok qs hs (by rw [ps, e2]; exact e1) c1
    (by rw [ps]; exact t2.contents) data bs hd (by omega)
  obtain ⟨rfl, w3⟩ := f3 w2
  obtain ⟨c2, pt2, t3⟩ := g3 rfl
  rw [ps] at t3
  obtain ⟨r4, a4, e4, d4⟩ := (C92_begin_end r3 a3.again qe).2 he (by rw [pe, e3, e2]; exact e1)
  have hlen : c2.length ≤ 0xFFFFFFFF - 12 := by
    unfold Patched at pt2
    have := rz.1
    split at pt2
    · rw [pt2]; omega
    · rw [pt2.1]; omega
  have hto : EditedTo r.dev r4.dev h c2 := by
    rw [d4]
    refine ⟨t3.sid.trans t2.sid, t3.ok, fun x => (t3.objects x).trans (t2.objects x), t3.contents, t3.times.trans t2.times, ?_, fun x hx => ?_⟩
    · obtain ⟨o2, j1, j2⟩ := t2.told
      obtain ⟨o3, j3, j4⟩ := t3.told
      rw [j2, t2.times] at j3
      obtain ⟨o, j5, j6⟩ := Server.edited_told j1 j3 c2.length
      exact ⟨o, j5, by rw [j4, j6]⟩
    · exact ⟨(t3.others x hx).1.trans (t2.others x hx).1, (t3.others x hx).2.trans (t2.others x hx).2⟩
  obtain ⟨r5, a5, b5, _⟩ := Server.get_object r4 a4.again (by rw [d4]; exact w3) qg hg h pg c2 hto.contents
    (by obtain ⟨o, _, ho⟩ := hto.told; rw [Server.size_info ho]) hlen
  exact ⟨r1, r2, r3, r4, r5, c1, c2, a1, a2, a3, a4, a5, rz, pt2, e4, hto, b5⟩

/-- C92. An edited file keeps its date of modification, if the system sets it and it is one that can be written and read back. -/
theorem C92_date_kept (s s' : Server) (h : Nat) (c : List UInt8) (he : EditedTo s s' h c) (hu : ∀ n, s.times.utimes n = true)
    (hr : Readable s.times.zone (parseDate s.times.zone (Server.toPath (s.infoOf h).2.modDate))) :
    parseDate s.times.zone (Server.toPath (s'.infoOf h).2.modDate) =
      parseDate s.times.zone (Server.toPath (s.infoOf h).2.modDate) := by
  obtain ⟨o, h1, h2⟩ := he.told
  rw [h2]
  rcases h1 with rfl | ⟨d, hd, rfl⟩
  · rfl
  · exact (C83_date_told s.times _ d hd hu hr).2

/-! ### Witnesses -/

/-- The responder after file 1 ("ab": 7 8 9) was uploaded and folder 2 ("d") created. -/
def demoTalk : Rsp Server :=
  match demoRsp.run Server.dev (sendObject demoAnn demoAnnData ++ sendObject demoPut demoPutData ++
      sendObject (Toy.cmd 0x100C 7 [0x00010001, 0xFFFFFFFF]) [dataContainer 0x100C 7 (encs (objInfoVals demoDir))]) with
  | .ok r => { r with dev := { r.dev with ios := fun _ _ => {} } }
  | .ub _ => demoRsp

theorem demoTalk_ok : Open demoTalk ∧ ServerOk demoTalk.dev ∧ Willing demoTalk.dev := by
  refine ⟨⟨by decide +kernel, by decide +kernel, by decide +kernel, by decide +kernel⟩, ?_, ?_⟩
  · have hb : demoTalk.dev.tree.asked < 0xFFFFFFFF := by decide +kernel
    unfold demoTalk at hb ⊢
    split
    · next r e =>
      rw [e] at hb
      have w : ServerOk r.dev := C87_disk_and_objects_agree demoRsp r demoEmpty_ok _ (by
        intro d h
        simp [sendObject, dataPhase, demoAnnData, demoPutData] at h) e hb
      exact ⟨w.wf, w.issued, w.root, w.folders, w.files, w.known, w.openFile⟩
    · exact demoEmpty_ok
  · have : demoTalk.dev.ios = fun _ _ => {} := by
      unfold demoTalk
      split <;> rfl
    intro n i
    rw [this]
    exact ⟨rfl, by simp, by simp, rfl⟩

private theorem talk_get : demoTalk.dev.tree.get 1 = some ⟨"/s/ab".toList, "ab".toList, 0x3000, 0, some 0, [], 2⟩ ∧
    demoTalk.dev.tree.get 2 = some ⟨"/s/d".toList, "d".toList, ASSOC, 0, some 0, [], 3⟩ ∧
    demoTalk.dev.tree.get 0 = some ⟨"/s".toList, "s".toList, ASSOC, 0, none, [2, 1], 1⟩ := by decide +kernel

private theorem told_pair {x : Resp × ObjInfo} (h : x.1 = .ok) : x = (.ok, x.2) := by
  cases x; cases h; rfl

/-- The hypotheses of C89 are met: bytes 1 to 2 of file 1. -/
theorem C89_witness : Holds demoTalk.dev (cParam (Toy.cmd 0x101B 9 [1, 1, 2]) 0) [7, 8, 9] ∧ Asking (Toy.cmd 0x101B 9 [1, 1, 2]) 0x101B ∧
    cParam (Toy.cmd 0x101B 9 [1, 1, 2]) 1 ≤ 3 ∧ Asking (Toy.cmd 0x95C1 9 [1, 1, 0, 2]) 0x95C1 := by
  have hp : cParam (Toy.cmd 0x101B 9 [1, 1, 2]) 0 = 1 := by decide +kernel
  rw [hp]
  exact ⟨⟨by decide +kernel, ⟨(demoTalk.dev.infoOf 1).2, told_pair (by decide +kernel), by decide +kernel⟩⟩,
    ⟨by decide +kernel, by decide +kernel⟩, by decide +kernel, ⟨by decide +kernel, by decide +kernel⟩⟩

/-- The hypotheses of C90 are met. -/
theorem C90_witness : Asking (Toy.cmd 0x1006 9 [0x00010001, 0, 0]) 0x1006 ∧ Asking (Toy.cmd 0x1007 9 [0x00010001, 0, 0]) 0x1007 ∧
    cParam (Toy.cmd 0x1006 9 [0x00010001, 0, 0]) 0 = demoTalk.dev.sid ∧ demoTalk.dev.sid ≠ ALL ∧ demoTalk.dev.tree.asked < 2 ^ 26 := by
  exact ⟨⟨by decide +kernel, by decide +kernel⟩, ⟨by decide +kernel, by decide +kernel⟩, by decide +kernel, by decide +kernel, by decide +kernel⟩

/-- The hypotheses of C91 are met: file 1 is moved into folder 2, and it is renamed to "e". -/
theorem C91_witness : Asking (Toy.cmd 0x1019 9 [1, 0x00010001, 2]) 0x1019 ∧
    cParam (Toy.cmd 0x1019 9 [1, 0x00010001, 2]) 1 = demoTalk.dev.sid ∧ Movable demoTalk.dev 1 2 ∧ Renamable demoTalk.dev 1 [101] ∧
    CarriesDataset [Toy.dat 0x9804 9 (enc (.str [101]))] (dataContainer 0x9804 9 (enc (.str [101]))) := by
  obtain ⟨g1, g2, g0⟩ := talk_get
  refine ⟨⟨by decide +kernel, by decide +kernel⟩, by decide +kernel, ⟨⟨_, _, g1, g2, rfl, by decide +kernel⟩, ?_, by decide +kernel⟩,
    ⟨by decide +kernel, ?_, ⟨'e', by decide +kernel, by decide⟩, ⟨_, 0, _, g1, rfl, g0, by decide +kernel⟩, by decide +kernel⟩,
    ⟨⟨_, rfl, by decide +kernel⟩, by decide +kernel⟩⟩
  · intro h
    have key : ∀ x, Below demoTalk.dev.tree 1 x → x ≠ 0 ∧ x ≠ 2 := by
      intro x hx
      induction hx with
      | self => decide
      | @child x p it e1 e2 _ ih =>
        refine ⟨?_, ?_⟩
        · rintro rfl
          rw [g0] at e1; cases e1; cases e2
        · rintro rfl
          rw [g2] at e1; cases e1; cases e2
          exact ih.1 rfl
    exact (key 2 h).2 rfl
  · intro c hc
    have : c = 'e' := by
      have h : Server.toPath [101] = ['e'] := by decide +kernel
      rw [h] at hc
      simpa using hc
    rw [this]
    unfold BadChar
    decide

/-- The hypotheses of C92 are met. -/
theorem C92_witness : contents demoTalk.dev 1 = some [7, 8, 9] ∧ Asking (Toy.cmd 0x95C4 9 [1]) 0x95C4 ∧
    Asking (Toy.cmd 0x95C3 10 [1, 2, 0]) 0x95C3 ∧ Asking (Toy.cmd 0x95C2 11 [1, 1, 0]) 0x95C2 ∧ Asking (Toy.cmd 0x95C5 12 [1]) 0x95C5 ∧
    Carries [Toy.dat 0x95C2 11 [4], [5, 6]] [4, 5, 6] := by
  refine ⟨by decide +kernel, ⟨by decide +kernel, by decide +kernel⟩, ⟨by decide +kernel, by decide +kernel⟩,
    ⟨by decide +kernel, by decide +kernel⟩, ⟨by decide +kernel, by decide +kernel⟩, by decide, by decide +kernel, by decide +kernel, by decide +kernel⟩

/-- The history of a move, an edit, a partial and a whole download, as the host sees it. -/
example : (match demoTalk.run Server.dev (ask (Toy.cmd 0x1019 8 [1, 0x00010001, 2]) ++ ask (Toy.cmd 0x95C4 9 [1]) ++
      ask (Toy.cmd 0x95C3 10 [1, 2, 0]) ++ sendObject (Toy.cmd 0x95C2 11 [1, 1, 0]) [Toy.dat 0x95C2 11 [4], [5, 6]] ++
      ask (Toy.cmd 0x95C5 12 [1]) ++ ask (Toy.cmd 0x101B 13 [1, 2, 9]) ++ ask (Toy.cmd 0x1009 14 [1]) ++
      ask (Toy.cmd 0x1006 15 [0x00010001, 0, 2])) with
    | .ok r => (dataOf r.out, (responses r.out).drop 3, r.dev.files)
    | .ub _ => ([], [], [])) =
    ([5, 6, 7, 4, 5, 6], [.response .ok 8 [], .response .ok 9 [], .response .ok 10 [], .response .ok 11 [], .response .ok 12 [],
      .response .ok 13 [2], .response .ok 14 [], .response .ok 15 [1]], [("/s/d/ab", [7, 4, 5, 6])]) := by
  decide +kernel

end Props
