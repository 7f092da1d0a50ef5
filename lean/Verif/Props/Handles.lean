import Verif.Model.TreeQuery
import Verif.Props.Tree
/-! Property theorem C22: enumeration of object handles. -/
namespace Props
open Mtp Spec

/-- Object `x` of the storage is asked for: it is not the root, it has the format (0 = any), and it is anywhere
(`assoc` 0), at the root level (0xFFFFFFFF) or directly in folder `assoc`. -/
def Asked (t : Tree) (fmt assoc x : Nat) : Prop :=
  ∃ it, t.get x = some it ∧ x ≠ 0 ∧ (fmt = 0 ∨ it.fmt = fmt) ∧
    (assoc = 0 ∨ (assoc = ALL ∧ it.parent = some 0) ∨ (assoc ≠ 0 ∧ assoc ≠ ALL ∧ it.parent = some assoc))

theorem sel_spec {t : Tree} (w : TreeWF t) {h : Nat} {it : Item} (e : t.get h = some it) {fmt : Nat}
    (hf : fmt ≠ UNDEF) :
    (it.kids.filter (fun c => match t.get c with | some ci => Tree.fmtKids fmt ci | none => false)).Nodup ∧
    ∀ x, x ∈ it.kids.filter (fun c => match t.get c with | some ci => Tree.fmtKids fmt ci | none => false) ↔
      ∃ ix, t.get x = some ix ∧ x ≠ 0 ∧ (fmt = 0 ∨ ix.fmt = fmt) ∧ ix.parent = some h := by
  refine ⟨(w.kids_nodup e).filter _, fun x => ?_⟩
  rw [List.mem_filter]
  constructor
  · rintro ⟨hk, hc⟩
    obtain ⟨ci, c1, c2, _⟩ := w.kid e hk
    rw [c1] at hc
    refine ⟨ci, c1, w.kid_ne_zero e hk, ?_, c2⟩
    simp only [Tree.fmtKids, Bool.or_eq_true, decide_eq_true_eq, Bool.and_eq_true] at hc
    rcases hc with hc | hc
    · exact Or.inl hc
    · exact Or.inr hc.2.symm
  · rintro ⟨ix, e1, h0, hm, hp⟩
    obtain ⟨p, pit, q1, _, q3, q4, _⟩ := w.parent x ix e1 h0
    rw [hp] at q1; cases q1
    rw [e] at q3; cases q3
    refine ⟨List.count_pos_iff.mp (by omega), ?_⟩
    rw [e1]
    simp only [Tree.fmtKids, Bool.or_eq_true, decide_eq_true_eq, Bool.and_eq_true]
    rcases hm with hm | hm
    · exact Or.inl hm
    · exact Or.inr ⟨by simpa using hf, hm.symm⟩

/-- C22, one storage: each object asked for is listed exactly once and nothing else, whenever `assoc` is 0, 0xFFFFFFFF or
a folder. Missing: format 0x3000 (Undefined) for the root level and folders (`C22_undefined_format_violated`). -/
theorem C22_storage_partial {t : Tree} (w : TreeWF t) (fmt assoc : Nat) (hf : assoc = 0 ∨ fmt ≠ UNDEF)
    (ha : assoc = 0 ∨ assoc = ALL ∨ ∃ it, t.get assoc = some it ∧ it.fmt = ASSOC) :
    (t.handles fmt assoc).1 = .ok ∧ (t.handles fmt assoc).2.Nodup ∧
    ∀ x, x ∈ (t.handles fmt assoc).2 ↔ Asked t fmt assoc x := by
  have hAll : ALL ≠ 0 := by decide
  unfold Tree.handles
  dsimp only
  split
  · next h0 =>
    subst h0
    refine ⟨rfl, ?_, fun x => ?_⟩
    · exact List.Nodup.sublist (List.Sublist.map _ List.filter_sublist) w.nodup
    · simp only [List.mem_map, List.mem_filter]
      constructor
      · rintro ⟨e, ⟨hm, hc⟩, rfl⟩
        have := AMap.get_of_mem w.nodup hm
        simp only [Bool.and_eq_true, decide_eq_true_eq, Tree.fmtAll, Bool.or_eq_true, ne_eq] at hc
        exact ⟨e.2, this, hc.1, hc.2.imp id Eq.symm, Or.inl rfl⟩
      · rintro ⟨it, e, h0, hm, _⟩
        refine ⟨(x, it), ⟨AMap.mem_of_get e, ?_⟩, rfl⟩
        simp only [Bool.and_eq_true, decide_eq_true_eq, Tree.fmtAll, Bool.or_eq_true, ne_eq]
        exact ⟨h0, hm.imp id Eq.symm⟩
  · next h0 =>
    have hf' : fmt ≠ UNDEF := hf.resolve_left h0
    split
    · next hall =>
      subst hall
      obtain ⟨r, r1, _⟩ := w.root
      rw [r1]
      obtain ⟨k1, k2⟩ := sel_spec w r1 hf'
      refine ⟨rfl, k1, fun x => (k2 x).trans ?_⟩
      constructor
      · rintro ⟨ix, a, b, c, d⟩; exact ⟨ix, a, b, c, Or.inr (Or.inl ⟨rfl, d⟩)⟩
      · rintro ⟨ix, a, b, c, d⟩
        refine ⟨ix, a, b, c, ?_⟩
        rcases d with d | d | d
        · exact absurd d hAll
        · exact d.2
        · exact absurd rfl d.2.1
    · next hall =>
      rcases ha with ha | ha | ⟨it, e, hfo⟩
      · exact absurd ha h0
      · exact absurd ha hall
      · simp only [e]
        rw [if_neg (by simpa using hfo)]
        obtain ⟨k1, k2⟩ := sel_spec w e hf'
        refine ⟨rfl, k1, fun x => (k2 x).trans ?_⟩
        constructor
        · rintro ⟨ix, a, b, c, d⟩; exact ⟨ix, a, b, c, Or.inr (Or.inr ⟨h0, hall, d⟩)⟩
        · rintro ⟨ix, a, b, c, d⟩
          refine ⟨ix, a, b, c, ?_⟩
          rcases d with d | d | d
          · exact absurd d h0
          · exact absurd d.1 hall
          · exact d.2.2

/-- C22. Asking under something that is not a folder of the storage lists nothing and is refused. -/
theorem C22_not_a_folder (t : Tree) (fmt assoc : Nat) (h0 : assoc ≠ 0) (h1 : assoc ≠ ALL)
    (h : ∀ it, t.get assoc = some it → it.fmt ≠ ASSOC) : t.handles fmt assoc = (.invalidParentObject, []) := by
  unfold Tree.handles
  dsimp only
  rw [if_neg h0, if_neg h1]
  split
  · rfl
  · next it e => rw [if_pos (h it e)]

theorem ins_perm (a : Nat) (l : List Nat) : (sortHandles.ins a l).Perm (a :: l) := by
  induction l with
  | nil => exact List.Perm.refl _
  | cons b r ih =>
    unfold sortHandles.ins
    split
    · exact List.Perm.refl _
    · exact (List.Perm.cons b ih).trans (List.Perm.swap _ _ _)

theorem sort_perm (l : List Nat) : (sortHandles l).Perm l := by
  induction l with
  | nil => exact List.Perm.refl _
  | cons a r ih => exact (ins_perm a _).trans (List.Perm.cons a ih)

theorem ins_sorted (a : Nat) (l : List Nat) (h : l.Pairwise (· ≤ ·)) : (sortHandles.ins a l).Pairwise (· ≤ ·) := by
  induction l with
  | nil => simp [sortHandles.ins]
  | cons b r ih =>
    rw [List.pairwise_cons] at h
    unfold sortHandles.ins
    split
    · next hab =>
      rw [List.pairwise_cons, List.pairwise_cons]
      refine ⟨?_, h⟩
      intro x hx
      rcases List.mem_cons.mp hx with rfl | hx
      · exact hab
      · exact Nat.le_trans hab (h.1 x hx)
    · next hab =>
      rw [List.pairwise_cons]
      refine ⟨?_, ih h.2⟩
      intro x hx
      rcases List.mem_cons.mp ((ins_perm a r).mem_iff.mp hx) with rfl | hx
      · omega
      · exact h.1 x hx

theorem sort_sorted (l : List Nat) : (sortHandles l).Pairwise (· ≤ ·) := by
  induction l with
  | nil => exact List.Pairwise.nil
  | cons a r ih => exact ins_sorted a _ ih

theorem sort_spec (l : List Nat) (hn : l.Nodup) :
    (sortHandles l).Pairwise (· < ·) ∧ ∀ x, x ∈ sortHandles l ↔ x ∈ l := by
  refine ⟨?_, fun x => (sort_perm l).mem_iff⟩
  refine List.Pairwise.imp₂ ?_ (sort_sorted l) ((sort_perm l).nodup_iff.mpr hn)
  intro a b h1 h2
  omega

/-- C22, one storage named in the request: the data phase lists exactly the objects asked for in strictly ascending
order (so each once), and GetNumObjects answers their number. -/
theorem C22_reply_one_partial (ss : List (Nat × Tree)) (fmts : List Nat) (storage fmt assoc : Nat) (t : Tree)
    (hs : storage ≠ ALL) (ht : AMap.get ss storage = some t) (w : TreeWF t) (hf16 : fmt < 65536)
    (hf : assoc = 0 ∨ fmt ≠ UNDEF) (hok : handlesCheck ss fmts storage fmt assoc = .ok)
    (ha : assoc = 0 ∨ assoc = ALL ∨ ∃ it, t.get assoc = some it ∧ it.fmt = ASSOC) :
    (handlesReply ss fmts storage fmt assoc).1 = .ok ∧
    (handlesReply ss fmts storage fmt assoc).2.Pairwise (· < ·) ∧
    (∀ x, x ∈ (handlesReply ss fmts storage fmt assoc).2 ↔ Asked t fmt assoc x) ∧
    countReply ss fmts storage fmt assoc = (.ok, (handlesReply ss fmts storage fmt assoc).2.length) := by
  obtain ⟨k1, k2, k3⟩ := C22_storage_partial w fmt assoc hf ha
  have hfac : factoryHandles ss storage (fmt % 65536) assoc = (.ok, (t.handles fmt assoc).2) := by
    unfold factoryHandles
    rw [if_neg hs, ht, Nat.mod_eq_of_lt hf16]
    exact Prod.ext k1 rfl
  have hr : handlesReply ss fmts storage fmt assoc =
      (.ok, sortHandles (t.handles fmt assoc).2) := by
    unfold handlesReply; rw [hok]; simp only [hfac]
  obtain ⟨s1, s2⟩ := sort_spec _ k2
  refine ⟨by rw [hr], by rw [hr]; exact s1, fun x => by rw [hr]; exact (s2 x).trans (k3 x), ?_⟩
  rw [hr]
  unfold countReply
  rw [hok]
  simp only [hfac, (sort_perm _).length_eq]

theorem allHandles_spec (fmt assoc : Nat) (ha : assoc = 0 ∨ assoc = ALL) (hf : assoc = 0 ∨ fmt ≠ UNDEF) :
    ∀ (ss : List (Nat × Tree)) (acc : List Nat), ss ≠ [] → (∀ s ∈ ss, TreeWF s.2) →
    (ss.Pairwise fun a b => ∀ x, x ≠ 0 → ¬ (a.2.has x = true ∧ b.2.has x = true)) →
    acc.Nodup → (∀ s ∈ ss, ∀ x ∈ acc, s.2.has x = false) →
    (allHandles fmt assoc ss acc).1 = .ok ∧ (allHandles fmt assoc ss acc).2.Nodup ∧
    ∀ x, x ∈ (allHandles fmt assoc ss acc).2 ↔ (x ∈ acc ∨ ∃ s ∈ ss, Asked s.2 fmt assoc x) := by
  intro ss
  induction ss with
  | nil => intro acc h; exact absurd rfl h
  | cons s r ih =>
    intro acc _ hw hd hn hx
    obtain ⟨id, t⟩ := s
    have ws : TreeWF t := hw (id, t) List.mem_cons_self
    obtain ⟨k1, k2, k3⟩ := C22_storage_partial ws fmt assoc hf (ha.imp_right Or.inl)
    have hh : t.handles fmt assoc = (.ok, (t.handles fmt assoc).2) := Prod.ext k1 rfl
    have hdis : ∀ a, a ∈ acc → ∀ b, b ∈ (t.handles fmt assoc).2 → a ≠ b := by
      rintro a ha b hb rfl
      obtain ⟨it, e, _⟩ := (k3 a).mp hb
      have h1 := hx (id, t) List.mem_cons_self a ha
      rw [has_false] at h1
      rw [h1] at e; cases e
    have hn' : (acc ++ (t.handles fmt assoc).2).Nodup := List.nodup_append.mpr ⟨hn, k2, hdis⟩
    cases r with
    | nil =>
      unfold allHandles
      rw [hh]
      refine ⟨rfl, hn', fun x => ?_⟩
      simp only [List.mem_append, List.mem_singleton]
      rw [k3 x]
      constructor
      · rintro (h | h)
        · exact Or.inl h
        · exact Or.inr ⟨_, rfl, h⟩
      · rintro (h | ⟨_, rfl, h⟩)
        · exact Or.inl h
        · exact Or.inr h
    | cons s2 r =>
      unfold allHandles
      rw [hh]
      rw [List.pairwise_cons] at hd
      obtain ⟨j1, j2, j3⟩ := ih (acc ++ (t.handles fmt assoc).2) (by simp)
        (fun s hs => hw s (List.mem_cons_of_mem _ hs)) hd.2 hn' (by
          intro s hs x hxm
          rcases List.mem_append.mp hxm with h | h
          · exact hx s (List.mem_cons_of_mem _ hs) x h
          · obtain ⟨it, e, h0, _⟩ := (k3 x).mp h
            cases hh2 : s.2.has x with
            | false => rfl
            | true => exact absurd ⟨has_iff.mpr ⟨it, e⟩, hh2⟩ (hd.1 s hs x h0))
      refine ⟨j1, j2, fun x => (j3 x).trans ?_⟩
      rw [List.mem_append, k3 x]
      constructor
      · rintro ((h | h) | ⟨s, hs, h⟩)
        · exact Or.inl h
        · exact Or.inr ⟨_, List.mem_cons_self, h⟩
        · exact Or.inr ⟨s, List.mem_cons_of_mem _ hs, h⟩
      · rintro (h | ⟨s, hs, h⟩)
        · exact Or.inl (Or.inl h)
        · rcases List.mem_cons.mp hs with rfl | hs
          · exact Or.inl (Or.inr h)
          · exact Or.inr ⟨s, hs, h⟩

/-- C22, all storages: for all objects or the root level, the reply lists exactly the objects asked for of all storages
in strictly ascending order, and the count agrees. Storages use different handles because one factory hands them out
(C12); only the roots share 0. Missing: a folder as `assoc` with more than one storage
(`C22_folder_all_storages_violated`). -/
theorem C22_reply_all_partial (ss : List (Nat × Tree)) (fmts : List Nat) (fmt assoc : Nat) (hne : ss ≠ [])
    (w : ∀ s ∈ ss, TreeWF s.2)
    (hdis : ss.Pairwise fun a b => ∀ x, x ≠ 0 → ¬ (a.2.has x = true ∧ b.2.has x = true))
    (hf16 : fmt < 65536) (hf : assoc = 0 ∨ fmt ≠ UNDEF) (ha : assoc = 0 ∨ assoc = ALL)
    (hok : handlesCheck ss fmts ALL fmt assoc = .ok) :
    (handlesReply ss fmts ALL fmt assoc).1 = .ok ∧ (handlesReply ss fmts ALL fmt assoc).2.Pairwise (· < ·) ∧
    (∀ x, x ∈ (handlesReply ss fmts ALL fmt assoc).2 ↔ ∃ s ∈ ss, Asked s.2 fmt assoc x) ∧
    countReply ss fmts ALL fmt assoc = (.ok, (handlesReply ss fmts ALL fmt assoc).2.length) := by
  obtain ⟨k1, k2, k3⟩ := allHandles_spec fmt assoc ha hf ss [] hne w hdis List.nodup_nil (by simp)
  have hfac : factoryHandles ss ALL (fmt % 65536) assoc = (.ok, (allHandles fmt assoc ss []).2) := by
    unfold factoryHandles
    rw [if_pos rfl, Nat.mod_eq_of_lt hf16]
    exact Prod.ext k1 rfl
  have hr : handlesReply ss fmts ALL fmt assoc =
      (.ok, sortHandles (allHandles fmt assoc ss []).2) := by
    unfold handlesReply; rw [hok]; simp only [hfac]
  obtain ⟨s1, s2⟩ := sort_spec _ k2
  refine ⟨by rw [hr], by rw [hr]; exact s1, fun x => ?_, ?_⟩
  · rw [hr]
    refine (s2 x).trans ((k3 x).trans ?_)
    simp
  · rw [hr]
    unfold countReply
    rw [hok]
    simp only [hfac, (sort_perm _).length_eq]

/-- Witness: the demo storage and a second one. -/
def demoOther : Tree := (Tree.empty ['/', 'u'] [] .denyAll [] (fun _ => true) 3 4).enumerate
  (.node none ASSOC [(['z'], .node none 0x3004 [])])

theorem C22_witness : handlesReply [(65537, demoTree), (65538, demoOther)] [0x3000, 0x3001, 0x3004] ALL 0 0 =
      (.ok, [1, 2, 3, 4]) ∧
    handlesReply [(65537, demoTree), (65538, demoOther)] [0x3000, 0x3001, 0x3004] ALL 0x3004 ALL = (.ok, [3, 4]) ∧
    handlesReply [(65537, demoTree), (65538, demoOther)] [0x3000, 0x3001, 0x3004] 65537 0 1 = (.ok, [2]) := by
  refine ⟨?_, ?_, ?_⟩ <;> decide +kernel

theorem C22_witness_ok : TreeWF demoTree ∧ TreeWF demoOther ∧
    ∀ x, x ≠ 0 → ¬ (demoTree.has x = true ∧ demoOther.has x = true) := by
  refine ⟨demoTree_wf.1, (enumerate_ok _ _ _ _ _ _ _ _ _ _ (by simp [DisksOk, DiskOk]) (by decide)
    (by decide +kernel)).1, ?_⟩
  have h1 : ∀ x, demoTree.has x = true → x ∈ [3, 0, 2, 1] := by
    intro x hx
    obtain ⟨i, e⟩ := has_iff.mp hx
    have hm : x ∈ demoTree.items.map (·.1) := List.mem_map.mpr ⟨_, AMap.mem_of_get e, rfl⟩
    rwa [show demoTree.items.map (·.1) = [3, 0, 2, 1] from by decide +kernel] at hm
  have h2 : ∀ x, demoOther.has x = true → x ∈ [4, 0] := by
    intro x hx
    obtain ⟨i, e⟩ := has_iff.mp hx
    have hm : x ∈ demoOther.items.map (·.1) := List.mem_map.mpr ⟨_, AMap.mem_of_get e, rfl⟩
    rwa [show demoOther.items.map (·.1) = [4, 0] from by decide +kernel] at hm
  rintro x h0 ⟨a, b⟩
  have := h1 x a; have := h2 x b
  simp at *
  omega

/-- C22 is violated for the format Undefined (0x3000): object 2 has it and is in folder 1, but asking for this format
under folder 1 lists nothing, while asking for it in the whole storage lists object 2. -/
theorem C22_undefined_format_violated :
    Asked demoTree 0x3000 1 2 ∧ (demoTree.handles 0x3000 1) = (.ok, []) ∧ demoTree.handles 0x3000 0 = (.ok, [2]) := by
  refine ⟨⟨_, demoTree_items.2.1, by decide, by decide, by decide⟩, by decide +kernel, by decide +kernel⟩

/-- C22 is violated with more than one storage: asking for the contents of a folder in all storages is refused because
the other storage does not know the folder; and GetNumObjects may answer a non-zero count with that error. -/
theorem C22_folder_all_storages_violated :
    handlesReply [(65537, demoTree), (65538, demoOther)] [0x3000, 0x3001, 0x3004] ALL 0 1 =
      (.invalidParentObject, []) ∧
    countReply [(65537, demoTree), (65538, demoOther)] [0x3000, 0x3001, 0x3004] ALL 0 1 =
      (.invalidParentObject, 1) := by
  constructor <;> decide +kernel

/-- C22: only the low 16 bits of the format count, so an unsupported format code is taken for a supported one. -/
theorem C22_format_truncated_violated :
    handlesReply [(65537, demoTree)] [0x3000, 0x3001, 0x3004] ALL 0x13004 0 = (.ok, [3]) := by decide +kernel

/-- C22. A storage the device does not have is refused as such, whatever else was asked. -/
theorem C22_unknown_storage (ss : List (Nat × Tree)) (fmts : List Nat) (storage fmt assoc : Nat) (hs : storage ≠ ALL)
    (h : ∀ e ∈ ss, e.1 ≠ storage) :
    handlesReply ss fmts storage fmt assoc = (.invalidStorageID, []) ∧
    countReply ss fmts storage fmt assoc = (.invalidStorageID, 0) := by
  have hn : AMap.get ss storage = none := by
    cases e : AMap.get ss storage with
    | none => rfl
    | some t => exact absurd rfl (h _ (AMap.mem_of_get e))
  have hc : handlesCheck ss fmts storage fmt assoc = .invalidStorageID := by
    unfold handlesCheck
    rw [if_pos ⟨hs, by rw [hn]; rfl⟩]
  constructor
  · unfold handlesReply; rw [hc]
  · unfold countReply; rw [hc]

example : handlesReply [(0x10001, demoTree)] [ASSOC] 0x10002 0xFFFF 0 = (.invalidStorageID, []) :=
  (C22_unknown_storage _ _ _ _ _ (by decide) (by decide)).1

/-- C22. A format the device does not advertise is refused as such. -/
theorem C22_unknown_format (ss : List (Nat × Tree)) (fmts : List Nat) (storage fmt assoc : Nat)
    (hs : storage = ALL ∨ ∃ e ∈ ss, e.1 = storage) (hf : fmt ≠ 0) (h16 : fmt < 65536) (h : fmt ∉ fmts) :
    handlesReply ss fmts storage fmt assoc = (.invalidObjectPropFormat, []) ∧
    countReply ss fmts storage fmt assoc = (.invalidObjectPropFormat, 0) := by
  have hc : handlesCheck ss fmts storage fmt assoc = .invalidObjectPropFormat := by
    unfold handlesCheck
    rw [if_neg, if_pos ⟨hf, by rwa [Nat.mod_eq_of_lt h16]⟩]
    rintro ⟨h1, h2⟩
    rcases hs with hs | ⟨e, he, e1⟩
    · exact h1 hs
    · subst e1
      have h3 : (AMap.get ss e.1).isSome := AMap.get_isSome_iff.mpr ⟨e.2, he⟩
      rw [Option.isNone_iff_eq_none] at h2
      rw [h2] at h3
      cases h3
  constructor
  · unfold handlesReply; rw [hc]
  · unfold countReply; rw [hc]

example : handlesReply [(0x10001, demoTree)] [ASSOC] 0x10001 0xB984 0 = (.invalidObjectPropFormat, []) :=
  (C22_unknown_format _ _ _ _ _ (Or.inr ⟨_, List.mem_singleton.mpr rfl, rfl⟩) (by decide) (by decide) (by decide)).1

end Props
