import Verif.Model.Labels
import Verif.Lemmas.Decimal
/-! Numbering of labels and the export loop. -/
namespace Mtp

theorem escAt_none {c : Char} (r : List Char) (h : c ≠ '%') : escAt (c :: r) = none := by
  unfold escAt
  split
  · next hc => cases hc; exact absurd rfl h
  · rfl

theorem argToks_plain (l s : List Char) (h : '%' ∉ l) : argToks 0 (l ++ s) = l.map .inl ++ argToks 0 s := by
  induction l with
  | nil => rfl
  | cons c r ih =>
    have h1 : c ≠ '%' := by intro e; subst e; exact h (List.mem_cons_self)
    have h2 : '%' ∉ r := fun e => h (List.mem_cons_of_mem _ e)
    simp only [List.cons_append, argToks, escAt_none _ h1, List.map_cons, ih h2]

theorem qArg_first (sep : Char) (l : List Char) (h : sep = ' ' ∨ sep = '.') :
    qArg ['%', '1', sep, '%', '2'] l = l ++ [sep, '%', '2'] := by
  have e : argToks 0 ['%', '1', sep, '%', '2'] = [.inr (1, ['%', '1']), .inl sep, .inr (2, ['%', '2'])] := by
    rcases h with rfl | rfl <;> decide
  have hm : leastOf ((argToks 0 ['%', '1', sep, '%', '2']).filterMap tokNum) = some 1 := by rw [e]; rfl
  unfold qArg
  rw [hm]
  show List.flatMap (tokText 1 l) _ = _
  rw [e]
  simp [tokText]

theorem filterMap_inl (l : List Char) :
    (l.map (Sum.inl : Char → Char ⊕ Nat × List Char)).filterMap tokNum = [] := by
  induction l <;> simp_all [tokNum]

theorem flatMap_inl (l a : List Char) (m : Nat) :
    (l.map (Sum.inl : Char → Char ⊕ Nat × List Char)).flatMap (tokText m a) = l := by
  induction l <;> simp_all [tokText]

theorem qArg_second (sep : Char) (l d : List Char) (hl : '%' ∉ l) (h : sep = ' ' ∨ sep = '.') :
    qArg (l ++ [sep, '%', '2']) d = l ++ sep :: d := by
  have e : argToks 0 [sep, '%', '2'] = [.inl sep, .inr (2, ['%', '2'])] := by
    rcases h with rfl | rfl <;> decide
  have hm : leastOf ((argToks 0 (l ++ [sep, '%', '2'])).filterMap tokNum) = some 2 := by
    rw [argToks_plain l _ hl, e, List.filterMap_append, filterMap_inl]; rfl
  unfold qArg
  rw [hm]
  show List.flatMap (tokText 2 d) _ = _
  rw [argToks_plain l _ hl, e, List.flatMap_append, flatMap_inl]
  simp [tokText]

/-- What the numbering does to a label without a percent sign. -/
theorem numberedLabel_plain (i : Nat) (l : List Char) (k : Nat) (hl : '%' ∉ l) :
    numberedLabel i l k = l ++ (if i = 0 then ' ' else '.') :: decDigits k := by
  unfold numberedLabel
  split
  · rw [qArg_first _ _ (.inl rfl), qArg_second _ _ _ hl (.inl rfl)]
  · rw [qArg_first _ _ (.inr rfl), qArg_second _ _ _ hl (.inr rfl)]

theorem space_not_digit {n : Nat} : ' ' ∉ decDigits n := fun h => by
  have := digit_of_mem h; revert this; decide
theorem percent_not_digit {n : Nat} : '%' ∉ decDigits n := fun h => by
  have := digit_of_mem h; revert this; decide

/-- A text is cut in only one way at its last space. -/
theorem split_space {a b c d : List Char} (h : a ++ ' ' :: b = c ++ ' ' :: d) (hb : ' ' ∉ b) (hd : ' ' ∉ d) :
    a = c ∧ b = d := by
  induction a generalizing c with
  | nil =>
    cases c with
    | nil => simp_all
    | cons x c =>
      simp only [List.nil_append, List.cons_append, List.cons.injEq] at h
      exact absurd (h.2 ▸ List.mem_append_right c (List.mem_cons_self)) hb
  | cons x a ih =>
    cases c with
    | nil =>
      simp only [List.nil_append, List.cons_append, List.cons.injEq] at h
      exact absurd (h.2 ▸ List.mem_append_right a (List.mem_cons_self)) hd
    | cons y c =>
      simp only [List.cons_append, List.cons.injEq] at h
      obtain ⟨h1, h2⟩ := ih h.2
      exact ⟨by rw [h.1, h1], h2⟩

theorem renumber_paths (i : Nat) (cnt : List Char → Nat) (seen : List (List Char)) (pl : List PathLabel) :
    (renumber i cnt seen pl).map (·.1) = pl.map (·.1) := by
  induction pl generalizing seen with
  | nil => rfl
  | cons e r ih => unfold renumber; split <;> simp [ih]

/-- Where the labels after numbering come from. -/
theorem renumber_mem {i : Nat} {cnt : List Char → Nat} {seen : List (List Char)} {pl : List PathLabel} {e : PathLabel}
    (h : e ∈ renumber i cnt seen pl) :
    (e ∈ pl ∧ cnt e.2 < 2) ∨ ∃ l k, (e.1, l) ∈ pl ∧ ¬ cnt l < 2 ∧ seen.count l < k ∧ e.2 = numberedLabel i l k := by
  induction pl generalizing seen with
  | nil => simp [renumber] at h
  | cons x r ih =>
    obtain ⟨p, l⟩ := x
    unfold renumber at h
    split at h
    · next hc =>
      rcases List.mem_cons.mp h with rfl | h
      · exact .inl ⟨List.mem_cons_self, hc⟩
      · rcases ih h with ⟨h1, h2⟩ | ⟨l', k, h1, h2, h3, h4⟩
        · exact .inl ⟨List.mem_cons_of_mem _ h1, h2⟩
        · exact .inr ⟨l', k, List.mem_cons_of_mem _ h1, h2, h3, h4⟩
    · next hc =>
      rcases List.mem_cons.mp h with rfl | h
      · exact .inr ⟨l, _, List.mem_cons_self, hc, Nat.lt_succ_self _, rfl⟩
      · rcases ih h with ⟨h1, h2⟩ | ⟨l', k, h1, h2, h3, h4⟩
        · exact .inl ⟨List.mem_cons_of_mem _ h1, h2⟩
        · refine .inr ⟨l', k, List.mem_cons_of_mem _ h1, h2, ?_, h4⟩
          rw [List.count_cons] at h3; omega

theorem renumber_nodup (cnt : List Char → Nat) (seen : List (List Char)) (pl : List PathLabel)
    (hcnt : ∀ l, (pl.map (·.2)).count l ≤ cnt l)
    (hp : ∀ e ∈ pl, '%' ∉ e.2)
    (hfree : ∀ e ∈ pl, ∀ e' ∈ pl, ∀ k, e'.2 ≠ e.2 ++ ' ' :: decDigits k) :
    ((renumber 0 cnt seen pl).map (·.2)).Nodup := by
  induction pl generalizing seen with
  | nil => simp [renumber]
  | cons x r ih =>
    obtain ⟨p, l⟩ := x
    have hcnt' : ∀ l, (r.map (·.2)).count l ≤ cnt l := by
      intro l'; have := hcnt l'; simp only [List.map_cons, List.count_cons] at this; omega
    have hp' : ∀ e ∈ r, '%' ∉ e.2 := fun e he => hp e (List.mem_cons_of_mem _ he)
    have hf' : ∀ e ∈ r, ∀ e' ∈ r, ∀ k, e'.2 ≠ e.2 ++ ' ' :: decDigits k :=
      fun e he e' he' => hfree e (List.mem_cons_of_mem _ he) e' (List.mem_cons_of_mem _ he')
    unfold renumber
    split
    · next hc =>
      simp only [List.map_cons, List.nodup_cons]
      refine ⟨?_, ih _ hcnt' hp' hf'⟩
      intro hm
      obtain ⟨e, he, e2⟩ := List.mem_map.mp hm
      rcases renumber_mem he with ⟨h1, h2⟩ | ⟨l', k, h1, h2, h3, h4⟩
      · have := hcnt l
        simp only [List.map_cons, List.count_cons, beq_self_eq_true, if_true] at this
        have h5 : 0 < (r.map (·.2)).count l := List.count_pos_iff.mpr (List.mem_map.mpr ⟨e, h1, e2⟩)
        omega
      · rw [numberedLabel_plain _ _ _ (hp' _ h1)] at h4
        exact hfree _ (List.mem_cons_of_mem _ h1) (p, l) List.mem_cons_self k (by simpa [← e2] using h4)
    · next hc =>
      simp only [List.map_cons, List.nodup_cons]
      refine ⟨?_, ih _ hcnt' hp' hf'⟩
      intro hm
      obtain ⟨e, he, e2⟩ := List.mem_map.mp hm
      have hpl : '%' ∉ l := hp _ List.mem_cons_self
      rw [numberedLabel_plain _ _ _ hpl] at e2
      rcases renumber_mem he with ⟨h1, h2⟩ | ⟨l', k, h1, h2, h3, h4⟩
      · exact hfree (p, l) List.mem_cons_self e (List.mem_cons_of_mem _ h1) _ (by simpa using e2)
      · rw [numberedLabel_plain _ _ _ (hp' _ h1), e2] at h4
        simp only [if_true] at h4
        obtain ⟨rfl, h6⟩ := split_space h4 space_not_digit space_not_digit
        have := decDigits_inj h6
        subst this
        simp at h3

/-- Labels as given are kept if they are all new. -/
theorem uniqueFrom_of_free (reserved : List (List Char)) (i n : Nat) (pl : List PathLabel)
    (h1 : (pl.map (·.2)).Nodup) (h2 : ∀ e ∈ pl, e.2 ∉ reserved) : uniqueFrom reserved i n pl = pl := by
  cases n with
  | zero => rfl
  | succ n =>
    unfold uniqueFrom
    rw [if_pos]
    rw [List.all_eq_true]
    intro e he
    have a : reserved.count e.2 = 0 := List.count_eq_zero.mpr (h2 e he)
    have b : (pl.map (·.2)).count e.2 ≤ 1 := List.nodup_iff_count.mp h1 e.2
    have : labelCount reserved pl e.2 < 2 := by unfold labelCount; omega
    simpa using this

theorem all_free_of_count {reserved : List (List Char)} {pl : List PathLabel}
    (h : pl.all (fun e => labelCount reserved pl e.2 < 2) = true) :
    (pl.map (·.2)).Nodup ∧ ∀ e ∈ pl, e.2 ∉ reserved := by
  rw [List.all_eq_true] at h
  have key : ∀ e ∈ pl, reserved.count e.2 = 0 ∧ (pl.map (·.2)).count e.2 ≤ 1 := by
    intro e he
    have h1 : labelCount reserved pl e.2 < 2 := by simpa using h e he
    unfold labelCount at h1
    have h2 : 0 < (pl.map (·.2)).count e.2 := List.count_pos_iff.mpr (List.mem_map.mpr ⟨e, he, rfl⟩)
    omega
  refine ⟨List.nodup_iff_count.mpr (fun l => ?_), fun e he => List.count_eq_zero.mp (key e he).1⟩
  by_cases hl : l ∈ pl.map (·.2)
  · obtain ⟨e, he, rfl⟩ := List.mem_map.mp hl
    exact (key e he).2
  · rw [List.count_eq_zero.mpr hl]; omega

theorem uniqueFrom_paths (reserved : List (List Char)) (i n : Nat) (pl : List PathLabel) :
    (uniqueFrom reserved i n pl).map (·.1) = pl.map (·.1) := by
  induction n generalizing i pl with
  | zero => rfl
  | succ n ih =>
    unfold uniqueFrom
    split
    · rfl
    · rw [ih, renumber_paths]

/-- The labels only grow at the end, if they have no percent sign. -/
theorem uniqueFrom_prefix (reserved : List (List Char)) (i n : Nat) (pl : List PathLabel) (hp : ∀ e ∈ pl, '%' ∉ e.2) :
    ∀ e ∈ uniqueFrom reserved i n pl, ∃ l, (e.1, l) ∈ pl ∧ l <+: e.2 := by
  induction n generalizing i pl with
  | zero => exact fun e he => ⟨e.2, he, List.prefix_refl _⟩
  | succ n ih =>
    unfold uniqueFrom
    split
    · exact fun e he => ⟨e.2, he, List.prefix_refl _⟩
    · have hstep : ∀ e ∈ renumber i (labelCount reserved pl) [] pl,
          '%' ∉ e.2 ∧ ∃ l, (e.1, l) ∈ pl ∧ l <+: e.2 := by
        intro e he
        rcases renumber_mem he with ⟨h1, _⟩ | ⟨l, k, h1, _, _, h4⟩
        · exact ⟨hp _ h1, e.2, h1, List.prefix_refl _⟩
        · have hl : '%' ∉ l := hp _ h1
          rw [numberedLabel_plain _ _ _ hl] at h4
          refine ⟨?_, l, h1, h4 ▸ List.prefix_append _ _⟩
          rw [h4]
          intro hm
          rcases List.mem_append.mp hm with hm | hm
          · exact hl hm
          · rcases List.mem_cons.mp hm with hm | hm
            · revert hm; split <;> decide
            · exact percent_not_digit hm
      intro e he
      obtain ⟨l, h1, h2⟩ := ih (i + 1) _ (fun e he => (hstep e he).1) e he
      obtain ⟨_, l', h3, h4⟩ := hstep _ h1
      exact ⟨l', h3, List.IsPrefix.trans h4 h2⟩

/-- Conflicting labels are resolved by the first numbering if no label in use looks like a numbered one. -/
theorem makeLabelsUnique_free (reserved : List (List Char)) (pl : List PathLabel)
    (hp : ∀ e ∈ pl, '%' ∉ e.2)
    (hfree : ∀ e ∈ pl, ∀ e' ∈ pl, ∀ k, e'.2 ≠ e.2 ++ ' ' :: decDigits k)
    (hres : ∀ e ∈ pl, ∀ k, e.2 ++ ' ' :: decDigits k ∉ reserved) :
    ((makeLabelsUnique reserved pl).map (·.2)).Nodup ∧ ∀ e ∈ makeLabelsUnique reserved pl, e.2 ∉ reserved := by
  unfold makeLabelsUnique uniqueFrom
  split
  · next h => exact all_free_of_count h
  · next h =>
    have a := renumber_nodup (labelCount reserved pl) [] pl (fun l => by simp [labelCount]) hp hfree
    have b : ∀ e ∈ renumber 0 (labelCount reserved pl) [] pl, e.2 ∉ reserved := by
      intro e he
      rcases renumber_mem he with ⟨h1, h2⟩ | ⟨l, k, h1, _, _, h4⟩
      · intro hm
        have h3 : 0 < reserved.count e.2 := List.count_pos_iff.mpr hm
        have h4 : 0 < (pl.map (·.2)).count e.2 := List.count_pos_iff.mpr (List.mem_map.mpr ⟨e, h1, rfl⟩)
        unfold labelCount at h2; omega
      · rw [numberedLabel_plain _ _ _ (hp _ h1)] at h4
        rw [h4]
        exact hres _ h1 k
    rw [uniqueFrom_of_free _ _ _ _ a b]
    exact ⟨a, b⟩

/-- Invariant of `create`. -/
structure ExportState.Ok (start : Nat) (s : ExportState) : Prop where
  paths : s.result.map (·.path) = s.exported.reverse
  labels : s.result.map (·.label) = s.reserved.reverse
  ids : s.result.map (·.id) = List.range' start s.result.length
  next : s.next = start + s.result.length
  nodupP : s.exported.Nodup
  nodupL : s.reserved.Nodup

theorem exportAll_ok {st : Nat} (pl : List PathLabel) {s : ExportState} (h : s.Ok st) : (exportAll pl s).Ok st := by
  induction pl generalizing s with
  | nil => exact h
  | cons e r ih =>
    obtain ⟨p, l⟩ := e
    unfold exportAll
    split
    · exact ih h
    · next hp =>
      split
      · exact ih h
      · next hl =>
        refine ih ⟨?_, ?_, ?_, ?_, ?_, ?_⟩
        · simp [h.paths]
        · simp [h.labels]
        · simp only [List.map_append, List.map_cons, List.map_nil, h.ids, List.length_append, List.length_cons,
            List.length_nil, h.next, List.range'_concat]
          simp
        · simp [h.next]; omega
        · simp only [List.contains_iff_mem] at hp; exact List.nodup_cons.mpr ⟨hp, h.nodupP⟩
        · simp only [List.contains_iff_mem] at hl; exact List.nodup_cons.mpr ⟨hl, h.nodupL⟩

theorem exportConf_ok {st : Nat} (w : ExportWorld) {s : ExportState} (h : s.Ok st) (c : StoreConf) : (exportConf w s c).Ok st :=
  exportAll_ok _ h

/-- What the export loop adds. -/
theorem exportAll_sub (pl : List PathLabel) (s : ExportState) :
    ∃ add, (exportAll pl s).result = s.result ++ add ∧ ∀ x ∈ add, (x.path, x.label) ∈ pl := by
  induction pl generalizing s with
  | nil => exact ⟨[], by simp [exportAll]⟩
  | cons e r ih =>
    obtain ⟨p, l⟩ := e
    unfold exportAll
    split
    · obtain ⟨add, h1, h2⟩ := ih s
      exact ⟨add, h1, fun x hx => List.mem_cons_of_mem _ (h2 x hx)⟩
    · split
      · obtain ⟨add, h1, h2⟩ := ih s
        exact ⟨add, h1, fun x hx => List.mem_cons_of_mem _ (h2 x hx)⟩
      · obtain ⟨add, h1, h2⟩ := ih ⟨s.next + 1, p :: s.exported, l :: s.reserved, s.result ++ [⟨s.next, p, l⟩]⟩
        refine ⟨⟨s.next, p, l⟩ :: add, by rw [h1]; simp, ?_⟩
        intro x hx
        rcases List.mem_cons.mp hx with rfl | hx
        · exact List.mem_cons_self
        · exact List.mem_cons_of_mem _ (h2 x hx)

/-- With free labels and new paths everything is exported. -/
theorem exportAll_all (pl : List PathLabel) (s : ExportState) (h1 : (pl.map (·.1)).Nodup)
    (h2 : ∀ e ∈ pl, e.1 ∉ s.exported) (h3 : (pl.map (·.2)).Nodup) (h4 : ∀ e ∈ pl, e.2 ∉ s.reserved) :
    (exportAll pl s).result.map (fun x => (x.path, x.label)) = s.result.map (fun x => (x.path, x.label)) ++ pl := by
  induction pl generalizing s with
  | nil => simp [exportAll]
  | cons e r ih =>
    obtain ⟨p, l⟩ := e
    simp only [List.map_cons, List.nodup_cons] at h1 h3
    have hp := h2 _ List.mem_cons_self
    have hl := h4 _ List.mem_cons_self
    unfold exportAll
    rw [if_neg (by simpa using hp), if_neg (by simpa using hl), ih]
    · simp
    · exact h1.2
    · intro x hx
      simp only [List.mem_cons, not_or]
      refine ⟨?_, h2 x (List.mem_cons_of_mem _ hx)⟩
      intro e; exact h1.1 (List.mem_map.mpr ⟨x, hx, e⟩)
    · exact h3.2
    · intro x hx
      simp only [List.mem_cons, not_or]
      refine ⟨?_, h4 x (List.mem_cons_of_mem _ hx)⟩
      intro e; exact h3.1 (List.mem_map.mpr ⟨x, hx, e⟩)

theorem insertKey_mem {lt : List Char → List Char → Bool} {p l : List Char} {pl : List PathLabel} {e : PathLabel} :
    e ∈ insertKey lt p l pl ↔ e = (p, l) ∨ e ∈ pl := by
  induction pl with
  | nil => simp [insertKey]
  | cons x r ih =>
    unfold insertKey
    split
    · simp
    · simp only [List.mem_cons, ih]
      constructor
      · rintro (h | h | h) <;> simp [h]
      · rintro (h | h | h) <;> simp [h]

theorem insertKey_nodup {lt : List Char → List Char → Bool} {p l : List Char} {pl : List PathLabel}
    (h : (pl.map (·.1)).Nodup) (hp : p ∉ pl.map (·.1)) : ((insertKey lt p l pl).map (·.1)).Nodup := by
  induction pl with
  | nil => simp [insertKey]
  | cons x r ih =>
    simp only [List.map_cons, List.nodup_cons, List.mem_cons, not_or] at h hp
    unfold insertKey
    split
    · simp only [List.map_cons, List.nodup_cons, List.mem_cons, not_or]; exact ⟨hp, h⟩
    · simp only [List.map_cons, List.nodup_cons]
      refine ⟨?_, ih h.2 hp.2⟩
      intro hm
      obtain ⟨e, he, e1⟩ := List.mem_map.mp hm
      rcases insertKey_mem.mp he with rfl | he
      · exact hp.1 e1
      · exact h.1 (List.mem_map.mpr ⟨e, he, e1⟩)

/-- The directories found are new and all different. -/
def NewPaths (exported : List (List Char)) (pl : List PathLabel) : Prop :=
  (pl.map (·.1)).Nodup ∧ ∀ e ∈ pl, e.1 ∉ exported

theorem NewPaths.insert {lt : List Char → List Char → Bool} {exported : List (List Char)} {pl : List PathLabel}
    {p l : List Char} (h : NewPaths exported pl)
    (hc : ¬ (pl.any (fun e => e.1 == p) || exported.contains p) = true) : NewPaths exported (insertKey lt p l pl) := by
  simp only [Bool.or_eq_true, List.any_eq_true, beq_iff_eq, List.contains_iff_mem, not_or, not_exists, not_and] at hc
  refine ⟨insertKey_nodup h.1 ?_, ?_⟩
  · intro hm
    obtain ⟨e, he, e1⟩ := List.mem_map.mp hm
    exact hc.1 e he e1
  · intro e he
    rcases insertKey_mem.mp he with rfl | he
    · exact hc.2
    · exact h.2 e he

theorem globLabels_new (w : ExportWorld) (exported : List (List Char)) (g : List (List Char × Bool)) (d : List Char)
    (pl : List PathLabel) (h : NewPaths exported pl) : NewPaths exported (globLabels w exported g d pl) := by
  induction g generalizing d pl with
  | nil => exact h
  | cons x r ih =>
    obtain ⟨p, dir⟩ := x
    unfold globLabels
    split
    · exact ih _ _ h
    · split
      · exact ih _ _ h
      · next hc => exact ih _ _ (h.insert hc)

theorem mountLabels_new (w : ExportWorld) (exported : List (List Char)) (b d : List Char) (m : List (List Char × List Char))
    (pl : List PathLabel) (h : NewPaths exported pl) : NewPaths exported (mountLabels w exported b d m pl) := by
  induction m generalizing pl with
  | nil => exact h
  | cons x r ih =>
    obtain ⟨p, dev⟩ := x
    unfold mountLabels
    split
    · exact ih _ h
    · next hc =>
      split
      · exact ih _ (h.insert hc)
      · exact ih _ h

theorem confLabels_new (w : ExportWorld) (exported : List (List Char)) (c : StoreConf) :
    NewPaths exported (confLabels w exported c) := by
  have hnil : NewPaths exported [] := ⟨by simp, by simp⟩
  unfold confLabels
  split
  · exact hnil
  · split
    · exact globLabels_new _ _ _ _ _ hnil
    · split
      · exact hnil
      · exact mountLabels_new _ _ _ _ _ _ hnil
    · exact hnil

theorem globLabels_mem (w : ExportWorld) (exported : List (List Char)) (g : List (List Char × Bool)) (d : List Char)
    (pl : List PathLabel) (p : List Char) :
    p ∈ (globLabels w exported g d pl).map (·.1) ↔ p ∈ pl.map (·.1) ∨ ((p, true) ∈ g ∧ p ∉ exported) := by
  induction g generalizing d pl with
  | nil => simp [globLabels]
  | cons x r ih =>
    obtain ⟨q, dir⟩ := x
    unfold globLabels
    split
    · next hd =>
      have : dir = false := by simpa using hd
      subst this
      rw [ih]; simp
    · next hd =>
      have : dir = true := by simpa using hd
      subst this
      split
      · next hc =>
        rw [ih]
        simp only [Bool.or_eq_true, List.any_eq_true, beq_iff_eq, List.contains_iff_mem] at hc
        constructor
        · rintro (h | ⟨h, h'⟩)
          · exact .inl h
          · exact .inr ⟨List.mem_cons_of_mem _ h, h'⟩
        · rintro (h | ⟨h, h'⟩)
          · exact .inl h
          · rcases List.mem_cons.mp h with h | h
            · cases h
              rcases hc with ⟨e, he, e1⟩ | hc
              · exact .inl (List.mem_map.mpr ⟨e, he, e1⟩)
              · exact absurd hc h'
            · exact .inr ⟨h, h'⟩
      · next hc =>
        simp only [Bool.or_eq_true, List.any_eq_true, beq_iff_eq, List.contains_iff_mem, not_or] at hc
        rw [ih]
        constructor
        · rintro (h | ⟨h, h'⟩)
          · obtain ⟨e, he, rfl⟩ := List.mem_map.mp h
            rcases insertKey_mem.mp he with rfl | he
            · exact .inr ⟨List.mem_cons_self, hc.2⟩
            · exact .inl (List.mem_map.mpr ⟨e, he, rfl⟩)
          · exact .inr ⟨List.mem_cons_of_mem _ h, h'⟩
        · rintro (h | ⟨h, h'⟩)
          · obtain ⟨e, he, rfl⟩ := List.mem_map.mp h
            exact .inl (List.mem_map.mpr ⟨e, insertKey_mem.mpr (.inr he), rfl⟩)
          · rcases List.mem_cons.mp h with h | h
            · cases h
              exact .inl (List.mem_map.mpr ⟨_, insertKey_mem.mpr (.inl rfl), rfl⟩)
            · exact .inr ⟨h, h'⟩

theorem mountLabels_mem (w : ExportWorld) (exported : List (List Char)) (b d : List Char) (m : List (List Char × List Char))
    (pl : List PathLabel) (p : List Char) :
    p ∈ (mountLabels w exported b d m pl).map (·.1) ↔
      p ∈ pl.map (·.1) ∨ ((∃ dev, (p, dev) ∈ m ∧ b <+: dev) ∧ p ∉ exported) := by
  induction m generalizing pl with
  | nil => simp [mountLabels]
  | cons x r ih =>
    obtain ⟨q, dev⟩ := x
    unfold mountLabels
    split
    · next hc =>
      simp only [Bool.or_eq_true, List.any_eq_true, beq_iff_eq, List.contains_iff_mem] at hc
      rw [ih]
      constructor
      · rintro (h | ⟨⟨v, h, hb⟩, h'⟩)
        · exact .inl h
        · exact .inr ⟨⟨v, List.mem_cons_of_mem _ h, hb⟩, h'⟩
      · rintro (h | ⟨⟨v, h, hb⟩, h'⟩)
        · exact .inl h
        · rcases List.mem_cons.mp h with h | h
          · cases h
            rcases hc with ⟨e, he, e1⟩ | hc
            · exact .inl (List.mem_map.mpr ⟨e, he, e1⟩)
            · exact absurd hc h'
          · exact .inr ⟨⟨v, h, hb⟩, h'⟩
    · next hc =>
      simp only [Bool.or_eq_true, List.any_eq_true, beq_iff_eq, List.contains_iff_mem, not_or] at hc
      split
      · next hb =>
        have hb := List.isPrefixOf_iff_prefix.mp hb
        rw [ih]
        constructor
        · rintro (h | ⟨⟨v, h, hb⟩, h'⟩)
          · obtain ⟨e, he, rfl⟩ := List.mem_map.mp h
            rcases insertKey_mem.mp he with rfl | he
            · exact .inr ⟨⟨dev, List.mem_cons_self, hb⟩, hc.2⟩
            · exact .inl (List.mem_map.mpr ⟨e, he, rfl⟩)
          · exact .inr ⟨⟨v, List.mem_cons_of_mem _ h, hb⟩, h'⟩
        · rintro (h | ⟨⟨v, h, hb'⟩, h'⟩)
          · obtain ⟨e, he, rfl⟩ := List.mem_map.mp h
            exact .inl (List.mem_map.mpr ⟨e, insertKey_mem.mpr (.inr he), rfl⟩)
          · rcases List.mem_cons.mp h with h | h
            · cases h
              exact .inl (List.mem_map.mpr ⟨_, insertKey_mem.mpr (.inl rfl), rfl⟩)
            · exact .inr ⟨⟨v, h, hb'⟩, h'⟩
      · next hb =>
        rw [ih]
        constructor
        · rintro (h | ⟨⟨v, h, hb'⟩, h'⟩)
          · exact .inl h
          · exact .inr ⟨⟨v, List.mem_cons_of_mem _ h, hb'⟩, h'⟩
        · rintro (h | ⟨⟨v, h, hb'⟩, h'⟩)
          · exact .inl h
          · rcases List.mem_cons.mp h with h | h
            · cases h
              exact absurd (List.isPrefixOf_iff_prefix.mpr hb') hb
            · exact .inr ⟨⟨v, h, hb'⟩, h'⟩

end Mtp
