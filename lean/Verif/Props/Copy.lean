import Verif.Spec.Copy
import Verif.Lemmas.CopyDone
import Verif.Lemmas.CopyKeep
import Verif.Props.Delete
import Verif.Props.Move
import Verif.Props.Handles
/-! Property theorems C71–C73: CopyObject, MoveObject to another storage, watches. -/
namespace Props
open Mtp Spec

theorem free_path {t : Tree} (w : TreeWF t) {q : Path} (free : ∀ x ix, t.get x = some ix → ix.path ≠ q) :
    AMap.get t.paths q = none := by
  cases e : AMap.get t.paths q with
  | none => rfl
  | some x =>
    obtain ⟨ix, e1, e2⟩ := w.ofPath _ _ e
    exact absurd e2 (free x ix e1)

theorem reads_below {src : CopySrc} {c : Cp} {h : Nat} {it : Item} (ws : TreeWF (src.tree c))
    (hs : (src.tree c).get h = some it) :
    Cp.Reads src (src.tree c) (src.data c) (Below (src.tree c) h) c := by
  refine ⟨fun x hx => below_get hs hx, fun x ix k hx e hk => ?_, fun _ _ => rfl, fun _ _ => rfl⟩
  obtain ⟨ki, k1, k2, _⟩ := ws.kid e hk
  exact .child k1 k2 hx

theorem copyOf_grafts {s : Tree} (ws : TreeWF s) (leaf : FoldersOnly s) {D : Nat → List UInt8} {c c' : Cp} {h y p : Nat}
    {it pit : Item} (w : TreeWF c.t) (hi : Issued c.t) (h0 : h ≠ 0) (hs : s.get h = some it)
    (hp : c.t.get p = some pit) {m : List (Nat × Nat)} (g : Grafts s c.t p [h] c'.t ((h, y) :: m))
    (ca : Cp.Carried s D p c c' ((h, y) :: m)) : CopyOf s D h c.t c.data p c'.t c'.data ((h, y) :: m) := by
  obtain ⟨q, qi, q1, _, q3, _, q5, q6⟩ := ws.parent h it hs h0
  have G := grafts_spec ws leaf g pit qi.path w hi hp (InDir.one ws hs h0 q1 q3)
  generalize hm : (h, y) :: m = M at *
  refine ⟨fun x => ⟨fun hb => G.all h (by simp) x hb, fun ⟨y, hy⟩ => ?_⟩, fun y => ?_, ⟨G.nodup1, G.nodup2⟩, ?_,
    ca.files, ?_, ?_, G.wf⟩
  · obtain ⟨k, hk, hb, _⟩ := G.pair x y hy
    rw [List.mem_singleton] at hk; subst hk; exact hb
  · rw [has_false]; exact G.new y
  · intro x y hxy
    obtain ⟨k, hk, hb, xi, yi, e1, e2, e3, e4, e5, e6⟩ := G.pair x y hxy
    rw [List.mem_singleton] at hk; subst hk
    refine ⟨it, pit, xi, yi, hs, hp, e1, e2, e3, e4, ?_⟩
    have hu := (ws.below_iff hs e1).mp hb
    rw [q5] at hu ⊢
    rw [e6, (reprefix_below qi.path pit.path it.name xi.path hu).1]
  · intro x xi e
    by_cases hx : x = p
    · subst hx
      rw [hp] at e; cases e
      obtain ⟨l, hl⟩ := G.par
      exact ⟨l, hl, fun h => absurd rfl h⟩
    · exact ⟨[], by simpa using G.old x xi e hx, fun _ => rfl⟩
  · intro x hx
    refine ca.others x (fun a ha => ?_)
    have := ((G.new x).mpr ⟨a, ha⟩).2
    rw [has_false.mpr this] at hx; cases hx

/-- C71. CopyObject answered OK, to a free place of the same or another storage: the object and everything in it now
exists a second time below the destination folder, with the same names, formats, relative paths and contents, under
handles that were not in use; the originals and every other object are unchanged. `Faithful`: single file copies
answered OK are exact, which is C30. A folder must not be copied into itself (`C71_into_itself_violated`). -/
theorem C71_copy_partial {env : CopyEnv} (hfa : Cp.Faithful env) {src : CopySrc} {c c' : Cp} {h p y n : Nat}
    {it pit : Item} (ws : TreeWF (src.tree c)) (leaf : FoldersOnly (src.tree c)) (w : TreeWF c.t) (hi : Issued c.t)
    (h0 : h ≠ 0) (hs : (src.tree c).get h = some it) (hp : c.t.get p = some pit)
    (into : src = none → ¬ Below c.t h p) (free : ∀ x ix, c.t.get x = some ix → ix.path ≠ join pit.path it.name)
    (run : Cp.copyObject env src n c h p = some (c', .ok, y)) (hb : c'.t.asked < 0xFFFFFFFF) :
    ∃ m, (h, y) ∈ m ∧ CopyOf (src.tree c) (src.data c) h c.t c.data p c'.t c'.data m := by
  have run' : Cp.copyTo env src n c h p true 0 = some (c', .ok, y) := by
    unfold Cp.copyObject at run
    split at run
    · cases run
    · exact run
  obtain ⟨_, _, _, _, _, _, _, hn⟩ := ws.parent h it hs h0
  obtain ⟨m, g, ca, _⟩ := Cp.copyTo_ok (D := src.data c) ws leaf hfa n p true 0 c c' h y pit it (Nat.zero_le _)
    (reads_below ws hs) .self
    (fun e => by subst e; exact into rfl) w hi hp hs hn (free_path w free) run' hb
  exact ⟨_, List.mem_cons_self, copyOf_grafts ws leaf w hi h0 hs hp g ca⟩

theorem pre_length_le {s : Tree} (ws : TreeWF s) {h : Nat} {it : Item} (hs : s.get h = some it) (n : Nat) :
    (pre n s h).length ≤ s.items.length := by
  have := (pre_nodup ws n h).length_le_of_subset (l₂ := s.items.map (·.1)) (fun x hx => by
    obtain ⟨ix, e, _⟩ := mem_pre ws hs hx
    exact List.mem_map.mpr ⟨_, AMap.mem_of_get e, rfl⟩)
  simpa using this

/-- C71. If nothing is refused (enough space, no cancellation, files can be written, handles are left), the copy comes
to an end and is answered OK. -/
theorem C71_completes_partial {env : CopyEnv} (hfa : Cp.Faithful env) {src : CopySrc} {c : Cp} {h p n : Nat}
    {it pit : Item} (ws : TreeWF (src.tree c)) (leaf : FoldersOnly (src.tree c)) (w : TreeWF c.t) (hi : Issued c.t)
    (h0 : h ≠ 0) (hs : (src.tree c).get h = some it) (hp : c.t.get p = some pit)
    (into : src = none → ¬ Below c.t h p) (free : ∀ x ix, c.t.get x = some ix → ix.path ≠ join pit.path it.name)
    (hg : Cp.Grants env c.t) (hn : ∀ x ix, (src.tree c).get x = some ix → ix.path.length < n)
    (ha : c.t.asked + (src.tree c).items.length < 0xFFFFFFFF) :
    ∃ c' y, Cp.copyObject env src n c h p = some (c', .ok, y) ∧ c'.t.asked < 0xFFFFFFFF := by
  obtain ⟨_, _, _, _, _, _, _, hname⟩ := ws.parent h it hs h0
  have hl := pre_length_le ws hs n
  obtain ⟨c', y, e, ha'⟩ := Cp.copyTo_done (D := src.data c) ws leaf hfa n p true 0 c h pit it (reads_below ws hs) .self
    (fun e => by subst e; exact into rfl) w hi hp hs hname (free_path w free) hg
    (fun x ix e => by have := hn x ix e; omega) (by omega)
  refine ⟨c', y, ?_, by omega⟩
  dsimp only at e
  unfold Cp.copyObject
  rw [e]

/-- C71. However the copy ends – cancelled, out of space, refused half way – every object that was in the storage is
still there unchanged, with its contents (its folder may have got new children). -/
theorem C71_nothing_lost_partial {env : CopyEnv} (hfa : Cp.Faithful env) {src : CopySrc} {c c' : Cp} {h p y n : Nat}
    {r : Resp} {it pit : Item} (ws : TreeWF (src.tree c)) (leaf : FoldersOnly (src.tree c)) (w : TreeWF c.t)
    (hi : Issued c.t) (h0 : h ≠ 0) (hs : (src.tree c).get h = some it) (hp : c.t.get p = some pit)
    (into : src = none → ¬ Below c.t h p) (free : ∀ x ix, c.t.get x = some ix → ix.path ≠ join pit.path it.name)
    (run : Cp.copyObject env src n c h p = some (c', r, y)) (hb : c'.t.asked < 0xFFFFFFFF) :
    TreeWF c'.t ∧
    (∀ x ix, c.t.get x = some ix → ∃ l, c'.t.get x = some { ix with kids := l ++ ix.kids } ∧ (x ≠ p → l = [])) ∧
    ∀ x, c.t.has x = true → c'.data x = c.data x := by
  obtain ⟨_, _, _, _, _, _, _, hname⟩ := ws.parent h it hs h0
  have key : ∀ c1 r1 y1, Cp.copyTo env src n c h p true 0 = some (c1, r1, y1) → c1.t.asked < 0xFFFFFFFF →
      Cp.Keeps c c1 p ∧ (y1 = 0 ∨ (c.t.get y1 = none ∧ y1 ≠ ALL)) := fun c1 r1 y1 e hb1 =>
    Cp.copyTo_keeps (D := src.data c) ws leaf hfa n p true 0 c c1 h y1 r1 pit it (Nat.zero_le _) (reads_below ws hs)
      .self (fun e => by subst e; exact into rfl) w hi hp hs hname (free_path w free) e hb1
  have K : Cp.Keeps c c' p := by
    unfold Cp.copyObject at run
    split at run
    · next c1 y1 e =>
      simp only [Option.some.injEq, Prod.mk.injEq] at run
      obtain ⟨e1, _, e3⟩ := run
      have ht : c'.t = (c1.t.deleteItem y1 UNDEF).1 := by rw [← e1]
      have hd : c'.data = c1.data := by rw [← e1]
      have hb1 : c1.t.asked < 0xFFFFFFFF := by rw [ht, Cp.deleteItem_asked] at hb; exact hb
      obtain ⟨k, hy⟩ := key c1 _ y1 e hb1
      rcases hy with rfl | ⟨hy, hA⟩
      · obtain ⟨r0, r1, _⟩ := k.wf.root
        rw [C23_root_refused _ _ (has_iff.mpr ⟨r0, r1⟩)] at ht
        exact k.congr ht (fun x _ => by rw [hd])
      · exact k.trim w hy hA ht hd
    · exact (key _ _ _ run hb).1
  refine ⟨K.wf, fun x ix e => ?_, K.data⟩
  by_cases hx : x = p
  · subst hx
    obtain ⟨l, hl⟩ := K.par ix e
    exact ⟨l, hl, fun h => absurd rfl h⟩
  · exact ⟨[], by simpa using K.old x ix e hx, fun _ => rfl⟩

/-- C71 is violated for a folder copied into itself: the copy contains itself, and the recursion never ends (no bound
is enough; on a device it ends when the disk is full or a path is too long). -/
theorem C71_into_itself_violated {env : CopyEnv} (hg : ∀ k, env.full k = false) {c : Cp} {h : Nat} {it : Item}
    (w : TreeWF c.t) (hi : Issued c.t) (h0 : h ≠ 0) (hh : c.t.get h = some it) (hf : it.fmt = ASSOC)
    (free : ∀ x ix, c.t.get x = some ix → ix.path ≠ join it.path it.name) (hfs : ∀ k, c.t.fs k = true)
    (hex : c.t.excl = []) (n : Nat) (ha : c.t.asked + n < 0xFFFFFFFF) : Cp.copyObject env none n c h h = none := by
  obtain ⟨_, _, _, _, _, _, _, hname⟩ := w.parent h it hh h0
  unfold Cp.copyObject
  rw [Cp.copyTo_self_diverges hg n c h it true 0 w hi hh hf hname (free_path w free) hfs hex ha]

theorem taken_of_known {t : Tree} (w : TreeWF t) {p x : Nat} {pit ix : Item} {n : Path} (hp : t.get p = some pit)
    (hf : pit.fmt = ASSOC) (hpa : p ≠ ALL) (hn : '/' ∉ n) (hx : t.get x = some ix) (he : ix.path = join pit.path n) :
    Cp.taken t p (join pit.path n) = true := by
  have x0 : x ≠ 0 := by
    rintro rfl
    obtain ⟨r, r1, r2, _⟩ := w.root
    rw [hx] at r1; cases r1
    have := (w.under_root hp).length
    rw [← r2, he, join_length] at this; omega
  obtain ⟨q, qit, q1, q2, q3, q4, q5, q6⟩ := w.parent x ix hx x0
  have hq := join_inj (he.symm.trans q5) hn q6
  have hqp : q = p := w.inj q3 hp hq.1.symm
  subst hqp
  rw [hp] at q3; cases q3
  have hmem : x ∈ pit.kids := by
    rcases Classical.em (x ∈ pit.kids) with h | h
    · exact h
    · rw [List.count_eq_zero_of_not_mem h] at q4; cases q4
  unfold Cp.taken Tree.handles
  by_cases hq0 : q = 0
  · subst hq0
    rw [if_pos rfl]
    dsimp only
    rw [List.any_eq_true]
    refine ⟨x, List.mem_map.mpr ⟨(x, ix), List.mem_filter.mpr ⟨AMap.mem_of_get hx, ?_⟩, rfl⟩, ?_⟩
    · simp [Tree.fmtAll, x0]
    · rw [hx]; simp [he]
  · rw [if_neg hq0, if_neg hpa, hp]
    dsimp only
    rw [if_neg (by simp [hf])]
    dsimp only
    rw [List.any_eq_true]
    refine ⟨x, List.mem_filter.mpr ⟨hmem, ?_⟩, ?_⟩
    · rw [hx]; simp [Tree.fmtKids]
    · rw [hx]; simp [he]

/-- C71. Copying a folder to where something of that name already is, is refused and changes neither objects nor
contents. -/
theorem C71_folder_collision_refused {env : CopyEnv} {src : CopySrc} {c : Cp} {h p n x : Nat} {it pit ix : Item}
    (w : TreeWF c.t) (hs : (src.tree c).get h = some it) (hd : it.fmt = ASSOC) (hn : '/' ∉ it.name)
    (hp : c.t.get p = some pit) (hpf : pit.fmt = ASSOC) (hpa : p ≠ ALL) (hx : c.t.get x = some ix)
    (he : ix.path = join pit.path it.name) :
    ∃ c' r, Cp.copyObject env src (n + 1) c h p = some (c', r, 0) ∧ r ≠ .ok ∧ c'.data = c.data ∧ c'.watch = c.watch ∧
      ∀ y, c'.t.get y = c.t.get y := by
  have ht := taken_of_known w hp hpf hpa hn hx he
  have hc : Cp.copyTo env src (n + 1) c h p true 0 = if env.full c.k then some ({ c with k := c.k + 1 }, .storeFull, 0)
      else some ({ c with k := c.k + 1 }, .invalidParentObject, 0) := by
    rw [Cp.copyTo, hs]
    dsimp only
    rw [hp]
    dsimp only
    split
    · rfl
    · rw [if_pos (by simp [hd, ht])]
  unfold Cp.copyObject
  rw [hc]
  cases env.full c.k with
  | true =>
    refine ⟨_, _, rfl, by simp, rfl, rfl, fun y => ?_⟩
    have h0 := C23_root_refused c.t UNDEF (by obtain ⟨r, r1, _⟩ := w.root; exact has_iff.mpr ⟨r, r1⟩)
    show (c.t.deleteItem 0 UNDEF).1.get y = _
    have : (c.t.deleteItem 0 UNDEF).1 = c.t := by first | exact h0.1 | (rw [h0])
    rw [this]
  | false => exact ⟨_, _, rfl, by simp, rfl, rfl, fun y => rfl⟩

/-- Nothing is refused, and file copies are exact. -/
def demoGrants : CopyEnv := ⟨fun _ => false, fun _ => {}⟩

/-- The demo storage during a copy: "x" contains 7, "y" 8, 9; the folders are watched. -/
def demoCp : Cp := ⟨demoTreeN, fun h => if h = 2 then [7] else if h = 3 then [8, 9] else [], [0, 1, 4], 0⟩

theorem demoTreeN_wf : TreeWF demoTreeN ∧ Issued demoTreeN := by
  have := treeStep_ok demoTree_wf.1 demoTree_wf.2 (.add ⟨['n'], ASSOC, 0⟩ (.node none ASSOC []))
    (by simp [OpOk, DiskOk, DisksOk]) (by decide +kernel)
  exact ⟨this.wf, this.issued⟩

theorem all_items {t : Tree} {P : Nat → Item → Prop} (h : ∀ e ∈ t.items, P e.1 e.2) :
    ∀ x ix, t.get x = some ix → P x ix := fun x ix e => h (x, ix) (AMap.mem_of_get e)

/-- Witness for the theorems above: copying folder 1 (with file 2 in it) into the new folder 4. -/
theorem C71_witness : Cp.Faithful demoGrants ∧ TreeWF demoCp.t ∧ FoldersOnly demoCp.t ∧ Issued demoCp.t ∧
    Cp.Grants demoGrants demoCp.t ∧ ¬ Below demoCp.t 1 4 ∧
    (∃ it pit, demoCp.t.get 1 = some it ∧ demoCp.t.get 4 = some pit ∧
      ∀ x ix, demoCp.t.get x = some ix → ix.path ≠ join pit.path it.name) ∧
    ((Cp.copyObject demoGrants none 9 demoCp 1 4).map (fun r => (r.2.1, r.2.2, r.1.t.findByPath "/s/n/d/x".toList,
      r.1.data 6, r.1.t.items.length))) = some (.ok, 5, some 6, [7], 7) := by
  have wf := demoTreeN_wf
  have e1 : demoTreeN.get 1 = some ⟨"/s/d".toList, ['d'], ASSOC, 0, some 0, [2], 2⟩ ∧
      demoTreeN.get 4 = some ⟨"/s/n".toList, ['n'], ASSOC, 0, some 0, [], 5⟩ := by decide +kernel
  refine ⟨fun _ _ _ _ => rfl, wf.1, all_items (t := demoTreeN) (P := fun _ ix => ix.kids ≠ [] → ix.fmt = ASSOC)
    (by decide +kernel), wf.2, ⟨fun _ => rfl, fun _ => ⟨rfl, rfl⟩, fun _ => rfl, by decide +kernel⟩, ?_,
    ⟨_, _, e1.1, e1.2, all_items (t := demoTreeN) (P := fun _ ix => ix.path ≠ join "/s/n".toList ['d'])
    (by decide +kernel)⟩, by decide +kernel⟩
  intro h
  have := (wf.1.below_iff e1.1 e1.2).mp h
  rcases this with h | ⟨q, h⟩
  · revert h; decide
  · have := congrArg (List.take 4) h
    simp [join] at this

/-- The destination is occupied: a storage with files "/u/x" (content 1, 2, 3, handle 4). -/
def demoTarget : Cp :=
  ⟨(Tree.empty ['/', 'u'] [] .denyAll [] (fun _ => true) 4 5).enumerate (.node none ASSOC [(['x'], .node none UNDEF [])]),
    fun h => if h = 5 then [1, 2, 3] else [], [0], 0⟩

/-- C71 is violated for a file copied to where a file of that name exists: the copy is answered OK with the handle of
the existing file, whose contents are replaced. -/
theorem C71_overwrites_violated :
    let r := Cp.copyObject demoGrants (some (demoTreeN, demoCp.data)) 9 demoTarget 2 0
    demoTarget.t.has 5 = true ∧ demoTarget.data 5 = [1, 2, 3] ∧
    r.map (fun r => (r.2.1, r.2.2, r.1.data 5)) = some (.ok, 5, [7]) := by
  decide +kernel

/-- C71 is violated for an empty file copied to where a file of that name exists: the answer is OK, but the contents of
the existing file stay, so that the "copy" is not a copy. -/
theorem C71_empty_not_copied_violated :
    let r := Cp.copyObject demoGrants (some (demoTreeN, fun _ => [])) 9 demoTarget 2 0
    r.map (fun r => (r.2.1, r.2.2, r.1.data 5)) = some (.ok, 5, [1, 2, 3]) := by
  decide +kernel

/-- C71 is violated when a file is copied into its own folder and the host cancels: the original is deleted. -/
theorem C71_cancel_deletes_original_violated :
    let r := Cp.copyObject ⟨fun _ => false, fun _ => { cancelled := true }⟩ none 9 demoCp 2 1
    demoCp.t.has 2 = true ∧ r.map (fun r => (r.2.1, r.1.t.has 2)) = some (.generalError, false) := by
  decide +kernel

theorem copyHandle_all (env : CopyEnv) (s : Tree) (D : Nat → List UInt8) (n : Nat) (c : Cp) (h : Nat) :
    Cp.copyHandle env s D n c h ALL = Cp.copyHandle env s D n c h 0 := by
  cases n with
  | zero => rfl
  | succ n =>
    unfold Cp.copyHandle
    simp [show (0 : Nat) ≠ ALL from by decide]

/-- C72. MoveObject to a free place of another storage, answered OK: every object of the moved subtree is in the other
storage under the same handle, with the same name, format, relative path and contents; nothing else changed there; in
the old storage no object of the subtree is left (the moved folder itself only if the file system refused to remove it,
and then it is empty), and everything else is unchanged. Both storages take handles from one counter. -/
theorem C72_move_across_partial {env : CopyEnv} (hfa : Cp.Faithful env) {s s' : Tree} {D : Nat → List UInt8}
    {c c' : Cp} {h p n : Nat} {it pit : Item} (ws : TreeWF s) (leaf : FoldersOnly s) (his : Issued s) (w : TreeWF c.t)
    (hi : Issued c.t) (counter : s.asked = c.t.asked) (h0 : h ≠ 0) (hs : s.get h = some it)
    (hp : c.t.get (if p = ALL then 0 else p) = some pit)
    (free : ∀ x ix, c.t.get x = some ix → ix.path ≠ join pit.path it.name)
    (run : Cp.moveAcross env s D n c h p = some (s', c', .ok)) (hb : c'.t.asked < 0xFFFFFFFF) :
    (∃ m, (∀ a b, (a, b) ∈ m → a = b) ∧
      CopyOf s D h c.t c.data (if p = ALL then 0 else p) c'.t c'.data m) ∧
    (∀ x, Below s h x → s'.has x = false ∨
      (x = h ∧ it.kids ≠ [] ∧ s'.get h = some { it with kids := [] })) ∧
    (∀ x ix, s.get x = some ix → ¬ Below s h x →
      s'.get x = some { ix with kids := ix.kids.filter (fun c => s'.has c) }) ∧
    (∀ x, s'.has x = true → s.has x = true) := by
  obtain ⟨_, _, _, _, _, _, _, hname⟩ := ws.parent h it hs h0
  unfold Cp.moveAcross at run
  rw [has_iff.mpr ⟨it, hs⟩] at run
  simp only [Bool.not_true, Bool.false_eq_true, if_false] at run
  split at run
  · cases run
  · next c1 y e =>
    simp only [Option.some.injEq, Prod.mk.injEq] at run
    obtain ⟨e1, e2, e3⟩ := run
    subst e2
    have hask : s.asked < ALL := by
      have := Cp.copyHandle_asked _ _ _ _ _ _ _ _ _ _ e
      unfold ALL; omega
    have hle : ∀ x, Below s h x → x ≠ 0 ∧ x ≤ s.asked := by
      intro x hx
      obtain ⟨ix, ex⟩ := below_get hs hx
      refine ⟨?_, his x ix ex⟩
      rintro rfl
      have hu := (ws.below_iff hs ex).mp hx
      obtain ⟨r, r1, r2, r3⟩ := ws.root
      have hl := hu.length
      have hr := ws.under_root hs
      rw [ex] at r1; cases r1
      have : it.path = ix.path := by
        rcases hr with h | ⟨q, h⟩
        · rw [h, r2]
        · have := congrArg List.length h
          rw [join_length, ← r2] at this
          omega
      exact h0 (ws.inj hs ex this)
    have hA : h ≠ ALL := by
      have := (hle h .self).2
      omega
    have e' : Cp.copyHandle env s D n c h (if p = ALL then 0 else p) = some (c1, .ok, y) := by
      split
      · next hpA => subst hpA; rw [← copyHandle_all]; exact e
      · exact e
    obtain ⟨m, g, ca, kp⟩ := Cp.copyHandle_ok (B := Below s h) (D := D) ws leaf hfa hask hle n
      (if p = ALL then 0 else p) (by split <;> first | decide | assumption) c c1 h y pit it (by omega)
      (reads_below (src := some (s, D)) (c := c) ws hs) .self (fun e => by cases e) w hi hp hs hname
      (free_path w free) e' hb
    obtain ⟨a1, a2⟩ := C19_others_unchanged ws h UNDEF hA
    obtain ⟨_, _, b3, b4⟩ := (C19_answer_partial ws h UNDEF hA).1 e3
    subst e1
    refine ⟨⟨_, kp trivial, copyOf_grafts ws leaf w hi h0 hs hp g ca⟩, fun x hx => ?_, a1, a2⟩
    by_cases hxh : x = h
    · subst hxh
      rcases b4 it hs with g | g
      · exact Or.inl (has_false.mpr g)
      · exact Or.inr ⟨rfl, g⟩
    · exact Or.inl (b3 x hx hxh)
  · next c1 r y hne e =>
    simp only [Option.some.injEq, Prod.mk.injEq] at run
    exact absurd run.2.2 (by simpa using hne)

/-- The demo storage, having taken handles from a counter now at 5. -/
def demoFrom : Tree := { demoTreeN with asked := 5 }

/-- Witness: folder 1 with file 2 moves to the storage "/u", keeping the handles. -/
theorem C72_witness : TreeWF demoFrom ∧ Issued demoFrom ∧ FoldersOnly demoFrom ∧ TreeWF demoTarget.t ∧
    Issued demoTarget.t ∧ demoFrom.asked = demoTarget.t.asked ∧
    (∃ it pit, demoFrom.get 1 = some it ∧ demoTarget.t.get (if ALL = ALL then 0 else ALL) = some pit ∧
      ∀ x ix, demoTarget.t.get x = some ix → ix.path ≠ join pit.path it.name) ∧
    (Cp.moveAcross demoGrants demoFrom demoCp.data 9 demoTarget 1 ALL).map (fun r => (r.2.2,
      r.2.1.t.findByPath "/u/d".toList, r.2.1.t.findByPath "/u/d/x".toList, r.2.1.data 2)) =
      some (.ok, some 1, some 2, [7]) ∧
    (Cp.moveAcross demoGrants demoFrom demoCp.data 9 demoTarget 1 ALL).map (fun r => (r.1.has 1, r.1.has 2)) =
      some (false, false) := by
  have wt : TreeWF demoTarget.t ∧ Issued demoTarget.t :=
    enumerate_ok _ _ _ _ _ _ _ _ _ _ (by simp [DisksOk, DiskOk]) (by decide) (by decide +kernel)
  have e1 : demoFrom.get 1 = some ⟨"/s/d".toList, ['d'], ASSOC, 0, some 0, [2], 2⟩ ∧
      demoTarget.t.get 0 = some ⟨"/u".toList, ['u'], ASSOC, 0, none, [5], 6⟩ := by decide +kernel
  refine ⟨WF_congr demoTreeN_wf.1 rfl rfl rfl, fun x ix e => ?_, all_items (t := demoFrom)
    (P := fun _ ix => ix.kids ≠ [] → ix.fmt = ASSOC) (by decide +kernel), wt.1, wt.2, by decide +kernel,
    ⟨_, _, e1.1, e1.2, all_items (t := demoTarget.t) (P := fun _ ix => ix.path ≠ join "/u".toList ['d'])
      (by decide +kernel)⟩, by decide +kernel, by decide +kernel⟩
  exact Nat.le_trans (demoTreeN_wf.2 x ix e) (by decide +kernel)

/-- C72 is violated for an empty folder moved to where the other storage has a folder of that name: the answer is OK,
but the moved handle is gone from both storages. -/
theorem C72_handle_lost_violated :
    let other : Cp := ⟨(Tree.empty ['/', 'u'] [] .denyAll [] (fun _ => true) 4 5).enumerate
      (.node none ASSOC [(['n'], .node none ASSOC [])]), fun _ => [], [0], 0⟩
    demoFrom.has 4 = true ∧ (Cp.moveAcross demoGrants demoFrom demoCp.data 9 other 4 ALL).map (fun r => (r.2.2,
      r.1.has 4, r.2.1.t.has 4)) = some (.ok, false, false) := by
  decide +kernel

/-- C72 is violated when copying a file fails half way: the move is refused, and the handles copied so far are now in
both storages. -/
theorem C72_half_moved_violated :
    let env : CopyEnv := ⟨fun _ => false, fun _ => { resp := .generalError, made := fun _ => [] }⟩
    (Cp.moveAcross env demoFrom demoCp.data 9 demoTarget 1 ALL).map (fun r => (r.2.2, r.1.has 1, r.2.1.t.has 1,
      r.1.has 2, r.2.1.t.has 2)) = some (.generalError, true, true, true, true) := by
  decide +kernel

/-- C73. After a copy answered OK, to a free place: every folder that was watched for changes still is, and so is every
new folder; nothing else is, except the destination folder. -/
theorem C73_watched_partial {env : CopyEnv} (hfa : Cp.Faithful env) {src : CopySrc} {c c' : Cp} {h p y n : Nat}
    {it pit : Item} (ws : TreeWF (src.tree c)) (leaf : FoldersOnly (src.tree c)) (w : TreeWF c.t) (hi : Issued c.t)
    (h0 : h ≠ 0) (hs : (src.tree c).get h = some it) (hp : c.t.get p = some pit)
    (into : src = none → ¬ Below c.t h p) (free : ∀ x ix, c.t.get x = some ix → ix.path ≠ join pit.path it.name)
    (run : Cp.copyObject env src n c h p = some (c', .ok, y)) (hb : c'.t.asked < 0xFFFFFFFF) :
    (∀ x, x ∈ c.watch → x ∈ c'.watch) ∧
    (∀ x ix, c'.t.get x = some ix → ix.fmt = ASSOC → c.t.has x = false → x ∈ c'.watch) ∧
    (∀ x, x ∈ c'.watch → x ∈ c.watch ∨ x = p ∨ (c.t.has x = false ∧ ∃ ix, c'.t.get x = some ix ∧ ix.fmt = ASSOC)) := by
  have run' : Cp.copyTo env src n c h p true 0 = some (c', .ok, y) := by
    unfold Cp.copyObject at run
    split at run
    · cases run
    · exact run
  obtain ⟨_, _, _, _, _, _, _, hn⟩ := ws.parent h it hs h0
  obtain ⟨m, g, ca, _⟩ := Cp.copyTo_ok (D := src.data c) ws leaf hfa n p true 0 c c' h y pit it (Nat.zero_le _)
    (reads_below ws hs) .self
    (fun e => by subst e; exact into rfl) w hi hp hs hn (free_path w free) run' hb
  have C := copyOf_grafts ws leaf w hi h0 hs hp g ca
  refine ⟨ca.kept, fun x ix e hf hnew => ?_, fun x hx => ?_⟩
  · obtain ⟨a, ha⟩ := (C.new x).mp ⟨has_iff.mpr ⟨ix, e⟩, hnew⟩
    obtain ⟨_, _, ai, xi, _, _, e1, e2, _, e4, _⟩ := C.same a x ha
    rw [e] at e2; cases e2
    exact ca.folders a x ai ha e1 (by rw [← e4]; exact hf)
  · rcases ca.only x hx with h | h | ⟨a, ai, ha, e, hf⟩
    · exact Or.inl h
    · exact Or.inr (Or.inl h)
    · obtain ⟨_, _, ai', xi, _, _, e1, e2, _, e4, _⟩ := C.same a x ha
      rw [e] at e1; cases e1
      exact Or.inr (Or.inr ⟨((C.new x).mpr ⟨a, ha⟩).2, xi, e2, by rw [e4]; exact hf⟩)

theorem C73_witness : (Cp.copyObject demoGrants none 9 demoCp 1 4).map (fun r => (r.2.1, r.1.watch)) =
    some (.ok, [4, 5, 0, 1]) := by decide +kernel

/-- C73 is violated when a copy fails half way: the destination folder is no longer watched, so that later changes in it
are not noticed. -/
theorem C73_unwatched_violated :
    let env : CopyEnv := ⟨fun _ => false, fun _ => { resp := .generalError, made := fun _ => [] }⟩
    4 ∈ demoCp.watch ∧ (Cp.copyObject env none 9 demoCp 2 4).map (fun r => (r.2.1, r.1.watch)) =
      some (.generalError, [0, 1]) := by
  decide +kernel

end Props
