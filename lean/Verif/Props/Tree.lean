import Verif.Lemmas.TreeStep
import Verif.Lemmas.TreeDead
/-! Property theorems C18, C20, C23: the object tree of a storage under arbitrary histories. -/
namespace Props
open Mtp Spec

/-- C18. Enumerate any storage directory (that is not itself excluded) and run any history of host operations and
notifications satisfying `OpOk`, with any file-system refusals: the tree stays well formed. The bound says that
fewer than 2^32-1 handles were requested since the daemon started. Missing for the full property: the
operations `OpOk` excludes, see `C18_slash_in_name_violated`, `C18_move_rename_violated`. -/
theorem C18_well_formed_partial (rp : Path) (excl : List Path) (pol : SymPolicy) (pu : AMap Path Nat)
    (fs : Nat → Bool) (asked ids : Nat) (link : Option (Option Path)) (fmt : Nat) (es : List (Path × Disk))
    (hd : DisksOk es) (hr : (Tree.empty rp excl pol pu fs asked ids).refused rp link = false)
    (ops : List Tree.Op)
    (hops : HistOk ((Tree.empty rp excl pol pu fs asked ids).enumerate (.node link fmt es)) ops)
    (hb : (((Tree.empty rp excl pol pu fs asked ids).enumerate (.node link fmt es)).run ops).asked < 0xFFFFFFFF) :
    TreeWF (((Tree.empty rp excl pol pu fs asked ids).enumerate (.node link fmt es)).run ops) := by
  obtain ⟨w, i⟩ := enumerate_ok rp excl pol pu fs asked ids link fmt es hd hr
    (Nat.lt_of_le_of_lt (run_asked ops _) hb)
  exact (treeRun_ok ops w i hops hb).1

/-- C18. One operation in any well-formed tree (not only in enumerated ones). -/
theorem C18_one_operation_partial {t : Tree} (w : TreeWF t) (hi : Issued t) (op : Tree.Op) (ok : OpOk t op)
    (hb : (t.step op).asked < 0xFFFFFFFF) : TreeWF (t.step op) ∧ Issued (t.step op) :=
  ⟨(treeStep_ok w hi op ok hb).wf, (treeStep_ok w hi op ok hb).issued⟩

/-- A storage directory with a directory "d" containing a file "x", and a file "y". -/
def demoDisk : Disk :=
  .node none ASSOC [(['d'], .node none ASSOC [(['x'], .node none 0x3000 [])]), (['y'], .node none 0x3004 [])]

/-- The storage over it at "/s"; handles: root 0, "d" 1, "x" 2, "y" 3. -/
def demoTree : Tree := (Tree.empty ['/', 's'] [] .denyAll [] (fun _ => true) 0 0).enumerate demoDisk

theorem demoTree_wf : TreeWF demoTree ∧ Issued demoTree :=
  enumerate_ok _ _ _ _ _ _ _ _ _ _ (by simp [DisksOk, DiskOk]) (by decide) (by decide +kernel)

theorem demoTree_items : demoTree.get 1 = some ⟨['/','s','/','d'], ['d'], ASSOC, 0, some 0, [2], 2⟩ ∧
    demoTree.get 2 = some ⟨['/','s','/','d','/','x'], ['x'], UNDEF, 1, some 1, [], 3⟩ ∧
    demoTree.get 3 = some ⟨['/','s','/','y'], ['y'], 0x3004, 0, some 0, [], 4⟩ ∧ demoTree.asked = 3 := by
  decide +kernel

/-- The hypotheses of `C18_well_formed_partial` are met by a history with an addition, a rename, a move, a
notified creation and a deletion, and the tree changes as expected. -/
def demoOps : List Tree.Op :=
  [.add ⟨['n'], ASSOC, 1⟩ (.node none ASSOC []), .rename 3 ['z'], .fsCreate 4 ['q'] (.node none 0x3004 []),
   .fsMove 0 ['z'] 4 ['z'] 0x3004, .delete 2 0]

theorem demoOps_effect : (demoTree.run demoOps).get 3 =
      some ⟨"/s/d/n/z".toList, ['z'], 0x3004, 4, some 4, [], 4⟩ ∧
    (demoTree.run demoOps).get 5 = some ⟨"/s/d/n/q".toList, ['q'], 0x3004, 4, some 4, [], 6⟩ ∧
    (demoTree.run demoOps).get 2 = none ∧ (demoTree.run demoOps).asked = 5 := by
  decide +kernel

/-- `demoTree` after the first three operations of `demoOps`. -/
def demoTree3 : Tree := demoTree.run
  [.add ⟨['n'], ASSOC, 1⟩ (.node none ASSOC []), .rename 3 ['z'], .fsCreate 4 ['q'] (.node none 0x3004 [])]

theorem demoOps_ok : HistOk demoTree demoOps := by
  refine ⟨by simp [OpOk, DiskOk, DisksOk], trivial, by simp [OpOk, DiskOk, DisksOk], ?_, trivial, trivial⟩
  have h : demoTree3.get 0 = some ⟨"/s".toList, ['s'], ASSOC, 0, none, [3, 1], 1⟩ ∧
      demoTree3.get 4 = some ⟨"/s/d/n".toList, ['n'], ASSOC, 1, some 1, [5], 5⟩ ∧
      demoTree3.get 3 = some ⟨"/s/z".toList, ['z'], 0x3004, 0, some 0, [], 4⟩ ∧
      AMap.get demoTree3.paths "/s/z".toList = some 3 ∧
      AMap.get demoTree3.paths "/s/d/n/z".toList = none := by decide +kernel
  have w : TreeWF demoTree3 := (treeRun_ok [.add ⟨['n'], ASSOC, 1⟩ (.node none ASSOC []), .rename 3 ['z'],
    .fsCreate 4 ['q'] (.node none 0x3004 [])] demoTree_wf.1 demoTree_wf.2
    ⟨by simp [OpOk, DiskOk, DisksOk], trivial, by simp [OpOk, DiskOk, DisksOk], trivial⟩ (by decide +kernel)).1
  change OpOk demoTree3 _
  generalize demoTree3 = t at *
  obtain ⟨h0, h4, h3, p1, p2⟩ := h
  refine ⟨by decide, by decide, ?_⟩
  intro i1 i2 x e1 e2 ex
  rw [h0] at e1; cases e1
  rw [h4] at e2; cases e2
  have : x = 3 := by
    have : AMap.get t.paths "/s/z".toList = some x := ex
    rw [p1] at this; exact (Option.some.inj this).symm
  subst this
  refine ⟨fun hb => ?_, fun _ => p2⟩
  have := (w.below_iff h3 h4).mp hb
  rcases this with h | ⟨s, h⟩
  · revert h; decide
  · simp [join] at h

/-- C18 is violated by a host that puts a separator in the name of a new object: an object named "d/w" is
created in the root, listed as a child of "d" while its parent property says root. -/
theorem C18_slash_in_name_violated :
    let t := demoTree.step (.add ⟨['d', '/', 'w'], 0x3004, 0⟩ (.node none 0x3004 []))
    (∃ it, t.get 4 = some it ∧ it.par = 0 ∧ it.parent = some 1 ∧ it.path = ['/','s','/','d','/','w'] ∧
      it.name = ['d', '/', 'w']) ∧ (∃ it, t.get 1 = some it ∧ 4 ∈ it.kids) ∧ ¬ TreeWF t := by
  have h : let t := demoTree.step (.add ⟨['d', '/', 'w'], 0x3004, 0⟩ (.node none 0x3004 []))
      t.get 4 = some ⟨['/','s','/','d','/','w'], ['d','/','w'], 0x3004, 0, some 1, [], 5⟩ ∧
      t.get 1 = some ⟨['/','s','/','d'], ['d'], ASSOC, 0, some 0, [4, 2], 2⟩ := by decide +kernel
  refine ⟨⟨_, h.1, rfl, rfl, rfl, rfl⟩, ⟨_, h.2, by simp⟩, fun w => ?_⟩
  obtain ⟨p, pit, h1, h2, _⟩ := w.parent 4 _ h.1 (by decide)
  cases h1; cases h2

/-- C18 is violated by a device-side `mv /s/y /s/d/v` while "/s/d" contains another object named "y": the moved
object is recorded at "/s/d/y", where another object already is. -/
theorem C18_move_rename_violated :
    let t0 := demoTree.step (.fsCreate 1 ['y'] (.node none 0x3004 []))
    let t := t0.step (.fsMove 0 ['y'] 1 ['v'] 0x3004)
    TreeWF t0 ∧ (∃ a b, t.get 3 = some a ∧ t.get 4 = some b ∧ a.path = b.path) ∧ ¬ TreeWF t := by
  have h : let t0 := demoTree.step (.fsCreate 1 ['y'] (.node none 0x3004 []))
      let t := t0.step (.fsMove 0 ['y'] 1 ['v'] 0x3004)
      t.get 3 = some ⟨"/s/d/y".toList, ['y'], 0x3004, 1, some 1, [], 4⟩ ∧
      t.get 4 = some ⟨"/s/d/y".toList, ['y'], 0x3004, 1, some 1, [], 5⟩ := by decide +kernel
  refine ⟨?_, ⟨_, _, h.1, h.2, rfl⟩, fun w => ?_⟩
  · exact (C18_one_operation_partial demoTree_wf.1 demoTree_wf.2 _ (by simp [OpOk, DiskOk, DisksOk])
      (by decide +kernel)).1
  · have := w.inj h.1 h.2 rfl
    cases this

/-! ### C20 -/

/-- The operation renames, moves or deletes object `a`. -/
def Touches (t : Tree) (a : Nat) : Tree.Op → Prop
  | .delete h fmt => h = a ∨ (h = ALL ∧ ∃ it, t.get a = some it ∧ (fmt = 0 ∨ fmt = UNDEF ∨ it.fmt = fmt))
  | .move h _ => h = a
  | .rename h _ => h = a
  | .fsDelete d n => ∃ it, t.get d = some it ∧ AMap.get t.paths (join it.path n) = some a
  | .fsMove d n _ _ _ => ∃ it, t.get d = some it ∧ AMap.get t.paths (join it.path n) = some a
  | _ => False

theorem below_shrunk {t t' : Tree} (s : Shrunk t t') {a x : Nat} (h : Below t' a x) : Below t a x := by
  induction h with
  | self => exact .self
  | child e1 e2 _ ih =>
    rcases s.item _ with h | ⟨ix, h1, h2⟩
    · rw [h] at e1; cases e1
    · rw [h2] at e1; cases e1
      exact .child h1 e2 ih

theorem shrunk_item {t t' : Tree} (s : Shrunk t t') {x : Nat} {ix : Item} (e : t.get x = some ix)
    (h : t'.has x = true) : ∃ ks, t'.get x = some { ix with kids := ks } := by
  obtain ⟨i, hi⟩ := has_iff.mp h
  rcases s.item x with h | ⟨iy, h1, h2⟩
  · rw [h] at hi; cases hi
  · rw [h1] at e; cases e; exact ⟨_, h2⟩

theorem delAll_keeps (fmt : Nat) {x : Nat} : ∀ (l : List (Nat × Item)) (t : Tree) (resp : Resp) (a b c : Bool),
    TreeWF t → t.has x = true → (∀ e ∈ l, (fmt = 0 ∨ fmt = UNDEF ∨ e.2.fmt = fmt) → ¬ Below t e.1 x) →
    (Tree.delAll fmt l t resp a b c).1.has x = true := by
  intro l
  induction l with
  | nil => intro t resp a b c _ h _; exact h
  | cons e l ih =>
    intro t resp a b c w hx hk
    obtain ⟨h, it⟩ := e
    unfold Tree.delAll
    dsimp only
    split
    · exact ih _ _ _ _ _ w hx (fun e he => hk e (List.mem_cons_of_mem _ he))
    · next hf =>
      have hm : fmt = 0 ∨ fmt = UNDEF ∨ it.fmt = fmt := by
        by_cases h1 : fmt = 0
        · exact Or.inl h1
        · by_cases h2 : fmt = UNDEF
          · exact Or.inr (Or.inl h2)
          · right; right
            by_cases h3 : it.fmt = fmt
            · exact h3
            · exact absurd ⟨⟨h1, h2⟩, h3⟩ hf
      exact ih _ _ _ _ _ (del_wf w _ _ _ _)
        (del_keeps w _ _ _ _ hx (hk (h, it) List.mem_cons_self hm))
        (fun e he hf hb => hk e (List.mem_cons_of_mem _ he) hf (below_shrunk (del_shrunk w _ _ _ _) hb))

/-- C20. One operation: an object keeps its handle, path, name, format, parent and persistent id if the operation
does not rename, move or delete it or an ancestor. -/
theorem C20_frame_partial {t : Tree} (w : TreeWF t) (hi : Issued t) (op : Tree.Op) (ok : OpOk t op)
    (hb : (t.step op).asked < 0xFFFFFFFF) {x : Nat} {ix : Item} (e : t.get x = some ix)
    (hnt : ∀ a, Below t a x → ¬ Touches t a op) : ∃ ks, (t.step op).get x = some { ix with kids := ks } := by
  have grown : ∀ {k t'}, Grown k t t' → ∃ ks, t'.get x = some { ix with kids := ks } := by
    intro k t' g
    obtain ⟨l, h⟩ := g.item x ix e
    exact ⟨_, h⟩
  have same : ∀ {t' : Tree}, t'.items = t.items → ∃ ks, t'.get x = some { ix with kids := ks } := by
    intro t' h
    refine ⟨ix.kids, ?_⟩
    unfold Tree.get; rw [h]; exact e
  cases op with
  | add i d =>
    change (t.addItem i d).1.asked < _ at hb
    show ∃ ks, (t.addItem i d).1.get x = _
    unfold Tree.addItem at hb ⊢
    dsimp only at hb ⊢
    generalize hj : (if i.par = ALL then { i with par := 0 } else i : Tree.Info) = j at hb ⊢
    have hjn : j.name = i.name := by rw [← hj]; split <;> rfl
    split
    · exact same rfl
    · next p ep =>
      simp only [ep] at hb
      exact grown (add_spec w hi ep (by rw [hjn]; exact ok.1) d ok.2 (some j)
        (fun i' e => by cases e; exact ⟨rfl, rfl⟩) false true 0 (by simp) (Nat.zero_le _) hb).2.2
  | adopt i d h =>
    change (t.adopt i d h).1.asked < _ at hb
    show ∃ ks, (t.adopt i d h).1.get x = _
    unfold Tree.adopt at hb ⊢
    split
    · exact same rfl
    · next hnh =>
      rw [if_neg hnh] at hb
      dsimp only at hb ⊢
      generalize hj : (if i.par = ALL then { i with par := 0 } else i : Tree.Info) = j at hb ⊢
      have hjn : j.name = i.name := by rw [← hj]; split <;> rfl
      split
      · exact same rfl
      · next p ep =>
        simp only [ep] at hb
        exact grown (add_spec w hi ep (by rw [hjn]; exact ok.1) d ok.2.1 (some j)
          (fun i' e => by cases e; exact ⟨rfl, rfl⟩)
          false true h (fun _ => has_false.mp (by simpa using hnh)) ok.2.2.2 hb).2.2
  | delete h fmt =>
    show ∃ ks, (t.deleteItem h fmt).1.get x = _
    refine shrunk_item (deleteItem_spec w h fmt).2 e ?_
    unfold Tree.deleteItem
    split
    · next hall =>
      refine delAll_keeps fmt t.items t .generalError false false false w (has_iff.mpr ⟨ix, e⟩) ?_
      intro en hm hf hbl
      have hg : t.get en.1 = some en.2 := AMap.get_of_mem w.nodup hm
      exact hnt en.1 hbl (Or.inr ⟨hall, _, hg, hf⟩)
    · exact del_keeps w _ _ _ _ (has_iff.mpr ⟨ix, e⟩) (fun hbl => hnt h hbl (Or.inl rfl))
  | move h p =>
    show ∃ ks, (t.move h p true).1.get x = _
    rcases move_cases (t := t) h p true with ⟨h1, _⟩ | ⟨it, pit, eh, ep, hf, hc, _, eq⟩
    · exact same h1
    · obtain ⟨hfree, hnb⟩ := ok it pit eh ep (hf rfl)
      have h0 : h ≠ 0 := by rintro rfl; exact hnb (w.below_root ep)
      have hnu : ¬ Under it.path pit.path := fun hu => hnb ((w.below_iff eh ep).mpr hu)
      rw [eq]
      have R := relocate_relocated (WF_tick w (t.tick + 1)) eh h0 ep hnu hfree
      obtain ⟨ks, hks, _⟩ := R.1.out x ix e (fun hu => hnt h ((w.below_iff eh e).mpr hu) rfl)
      exact ⟨ks, hks⟩
  | rename h n =>
    show ∃ ks, (t.rename h n).1.get x = _
    rcases rename_cases w h n with ⟨h1, _⟩ | ⟨it, p, pit, eh, h0, hpar, hp, hv, hsl, hfree, hg, _, eq⟩
    · exact same h1
    · have R := repath_relocated (WF_tick w (t.tick + 1)) eh h0 hpar hp hsl hfree
      obtain ⟨ks, hks, _⟩ := R.1.out x ix e (fun hu => hnt h ((w.below_iff eh e).mpr hu) rfl)
      rw [eq]
      exact ⟨ks, hks⟩
  | fsCreate d n k =>
    change (t.fsCreate d n k).asked < _ at hb
    show ∃ ks, (t.fsCreate d n k).get x = _
    unfold Tree.fsCreate at hb ⊢
    split
    · exact same rfl
    · next dit ed =>
      simp only [ed] at hb
      split
      · exact same rfl
      · next hc =>
        rw [if_neg hc] at hb
        exact grown (add_spec w hi ed ok.1 k ok.2 none (fun i' e => by cases e)
          true false 0 (by simp) (Nat.zero_le _) hb).2.2
  | fsDelete d n =>
    show ∃ ks, (t.fsDelete d n).get x = _
    unfold Tree.fsDelete
    split
    · exact same rfl
    · next dit ed =>
      split
      · exact same rfl
      · next h eh =>
        exact shrunk_item (del_shrunk w _ _ _ _) e
          (del_keeps w _ _ _ _ (has_iff.mpr ⟨ix, e⟩) (fun hbl => hnt h hbl ⟨dit, ed, eh⟩))
  | fsMove d1 n1 d2 n2 fmt =>
    show ∃ ks, (t.fsMove d1 n1 d2 n2 fmt).get x = _
    rcases fsMove_cases (t := t) d1 n1 d2 n2 fmt with h | ⟨i1, i2, h, it, hne, e1, e2, ep, h0, eh, hc⟩
    · rw [h]; exact same rfl
    · have hnbx : ¬ Below t h x := fun hbl => hnt h hbl ⟨i1, e1, ep⟩
      have hnux : ¬ Under it.path ix.path := fun hu => hnbx ((w.below_iff eh e).mpr hu)
      rcases hc with ⟨_, hc⟩ | ⟨hfree, hc⟩
      · rw [hc]
        exact shrunk_item (del_shrunk w _ _ _ _) e (del_keeps w _ _ _ _ (has_iff.mpr ⟨ix, e⟩) hnbx)
      · rw [hc]
        have hxh : x ≠ h := by rintro rfl; exact hnbx .self
        obtain ⟨ok1, ok2, ok3⟩ := ok
        obtain ⟨hnb, hcr⟩ := ok3 i1 i2 h e1 e2 ep
        have hnu : ¬ Under it.path i2.path := fun hu => hnb ((w.below_iff eh e2).mpr hu)
        obtain ⟨iy, y1, y2⟩ := w.ofPath _ _ ep
        rw [eh] at y1; cases y1
        obtain ⟨q, qit, q1, q2, q3, q4, q5, q6⟩ := w.parent h it eh h0
        have hqe := join_inj (y2.symm.trans q5) ok1 q6
        have hqd : q = d1 := w.inj q3 e1 hqe.1.symm
        have hget : ∀ (t' : Tree), ((t'.upd h (fun i => { i with name := baseOf i.path, fmt := fmt, par := i.parent.getD 0 })).emit
            true (.infoChanged h)).get x = t'.get x := by
          intro t'
          show AMap.get (Tree.emit _ _ _).items x = _
          rw [(Tree.emit_eq _ _ _).1]
          show (Tree.upd _ _ _).get x = _
          rw [Tree.get_upd, if_neg hxh]
        rw [hget]
        split
        · next hd =>
          subst hd
          rw [e1] at e2; cases e2
          subst hqd
          obtain ⟨ks, hks, _⟩ := (repath_relocated w eh h0 q1 e1 ok2 hfree).1.out x ix e hnux
          exact ⟨ks, hks⟩
        · next hd =>
          have hfr := hcr hd
          rw [hqe.2] at hfr
          rcases move_cases (t := t) h d2 false with ⟨h1, _⟩ | ⟨it', pit, e', ep', hf, hc, _, eq⟩
          · exact same h1
          · rw [eh] at e'; cases e'
            rw [e2] at ep'; cases ep'
            rw [eq]
            obtain ⟨ks, hks, _⟩ := (relocate_relocated w eh h0 e2 hnu hfr).1.out x ix e hnux
            exact ⟨ks, hks⟩
  | other n => exact same rfl

/-- No operation of the history renames, moves or deletes `x` or an ancestor it has at that time. -/
def Untouched (x : Nat) : Tree → List Tree.Op → Prop
  | _, [] => True
  | t, op :: r => (∀ a, Below t a x → ¬ Touches t a op) ∧ Untouched x (t.step op) r

/-- C20. A handle denotes the same object, with the same path, name, parent and persistent id, throughout any history
that does not rename, move or delete it or an ancestor. Missing: the operations excluded by `OpOk` (see C18). -/
theorem C20_handle_stable_partial (ops : List Tree.Op) : ∀ {t : Tree}, TreeWF t → Issued t → HistOk t ops →
    (t.run ops).asked < 0xFFFFFFFF → ∀ {x : Nat} {ix : Item}, t.get x = some ix → Untouched x t ops →
    ∃ ks, (t.run ops).get x = some { ix with kids := ks } := by
  induction ops with
  | nil => intro t _ _ _ _ x ix e _; exact ⟨_, e⟩
  | cons op ops ih =>
    intro t w hi ok hb x ix e hu
    have hb1 := Nat.lt_of_le_of_lt (run_asked ops _) hb
    have s := treeStep_ok w hi op ok.1 hb1
    obtain ⟨ks, e1⟩ := C20_frame_partial w hi op ok.1 hb1 e hu.1
    obtain ⟨ks', e2⟩ := ih s.wf s.issued ok.2 hb e1 hu.2
    exact ⟨ks', e2⟩

/-- C20. The handle of a deleted object is not given to another object, over any history of any operations, while fewer
than 2^32 - 1 handles were given out (unless a move from another storage brings the handle in). -/
theorem C20_handle_not_reused (ops ops' : List Tree.Op) {t : Tree} (hi : Issued t)
    (hb : ((t.run ops).run ops').asked < 0xFFFFFFFF)
    {x : Nat} (h0 : x ≠ 0) (hx : t.has x = true) (hd : (t.run ops).has x = false)
    (hna : ∀ i d, Tree.Op.adopt i d x ∉ ops') : ((t.run ops).run ops').has x = false := by
  obtain ⟨ix, e⟩ := has_iff.mp hx
  exact run_stays_dead ops' hb (Nat.le_trans (hi x ix e) (run_asked ops t)) hd h0 hna

/-- C20 is violated by a device-side `mv /s/y /s/d/v` while "/s/d" contains another object named "y": handle 3 (the moved
file) then reads and writes the file of handle 4. -/
theorem C20_other_object_violated :
    let t0 := demoTree.step (.fsCreate 1 ['y'] (.node none 0x3004 []))
    let t := t0.step (.fsMove 0 ['y'] 1 ['v'] 0x3004)
    (t0.get 3).map (·.path) = some "/s/y".toList ∧ (t0.get 4).map (·.path) = some "/s/d/y".toList ∧
    (t.get 3).map (·.path) = some "/s/d/y".toList ∧ (t.get 4).map (·.path) = some "/s/d/y".toList := by decide +kernel

/-- Witness for C20: in `demoOps` (which is fine by `demoOps_ok`) object 2 is deleted and object 1 untouched. -/
theorem C20_witness : (demoTree.run demoOps).has 2 = false ∧ (demoTree.run demoOps).has 1 = true ∧
    demoTree.has 2 = true := by decide +kernel

end Props
