import Verif.Props.Tree
/-! Property theorems C21 (moving and renaming) and a violation of C14 (persistent ids after a move). -/
namespace Props
open Mtp Spec

/-- What the host sees after object `h` went from below `old` to below `p`, with path `Q` and name `nm`. -/
structure Moved (t t' : Tree) (h p : Nat) (Q nm : Path) : Prop where
  /-- the object keeps its handle, format, persistent id and children; new path, name and parent -/
  self : ∀ it, t.get h = some it →
    t'.get h = some { it with path := Q, name := nm, parent := some p, par := p }
  /-- every descendant keeps its handle, name, parent and children; its path has the prefix replaced -/
  below : ∀ it x ix, t.get h = some it → t.get x = some ix → Below t h x → x ≠ h →
    t'.get x = some { ix with path := reprefix it.path Q ix.path }
  /-- all other objects are unchanged but for the children of the old and new parent -/
  other : ∀ x ix, t.get x = some ix → ¬ Below t h x → ∃ ks, t'.get x = some { ix with kids := ks } ∧
    ∀ c, ks.count c = if c = h then (if x = p then 1 else 0) else ix.kids.count c
  /-- no object appears -/
  only : ∀ x, t'.has x = true → t.has x = true
  /-- the objects are found under their new paths, and nothing under the old ones -/
  found : ∀ it x ix, t.get h = some it → t.get x = some ix → Below t h x →
    t'.findByPath (reprefix it.path Q ix.path) = some x ∧ (¬ Under Q ix.path → t'.findByPath ix.path = none)

theorem moved_of_relocated {t t' : Tree} (w : TreeWF t) {h p : Nat} {it : Item} {Q nm : Path}
    (hh : t.get h = some it) (R : Relocated t t' h p it.path Q)
    (hs : t'.get h = some { it with path := Q, name := nm, parent := some p, par := p }) :
    Moved t t' h p Q nm := by
  refine ⟨?_, ?_, ?_, R.only, ?_⟩
  · intro it' e; rw [hh] at e; cases e; exact hs
  · intro it' x ix e ex hb hxh
    rw [hh] at e; cases e
    exact R.below x ix ex ((w.below_iff hh ex).mp hb) hxh
  · intro x ix ex hb
    exact R.out x ix ex (fun hu => hb ((w.below_iff hh ex).mpr hu))
  · intro it' x ix e ex hb
    rw [hh] at e; cases e
    have hu := (w.below_iff hh ex).mp hb
    refine ⟨?_, fun hq => ?_⟩
    · unfold Tree.findByPath
      rw [R.newPath x ix ex hu]
      have : t'.has x = true := by
        by_cases hx : x = h
        · subst hx; exact has_iff.mpr ⟨_, hs⟩
        · exact has_iff.mpr ⟨_, R.below x ix ex hu hx⟩
      simp [this]
    · unfold Tree.findByPath
      rw [R.oldPath ix.path hq ⟨x, ix, ex, hu, rfl⟩]

/-- C21. A move within a storage that is answered OK moves the object with its whole subtree; one that is not changes
no object. The file system is assumed not to move a directory into itself and not to replace an existing object
(`OpOk`). -/
theorem C21_move {t : Tree} (w : TreeWF t) (h p : Nat) (ok : OpOk t (.move h p)) :
    ((t.move h p true).2 = .ok → ∃ it pit, t.get h = some it ∧ t.get p = some pit ∧ h ≠ 0 ∧
      Moved t (t.move h p true).1 h p (join pit.path it.name) it.name) ∧
    ((t.move h p true).2 ≠ .ok → (∀ x, (t.move h p true).1.get x = t.get x) ∧
      ∀ q, (t.move h p true).1.findByPath q = t.findByPath q) := by
  rcases move_cases (t := t) h p true with ⟨h1, h2, _, _, _, h6⟩ | ⟨it, pit, e, ep, hf, hc, hr, eq⟩
  · have hg : ∀ x, (t.move h p true).1.get x = t.get x := fun x => by unfold Tree.get; rw [h1]
    refine ⟨fun hr => absurd hr h6, fun _ => ⟨hg, fun q => ?_⟩⟩
    unfold Tree.findByPath Tree.has
    rw [h2]
    simp only [hg]
  · refine ⟨fun _ => ?_, fun h => absurd hr h⟩
    obtain ⟨hfree, hnb⟩ := ok it pit e ep (hf rfl)
    have h0 : h ≠ 0 := by rintro rfl; exact hnb (w.below_root ep)
    have hnu : ¬ Under it.path pit.path := fun hu => hnb ((w.below_iff e ep).mpr hu)
    have R := relocate_relocated (WF_tick w (t.tick + 1)) e h0 ep hnu hfree
    refine ⟨it, pit, e, ep, h0, ?_⟩
    rw [eq]
    have M := moved_of_relocated (WF_tick w (t.tick + 1)) e R.1 R.2.2.2.1
    refine ⟨M.self, ?_, ?_, M.only, ?_⟩
    · intro it' x ix e1 e2 hb hx
      exact R.1.below x ix e2 (by
        rw [e] at e1; cases e1; exact (w.below_iff e e2).mp hb) hx |>.trans (by rw [e] at e1; cases e1; rfl)
    · intro x ix ex hb
      exact R.1.out x ix ex (fun hu => hb ((w.below_iff e ex).mpr hu))
    · intro it' x ix e1 e2 hb
      exact M.found it' x ix e1 e2 (((WF_tick w (t.tick + 1)).below_iff e e2).mpr ((w.below_iff e e2).mp hb))

/-- C21, renaming: whenever a rename changes anything, the object keeps its handle and parent and its whole subtree
follows; the new name is the requested one. -/
theorem C21_rename {t : Tree} (w : TreeWF t) (h : Nat) (name : Path) :
    ((∀ x, (t.rename h name).1.get x = t.get x) ∧ ∀ q, (t.rename h name).1.findByPath q = t.findByPath q) ∨
    ∃ it p pit, t.get h = some it ∧ it.parent = some p ∧ t.get p = some pit ∧ h ≠ 0 ∧
      (t.rename h name).2 = .ok ∧ Moved t (t.rename h name).1 h p (join pit.path name) name ∧
      (∀ x ix, t.get x = some ix → ¬ Below t h x → (t.rename h name).1.get x = some ix) := by
  rcases rename_cases w h name with ⟨h1, h2, _⟩ | ⟨it, p, pit, e, h0, hpar, hp, hv, hsl, hfree, hg, hr, eq⟩
  · left
    have hg : ∀ x, (t.rename h name).1.get x = t.get x := fun x => by unfold Tree.get; rw [h1]
    refine ⟨hg, fun q => ?_⟩
    unfold Tree.findByPath Tree.has
    rw [h2]
    simp only [hg]
  · right
    have w1 := WF_tick w (t.tick + 1)
    have R := repath_relocated w1 e h0 hpar hp hsl hfree
    obtain ⟨q, qit, q1, q2, _⟩ := w.parent h it e h0
    rw [hpar] at q1; cases q1
    refine ⟨it, p, pit, e, hpar, hp, h0, hr, ?_, ?_⟩
    · rw [eq]
      have M := moved_of_relocated (nm := name) w1 e R.1 (by rw [R.2.2.2.1, ← hpar, ← q2])
      refine ⟨M.self, ?_, ?_, M.only, ?_⟩
      · intro it' x ix e1 e2 hb hx
        exact M.below it' x ix e1 e2 ((w1.below_iff e e2).mpr ((w.below_iff e e2).mp hb)) hx
      · intro x ix ex hb
        exact R.1.out x ix ex (fun hu => hb ((w.below_iff e ex).mpr hu))
      · intro it' x ix e1 e2 hb
        exact M.found it' x ix e1 e2 ((w1.below_iff e e2).mpr ((w.below_iff e e2).mp hb))
    · intro x ix ex hb
      rw [eq]
      exact R.2.2.2.2 x ix ex (fun hu => hb ((w.below_iff e ex).mpr hu))

/-- C21. A refused rename (invalid name, or a name in use) changes nothing and is not answered OK. -/
theorem C21_rename_refused {t : Tree} (h : Nat) (name : Path) (hr : (t.rename h name).2 ≠ .ok) :
    (t.rename h name).1 = t := by
  unfold Tree.rename at hr ⊢
  split
  · rfl
  · next it e =>
    simp only [e] at hr
    split
    · rfl
    · next pit ep =>
      simp only [ep] at hr
      split
      · rfl
      · next hv =>
        rw [if_neg hv] at hr
        dsimp only [Tree.ask] at hr ⊢
        have key : ∀ (c : Prop) [Decidable c] (x y : Tree × Resp), x.2 = .ok → y.2 = .ok →
            (if c then x else y).2 = .ok := by
          intro c _ x y h1 h2; split <;> assumption
        exact absurd (key _ _ _ rfl rfl) hr

/-- C21. A move to an existing object's place in a folder where the name is not taken, and that the file system grants, is
answered OK (so by `C21_move` the object is there afterwards). -/
theorem C21_move_done {t : Tree} {h p : Nat} {it pit : Item} (e : t.get h = some it) (ep : t.get p = some pit)
    (hf : AMap.get t.paths (join pit.path it.name) = none) (hg : t.fs t.tick = true) :
    (t.move h p true).2 = .ok := by
  unfold Tree.move
  rw [e]
  dsimp only
  rw [ep]
  dsimp only
  rw [if_neg (by rw [hf]; simp)]
  simp [Tree.ask, hg]

/-- C21. A move of a folder onto a known path, of or to an object that does not exist, and one the file system refuses, are
not answered OK. -/
theorem C21_move_refused {t : Tree} {h p : Nat}
    (hr : t.has h = false ∨ t.has p = false ∨
      (∃ it pit, t.get h = some it ∧ t.get p = some pit ∧
        ((it.fmt = ASSOC ∧ (AMap.get t.paths (join pit.path it.name)).isSome = true) ∨ t.fs t.tick = false))) :
    (t.move h p true).2 ≠ .ok := by
  unfold Tree.move
  split
  · simp
  · next it e =>
    split
    · simp
    · next pit ep =>
      dsimp only
      rcases hr with hr | hr | ⟨it', pit', e', ep', hr⟩
      · rw [has_iff.mpr ⟨it, e⟩] at hr; cases hr
      · rw [has_iff.mpr ⟨pit, ep⟩] at hr; cases hr
      · rw [e] at e'; cases e'
        rw [ep] at ep'; cases ep'
        split
        · simp
        · next hc =>
          rcases hr with hr | hr
          · exact absurd hr hc
          · simp [Tree.ask, hr]

/-- C21. A rename to a legal name not in use in the folder, which the file system grants, is done. -/
theorem C21_rename_done {t : Tree} (w : TreeWF t) {h p : Nat} {it pit : Item} (name : Path) (e : t.get h = some it)
    (hpar : it.parent = some p) (ep : t.get p = some pit) (hc : ∀ c ∈ name, ¬ BadChar c)
    (hd : ∃ c ∈ name, c ≠ '.') (hf : AMap.get t.paths (join pit.path name) = none) (hg : t.fs t.tick = true) :
    (t.rename h name).2 = .ok ∧ Moved t (t.rename h name).1 h p (join pit.path name) name := by
  have hv : t.nameValid name pit = true := by
    unfold Tree.nameValid
    rw [hf]
    simp only [Bool.and_eq_true, Bool.not_eq_true', Option.isNone_none, and_true]
    refine ⟨List.any_eq_false.mpr (fun c hcm => ?_), ?_⟩
    · intro hi
      refine hc c hcm ?_
      unfold Tree.illegal at hi
      simp only [Bool.or_eq_true, decide_eq_true_eq] at hi
      unfold BadChar
      simp only [List.mem_cons, List.not_mem_nil, or_false]
      rcases hi with ((((((((h | h) | h) | h) | h) | h) | h) | h) | h) | h
      all_goals first | (right; omega) | (left; simp [h])
    · obtain ⟨c, c1, c2⟩ := hd
      cases hb : (decide (name ≠ []) && name.all (· = '.')) with
      | false => rfl
      | true =>
        simp only [Bool.and_eq_true, List.all_eq_true, decide_eq_true_eq] at hb
        exact absurd (hb.2 c c1) c2
  have h0 : h ≠ 0 := by
    rintro rfl
    obtain ⟨r, r1, _, r2⟩ := w.root
    rw [e] at r1; cases r1; rw [hpar] at r2; cases r2
  obtain ⟨q, qit, q1, q2, q3, q4, q5, q6⟩ := w.parent h it e h0
  rw [hpar] at q1; cases q1; rw [ep] at q3; cases q3
  have hpath : (if '/' ∈ it.path then join (dirOf it.path) name else name) = join pit.path name := by
    rw [q5, dirOf_join q6, if_pos (by simp [join])]
  have hsl : '/' ∉ name := fun hm => hc '/' hm (Or.inl (by simp))
  have R := repath_relocated (WF_tick w (t.tick + 1)) e h0 hpar ep hsl hf
  have heq : (t.rename h name).1.get h =
      (({ t with tick := t.tick + 1 } : Tree).repath h it (join pit.path name) name).get h := by
    unfold Tree.rename
    rw [e]
    dsimp only
    rw [hpar]
    show Tree.get (Prod.fst (match t.get p with | none => _ | some pit => _)) h = _
    rw [ep]
    dsimp only
    rw [if_neg (by rw [hv]; simp), hpath]
    simp only [Tree.ask, hg]
    rfl
  rcases C21_rename w h name with ⟨g, _⟩ | ⟨it2, p2, pit2, e2, hpar2, hp2, _, hr, M, _⟩
  · exfalso
    rw [g, e, R.2.2.2.1, Option.some.injEq] at heq
    have hpe : it.path = join pit.path name := congrArg Item.path heq
    have hpo := w.pathOf h it e
    rw [hpe, hf] at hpo; cases hpo
  · rw [e] at e2; cases e2
    rw [hpar] at hpar2; cases hpar2
    rw [ep] at hp2; cases hp2
    exact ⟨hr, M⟩

/-- Witness: moving the folder 1 (with file 2 inside) into a new folder. -/
def demoTreeN : Tree := demoTree.step (.add ⟨['n'], ASSOC, 0⟩ (.node none ASSOC []))

theorem C21_witness : TreeWF demoTreeN ∧ OpOk demoTreeN (.move 1 4) ∧
    (demoTreeN.move 1 4 true).2 = .ok ∧
    (demoTreeN.move 1 4 true).1.findByPath "/s/n/d/x".toList = some 2 ∧
    (demoTreeN.move 1 4 true).1.findByPath "/s/d/x".toList = none := by
  have w : TreeWF demoTreeN := (treeStep_ok demoTree_wf.1 demoTree_wf.2 (.add ⟨['n'], ASSOC, 0⟩ (.node none ASSOC []))
    (by simp [OpOk, DiskOk, DisksOk]) (by decide +kernel)).wf
  have h : demoTreeN.get 1 = some ⟨"/s/d".toList, ['d'], ASSOC, 0, some 0, [2], 2⟩ ∧
      demoTreeN.get 4 = some ⟨"/s/n".toList, ['n'], ASSOC, 0, some 0, [], 5⟩ ∧
      AMap.get demoTreeN.paths "/s/n/d".toList = none := by decide +kernel
  refine ⟨w, ?_, by decide +kernel, by decide +kernel, by decide +kernel⟩
  intro it pit e1 e2 _
  have hw := w
  rw [h.1] at e1; cases e1
  rw [h.2.1] at e2; cases e2
  refine ⟨h.2.2, fun hb => ?_⟩
  rcases (w.below_iff h.1 h.2.1).mp hb with g | ⟨s, g⟩
  · revert g; decide
  · simp [join] at g

/-- C21 is violated in the answer: a rename the file system refuses is answered OK although nothing changed. -/
theorem C21_rename_answer_violated :
    let t := { demoTree with fs := fun _ => false }
    (t.rename 3 ['z']).2 = .ok ∧ (t.rename 3 ['z']).1.get 3 = t.get 3 := by decide +kernel

/-- C14 is violated after a move: the moved object keeps persistent id 4, and a new file created at the old path is given
the same id, because the path-to-id table still has the old path. -/
theorem C14_move_violated :
    let t := (demoTreeN.step (.move 3 4)).step (.fsCreate 0 ['y'] (.node none 0x3004 []))
    (t.get 3).map (fun i => (i.path, i.puoid)) = some ("/s/n/y".toList, 4) ∧
    (t.get 5).map (fun i => (i.path, i.puoid)) = some ("/s/y".toList, 4) := by decide +kernel

/-- C14 is violated after renaming a folder: the files in it keep their ids, while a new file at an old path inside a
re-created folder of the old name gets the same id. -/
theorem C14_rename_folder_violated :
    let t := (demoTree.step (.rename 1 ['e'])).step
      (.fsCreate 0 ['d'] (.node none ASSOC [(['x'], .node none 0x3004 [])]))
    (t.get 2).map (fun i => (i.path, i.puoid)) = some ("/s/e/x".toList, 3) ∧
    (t.get 5).map (fun i => (i.path, i.puoid)) = some ("/s/d/x".toList, 3) := by decide +kernel

end Props
