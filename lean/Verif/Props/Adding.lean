import Verif.Props.Move
import Verif.Lemmas.Copy
/-! Property theorems C75: announcing a new object creates exactly that object. -/
namespace Props
open Mtp Spec

/-- The folder a host means by the parent parameter: 0xFFFFFFFF is the root of the storage. -/
def parentMeant (p : Nat) : Nat := if p = ALL then 0 else p

theorem addItem_eq (t : Tree) (i : Tree.Info) (d : Disk) : t.addItem i d =
    match t.get (parentMeant i.par) with
    | none => (t, none, .invalidParentObject)
    | some p => t.add (join p.path i.name) d (some ⟨i.name, i.fmt, parentMeant i.par⟩) false true 0 := by
  unfold Tree.addItem parentMeant
  split <;> rfl

/-- C75. A host announces a new object (file or folder) in an existing folder under a name not yet taken there.
Answered OK: there is exactly one object more, with a handle never in use in this storage before and a valid one, the
announced name, format and parent, listed first in its folder, found at the folder's path plus its name; all other objects
are untouched. Answered otherwise: no handle, and no object changed. Not excluded and granted by the file system:
answered OK. -/
theorem C75_created {t : Tree} (w : TreeWF t) (hi : Issued t) (i : Tree.Info) (hn : '/' ∉ i.name) {pit : Item}
    (hp : t.get (parentMeant i.par) = some pit) (hf : AMap.get t.paths (join pit.path i.name) = none)
    (hb : (t.addItem i (.node none i.fmt [])).1.asked < 0xFFFFFFFF) :
    let R := t.addItem i (.node none i.fmt [])
    (R.2.2 = .ok → ∃ y v, R.2.1 = some y ∧ y ≠ 0 ∧ y < 0xFFFFFFFF ∧ t.asked < y ∧ t.has y = false ∧
      R.1.get y = some ⟨join pit.path i.name, i.name, i.fmt, parentMeant i.par, some (parentMeant i.par), [], v⟩ ∧
      R.1.get (parentMeant i.par) = some { pit with kids := y :: pit.kids } ∧
      (∀ x, x ≠ y → x ≠ parentMeant i.par → R.1.get x = t.get x) ∧
      R.1.findByPath (join pit.path i.name) = some y ∧ TreeWF R.1) ∧
    (R.2.2 ≠ .ok → R.2.1 = none ∧ (∀ x, R.1.get x = t.get x) ∧ ∀ q, R.1.findByPath q = t.findByPath q) ∧
    (join pit.path i.name ∉ t.excl → t.fs t.tick = true → R.2.2 = .ok) := by
  dsimp only
  have he : t.addItem i (.node none i.fmt []) = t.add (join pit.path i.name) (.node none i.fmt [])
      (some ⟨i.name, i.fmt, parentMeant i.par⟩) false true 0 := by
    rw [addItem_eq, hp]
  rw [he] at hb ⊢
  obtain ⟨h1, h2, h3, h4⟩ := add_made w hi (it := ⟨[], i.name, i.fmt, 0, none, [], 0⟩) (keep := 0) hp hn
    (fun h => absurd rfl h) hf
    (show _ = ((t.add (join pit.path i.name) (.node none i.fmt []) (some ⟨i.name, i.fmt, parentMeant i.par⟩)
      false true 0).1, (t.add (join pit.path i.name) (.node none i.fmt [])
      (some ⟨i.name, i.fmt, parentMeant i.par⟩) false true 0).2.1, (t.add (join pit.path i.name) (.node none i.fmt [])
      (some ⟨i.name, i.fmt, parentMeant i.par⟩) false true 0).2.2) from rfl) hb
  refine ⟨fun hr => ?_, fun hr => ?_, h4⟩
  · obtain ⟨y, a1, m, _, a4⟩ := h1 hr
    obtain ⟨v, g⟩ := m.get
    have gy := g y
    rw [if_pos rfl] at gy
    have hyp : y ≠ parentMeant i.par := by
      intro e
      have := m.fresh
      rw [e, hp] at this; cases this
    have gp := g (parentMeant i.par)
    rw [if_neg (Ne.symm hyp), if_pos rfl] at gp
    have hlt := a4 rfl
    refine ⟨y, v, a1, by omega, Nat.lt_of_le_of_lt (m.issued y _ gy) hb, hlt, has_false.mpr m.fresh, gy, gp,
      fun x hx hx' => ?_, ?_, m.wf⟩
    · have := g x
      rwa [if_neg hx, if_neg hx'] at this
    · unfold Tree.findByPath
      rw [m.paths]
      show (match AMap.get (AMap.insert t.paths (join pit.path i.name) y) _ with | none => none | some h => _) = _
      rw [AMap.get_insert, if_pos rfl]
      dsimp only
      rw [if_pos (has_iff.mpr ⟨_, gy⟩)]
  · obtain ⟨a1, a2, a3, _⟩ := h2 hr
    refine ⟨a1, fun x => by unfold Tree.get; rw [a2], fun q => ?_⟩
    unfold Tree.findByPath Tree.has Tree.get
    rw [a2, a3]

/-- C75. Announcing an object in a folder that does not exist is refused and changes nothing. -/
theorem C75_no_parent (t : Tree) (i : Tree.Info) (d : Disk) (hp : t.has (parentMeant i.par) = false) :
    t.addItem i d = (t, none, .invalidParentObject) := by
  rw [addItem_eq, has_false.mp hp]

/-- C75. Announcing an object at an excluded path is refused and changes nothing. -/
theorem C75_excluded (t : Tree) (i : Tree.Info) (d : Disk) {pit : Item} (hp : t.get (parentMeant i.par) = some pit)
    (hx : join pit.path i.name ∈ t.excl) : t.addItem i d = (t, none, .accessDenied) := by
  rw [addItem_eq, hp]
  cases d with
  | node l f es =>
    dsimp only
    rw [Tree.add.eq_def]
    dsimp only
    unfold Tree.addOne
    have : t.refused (join pit.path i.name) l = true := by
      unfold Tree.refused
      simp [hx]
    rw [if_pos this]
    simp

/-- C75, proved part: if an object with that name already exists in the folder, nothing is created or changed and the
answer carries the handle of the existing object. (Missing: that object may be of another kind, see
`C75_existing_violated`.) -/
theorem C75_existing_partial {t : Tree} (w : TreeWF t) (i : Tree.Info) (f : Nat) (es : List (Path × Disk)) {pit : Item}
    (hp : t.get (parentMeant i.par) = some pit) (hx : join pit.path i.name ∉ t.excl) {h : Nat}
    (hk : AMap.get t.paths (join pit.path i.name) = some h) :
    t.addItem i (.node none f es) = (t, some h, .ok) := by
  rw [addItem_eq, hp]
  dsimp only
  rw [Tree.add.eq_def]
  dsimp only
  unfold Tree.addOne
  have : t.refused (join pit.path i.name) none = false := by
    unfold Tree.refused
    simp [hx]
  rw [if_neg (by rw [this]; simp), if_pos (by rw [hk]; rfl)]
  dsimp only
  rw [if_pos rfl]
  obtain ⟨it, e, _⟩ := w.ofPath _ _ hk
  unfold Tree.findByPath
  rw [hk]
  dsimp only
  rw [if_pos (has_iff.mpr ⟨it, e⟩)]

/-- C75 is violated when the name is taken by an object of another kind: a host that announces a folder "y" gets OK and
the handle of the existing file "y". -/
theorem C75_existing_violated :
    (demoTree.addItem ⟨['y'], ASSOC, ALL⟩ (.node none ASSOC [])).2 = (some 3, .ok) ∧
    (∃ it, (demoTree.addItem ⟨['y'], ASSOC, ALL⟩ (.node none ASSOC [])).1.get 3 = some it ∧ it.fmt = 0x3004) :=
  ⟨by decide +kernel, ⟨"/s/y".toList, ['y'], 0x3004, 0, some 0, [], 4⟩, by decide +kernel, rfl⟩

/-- Witness: a folder announced at the root, and the hypotheses of `C75_created` are met. -/
theorem C75_witness : TreeWF demoTree ∧ Issued demoTree ∧
    (demoTree.addItem ⟨['n'], ASSOC, ALL⟩ (.node none ASSOC [])).2 = (some 4, .ok) ∧
    (demoTree.addItem ⟨['n'], ASSOC, ALL⟩ (.node none ASSOC [])).1.asked < 0xFFFFFFFF ∧
    AMap.get demoTree.paths "/s/n".toList = none ∧
    demoTree.get (parentMeant ALL) = some ⟨"/s".toList, ['s'], ASSOC, 0, none, [3, 1], 1⟩ :=
  ⟨demoTree_wf.1, demoTree_wf.2, by decide +kernel, by decide +kernel, by decide +kernel, by decide +kernel⟩

end Props
