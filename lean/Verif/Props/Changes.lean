import Verif.Spec.Changes
import Verif.Lemmas.TreeEvents
import Verif.Props.Move
/-! Property theorems C74: events mirror the changes made on the device. -/
namespace Props
open Mtp Spec

/-- The operation is one the host asked for. -/
def hostOp : Tree.Op → Prop
  | .add _ _ | .adopt _ _ _ | .delete _ _ | .move _ _ | .rename _ _ => True
  | _ => False

/-- C74. Something new in a watched directory: the host gets one ObjectAdded event for exactly each object that is new
(the entry and everything below it), and no other event; no known object disappears. -/
theorem C74_created {t : Tree} (w : TreeWF t) (hi : Issued t) (d : Nat) (n : Path) (disk : Disk)
    (ok : OpOk t (.fsCreate d n disk)) (hb : (t.fsCreate d n disk).asked < 0xFFFFFFFF) :
    ∃ l : List Nat, l.Nodup ∧ (t.fsCreate d n disk).evs = t.evs ++ l.map TEvent.added ∧
      (∀ x, x ∈ l ↔ (t.fsCreate d n disk).has x = true ∧ t.has x = false) ∧
      ∀ x, t.has x = true → (t.fsCreate d n disk).has x = true := by
  have triv : ∃ l : List Nat, l.Nodup ∧ t.evs = t.evs ++ l.map TEvent.added ∧
      (∀ x, x ∈ l ↔ t.has x = true ∧ t.has x = false) ∧ ∀ x, t.has x = true → t.has x = true := by
    refine ⟨[], List.nodup_nil, by simp, fun x => ⟨fun h => (nomatch h), fun h => ?_⟩, fun _ h => h⟩
    rw [h.1] at h; cases h.2
  unfold Tree.fsCreate at hb ⊢
  cases e : t.get d with
  | none => exact triv
  | some dit =>
    rw [e] at hb
    dsimp only at hb ⊢
    split
    · exact triv
    · next hc =>
      rw [if_neg hc] at hb
      obtain ⟨l, a⟩ := add_evs w hi e ok.1 disk ok.2 none (fun i e => by cases e) true false 0
        (fun h => absurd rfl h) (Nat.zero_le _) hb
      exact ⟨l, a.nodup, by simpa using a.evs, a.mem, a.kept⟩

/-- C74. A new plain file or empty folder that is not excluded and not a link: exactly one object appears, with a fresh
handle, the entry's name and path, below the object of the watched directory, and exactly one event names it. -/
theorem C74_created_one {t : Tree} (w : TreeWF t) (hi : Issued t) (d : Nat) (n : Path) (fmt : Nat) {dit : Item}
    (e : t.get d = some dit) (hn : '/' ∉ n) (hf : AMap.get t.paths (join dit.path n) = none)
    (hx : join dit.path n ∉ t.excl) (hb : t.asked + 1 < 0xFFFFFFFF) :
    let t' := t.fsCreate d n (.node none fmt [])
    ∃ h it, h ≠ 0 ∧ t.has h = false ∧ t'.get h = some it ∧ it.path = join dit.path n ∧ it.name = n ∧ it.fmt = fmt ∧
      it.parent = some d ∧ it.par = d ∧ it.kids = [] ∧ t'.evs = t.evs ++ [.added h] ∧
      ∀ x, t'.has x = true ↔ t.has x = true ∨ x = h := by
  dsimp only
  have hrf : t.refused (join dit.path n) none = false := by
    unfold Tree.refused
    simpa using hx
  have hroot : join dit.path n ≠ t.rootPath := by
    intro h
    have := (w.under_root e).length
    rw [← h, join_length] at this; omega
  have hask := (addOne_asked t (join dit.path n) none fmt none false 0).2 hrf hf
  have hpick : (t.pickHandle (join dit.path n) 0).2.asked = t.asked + 1 := by
    unfold Tree.pickHandle
    rw [if_neg hroot, if_neg (by simp)]; rfl
  rw [hpick] at hask
  have key := addOne_spec w hi e hn none fmt none (fun i e => by cases e) false 0 (fun h => absurd rfl h)
    (by rw [hask]; exact hb)
  have new := addOne_new t (join dit.path n) none fmt none false 0
  have hsome : ∃ h, (t.addOne (join dit.path n) none fmt none false 0).2.1 = some h := by
    unfold Tree.addOne
    rw [if_neg (by rw [hrf]; simp), if_neg (by rw [hf]; simp)]
    dsimp only [Tree.tryCreate]
    rw [if_neg (by simp)]
    exact ⟨_, rfl⟩
  obtain ⟨h, hs⟩ := hsome
  have hc : t.fsCreate d n (.node none fmt []) =
      ((t.addOne (join dit.path n) none fmt none false 0).1.emit true (.added h)) := by
    unfold Tree.fsCreate
    rw [e]
    dsimp only
    rw [if_neg (by rw [hf]; simp), Tree.add.eq_def]
    dsimp only
    generalize t.addOne (join dit.path n) none fmt none false 0 = R at *
    obtain ⟨R1, R2, R3⟩ := R
    dsimp only at hs
    subst hs
    dsimp only
    split
    · rw [Tree.addAll]
    · rfl
  rw [hc]
  obtain ⟨it, g1, g2, g3, g4, g5, g6, g7, g8⟩ := key.2.2.1 h hs
  have h0 : h ≠ 0 := by
    rintro rfl
    obtain ⟨r, r1, _⟩ := w.root
    rw [r1] at g7; cases g7
  refine ⟨h, it, h0, has_false.mpr g7, ?_, g2, g3, g8, g4, g5, g6, ?_, fun x => ?_⟩
  · have : ∀ x, (Tree.emit (t.addOne (join dit.path n) none fmt none false 0).1 true (.added h)).get x =
        (t.addOne (join dit.path n) none fmt none false 0).1.get x := fun x => rfl
    rw [this]; exact g1
  · show (t.addOne (join dit.path n) none fmt none false 0).1.evs ++ _ = _
    rw [new.1]
  · rw [emit_has, new.2, hs]
    simp only [Option.some.injEq, Bool.or_eq_true, decide_eq_true_eq]
    constructor
    · rintro (h | h)
      · exact Or.inr h.symm
      · exact Or.inl h
    · rintro (h | h)
      · exact Or.inr h
      · exact Or.inl h.symm

/-- What removal of an entry on the device looks like to a host: `l` are the objects the events name. -/
structure Vanished (t t' : Tree) : Prop where
  told : ∃ l : List Nat, l.Nodup ∧ t'.evs = t.evs ++ l.map TEvent.removed ∧
    (∀ x ∈ l, t.has x = true ∧ t'.has x = false) ∧
    (∀ x ix, t.get x = some ix → t'.has x = false → x ∈ l ∨ ix.kids ≠ [])
  none_new : ∀ x, t'.has x = true → t.has x = true

theorem vanished_refl (t : Tree) : Vanished t t := by
  refine ⟨⟨[], List.nodup_nil, by simp, fun x h => (nomatch h), fun x ix e h => ?_⟩, fun _ h => h⟩
  rw [has_iff.mpr ⟨ix, e⟩] at h; cases h

theorem vanished_del {t : Tree} (w : TreeWF t) (n h : Nat) : Vanished t (t.del n h false true).1 := by
  obtain ⟨l, g⟩ := (del_evs n).1 t h false true w
  exact ⟨⟨l, g.nodup, by simpa using g.evs, g.mem, g.rest⟩, fun x hx => (del_shrunk w n h false true).has hx⟩

/-- C74, proved part: an entry of a watched directory disappears. The host gets only ObjectRemoved events, at most one
for each object, only for objects that are gone; every object that is gone without an event had known contents. (Missing:
an event for folders with known contents, see `C74_violated`.) Nothing appears. -/
theorem C74_removed_partial {t : Tree} (w : TreeWF t) (d : Nat) (n : Path) : Vanished t (t.fsDelete d n) := by
  unfold Tree.fsDelete
  split
  · exact vanished_refl t
  · split
    · exact vanished_refl t
    · exact vanished_del w _ _

theorem del_leaf {t : Tree} (w : TreeWF t) {h : Nat} {it : Item} (e : t.get h = some it) (h0 : h ≠ 0) (hk : it.kids = [])
    (n : Nat) : (t.del (n+1) h false true).1.evs = t.evs ++ [.removed h] ∧
      ∀ x, (t.del (n+1) h false true).1.has x = true ↔ t.has x = true ∧ x ≠ h := by
  have hd : (t.del (n+1) h false true).1 = t.remove h true := by
    rw [del_unfold, e]
    simp [h0, hk]
  rw [hd]
  refine ⟨by rw [remove_evs]; simp, fun x => ?_⟩
  unfold Tree.has
  rw [Tree.remove_get e]
  split
  · next hx => simp [hx]
  · next hx =>
    constructor
    · intro hs
      refine ⟨?_, hx⟩
      cases ex : t.get x with
      | none => rw [ex] at hs; cases hp : it.parent <;> (rw [hp] at hs; simp at hs)
      | some ix => rfl
    · rintro ⟨hs, _⟩
      cases ex : t.get x with
      | none => rw [ex] at hs; cases hs
      | some ix => split <;> rfl

/-- C74. A file or empty folder disappears: exactly that object is gone, and exactly one event says so. -/
theorem C74_removed_one {t : Tree} (w : TreeWF t) (d : Nat) (n : Path) {dit it : Item} {h : Nat}
    (e : t.get d = some dit) (hp : AMap.get t.paths (join dit.path n) = some h) (eh : t.get h = some it)
    (hk : it.kids = []) :
    (t.fsDelete d n).evs = t.evs ++ [.removed h] ∧
    ∀ x, (t.fsDelete d n).has x = true ↔ t.has x = true ∧ x ≠ h := by
  have h0 : h ≠ 0 := by
    rintro rfl
    obtain ⟨r, r1, r2, _⟩ := w.root
    obtain ⟨iy, y1, y2⟩ := w.ofPath _ _ hp
    rw [r1] at y1; cases y1
    have := (w.under_root e).length
    rw [← r2, y2, join_length] at this; omega
  have hd : t.fsDelete d n = (t.del t.delFuel h false true).1 := by
    unfold Tree.fsDelete; rw [e]; dsimp only; rw [hp]
  rw [hd]
  exact del_leaf w eh h0 hk _

/-- C74, proved part: a move or rename on the device. If the target is free, all objects keep existing and exactly one
event, ObjectInfoChanged, names the object that moved (none if no object moved). If the target is a known object (it is
replaced), the events are as for a removal of the source. -/
theorem C74_moved_partial {t : Tree} (w : TreeWF t) (d1 : Nat) (n1 : Path) (d2 : Nat) (n2 : Path) (fmt : Nat)
    {i1 i2 it : Item} {h : Nat} (hne : ¬ (d1 = d2 ∧ n1 = n2)) (e1 : t.get d1 = some i1) (e2 : t.get d2 = some i2)
    (hp : AMap.get t.paths (join i1.path n1) = some h) (e : t.get h = some it) :
    (AMap.get t.paths (join i2.path n2) = none →
      (t.fsMove d1 n1 d2 n2 fmt).evs = t.evs ++ [.infoChanged h] ∧
      ∀ x, (t.fsMove d1 n1 d2 n2 fmt).has x = t.has x) ∧
    ((AMap.get t.paths (join i2.path n2)).isSome = true → Vanished t (t.fsMove d1 n1 d2 n2 fmt)) := by
  have h0 : h ≠ 0 := by
    rintro rfl
    obtain ⟨r, r1, r2, _⟩ := w.root
    obtain ⟨iy, y1, y2⟩ := w.ofPath _ _ hp
    rw [r1] at y1; cases y1
    have := (w.under_root e1).length
    rw [← r2, y2, join_length] at this; omega
  have hu : t.fsMove d1 n1 d2 n2 fmt =
      if (AMap.get t.paths (join i2.path n2)).isSome then (t.del t.delFuel h false true).1
      else ((if d1 = d2 then t.repath h it (join i2.path n2) n2 else (t.move h d2 false).1).upd h
            (fun i => { i with name := baseOf i.path, fmt := fmt, par := i.parent.getD 0 })).emit true
            (.infoChanged h) := by
    unfold Tree.fsMove
    rw [if_neg hne, e1, e2]
    dsimp only
    rw [hp]
    dsimp only [Option.getD]
    rw [if_neg h0, e]
  constructor
  · intro hf
    rw [hu, if_neg (by rw [hf]; simp)]
    have q : Quiet t ((if d1 = d2 then t.repath h it (join i2.path n2) n2 else (t.move h d2 false).1).upd h
            (fun i => { i with name := baseOf i.path, fmt := fmt, par := i.parent.getD 0 })) := by
      refine Quiet.trans ?_ (quiet_upd _ _ _)
      split
      · exact quiet_repath e _ _
      · exact quiet_move t h d2 false
    refine ⟨?_, fun x => by rw [emit_has]; exact q.1 x⟩
    unfold Tree.emit
    rw [if_pos rfl]
    show Tree.evs _ ++ _ = _
    rw [q.2]
  · intro hs
    rw [hu, if_pos hs]
    exact vanished_del w _ _

theorem delAll_silent (fmt : Nat) : ∀ (l : List (Nat × Item)) (t : Tree) (resp : Resp) (a b c : Bool), TreeWF t →
    (Tree.delAll fmt l t resp a b c).1.evs = t.evs := by
  intro l
  induction l with
  | nil => intro t resp a b c _; rfl
  | cons x l ih =>
    intro t resp a b c w
    obtain ⟨h, it⟩ := x
    rw [Tree.delAll]
    dsimp only
    split
    · exact ih _ _ _ _ _ w
    · rw [ih _ _ _ _ _ (del_wf w _ _ _ _)]
      obtain ⟨k, g⟩ := (del_evs t.delFuel).1 t h true false w
      simpa using g.evs

/-- C74. What the host does itself (adding, moving in, deleting, moving and renaming objects) is not announced to it. -/
theorem C74_own_silent {t : Tree} (w : TreeWF t) (hi : Issued t) (op : Tree.Op) (ho : hostOp op) (ok : OpOk t op)
    (hb : (t.step op).asked < 0xFFFFFFFF) : (t.step op).evs = t.evs := by
  cases op with
  | add i d =>
    change (t.addItem i d).1.asked < _ at hb
    show (t.addItem i d).1.evs = _
    unfold Tree.addItem at hb ⊢
    dsimp only at hb ⊢
    generalize hj : (if i.par = ALL then { i with par := 0 } else i : Tree.Info) = j at hb ⊢
    have hjn : j.name = i.name := by rw [← hj]; split <;> rfl
    split
    · rfl
    · next p ep =>
      simp only [ep] at hb
      obtain ⟨l, a⟩ := add_evs w hi ep (by rw [hjn]; exact ok.1) d ok.2 (some j)
        (fun i' e => by cases e; exact ⟨rfl, rfl⟩) false true 0 (by simp) (Nat.zero_le _) hb
      simpa using a.evs
  | adopt i d h =>
    change (t.adopt i d h).1.asked < _ at hb
    show (t.adopt i d h).1.evs = _
    unfold Tree.adopt at hb ⊢
    split
    · rfl
    · next hnh =>
      rw [if_neg hnh] at hb
      dsimp only at hb ⊢
      generalize hj : (if i.par = ALL then { i with par := 0 } else i : Tree.Info) = j at hb ⊢
      have hjn : j.name = i.name := by rw [← hj]; split <;> rfl
      split
      · rfl
      · next p ep =>
        simp only [ep] at hb
        obtain ⟨l, a⟩ := add_evs w hi ep (by rw [hjn]; exact ok.1) d ok.2.1 (some j)
          (fun i' e => by cases e; exact ⟨rfl, rfl⟩)
          false true h (fun _ => has_false.mp (by simpa using hnh)) ok.2.2.2 hb
        simpa using a.evs
  | delete h fmt =>
    show (t.deleteItem h fmt).1.evs = _
    unfold Tree.deleteItem
    split
    · exact delAll_silent fmt _ _ _ _ _ _ w
    · obtain ⟨k, g⟩ := (del_evs t.delFuel).1 t h true false w
      simpa using g.evs
  | move h p => exact (quiet_move t h p true).2
  | rename h n => exact (quiet_rename t h n).2
  | _ => cases ho

theorem hears_added (l : List Nat) : ∀ K : Nat → Prop, ∀ x,
    hearsAll K (l.map TEvent.added) x ↔ x ∈ l ∨ K x := by
  induction l with
  | nil => intro K x; simp [hearsAll]
  | cons a l ih =>
    intro K x
    show hearsAll (hears K (.added a)) (l.map TEvent.added) x ↔ _
    rw [ih]
    simp only [hears, List.mem_cons]
    constructor
    · rintro (h | h | h)
      · exact Or.inl (Or.inr h)
      · exact Or.inl (Or.inl h)
      · exact Or.inr h
    · rintro ((h | h) | h)
      · exact Or.inr (Or.inl h)
      · exact Or.inl h
      · exact Or.inr (Or.inr h)

/-- C74, proved part, one change: from the events of one change on the device (or a move or rename by the host) a host
that knew all objects knows all objects again. -/
theorem C74_mirror_step_partial {t : Tree} (w : TreeWF t) (hi : Issued t) (op : Tree.Op) (ok : OpOk t op)
    (hh : Heard t op) (hb : (t.step op).asked < 0xFFFFFFFF) (K : Nat → Prop) (hK : ∀ x, K x ↔ t.has x = true) :
    ∃ es, (t.step op).evs = t.evs ++ es ∧ ∀ x, hearsAll K es x ↔ (t.step op).has x = true := by
  have same : ∀ t' : Tree, t'.evs = t.evs → (∀ x, t'.has x = t.has x) →
      ∃ es, t'.evs = t.evs ++ es ∧ ∀ x, hearsAll K es x ↔ t'.has x = true := by
    intro t' h1 h2
    exact ⟨[], by simp [h1], fun x => by rw [h2]; exact hK x⟩
  have gone : ∀ (t' : Tree) h, t'.evs = t.evs ++ [.removed h] → (∀ x, t'.has x = true ↔ t.has x = true ∧ x ≠ h) →
      ∃ es, t'.evs = t.evs ++ es ∧ ∀ x, hearsAll K es x ↔ t'.has x = true := by
    intro t' h h1 h2
    refine ⟨_, h1, fun x => ?_⟩
    show (x ≠ h ∧ K x) ↔ _
    rw [h2, hK]; exact And.comm
  cases op with
  | add i d => cases hh
  | adopt i d h => cases hh
  | delete h fmt => cases hh
  | move h p => exact same _ (quiet_move t h p true).2 (quiet_move t h p true).1
  | rename h n => exact same _ (quiet_rename t h n).2 (quiet_rename t h n).1
  | other n => exact same _ rfl (fun _ => rfl)
  | fsCreate d n k =>
    obtain ⟨l, h1, h2, h3, h4⟩ := C74_created w hi d n k ok hb
    refine ⟨_, h2, fun x => ?_⟩
    rw [hears_added, h3, hK]
    show _ ↔ (t.fsCreate d n k).has x = true
    constructor
    · rintro (h | h)
      · exact h.1
      · exact h4 x h
    · intro h
      cases hx : t.has x with
      | true => exact Or.inr rfl
      | false => exact Or.inl ⟨h, rfl⟩
  | fsDelete d n =>
    show ∃ es, (t.fsDelete d n).evs = _ ∧ ∀ x, _ ↔ (t.fsDelete d n).has x = true
    cases e : t.get d with
    | none => exact same _ (by unfold Tree.fsDelete; rw [e]) (by unfold Tree.fsDelete; rw [e]; exact fun _ => rfl)
    | some di =>
      cases hp : AMap.get t.paths (join di.path n) with
      | none =>
        have : t.fsDelete d n = t := by unfold Tree.fsDelete; rw [e]; dsimp only; rw [hp]
        rw [this]; exact same _ rfl (fun _ => rfl)
      | some h =>
        obtain ⟨it, eh, _⟩ := w.ofPath _ _ hp
        obtain ⟨h1, h2⟩ := C74_removed_one w d n e hp eh (hh di h it e hp eh)
        exact gone _ h h1 h2
  | fsMove d1 n1 d2 n2 fmt =>
    show ∃ es, (t.fsMove d1 n1 d2 n2 fmt).evs = _ ∧ ∀ x, _ ↔ (t.fsMove d1 n1 d2 n2 fmt).has x = true
    rcases fsMove_cases (t := t) d1 n1 d2 n2 fmt with h | ⟨i1, i2, h, it, hne, e1, e2, ep, h0, e, hc⟩
    · rw [h]; exact same _ rfl (fun _ => rfl)
    · rcases hc with ⟨hs, hc⟩ | ⟨hfree, hc⟩
      · rw [hc]
        have hk := hh i1 i2 h it e1 e2 ep e hs
        obtain ⟨h1, h2⟩ := del_leaf w e h0 hk (2 * Tree.maxLen t.items + 4 * t.items.length + 2)
        exact gone _ h h1 h2
      · obtain ⟨h1, h2⟩ := (C74_moved_partial w d1 n1 d2 n2 fmt hne e1 e2 ep e).1 hfree
        exact ⟨_, h1, fun x => by rw [h2]; exact hK x⟩

/-- C74, proved part: over any history of changes on the device mixed with moves and renames by the host, in which
nothing with known contents disappears at once, a host that starts with all objects and follows the events in order
always knows exactly the objects of the storage. (Missing: disappearing folders with known contents, see `C74_violated`;
deletions and additions by the host itself, of which it is told by the responses, C19 and C75.) -/
theorem C74_mirror_partial (ops : List Tree.Op) : ∀ {t : Tree}, TreeWF t → Issued t → HistOk t ops → AllHeard t ops →
    (t.run ops).asked < 0xFFFFFFFF → ∀ K : Nat → Prop, (∀ x, K x ↔ t.has x = true) →
    ∃ es, (t.run ops).evs = t.evs ++ es ∧ ∀ x, hearsAll K es x ↔ (t.run ops).has x = true := by
  induction ops with
  | nil => intro t _ _ _ _ _ K hK; exact ⟨[], by simp [Tree.run], fun x => hK x⟩
  | cons op ops ih =>
    intro t w hi ok hh hb K hK
    have hb1 : (t.step op).asked < 0xFFFFFFFF := Nat.lt_of_le_of_lt (run_asked ops (t.step op)) hb
    obtain ⟨es1, a1, a2⟩ := C74_mirror_step_partial w hi op ok.1 hh.1 hb1 K hK
    have s := treeStep_ok w hi op ok.1 hb1
    obtain ⟨es2, b1, b2⟩ := ih s.wf s.issued ok.2 hh.2 hb (hearsAll K es1) a2
    refine ⟨es1 ++ es2, ?_, fun x => ?_⟩
    · show (Tree.run (t.step op) ops).evs = _
      rw [b1, a1, List.append_assoc]
    · have : hearsAll K (es1 ++ es2) = hearsAll (hearsAll K es1) es2 := by
        unfold hearsAll; rw [List.foldl_append]
      rw [this]; exact b2 x

/-- C74 is violated when a folder with known contents disappears (moved out of the storage, or replaced): the host is
told that the contents are gone, but not that the folder is. -/
theorem C74_violated :
    (demoTree.fsDelete 0 ['d']).evs = [.removed 2] ∧ (demoTree.fsDelete 0 ['d']).has 1 = false ∧
    demoTree.has 1 = true ∧ hearsAll (fun x => demoTree.has x = true) (demoTree.fsDelete 0 ['d']).evs 1 := by
  have h : (demoTree.fsDelete 0 ['d']).evs = [.removed 2] ∧ (demoTree.fsDelete 0 ['d']).has 1 = false ∧
    demoTree.has 1 = true := by decide +kernel
  refine ⟨h.1, h.2.1, h.2.2, ?_⟩
  rw [h.1]
  exact ⟨by decide, h.2.2⟩

/-- A history meeting the hypotheses of `C74_mirror_partial`: a folder with a file appears, is renamed, the file
disappears, and another object is replaced by one it is moved onto. -/
def heardOps : List Tree.Op :=
  [.fsCreate 0 ['n'] (.node none ASSOC [(['q'], .node none 0x3004 [])]), .rename 4 ['m'], .fsDelete 4 ['q'],
   .fsMove 0 ['y'] 1 ['x'] UNDEF]

/-- Witness: the history has the events expected. -/
theorem C74_witness : TreeWF demoTree ∧ Issued demoTree ∧
    (demoTree.run heardOps).evs = [.added 5, .added 4, .removed 5, .removed 3] ∧
    (demoTree.run heardOps).asked < 0xFFFFFFFF ∧ ((demoTree.run heardOps).has 4 = true ∧
      (demoTree.run heardOps).has 3 = false ∧ (demoTree.run heardOps).has 5 = false) ∧
    HistOk demoTree heardOps ∧ AllHeard demoTree heardOps := by
  refine ⟨demoTree_wf.1, demoTree_wf.2, by decide +kernel, by decide +kernel, by decide +kernel, ?_, ?_⟩
  · refine ⟨by simp [OpOk, DiskOk, DisksOk], trivial, trivial, ⟨by decide, by decide, ?_⟩, trivial⟩
    intro i1 i2 h e1 e2 hp
    have hg : let t := ((demoTree.step (heardOps[0])).step (heardOps[1])).step (heardOps[2])
        (∃ r, t.get 0 = some r ∧ r.path = "/s".toList) ∧ AMap.get t.paths "/s/y".toList = some 3 ∧
        (∃ i, t.get 3 = some i ∧ i.path = "/s/y".toList) ∧ (∃ i, t.get 1 = some i ∧ i.path = "/s/d".toList) ∧
        AMap.get t.paths "/s/d/y".toList = none := by
      refine ⟨⟨⟨"/s".toList, ['s'], ASSOC, 0, none, [4, 3, 1], 1⟩, by decide +kernel, rfl⟩, by decide +kernel,
        ⟨⟨"/s/y".toList, ['y'], 0x3004, 0, some 0, [], 4⟩, by decide +kernel, rfl⟩,
        ⟨⟨"/s/d".toList, ['d'], ASSOC, 0, some 0, [2], 2⟩, by decide +kernel, rfl⟩, by decide +kernel⟩
    have wt : TreeWF (((demoTree.step (heardOps[0])).step (heardOps[1])).step (heardOps[2])) :=
      (treeRun_ok [heardOps[0], heardOps[1], heardOps[2]] demoTree_wf.1 demoTree_wf.2
        ⟨by simp [heardOps, OpOk, DiskOk, DisksOk], trivial, trivial, trivial⟩ (by decide +kernel)).1
    change (((demoTree.step (heardOps[0])).step (heardOps[1])).step (heardOps[2])).get 0 = _ at e1
    change (((demoTree.step (heardOps[0])).step (heardOps[1])).step (heardOps[2])).get 1 = _ at e2
    change AMap.get (((demoTree.step (heardOps[0])).step (heardOps[1])).step (heardOps[2])).paths _ = _ at hp
    change ¬ Below (((demoTree.step (heardOps[0])).step (heardOps[1])).step (heardOps[2])) _ _ ∧
      (_ → AMap.get (((demoTree.step (heardOps[0])).step (heardOps[1])).step (heardOps[2])).paths _ = _)
    dsimp only at hg
    generalize (((demoTree.step (heardOps[0])).step (heardOps[1])).step (heardOps[2])) = t at *
    obtain ⟨⟨r, r1, r2⟩, p1, ⟨i, g1, g2⟩, ⟨j, j1, j2⟩, hfree⟩ := hg
    rw [r1] at e1; cases e1
    rw [j1] at e2; cases e2
    rw [r2] at hp
    have hp' : AMap.get t.paths "/s/y".toList = some h := hp
    rw [p1] at hp'; cases hp'
    refine ⟨fun hb => ?_, fun _ => by rw [j2]; exact hfree⟩
    have := (wt.below_iff g1 j1).mp hb
    rw [g2, j2] at this
    rcases this with h | ⟨s, h⟩
    · exact absurd h (by decide)
    · simp [join] at h
  · refine ⟨trivial, trivial, ?_, ?_, trivial⟩
    · intro di h it e hp eh
      have h4 : ((demoTree.step (heardOps[0])).step (heardOps[1])).get 4 = some ⟨"/s/m".toList, ['m'], ASSOC, 0, some 0, [5], 5⟩ ∧
         AMap.get ((demoTree.step (heardOps[0])).step (heardOps[1])).paths "/s/m/q".toList = some 5 ∧
         ∃ v, ((demoTree.step (heardOps[0])).step (heardOps[1])).get 5 = some ⟨"/s/m/q".toList, ['q'], 0x3004, 4, some 4, [], v⟩ := by
        refine ⟨by decide +kernel, by decide +kernel, 6, by decide +kernel⟩
      change ((demoTree.step (heardOps[0])).step (heardOps[1])).get 4 = _ at e
      rw [h4.1] at e; cases e
      have hp' : AMap.get ((demoTree.step (heardOps[0])).step (heardOps[1])).paths "/s/m/q".toList = some h := hp
      rw [h4.2.1] at hp'; cases hp'
      obtain ⟨v, h5⟩ := h4.2.2
      change ((demoTree.step (heardOps[0])).step (heardOps[1])).get 5 = _ at eh
      rw [h5] at eh; cases eh; rfl
    · intro i1 i2 h it e1 e2 hp eh _
      have hg : let t := ((demoTree.step (heardOps[0])).step (heardOps[1])).step (heardOps[2])
          (∃ r, t.get 0 = some r ∧ r.path = "/s".toList) ∧ AMap.get t.paths "/s/y".toList = some 3 ∧
          ∃ i, t.get 3 = some i ∧ i.kids = [] := by
        refine ⟨⟨⟨"/s".toList, ['s'], ASSOC, 0, none, [4, 3, 1], 1⟩, by decide +kernel, rfl⟩, by decide +kernel,
          ⟨⟨"/s/y".toList, ['y'], 0x3004, 0, some 0, [], 4⟩, by decide +kernel, rfl⟩⟩
      change (((demoTree.step (heardOps[0])).step (heardOps[1])).step (heardOps[2])).get 0 = _ at e1
      change AMap.get (((demoTree.step (heardOps[0])).step (heardOps[1])).step (heardOps[2])).paths _ = _ at hp
      change (((demoTree.step (heardOps[0])).step (heardOps[1])).step (heardOps[2])).get h = _ at eh
      dsimp only at hg
      generalize (((demoTree.step (heardOps[0])).step (heardOps[1])).step (heardOps[2])) = t at *
      obtain ⟨⟨r, r1, r2⟩, p1, i, g1, g2⟩ := hg
      rw [r1] at e1; cases e1
      rw [r2] at hp
      have hp' : AMap.get t.paths "/s/y".toList = some h := hp
      rw [p1] at hp'; cases hp'
      rw [g1] at eh; cases eh; exact g2

end Props
