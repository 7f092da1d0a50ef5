import Verif.Lemmas.ServerDisk
import Verif.Lemmas.Copy
import Verif.Lemmas.CopyRun
/-! Every call on a storage keeps objects and disk in agreement. -/
namespace Mtp
open Spec
namespace Server

/-- Nothing a host can see changed. -/
structure Quiet (s s' : Server) : Prop where
  sid : s'.sid = s.sid
  items : s'.tree.items = s.tree.items
  paths : s'.tree.paths = s.tree.paths
  rootPath : s'.tree.rootPath = s.tree.rootPath
  asked : s.tree.asked ≤ s'.tree.asked
  infos : s'.infos = s.infos
  files : s'.files = s.files
  dataFile : s'.dataFile = s.dataFile
  times : s'.times = s.times

theorem Quiet.refl (s : Server) : Quiet s s := ⟨rfl, rfl, rfl, rfl, Nat.le_refl _, rfl, rfl, rfl, rfl⟩

theorem Quiet.get {s s' : Server} (q : Quiet s s') (x : Nat) : s'.tree.get x = s.tree.get x := by
  unfold Tree.get; rw [q.items]

theorem Quiet.has {s s' : Server} (q : Quiet s s') (x : Nat) : s'.tree.has x = s.tree.has x := by
  unfold Tree.has; rw [q.get]

theorem Quiet.contents {s s' : Server} (q : Quiet s s') (x : Nat) : contents s' x = contents s x := by
  unfold Spec.contents; rw [q.get, q.files]

theorem Quiet.infoOf {s s' : Server} (q : Quiet s s') (x : Nat) : s'.infoOf x = s.infoOf x := by
  unfold Server.infoOf; rw [q.get, q.infos]

theorem Quiet.ok {s s' : Server} (q : Quiet s s') (w : ServerOk s) : ServerOk s' := by
  have hg := q.get
  refine ⟨WF_congr w.wf q.items q.paths q.rootPath, ?_, ?_, ?_, ?_, ?_, ?_⟩
  · intro h it e
    rw [hg] at e
    exact Nat.le_trans (w.issued h it e) q.asked
  · intro r e; rw [hg] at e; exact w.root r e
  · intro h it p pit e1 e2 e3
    rw [hg] at e1 e3
    exact w.folders h it p pit e1 e2 e3
  · intro p; rw [q.files, w.files p]; simp only [hg]
  · intro h; rw [q.infos, q.has, w.known h]
  · intro p n e; rw [q.dataFile] at e; rw [q.files]; exact w.openFile p n e

theorem view_item (s : Server) (h : Nat) : AMap.get s.view.items h =
    (s.tree.get h).map fun it => ⟨String.ofList it.path, decide (it.fmt = ASSOC), s.sizeOf h⟩ := by
  unfold view Tree.get
  simp only
  rw [AMap.get_mapVal (fun k (it : Item) => (⟨String.ofList it.path, decide (it.fmt = ASSOC), s.sizeOf k⟩ : FItem))]

theorem ofList_inj {a b : Path} (h : String.ofList a = String.ofList b) : a = b := by
  have := congrArg String.toList h
  simpa using this

/-- The file of an object. -/
theorem file_of {s : Server} (w : ServerOk s) {h : Nat} {it : Item} (e : s.tree.get h = some it) (hf : it.fmt ≠ ASSOC) :
    (AMap.get s.files (String.ofList it.path)).isSome = true := (w.files _).mpr ⟨h, it, e, hf, rfl⟩

/-- Different objects have different paths. -/
theorem path_ne {s : Server} (w : ServerOk s) {x y : Nat} {ix iy : Item} (hx : s.tree.get x = some ix)
    (hy : s.tree.get y = some iy) (hne : x ≠ y) : String.ofList ix.path ≠ String.ofList iy.path := by
  intro e
  have h1 := w.wf.pathOf x ix hx
  have h2 := w.wf.pathOf y iy hy
  rw [ofList_inj e, h2] at h1
  exact hne (Option.some.inj h1).symm

/-- The system opens only files. -/
theorem ioFor_open {s : Server} (w : ServerOk s) {h : Nat} {it : Item} (e : s.tree.get h = some it)
    (ho : (s.ioFor h).openOk = true) : (AMap.get s.view.files (String.ofList it.path)).isSome = true := by
  unfold ioFor at ho
  rw [e] at ho
  simp only at ho
  split at ho
  · cases ho
  · next hf => exact file_of w e hf

theorem absorb_ok {s : Server} (w : ServerOk s) {f : FStore} {h : Nat} {it : Item} (e : s.tree.get h = some it)
    (sm : FStore.Same s.view f h (String.ofList it.path)) : ServerOk ((s.absorb f h).tickCall) := by
  refine ⟨w.wf, w.issued, w.root, w.folders, ?_, ?_, ?_⟩
  · intro p
    show (AMap.get f.files p).isSome = true ↔ _
    rw [sm.keys p]
    exact w.files p
  · intro x
    show (AMap.get (match AMap.get s.infos h, AMap.get f.items h with
      | some o, some it => AMap.insert s.infos h { o with size := it.size }
      | _, _ => s.infos) x).isSome = _
    split
    · rw [AMap.get_insert]
      split
      · next ex =>
        subst ex
        exact (has_iff.mpr ⟨it, e⟩).symm
      · exact w.known x
    · exact w.known x
  · intro p n ed
    rcases sm.open_ p n ed with ⟨m, em⟩ | ⟨_, ep⟩
    · rcases w.openFile p m em with h1 | h1
      · exact Or.inl h1
      · right
        show (AMap.get f.files p).isSome = true
        rw [sm.keys p]; exact h1
    · right
      show (AMap.get f.files p).isSome = true
      rw [sm.keys p]; exact ep

/-- No object but `h` has its file open. -/
def Mine (s : Server) (h : Nat) : Prop :=
  ∀ x ix p n, s.tree.get x = some ix → x ≠ h → s.dataFile = some (p, n) → p ≠ String.ofList ix.path

theorem absorb_other {s : Server} (w : ServerOk s) {f : FStore} {h : Nat} {it : Item} (e : s.tree.get h = some it)
    (sm : FStore.Same s.view f h (String.ofList it.path)) (m : Mine s h) (x : Nat) (hx : x ≠ h) :
    contents (s.absorb f h).tickCall x = contents s x ∧ (s.absorb f h).tickCall.infoOf x = s.infoOf x := by
  constructor
  · unfold contents
    show (match s.tree.get x with
      | some it => if it.fmt = ASSOC then none else AMap.get f.files (String.ofList it.path)
      | none => none) = _
    cases ex : s.tree.get x with
    | some ix =>
      simp only
      split
      · rfl
      · refine sm.other _ (path_ne w ex e hx) ?_
        intro n ed
        exact m x ix _ n ex hx ed rfl
    | none => rfl
  · unfold infoOf
    have hi : AMap.get (s.absorb f h).infos x = AMap.get s.infos x := by
      show AMap.get (match AMap.get s.infos h, AMap.get f.items h with
        | some o, some it => AMap.insert s.infos h { o with size := it.size }
        | _, _ => s.infos) x = _
      split
      · rw [AMap.get_insert, if_neg hx]
      · rfl
    show (match s.tree.get x, AMap.get (s.absorb f h).infos x with | some _, some _ => _ | _, _ => _) = _
    rw [hi]
    rfl

/-- Setting the dates of a file changes nothing but what is known about them. -/
theorem redate_spec (s : Server) (h : Nat) (c : Bool) : ∃ i, s.redate h c = { s with infos := i } ∧
    (∀ x, x ≠ h → AMap.get i x = AMap.get s.infos x) ∧
    (AMap.get s.infos h = none → AMap.get i h = none) ∧
    ∀ o, AMap.get s.infos h = some o → ∃ o', AMap.get i h = some o' ∧ Redated s.times o o' ∧
      (c = false → o' = o) ∧
      (c = true → o' = { o with captureDate := s.times.stamp s.calls o.modDate, modDate := s.times.stamp s.calls o.modDate }) := by
  unfold redate
  cases c with
  | false => exact ⟨s.infos, rfl, fun _ _ => rfl, id, fun o ho => ⟨o, ho, Or.inl rfl, fun _ => rfl, fun h => by cases h⟩⟩
  | true =>
    cases e : AMap.get s.infos h with
    | none => exact ⟨s.infos, rfl, fun _ _ => rfl, fun _ => e, fun o ho => by cases ho⟩
    | some o =>
      refine ⟨_, rfl, fun x hx => by rw [AMap.get_insert, if_neg hx], fun h => by simp at h, fun o' ho => ?_⟩
      cases ho
      exact ⟨_, by rw [AMap.get_insert, if_pos rfl], Or.inr ⟨_, .created s.calls, rfl⟩, (fun h => by cases h), fun _ => rfl⟩

theorem redate_no (s : Server) (h : Nat) : s.redate h false = s := rfl

theorem redate_ok {s : Server} (w : ServerOk s) (h : Nat) (c : Bool) : ServerOk (s.redate h c) := by
  obtain ⟨i, e, e1, e2, e3⟩ := redate_spec s h c
  rw [e]
  refine ⟨w.wf, w.issued, w.root, w.folders, w.files, fun x => ?_, w.openFile⟩
  rw [← w.known x]
  show (AMap.get i x).isSome = _
  by_cases hx : x = h
  · subst hx
    cases ho : AMap.get s.infos x with
    | none => rw [e2 ho]
    | some o =>
      obtain ⟨o', a, _⟩ := e3 o ho
      rw [a]
      rfl
  · rw [e1 x hx]

theorem redate_other (s : Server) (h : Nat) (c : Bool) (x : Nat) :
    contents (s.redate h c) x = contents s x ∧ (x ≠ h → (s.redate h c).infoOf x = s.infoOf x) := by
  obtain ⟨i, e, e1, _⟩ := redate_spec s h c
  rw [e]
  refine ⟨rfl, fun hx => ?_⟩
  unfold infoOf
  rw [show AMap.get ({ s with infos := i } : Server).infos x = AMap.get s.infos x from e1 x hx]

theorem redate_tree (s : Server) (h : Nat) (c : Bool) : (s.redate h c).tree = s.tree := by
  obtain ⟨i, e, _⟩ := redate_spec s h c; rw [e]

theorem redate_dataFile (s : Server) (h : Nat) (c : Bool) : (s.redate h c).dataFile = s.dataFile := by
  obtain ⟨i, e, _⟩ := redate_spec s h c; rw [e]

theorem redate_writing (s : Server) (h : Nat) (c : Bool) : (s.redate h c).writing = s.writing := by
  obtain ⟨i, e, _⟩ := redate_spec s h c; rw [e]

theorem redate_files (s : Server) (h : Nat) (c : Bool) : (s.redate h c).files = s.files := by
  obtain ⟨i, e, _⟩ := redate_spec s h c; rw [e]

/-- What is told about the object itself. -/
theorem redate_info (s : Server) (h : Nat) (c : Bool) : (s.redate h c).infoOf h = s.infoOf h ∨
    ∃ o, s.infoOf h = (.ok, o) ∧ ∃ o', (s.redate h c).infoOf h = (.ok, o') ∧ Redated s.times o o' := by
  obtain ⟨i, e, _, e2, e3⟩ := redate_spec s h c
  rw [e]
  unfold infoOf
  show (match s.tree.get h, AMap.get i h with | some _, some _ => _ | _, _ => _) = _ ∨ _
  cases s.tree.get h with
  | none => exact Or.inl rfl
  | some it =>
    cases ho : AMap.get s.infos h with
    | none =>
      left
      rw [e2 ho]
    | some o =>
      obtain ⟨o', a, b, _⟩ := e3 o ho
      right
      refine ⟨_, rfl, { o' with fileName := fromPath it.name, format := it.fmt, parent := it.par }, ?_, ?_⟩
      · show (match some it, AMap.get i h with | some _, some _ => _ | _, _ => _) = _
        rw [a]
      · rcases b with rfl | ⟨d, hd, rfl⟩
        · exact Or.inl rfl
        · exact Or.inr ⟨d, hd, rfl⟩

theorem write_ok {s : Server} (w : ServerOk s) (h : Nat) (b : Option (List UInt8)) (f l : Bool) :
    ServerOk (s.write h b f l).1 := by
  unfold write
  split
  · exact w
  · next hh =>
    obtain ⟨it, e⟩ := has_iff.mp (by simpa using hh)
    refine redate_ok (absorb_ok w e ?_) _ _
    have hv := view_item s h
    rw [e] at hv
    exact FStore.writeData_same _ _ _ _ _ _ _ hv (fun ho => ioFor_open w e ho)

theorem truncate_ok {s : Server} (w : ServerOk s) (h n : Nat) : ServerOk (s.truncate h n).1 := by
  unfold truncate
  split
  · exact w
  · next hh =>
    obtain ⟨it, e⟩ := has_iff.mp (by simpa using hh)
    refine absorb_ok w e ?_
    have hv := view_item s h
    rw [e] at hv
    exact FStore.truncateItem_same _ _ _ _ _ hv

theorem writePartial_ok {s : Server} (w : ServerOk s) (h off : Nat) (d : List UInt8) (f l : Bool) :
    ServerOk (s.writePartial h off d f l).1 := by
  unfold writePartial
  split
  · exact w
  · next hh =>
    obtain ⟨it, e⟩ := has_iff.mp (by simpa using hh)
    split
    · next f' r e2 =>
      refine redate_ok (absorb_ok w e ?_) _ _
      have hv := view_item s h
      rw [e] at hv
      exact FStore.writePartial_same _ _ _ _ _ _ _ _ _ _ hv (fun ho => ioFor_open w e ho) e2
    · exact w

theorem dropGone_ok {s : Server} (w : ServerOk s) {t : Tree} (wt : TreeWF t) (sh : Shrunk s.tree t) :
    ServerOk (s.dropGone t) ∧ ∀ x, t.has x = true → contents (s.dropGone t) x = contents s x ∧
      (s.dropGone t).infoOf x = s.infoOf x := by
  have old : ∀ x ix, t.get x = some ix → ∃ iy, s.tree.get x = some iy ∧ ix.path = iy.path ∧ ix.fmt = iy.fmt ∧
      ix.parent = iy.parent ∧ ix.name = iy.name ∧ ix.par = iy.par := by
    intro x ix e
    rcases sh.item x with h | ⟨iy, e1, e2⟩
    · rw [h] at e; cases e
    · rw [e] at e2; cases e2; exact ⟨iy, e1, rfl, rfl, rfl, rfl, rfl⟩
  have fget : ∀ p, AMap.get (s.dropGone t).files p =
      if (AMap.get t.paths p.toList).isSome = true then AMap.get s.files p else none := fun p =>
    AMap.get_filterKey (fun q : String => (AMap.get t.paths q.toList).isSome) s.files p
  have iget : ∀ x, AMap.get (s.dropGone t).infos x = if t.has x = true then AMap.get s.infos x else none := fun x =>
    AMap.get_filterKey (fun q : Nat => t.has q) s.infos x
  refine ⟨⟨wt, ?_, ?_, ?_, ?_, ?_, ?_⟩, ?_⟩
  · intro h it e
    obtain ⟨iy, e1, _⟩ := old h it e
    show h ≤ t.asked
    rw [sh.asked]; exact w.issued h iy e1
  · intro r e
    obtain ⟨iy, e1, _, e3, _⟩ := old 0 r e
    rw [e3]; exact w.root iy e1
  · intro h it p pit e1 e2 e3
    obtain ⟨i1, a1, _, _, a4, _⟩ := old h it e1
    obtain ⟨i3, b1, _, b3, _⟩ := old p pit e3
    rw [b3]; exact w.folders h i1 p i3 a1 (a4 ▸ e2) b1
  · intro p
    rw [fget]
    constructor
    · intro hp
      split at hp
      · next hq =>
        obtain ⟨h, it, e1, e2, e3⟩ := (w.files p).mp hp
        obtain ⟨h', e4⟩ := Option.isSome_iff_exists.mp hq
        obtain ⟨it', e5, e6⟩ := wt.ofPath _ _ e4
        obtain ⟨iy, e7, e8, e9, _⟩ := old h' it' e5
        have : iy.path = it.path := by rw [← e8, e6, ← e3]; simp
        have hh : h = h' := by
          have a := w.wf.pathOf h it e1
          have b := w.wf.pathOf h' iy e7
          rw [this, a] at b; exact Option.some.inj b
        subst hh
        rw [e1] at e7; cases e7
        exact ⟨h, it', e5, by rw [e9]; exact e2, by rw [e8]; exact e3⟩
      · cases hp
    · rintro ⟨h, it, e1, e2, e3⟩
      obtain ⟨iy, e7, e8, e9, _⟩ := old h it e1
      have hp : AMap.get t.paths p.toList = some h := by rw [← e3]; simpa using wt.pathOf h it e1
      rw [if_pos (by rw [hp]; rfl)]
      exact (w.files p).mpr ⟨h, iy, e7, by rw [← e9]; exact e2, by rw [← e8]; exact e3⟩
  · intro h
    rw [iget]
    show _ = t.has h
    cases ht : t.has h with
    | false => simp
    | true => rw [if_pos rfl, w.known h]; exact sh.has ht
  · intro p n e
    have e : (s.dataFile.map fun e => if (AMap.get t.paths e.1.toList).isSome then e else ("", e.2)) = some (p, n) := e
    rw [Option.map_eq_some_iff] at e
    obtain ⟨⟨q, m⟩, e1, e2⟩ := e
    simp only at e2
    split at e2
    · next hq =>
      cases e2
      rcases w.openFile _ _ e1 with h | h
      · exact Or.inl h
      · right; rw [fget, if_pos hq]; exact h
    · cases e2; exact Or.inl rfl
  · intro x hx
    obtain ⟨ix, e⟩ := has_iff.mp hx
    obtain ⟨iy, e7, e8, e9, e10, e11, e12⟩ := old x ix e
    constructor
    · unfold contents
      show (match t.get x with
        | some it => if it.fmt = ASSOC then none else AMap.get (s.dropGone t).files (String.ofList it.path)
        | none => none) = _
      rw [e, e7]
      simp only [e8, e9]
      split
      · rfl
      · rw [fget, if_pos]
        have := wt.pathOf x ix e
        rw [e8] at this
        simp [this]
    · unfold infoOf
      show (match t.get x, AMap.get (s.dropGone t).infos x with | some _, some _ => _ | _, _ => _) = _
      rw [e, e7, iget, if_pos hx]
      cases AMap.get s.infos x <;> simp only [e9, e11, e12]

theorem delete_ok {s : Server} (w : ServerOk s) (h fmt : Nat) : ServerOk (s.delete h fmt).1 := by
  unfold delete
  split
  · exact w
  · obtain ⟨h1, h2⟩ := deleteItem_spec w.wf h fmt
    exact (dropGone_ok w h1 h2).1

theorem delete_asked (s : Server) (h fmt : Nat) : (s.delete h fmt).1.tree.asked = s.tree.asked := by
  unfold delete
  split
  · rfl
  · exact Cp.deleteItem_asked ..

/-- An object was created: `y`. -/
structure Born (s s' : Server) (p : Nat) (o : ObjInfo) (y : Nat) : Prop where
  sid : s'.sid = s.sid
  fresh : s.tree.get y = none
  parent : ∃ pit, s.tree.get p = some pit ∧ pit.fmt = ASSOC ∧
    AMap.get s.tree.paths (join pit.path (toPath o.fileName)) = none ∧
    (∃ v, ∀ x, s'.tree.get x = if x = y then
        some ⟨join pit.path (toPath o.fileName), toPath o.fileName, o.format, p, some p, [], v⟩
      else if x = p then some { pit with kids := y :: pit.kids } else s.tree.get x) ∧
    s'.files = if o.format = ASSOC then s.files
      else AMap.insert s.files (String.ofList (join pit.path (toPath o.fileName))) (s.newFile o.size)
  infos : s'.infos = AMap.insert s.infos y (s.kept o)
  dataFile : s'.dataFile = s.dataFile
  times : s'.times = s.times
  wf : TreeWF s'.tree
  issued : Issued s'.tree
  fs : s'.tree.fs = s.tree.fs
  notAll : y ≠ ALL

/-- … with a new handle. -/
structure New (s s' : Server) (p : Nat) (o : ObjInfo) (y : Nat) : Prop extends Born s s' p o y where
  later : s.tree.asked < y

theorem Born.ok {s s' : Server} {p : Nat} {o : ObjInfo} {y : Nat} (n : Born s s' p o y) (w : ServerOk s) : ServerOk s' := by
  obtain ⟨pit, hp, hpf, hfree, ⟨v, hget⟩, hfiles⟩ := n.parent
  have hpy : p ≠ y := by intro e; rw [e, n.fresh] at hp; cases hp
  have h0 : (0 : Nat) ≠ y := by
    obtain ⟨r, hr, _⟩ := w.wf.root
    intro e; rw [← e] at n; rw [n.fresh] at hr; cases hr
  have old : ∀ x ix, x ≠ y → s'.tree.get x = some ix → ∃ iy, s.tree.get x = some iy ∧ ix.path = iy.path ∧ ix.fmt = iy.fmt ∧
      ix.parent = iy.parent := by
    intro x ix hx e
    rw [hget, if_neg hx] at e
    split at e
    · next hxp => subst hxp; cases e; exact ⟨pit, hp, rfl, rfl, rfl⟩
    · exact ⟨ix, e, rfl, rfl, rfl⟩
  have keep : ∀ x ix, s.tree.get x = some ix → ∃ iy, s'.tree.get x = some iy ∧ iy.path = ix.path ∧ iy.fmt = ix.fmt := by
    intro x ix e
    have hx : x ≠ y := by intro h; rw [h, n.fresh] at e; cases e
    rw [hget, if_neg hx]
    split
    · next hxp => subst hxp; rw [hp] at e; cases e; exact ⟨_, rfl, rfl, rfl⟩
    · exact ⟨ix, e, rfl, rfl⟩
  have hy : s'.tree.get y = some ⟨join pit.path (toPath o.fileName), toPath o.fileName, o.format, p, some p, [], v⟩ := by
    rw [hget, if_pos rfl]
  refine ⟨n.wf, n.issued, ?_, ?_, ?_, ?_, ?_⟩
  · intro r e
    obtain ⟨iy, e1, _, e3, _⟩ := old 0 r h0 e
    rw [e3]; exact w.root iy e1
  · intro h it q qit e1 e2 e3
    by_cases hh : h = y
    · subst hh
      rw [hy] at e1; cases e1
      simp only [Option.some.injEq] at e2; subst e2
      obtain ⟨iy, a1, _, a3, _⟩ := old p qit hpy e3
      rw [hp] at a1; cases a1
      rw [a3]; exact hpf
    · obtain ⟨i1, a1, _, _, a4⟩ := old h it hh e1
      have hq : q ≠ y := by
        intro e
        obtain ⟨p', pit', b1, _, b3, _⟩ := w.wf.parent h i1 a1 (by
          rintro rfl
          obtain ⟨r, r1, _, r3⟩ := w.wf.root
          rw [r1] at a1; cases a1; rw [a4, r3] at e2; cases e2)
        rw [a4, b1] at e2; cases e2
        rw [e, n.fresh] at b3; cases b3
      obtain ⟨i3, b1, _, b3, _⟩ := old q qit hq e3
      rw [b3]; exact w.folders h i1 q i3 a1 (a4 ▸ e2) b1
  · intro q
    have lhs : (AMap.get s'.files q).isSome = true ↔
        (o.format ≠ ASSOC ∧ q = String.ofList (join pit.path (toPath o.fileName))) ∨ (AMap.get s.files q).isSome = true := by
      rw [hfiles]
      split
      · next h => simp [h]
      · next h =>
        rw [AMap.get_insert]
        split
        · next e => simp [h, e]
        · next e => simp [e]
    rw [lhs, w.files q]
    constructor
    · rintro (⟨h1, h2⟩ | ⟨h, it, h1, h2, h3⟩)
      · exact ⟨y, _, hy, h1, h2.symm⟩
      · obtain ⟨iy, a1, a2, a3⟩ := keep h it h1
        exact ⟨h, iy, a1, by rw [a3]; exact h2, by rw [a2]; exact h3⟩
    · rintro ⟨h, it, h1, h2, h3⟩
      by_cases hh : h = y
      · subst hh
        rw [hy] at h1; cases h1
        exact Or.inl ⟨h2, h3.symm⟩
      · obtain ⟨i1, a1, a2, a3, _⟩ := old h it hh h1
        exact Or.inr ⟨h, i1, a1, by rw [← a3]; exact h2, by rw [← a2]; exact h3⟩
  · intro h
    rw [n.infos, AMap.get_insert]
    split
    · next e => subst e; exact (has_iff.mpr ⟨_, hy⟩).symm
    · next e =>
      rw [w.known h]
      unfold Tree.has
      rw [hget, if_neg e]
      split
      · next hxp => subst hxp; rw [hp]; rfl
      · rfl
  · intro q m e
    rw [n.dataFile] at e
    rcases w.openFile q m e with h | h
    · exact Or.inl h
    · right
      rw [hfiles]
      split
      · exact h
      · rw [AMap.get_insert]
        split
        · rfl
        · exact h

theorem Born.old {s s' : Server} {p : Nat} {o : ObjInfo} {y : Nat} (n : Born s s' p o y) (w : ServerOk s) (x : Nat)
    (hx : x ≠ y) : contents s' x = contents s x ∧ s'.infoOf x = s.infoOf x := by
  obtain ⟨pit, hp, hpf, hfree, ⟨v, hget⟩, hfiles⟩ := n.parent
  have hfile : ∀ ix, s.tree.get x = some ix → AMap.get s'.files (String.ofList ix.path) = AMap.get s.files (String.ofList ix.path) := by
    intro ix e
    rw [hfiles]
    split
    · rfl
    · rw [AMap.get_insert, if_neg]
      intro h
      have := w.wf.pathOf x ix e
      rw [ofList_inj h, hfree] at this; cases this
  unfold contents infoOf
  rw [hget, if_neg hx, n.infos, AMap.get_insert, if_neg hx]
  by_cases hxp : x = p
  · subst hxp
    rw [hp, if_pos rfl]
    exact ⟨by simp only [hfile pit hp], by cases AMap.get s.infos x <;> rfl⟩
  · rw [if_neg hxp]
    constructor
    · cases e : s.tree.get x with
      | none => rfl
      | some ix => simp only [hfile ix e]
    · rfl

theorem New.ok {s s' : Server} {p : Nat} {o : ObjInfo} {y : Nat} (n : New s s' p o y) (w : ServerOk s) : ServerOk s' := n.toBorn.ok w

theorem New.old {s s' : Server} {p : Nat} {o : ObjInfo} {y : Nat} (n : New s s' p o y) (w : ServerOk s) (x : Nat)
    (hx : x ≠ y) : contents s' x = contents s x ∧ s'.infoOf x = s.infoOf x := n.toBorn.old w x hx

theorem grant_wf {t : Tree} (w : TreeWF t) (b : Bool) : TreeWF (grant t b) := WF_congr w rfl rfl rfl

private theorem add_known {t : Tree} {path : Path} {i : Tree.Info} {f h : Nat}
    (hk : AMap.get t.paths path = some h) (hh : t.has h = true) :
    t.add path (.node none f []) (some i) false true 0 = (t, none, .accessDenied) ∨
    t.add path (.node none f []) (some i) false true 0 = (t, some h, .ok) := by
  rw [Tree.add.eq_def]
  simp only [Tree.addOne, hk, Option.isSome_some, if_true]
  by_cases hr : t.refused path none = true
  · left; simp [hr]
  · right; simp [hr, Tree.findByPath, hk, hh]

private theorem fs_refused {t : Tree} {path : Path} {i : Tree.Info} {f y : Nat} {t1 : Tree}
    (hk : AMap.get t.paths path = none)
    (h : (grant t false).add path (.node none f []) (some i) false true 0 = (t1, some y, .ok)) : False := by
  have hk : AMap.get (grant t false).paths path = none := hk
  rw [Tree.add.eq_def] at h
  simp only [Tree.addOne, hk, Option.isSome_none, Bool.false_eq_true, if_false] at h
  by_cases hr : (grant t false).refused path none = true
  · simp [hr] at h
  · have hf : ∀ u : Tree, u.fs = (grant t false).fs → (u.tryCreate true).1 = false := by
      intro u hu
      show u.fs u.tick = false
      rw [hu]
      simp [grant]
    have hp : ((grant t false).pickHandle path 0).2.fs = (grant t false).fs := by
      unfold Tree.pickHandle Tree.newHandle
      split
      · rfl
      · split <;> rfl
    have := hf _ hp
    simp only [hr, Bool.false_eq_true, if_false, this, if_true] at h
    simp only [Prod.mk.injEq] at h
    split at h
    · simp at h
    · split at h <;> simp at h

theorem addItem_eq' (t : Tree) (i : Tree.Info) (d : Disk) : t.addItem i d =
    match t.get (if i.par = ALL then 0 else i.par) with
    | none => (t, none, .invalidParentObject)
    | some p => t.add (join p.path i.name) d (some ⟨i.name, i.fmt, if i.par = ALL then 0 else i.par⟩) false true 0 := by
  unfold Tree.addItem
  split <;> rfl

/-- What announcing an object does. -/
theorem addItem_cases {s : Server} (w : ServerOk s) (o : ObjInfo) (par : Nat) (hn : '/' ∉ toPath o.fileName)
    {s' : Server} {r : Resp} {h : Nat} (e : s.addItem o par = (s', r, h)) (hb : s'.tree.asked < 0xFFFFFFFF) :
    (Quiet s s' ∧ (r = .ok → s.tree.has h = true ∧ ∃ pit, s.tree.get (if par = ALL then 0 else par) = some pit ∧
      AMap.get s.tree.paths (join pit.path (toPath o.fileName)) = some h)) ∨
    (r = .ok ∧ New s s' (if par = ALL then 0 else par) o h) := by
  unfold addItem at e
  simp only [addItem_eq'] at e
  generalize hpp : (if par = ALL then 0 else par) = p at e ⊢
  have hgg : ∀ b x, (grant s.tree b).get x = s.tree.get x := fun _ _ => rfl
  rw [hgg] at e
  cases hp : s.tree.get p with
  | none =>
    simp only [hp] at e
    left
    cases e
    exact ⟨⟨rfl, rfl, rfl, rfl, Nat.le_refl _, rfl, rfl, rfl, rfl⟩, fun h => by cases h⟩
  | some pit =>
    simp only [hp] at e
    generalize hbp : decide (pit.fmt = ASSOC) = b at e
    cases hk : AMap.get s.tree.paths (join pit.path (toPath o.fileName)) with
    | some k =>
      obtain ⟨ki, k1, _⟩ := w.wf.ofPath _ _ hk
      have hh : s.tree.has k = true := has_iff.mpr ⟨ki, k1⟩
      left
      rcases add_known (t := grant s.tree b) (path := join pit.path (toPath o.fileName))
        (i := ⟨toPath o.fileName, o.format, p⟩) (f := o.format) hk hh with ha | ha
      · rw [ha] at e
        simp only at e
        cases e
        exact ⟨⟨rfl, rfl, rfl, rfl, Nat.le_refl _, rfl, rfl, rfl, rfl⟩, fun h => by cases h⟩
      · rw [ha] at e
        simp only [hh, if_true] at e
        cases e
        exact ⟨⟨rfl, rfl, rfl, rfl, Nat.le_refl _, rfl, rfl, rfl, rfl⟩, fun _ => ⟨hh, pit, rfl, hk⟩⟩
    | none =>
      generalize ha : (grant s.tree b).add (join pit.path (toPath o.fileName)) (.node none o.format [])
        (some ⟨toPath o.fileName, o.format, p⟩) false true 0 = a at e
      obtain ⟨t1, oy, r1⟩ := a
      have bound : t1.asked < 0xFFFFFFFF → _ := add_made (it := ⟨[], toPath o.fileName, o.format, 0, none, [], 0⟩)
        (grant_wf w.wf b) (show Issued (grant s.tree b) from w.issued) hp hn (by simp) hk ha
      have hask : s'.tree.asked = t1.asked := by
        split at e
        · next ht =>
          simp only [Prod.mk.injEq] at ht
          obtain ⟨ht, _⟩ := ht; subst ht
          split at e
          · cases e; rfl
          · split at e <;> cases e <;> rfl
        · next ht =>
          simp only [Prod.mk.injEq] at ht
          obtain ⟨ht, _⟩ := ht; subst ht
          cases e; rfl
      obtain ⟨m1, m2, m3, m4⟩ := bound (hask ▸ hb)
      by_cases hr : r1 = .ok
      · subst hr
        obtain ⟨y, e1, m, _, hlt⟩ := m1 rfl
        subst e1
        obtain ⟨v, hget⟩ := m.get
        have hy : s.tree.has y = false := has_false.mpr m.fresh
        have hyg : Tree.get { t1 with fs := s.tree.fs } y =
            some ⟨join pit.path (toPath o.fileName), toPath o.fileName, o.format, p, some p, [], v⟩ := by
          show t1.get y = _
          rw [hget, if_pos rfl]
        simp only [hy, Bool.false_eq_true, if_false, hyg] at e
        have hf : b = true := by
          cases hbb : b with
          | true => rfl
          | false =>
            rw [hbb] at ha
            exact (fs_refused hk ha).elim
        have hpf : pit.fmt = ASSOC := by rw [hf] at hbp; simpa using hbp
        right
        cases e
        refine ⟨rfl, ⟨rfl, m.fresh, ⟨pit, hp, hpf, hk, ⟨v, hget⟩, rfl⟩, rfl, rfl, rfl, ?_, m.issued, rfl, ?_⟩, hlt rfl⟩
        · exact WF_congr m.wf rfl rfl rfl
        · have := m.issued h _ hyg
          have hb' : t1.asked < 0xFFFFFFFF := hb
          unfold ALL
          omega
      · obtain ⟨e1, e2, e3, e4⟩ := m2 hr
        subst e1
        left
        have : (s', r, h) = ({ s with tree := { t1 with fs := s.tree.fs } }.tickCall, r1, 0) := by
          rw [← e]
        cases this
        exact ⟨⟨rfl, e2, e3, e4, m3, rfl, rfl, rfl, rfl⟩, fun h => absurd h hr⟩

end Server
end Mtp
