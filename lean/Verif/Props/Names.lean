import Verif.Props.Move
/-! Property theorems C24 (names chosen by the host) and C25 (symbolic links). -/
namespace Props
open Mtp Spec

theorem illegal_iff (c : Char) : Tree.illegal c = true ↔ BadChar c := by
  unfold Tree.illegal BadChar
  simp only [Bool.or_eq_true, decide_eq_true_eq, List.mem_cons, List.not_mem_nil, or_false, or_assoc, Nat.lt_succ_iff]

/-- C24. Whenever a rename changes the tree, the new name has no separator, is not "." or "..", no reserved or control
characters, the object lies directly in the folder it was in under exactly that name, and no object had that
path before. -/
theorem C24_rename {t : Tree} (w : TreeWF t) (h : Nat) (name : Path) (hch : ∃ x, (t.rename h name).1.get x ≠ t.get x) :
    '/' ∉ name ∧ name ≠ ['.'] ∧ name ≠ ['.', '.'] ∧ (∀ c ∈ name, ¬ BadChar c) ∧
    ∃ it p pit it', t.get h = some it ∧ it.parent = some p ∧ t.get p = some pit ∧
      (t.rename h name).1.get h = some it' ∧ it'.parent = some p ∧ it'.name = name ∧
      it'.path = join pit.path name ∧ t.findByPath (join pit.path name) = none := by
  rcases rename_cases w h name with ⟨h1, _⟩ | ⟨it, p, pit, e, h0, hpar, hp, hv, hsl, hfree, hg, hr, eq⟩
  · obtain ⟨x, hx⟩ := hch
    exact absurd (by unfold Tree.get; rw [h1]) hx
  · have hv' := hv
    unfold Tree.nameValid at hv
    simp only [Bool.and_eq_true, Bool.not_eq_true', List.any_eq_false, Bool.not_eq_true] at hv
    refine ⟨hsl, ?_, ?_, fun c hc hb => (by have := hv.1.1 c hc; rw [(illegal_iff c).mpr hb] at this; cases this), ?_⟩
    · rintro rfl; simp at hv
    · rintro rfl; simp at hv
    · have R := repath_relocated (WF_tick w (t.tick + 1)) e h0 hpar hp hsl hfree
      refine ⟨it, p, pit, { it with path := join pit.path name, name := name }, e, hpar, hp, ?_, hpar, rfl, rfl, ?_⟩
      · rw [eq]; exact R.2.2.2.1
      · unfold Tree.findByPath; rw [hfree]

/-- C24. A name with a separator, made of dots only, with a forbidden character or naming an existing object is refused
and nothing happens. -/
theorem C24_rename_refused {t : Tree} (h : Nat) (name : Path) {it pit : Item} {p : Nat} (e : t.get h = some it)
    (hp : it.parent = some p) (ep : t.get p = some pit)
    (hbad : (∃ c ∈ name, BadChar c) ∨ name = ['.'] ∨ name = ['.', '.'] ∨
      (AMap.get t.paths (join pit.path name)).isSome) :
    t.rename h name = (t, .invalidObjectPropValue) := by
  have hv : t.nameValid name pit = false := by
    unfold Tree.nameValid
    rcases hbad with ⟨c, hc, hi⟩ | rfl | rfl | hs
    · have : name.any Tree.illegal = true := List.any_eq_true.mpr ⟨c, hc, (illegal_iff c).mpr hi⟩
      simp [this]
    · simp
    · simp
    · cases hq : AMap.get t.paths (join pit.path name) with
      | none => rw [hq] at hs; cases hs
      | some v => simp
  unfold Tree.rename
  simp [e, hp, ep, hv]

/-- C24, objects created by the host: with a name free of separators, the new object is a child of the chosen folder at
folder path / name. Missing: other names are accepted too, see `C24_create_outside_violated`. -/
theorem C24_create_partial {t : Tree} (w : TreeWF t) (hi : Issued t) (i : Tree.Info) (d : Disk) (hn : '/' ∉ i.name)
    (hd : DiskOk d) (hb : (t.addItem i d).1.asked < 0xFFFFFFFF) {x : Nat} (hx : (t.addItem i d).2.1 = some x)
    (hnew : t.has x = false) :
    ∃ p pit it, p = (if i.par = ALL then 0 else i.par) ∧ t.get p = some pit ∧ (t.addItem i d).1.get x = some it ∧
      it.parent = some p ∧ it.path = join pit.path i.name ∧ it.name = i.name := by
  unfold Tree.addItem at hb hx ⊢
  dsimp only at hb hx ⊢
  generalize hj : (if i.par = ALL then { i with par := 0 } else i : Tree.Info) = j at hb hx ⊢
  have hjn : j.name = i.name := by rw [← hj]; split <;> rfl
  have hjp : j.par = if i.par = ALL then 0 else i.par := by rw [← hj]; split <;> rfl
  cases ep : t.get j.par with
  | none => simp only [ep] at hx; cases hx
  | some pit =>
    simp only [ep] at hb hx ⊢
    have hslash : '/' ∉ j.name := by rw [hjn]; exact hn
    obtain ⟨link, dfmt, es⟩ := d
    rw [DiskOk] at hd
    rw [Tree.add.eq_def] at hb hx ⊢
    dsimp only at hb hx ⊢
    have key := addOne_spec w hi ep hslash link dfmt (some j) (fun i' e => by cases e; exact ⟨rfl, rfl⟩) true 0 (by simp)
    have hba := fun b => add_asked t (join pit.path j.name) (.node link dfmt es) (some j) false b 0
    split at hx
    · next t1 h r e =>
      simp only [e] at hb key ⊢
      simp only at hx
      cases hx
      rw [(Tree.emit_eq _ _ _).2.2.2.1] at hb
      have hb1 : t1.asked < 0xFFFFFFFF := by
        split at hb
        · exact Nat.lt_of_le_of_lt (addAll_asked _ _ _ _ es) hb
        · exact hb
      obtain ⟨k1, k2, k3, _⟩ := key hb1
      obtain ⟨it, g1, g2, g3, g4, g5, g6, g7, g8⟩ := k3 x rfl
      have hgem : ∀ (t' : Tree), (t'.emit false (.added x)).get x = t'.get x := fun t' => rfl
      have : ∃ ks, (if (Tree.newItem (join pit.path j.name) none dfmt (some j)).fmt = ASSOC then
          t1.addAll (join pit.path j.name) false true es else t1).get x = some { it with kids := ks } := by
        split
        · next hf =>
          rw [if_pos hf] at hb
          rw [← g2]
          rw [← g2] at hb
          obtain ⟨l, g⟩ := (addAll_spec k1 (Issued_grown k2 hi (Nat.zero_le _)) g1 false true es hd hb).2.2.item x it g1
          exact ⟨_, g⟩
        · exact ⟨it.kids, g1⟩
      obtain ⟨ks, hks⟩ := this
      exact ⟨j.par, pit, { it with kids := ks }, hjp, ep, by rw [hgem]; exact hks, g4, by rw [← hjn]; exact g2, by rw [← hjn]; exact g3⟩
    · next t1 r e =>
      -- an object already known under this path is handed back: not new
      exfalso
      simp only at hx
      split at hx
      · simp only [e] at key
        have hb1 : t1.asked < 0xFFFFFFFF := by simpa only [e] using hb
        obtain ⟨_, _, _, k4, _⟩ := key hb1
        obtain ⟨k5, k6⟩ := k4 trivial
        unfold Tree.findByPath Tree.has Tree.get at hx
        rw [k5] at hx
        split at hx
        · cases hx
        · split at hx
          · cases hx
            unfold Tree.has Tree.get at hnew
            simp_all
          · cases hx
      · cases hx

/-- C24 is violated by a host creating an object named "../../e" in folder "/s/d": the file is created at
"/s/d/../../e", that is, outside the storage, and shown as a child of the root. -/
theorem C24_create_outside_violated :
    let r := demoTree.addItem ⟨"../../e".toList, 0x3004, 1⟩ (.node none 0x3004 [])
    r.2.1 = some 4 ∧ r.2.2 = .ok ∧
    (r.1.get 4).map (fun i => (i.path, i.parent)) = some ("/s/d/../../e".toList, some 0) := by decide +kernel

/-- C24 is violated by the name check itself for the empty name: it is accepted (the file system then has to refuse). -/
theorem C24_empty_name_violated : ∃ r, demoTree.get 0 = some r ∧ demoTree.nameValid [] r = true := by
  have : demoTree.get 0 = some ⟨['/', 's'], ['s'], ASSOC, 0, none, [3, 1], 1⟩ := by decide +kernel
  exact ⟨_, this, by decide +kernel⟩

theorem C24_witness : (∃ x, (demoTree.rename 3 ['z']).1.get x ≠ demoTree.get x) ∧
    (demoTree.addItem ⟨['w'], 0x3004, 1⟩ (.node none 0x3004 [])).2.1 = some 4 ∧ demoTree.has 4 = false := by
  refine ⟨⟨3, by decide +kernel⟩, by decide +kernel, by decide +kernel⟩

/-! ### C25 -/

/-- On disk, below base path `p`, there is something at path `q` with link status `l`. -/
inductive At : Disk → Path → Path → Option (Option Path) → Prop where
  | here {l f es p} : At (.node l f es) p p l
  | sub {l f es p n d q l'} : (n, d) ∈ es → At d (join p n) q l' → At (.node l f es) p q l'

/-- The configuration deciding what may be shown. -/
def SameCfg (t t' : Tree) : Prop := t'.excl = t.excl ∧ t'.policy = t.policy ∧ t'.rootPath = t.rootPath

theorem SameCfg.refused {t t' : Tree} (h : SameCfg t t') (p : Path) (l : Option (Option Path)) :
    t'.refused p l = t.refused p l := by
  unfold Tree.refused; rw [h.1, h.2.1, h.2.2]

theorem addOne_cfg (t : Tree) (path : Path) (link : Option (Option Path)) (dfmt : Nat) (info : Option Tree.Info)
    (create : Bool) (handle : Nat) :
    SameCfg t (t.addOne path link dfmt info create handle).1 ∧
    ∀ x ix, (t.addOne path link dfmt info create handle).1.get x = some ix →
      (∃ iy, t.get x = some iy ∧ iy.path = ix.path) ∨ (ix.path = path ∧ t.refused path link = false) := by
  have c1 : SameCfg t (t.pickHandle path handle).2 ∧ (t.pickHandle path handle).2.items = t.items := by
    unfold Tree.pickHandle
    split
    · exact ⟨⟨rfl, rfl, rfl⟩, rfl⟩
    · split
      · exact ⟨⟨rfl, rfl, rfl⟩, rfl⟩
      · exact ⟨⟨rfl, rfl, rfl⟩, rfl⟩
  have c2 : ∀ t1 : Tree, SameCfg t1 (t1.tryCreate create).2 ∧ (t1.tryCreate create).2.items = t1.items := by
    intro t1; unfold Tree.tryCreate Tree.ask; split <;> exact ⟨⟨rfl, rfl, rfl⟩, rfl⟩
  have cu : ∀ (t1 : Tree) h f, SameCfg t1 (t1.upd h f) := by
    intro t1 h f; unfold Tree.upd; split <;> exact ⟨rfl, rfl, rfl⟩
  have c3 : ∀ (t1 : Tree) h p, SameCfg t1 (t1.linkOpt h p) ∧
      ∀ x ix, (t1.linkOpt h p).get x = some ix → ∃ iy, t1.get x = some iy ∧ iy.path = ix.path := by
    intro t1 h p
    cases p with
    | none => exact ⟨⟨rfl, rfl, rfl⟩, fun x ix e => ⟨ix, e, rfl⟩⟩
    | some p =>
      refine ⟨cu _ _ _, fun x ix e => ?_⟩
      change (t1.link h p).get x = _ at e
      unfold Tree.link at e
      rw [Tree.get_upd] at e
      split at e
      · cases hx : t1.get x with
        | none => rw [hx] at e; cases e
        | some iy => rw [hx] at e; cases e; exact ⟨iy, rfl, rfl⟩
      · exact ⟨ix, e, rfl⟩
  have c4 : ∀ (t1 : Tree) h it, SameCfg t1 (t1.addToMaps h it) := by
    intro t1 h it
    unfold Tree.addToMaps
    split
    next v t2 e =>
      have : t2.excl = t1.excl ∧ t2.policy = t1.policy ∧ t2.rootPath = t1.rootPath := by
        split at e <;> (cases e; exact ⟨rfl, rfl, rfl⟩)
      exact this
  unfold Tree.addOne
  split
  · exact ⟨⟨rfl, rfl, rfl⟩, fun x ix e => Or.inl ⟨ix, e, rfl⟩⟩
  · next hr =>
    split
    · exact ⟨⟨rfl, rfl, rfl⟩, fun x ix e => Or.inl ⟨ix, e, rfl⟩⟩
    · dsimp only
      have hcfg : SameCfg t ((t.pickHandle path handle).2.tryCreate create).2 :=
        ⟨(c2 _).1.1.trans c1.1.1, (c2 _).1.2.1.trans c1.1.2.1, (c2 _).1.2.2.trans c1.1.2.2⟩
      have hit : ((t.pickHandle path handle).2.tryCreate create).2.items = t.items := (c2 _).2.trans c1.2
      split
      · refine ⟨hcfg, fun x ix e => Or.inl ⟨ix, ?_, rfl⟩⟩
        unfold Tree.get at e ⊢; rwa [hit] at e
      · obtain ⟨l1, l2⟩ := c3 ((t.pickHandle path handle).2.tryCreate create).2 (t.pickHandle path handle).1
          (t.parentFor path)
        have m1 := c4 (((t.pickHandle path handle).2.tryCreate create).2.linkOpt (t.pickHandle path handle).1
          (t.parentFor path)) (t.pickHandle path handle).1 (Tree.newItem path (t.parentFor path) dfmt info)
        refine ⟨⟨m1.1.trans (l1.1.trans hcfg.1), m1.2.1.trans (l1.2.1.trans hcfg.2.1),
          m1.2.2.trans (l1.2.2.trans hcfg.2.2)⟩, fun x ix e => ?_⟩
        obtain ⟨v, hv⟩ := addToMaps_get (((t.pickHandle path handle).2.tryCreate create).2.linkOpt
          (t.pickHandle path handle).1 (t.parentFor path)) (t.pickHandle path handle).1
          (Tree.newItem path (t.parentFor path) dfmt info) x
        rw [hv] at e
        split at e
        · right
          refine ⟨?_, by simpa using hr⟩
          cases e
          cases info <;> rfl
        · left
          obtain ⟨iy, y1, y2⟩ := l2 x ix e
          refine ⟨iy, ?_, y2⟩
          unfold Tree.get at y1 ⊢; rwa [hit] at y1

mutual
theorem add_at (t : Tree) (path : Path) (d : Disk) (info : Option Tree.Info) (ev create : Bool) (handle : Nat) :
    SameCfg t (t.add path d info ev create handle).1 ∧
    ∀ x ix, (t.add path d info ev create handle).1.get x = some ix →
      (∃ iy, t.get x = some iy ∧ iy.path = ix.path) ∨ ∃ l, At d path ix.path l ∧ t.refused ix.path l = false := by
  match d with
  | .node link dfmt entries =>
    rw [Tree.add.eq_def]
    have h1 := addOne_cfg t path link dfmt info create handle
    dsimp only
    have conv : ∀ x ix, (t.addOne path link dfmt info create handle).1.get x = some ix →
        (∃ iy, t.get x = some iy ∧ iy.path = ix.path) ∨
        ∃ l, At (.node link dfmt entries) path ix.path l ∧ t.refused ix.path l = false := by
      intro x ix e
      rcases h1.2 x ix e with h | ⟨h, hr⟩
      · exact Or.inl h
      · exact Or.inr ⟨link, by rw [h]; exact .here, by rw [h]; exact hr⟩
    split
    · next t1 h r e =>
      rw [e] at h1 conv
      have hem : ∀ (t' : Tree) (b : Bool) (e : TEvent), SameCfg t' (t'.emit b e) ∧ ∀ x, (t'.emit b e).get x = t'.get x := by
        intro t' b e; unfold Tree.emit; split <;> exact ⟨⟨rfl, rfl, rfl⟩, fun _ => rfl⟩
      split
      · have h2 := addAll_at t1 path ev create entries
        refine ⟨⟨(hem _ _ _).1.1.trans (h2.1.1.trans h1.1.1), (hem _ _ _).1.2.1.trans (h2.1.2.1.trans h1.1.2.1),
          (hem _ _ _).1.2.2.trans (h2.1.2.2.trans h1.1.2.2)⟩, ?_⟩
        intro x ix ex
        rw [(hem _ _ _).2] at ex
        rcases h2.2 x ix ex with ⟨iy, y1, y2⟩ | ⟨n, d', l, hm, ha, hr⟩
        · rw [← y2]; exact conv x iy y1
        · exact Or.inr ⟨l, .sub hm ha, by rw [← h1.1.refused]; exact hr⟩
      · refine ⟨⟨(hem _ _ _).1.1.trans h1.1.1, (hem _ _ _).1.2.1.trans h1.1.2.1, (hem _ _ _).1.2.2.trans h1.1.2.2⟩, ?_⟩
        intro x ix ex
        rw [(hem _ _ _).2] at ex
        exact conv x ix ex
    · next t1 r e => rw [e] at h1 conv; exact ⟨h1.1, conv⟩
  termination_by structural d
theorem addAll_at (t : Tree) (path : Path) (ev create : Bool) (entries : List (Path × Disk)) :
    SameCfg t (t.addAll path ev create entries) ∧
    ∀ x ix, (t.addAll path ev create entries).get x = some ix →
      (∃ iy, t.get x = some iy ∧ iy.path = ix.path) ∨
      ∃ n d l, (n, d) ∈ entries ∧ At d (join path n) ix.path l ∧ t.refused ix.path l = false := by
  match entries with
  | [] => rw [Tree.addAll]; exact ⟨⟨rfl, rfl, rfl⟩, fun x ix e => Or.inl ⟨ix, e, rfl⟩⟩
  | (n, d) :: r =>
    rw [Tree.addAll]
    have h1 := add_at t (join path n) d none ev create 0
    have h2 := addAll_at (t.add (join path n) d none ev create 0).1 path ev create r
    refine ⟨⟨h2.1.1.trans h1.1.1, h2.1.2.1.trans h1.1.2.1, h2.1.2.2.trans h1.1.2.2⟩, ?_⟩
    intro x ix e
    rcases h2.2 x ix e with ⟨iy, y1, y2⟩ | ⟨n', d', l, hm, ha, hr⟩
    · rcases h1.2 x iy y1 with h | ⟨l, ha, hr⟩
      · rw [← y2]; exact Or.inl h
      · rw [← y2]; exact Or.inr ⟨n, d, l, List.mem_cons_self, ha, hr⟩
    · exact Or.inr ⟨n', d', l, List.mem_cons_of_mem _ hm, ha, by rw [← h1.1.refused]; exact hr⟩
  termination_by structural entries
end

/-- What a symbolic link (status `l`) must satisfy to be shown under a policy. -/
def LinkAllowed (pol : SymPolicy) (root : Path) : Option (Option Path) → Prop
  | none => True
  | some none => False
  | some (some target) => target ≠ [] ∧
    (pol = .allowAll ∨ (pol = .allowWithinStorage ∧ ∃ s, target = root ++ '/' :: s))

theorem refused_spec (t : Tree) (p : Path) (l : Option (Option Path)) :
    t.refused p l = false ↔ p ∉ t.excl ∧ LinkAllowed t.policy t.rootPath l := by
  unfold Tree.refused
  rw [Bool.or_eq_false_iff]
  have h1 : t.excl.contains p = false ↔ p ∉ t.excl := by simp
  rw [h1]
  refine and_congr_right fun _ => ?_
  match l with
  | none => simp [LinkAllowed]
  | some none => simp [LinkAllowed]
  | some (some target) =>
    simp only [Bool.or_eq_false_iff, LinkAllowed]
    have h2 : target.isEmpty = false ↔ target ≠ [] := by cases target <;> simp
    rw [h2]
    refine and_congr_right fun _ => ?_
    cases hp : t.policy with
    | allowAll => simp
    | undefined => simp
    | denyAll => simp
    | allowWithinStorage =>
      simp only [Bool.or_eq_false_iff, decide_eq_false_iff_not, reduceCtorEq, false_or, true_and,
        Bool.not_eq_false', List.isPrefixOf_iff_prefix]
      constructor
      · rintro ⟨⟨h3, h4⟩, s, rfl⟩
        cases s with
        | nil => simp at h3
        | cons c s =>
          simp only [ne_eq, Decidable.not_not] at h4
          rw [List.getElem?_append_right (Nat.le_refl _)] at h4
          simp at h4
          exact ⟨s, by rw [h4]⟩
      · rintro ⟨s, rfl⟩
        refine ⟨⟨by simp, ?_⟩, ⟨_, rfl⟩⟩
        simp

/-- C25. After enumerating any directory tree, every object shown is something that exists on disk at the object's path,
is not excluded, and if it is a symbolic link is allowed by the policy: never a broken link; none under "deny all";
under "within storage" only with a target inside the storage directory on a component boundary. -/
theorem C25_enumeration (rp : Path) (excl : List Path) (pol : SymPolicy) (pu : AMap Path Nat) (fs : Nat → Bool)
    (asked ids : Nat) (d : Disk) (x : Nat) (ix : Item)
    (h : ((Tree.empty rp excl pol pu fs asked ids).enumerate d).get x = some ix) :
    ∃ l, At d rp ix.path l ∧ ix.path ∉ excl ∧ LinkAllowed pol rp l := by
  unfold Tree.enumerate at h
  rcases (add_at _ _ _ _ _ _ _).2 x ix h with ⟨iy, e, _⟩ | ⟨l, ha, hr⟩
  · cases e
  · obtain ⟨h1, h2⟩ := (refused_spec _ _ _).mp hr
    exact ⟨l, ha, h1, h2⟩

/-- C25. The same for every object that appears later through creation on the device or by the host, in any state: `d` is
what is on disk at the new path. -/
theorem C25_later (t : Tree) (path : Path) (d : Disk) (info : Option Tree.Info) (ev create : Bool) (handle x : Nat)
    (ix : Item) (h : (t.add path d info ev create handle).1.get x = some ix) :
    (∃ iy, t.get x = some iy ∧ iy.path = ix.path) ∨
    ∃ l, At d path ix.path l ∧ ix.path ∉ t.excl ∧ LinkAllowed t.policy t.rootPath l := by
  rcases (add_at _ _ _ _ _ _ _).2 x ix h with h | ⟨l, ha, hr⟩
  · exact Or.inl h
  · obtain ⟨h1, h2⟩ := (refused_spec _ _ _).mp hr
    exact Or.inr ⟨l, ha, h1, h2⟩

/-- Witness: a storage with an inside link, an outside link with the storage path as a string prefix, and a broken link,
under each policy. -/
def linkDisk : Disk := .node none ASSOC
  [(['a'], .node (some (some "/s/x".toList)) 0x3004 []), (['b'], .node (some (some "/sx".toList)) 0x3004 []),
   (['c'], .node (some none) 0x3004 [])]

theorem C25_witness :
    ((Tree.empty "/s".toList [] .denyAll [] (fun _ => true) 0 0).enumerate linkDisk).paths.map (·.1) =
      ["/s".toList] ∧
    ((Tree.empty "/s".toList [] .allowWithinStorage [] (fun _ => true) 0 0).enumerate linkDisk).paths.map (·.1) =
      ["/s/a".toList, "/s".toList] ∧
    ((Tree.empty "/s".toList [] .allowAll [] (fun _ => true) 0 0).enumerate linkDisk).paths.map (·.1) =
      ["/s/b".toList, "/s/a".toList, "/s".toList] := by
  refine ⟨by decide +kernel, by decide +kernel, by decide +kernel⟩

end Props
