import Verif.Model.Copy
import Verif.Lemmas.TreeStep
/-! Lemmas about copying trees: one new object, a copied list of objects, what the result looks like. -/
namespace Mtp
open Spec

/-- `t1` is `t` with a new empty object `y` below `p`. -/
structure Made (t : Tree) (p : Nat) (pit : Item) (name : Path) (fmt y : Nat) (t1 : Tree) : Prop where
  fresh : t.get y = none
  get : ∃ v, ∀ x, t1.get x = if x = y then some ⟨join pit.path name, name, fmt, p, some p, [], v⟩
    else if x = p then some { pit with kids := y :: pit.kids } else t.get x
  paths : t1.paths = AMap.insert t.paths (join pit.path name) y
  free : AMap.get t.paths (join pit.path name) = none
  root : t1.rootPath = t.rootPath
  wf : TreeWF t1
  issued : Issued t1
  asked : t.asked ≤ t1.asked
  fs : t1.fs = t.fs
  excl : t1.excl = t.excl

theorem addToMaps_excl (t : Tree) (h : Nat) (it : Item) : (t.addToMaps h it).excl = t.excl := by
  unfold Tree.addToMaps
  split
  next v t1 e =>
    split at e <;> cases e <;> rfl

/-- Adding one childless object at a free path: refused without a trace, or made. -/
theorem add_made {t : Tree} (w : TreeWF t) (hi : Issued t) {p : Nat} {pit it : Item} {keep : Nat}
    (hp : t.get p = some pit) (hn : '/' ∉ it.name) (hkeep : keep ≠ 0 → t.get keep = none ∧ keep ≤ t.asked)
    (hfree : AMap.get t.paths (join pit.path it.name) = none)
    {t1 : Tree} {oy : Option Nat} {r : Resp}
    (h : t.add (join pit.path it.name) (.node none it.fmt []) (some ⟨it.name, it.fmt, p⟩) false true keep =
      (t1, oy, r)) (hb : t1.asked < 0xFFFFFFFF) :
    (r = .ok → ∃ y, oy = some y ∧ Made t p pit it.name it.fmt y t1 ∧ (keep ≠ 0 → y = keep) ∧
      (keep = 0 → t.asked < y)) ∧
    (r ≠ .ok → oy = none ∧ t1.items = t.items ∧ t1.paths = t.paths ∧ t1.rootPath = t.rootPath) ∧
    t.asked ≤ t1.asked ∧
    (join pit.path it.name ∉ t.excl → t.fs t.tick = true → r = .ok) := by
  have hroot : join pit.path it.name ≠ t.rootPath := by
    intro h
    have := (w.under_root hp).length
    rw [← h, join_length] at this; omega
  have hfind : t.parentFor (join pit.path it.name) = some p := by
    unfold Tree.parentFor
    rw [dirOf_join hn]
    unfold Tree.findByPath
    rw [w.pathOf p pit hp]
    dsimp only
    rw [if_pos (has_iff.mpr ⟨pit, hp⟩)]
  rw [Tree.add.eq_def] at h
  dsimp only at h
  unfold Tree.addOne at h
  by_cases hrf : t.refused (join pit.path it.name) none = true
  · rw [if_pos hrf] at h
    dsimp only at h
    cases h
    refine ⟨fun h => (by cases h), fun _ => ⟨rfl, rfl, rfl, rfl⟩, Nat.le_refl _, fun he _ => ?_⟩
    simp only [Tree.refused, Bool.or_false, List.contains_iff_mem] at hrf
    exact absurd (by simpa using hrf) he
  rw [if_neg hrf, if_neg (by rw [hfree]; simp)] at h
  rw [hfind] at h
  have hasked := pickHandle_asked t (join pit.path it.name) keep
  generalize hpk : t.pickHandle (join pit.path it.name) keep = pk at h hasked
  obtain ⟨y, u⟩ := pk
  dsimp only at h hasked
  have hu : u.items = t.items ∧ u.paths = t.paths ∧ u.rootPath = t.rootPath ∧ u.fs = t.fs ∧ u.tick = t.tick ∧
      u.excl = t.excl := by
    unfold Tree.pickHandle at hpk
    rw [if_neg hroot] at hpk
    split at hpk
    · cases hpk; exact ⟨rfl, rfl, rfl, rfl, rfl, rfl⟩
    · unfold Tree.newHandle at hpk; cases hpk; exact ⟨rfl, rfl, rfl, rfl, rfl, rfl⟩
  obtain ⟨u1, u2, u3, u4, u5, u6⟩ := hu
  have hct : u.tryCreate true = (u.fs u.tick, { u with tick := u.tick + 1 }) := rfl
  rw [hct] at h
  dsimp only at h
  by_cases hfs : u.fs u.tick = false
  · rw [if_pos hfs] at h
    dsimp only at h
    have hr : (if (Tree.newItem (join pit.path it.name) (some p) it.fmt (some ⟨it.name, it.fmt, p⟩)).fmt = ASSOC then
        Resp.generalError else Resp.accessDenied) ≠ .ok := by split <;> simp
    generalize (if (Tree.newItem (join pit.path it.name) (some p) it.fmt (some ⟨it.name, it.fmt, p⟩)).fmt = ASSOC then
        Resp.generalError else Resp.accessDenied) = e at h hr
    rw [if_neg hr] at h
    cases h
    refine ⟨fun h => absurd h hr, fun _ => ⟨rfl, u1, u2, u3⟩, hasked, fun _ hf => ?_⟩
    rw [u4, u5, hf] at hfs; cases hfs
  · rw [if_neg hfs] at h
    dsimp only at h
    have hall : ∀ t2 : Tree, (if (Tree.newItem (join pit.path it.name) none it.fmt
        (some ⟨it.name, it.fmt, p⟩)).fmt = ASSOC then t2.addAll (join pit.path it.name) false true [] else t2) = t2 := by
      intro t2; rw [Tree.addAll]; split <;> rfl
    rw [hall] at h
    rw [Prod.mk.injEq, Prod.mk.injEq] at h
    obtain ⟨h1, h2, h3⟩ := h
    subst h1 h2 h3
    clear hall
    generalize hit : Tree.newItem (join pit.path it.name) (some p) it.fmt (some ⟨it.name, it.fmt, p⟩) = ni at hb ⊢
    have hni : ni = ⟨join pit.path it.name, it.name, it.fmt, p, some p, [], 0⟩ := hit.symm
    have hem : ∀ t2 : Tree, t2.emit false (.added y) = t2 := fun _ => rfl
    rw [hem] at hb ⊢
    generalize hv : ({ u with tick := u.tick + 1 } : Tree) = u' at hb ⊢
    have v1 : u'.items = t.items := by rw [← hv]; exact u1
    have v2 : u'.paths = t.paths := by rw [← hv]; exact u2
    have v3 : u'.rootPath = t.rootPath := by rw [← hv]; exact u3
    have v4 : u'.fs = t.fs := by rw [← hv]; exact u4
    have v5 : u'.excl = t.excl := by rw [← hv]; exact u6
    have v6 : u'.asked = u.asked := by rw [← hv]
    clear hv
    have hgu : ∀ x, u'.get x = t.get x := fun x => by unfold Tree.get; rw [v1]
    obtain ⟨l1, l2, l3, l4⟩ := linkOpt_eq u' y (some p)
    have hlget : ∀ x, (u'.linkOpt y (some p)).get x = if x = p then
        some { pit with kids := y :: pit.kids } else t.get x := by
      intro x
      show (u'.upd p _).get x = _
      rw [Tree.get_upd, hgu]
      by_cases hxp : x = p
      · subst hxp; simp [hp, if_pos]
      · simp [hxp]
    have hln : ((u'.linkOpt y (some p)).items.map (·.1)).Nodup :=
      Tree.upd_nodup (by rw [v1]; exact w.nodup) _ _
    have hle : (u'.linkOpt y (some p)).excl = t.excl := by
      show (u'.upd p _).excl = _
      unfold Tree.upd; split <;> exact v5
    generalize u'.linkOpt y (some p) = t3 at hb l1 l2 l3 l4 hlget hln hle ⊢
    obtain ⟨a1, a2, a3, a4, a5, a6⟩ := addToMaps_eq t3 y ni
    rw [a3, l4, v6] at hb
    have hy : t.get y = none ∧ y ≠ 0 ∧ (keep ≠ 0 → y = keep) ∧ (keep = 0 → t.asked < y) ∧ y ≤ u.asked := by
      unfold Tree.pickHandle at hpk
      rw [if_neg hroot] at hpk
      split at hpk
      · next hne => cases hpk; exact ⟨(hkeep hne).1, hne, fun _ => rfl, fun h => absurd h hne, (hkeep hne).2⟩
      · next hne =>
        have hk0 : keep = 0 := by omega
        have ha : u.asked = t.asked + 1 := by unfold Tree.newHandle at hpk; cases hpk; rfl
        rw [newHandle_eq (by omega)] at hpk
        cases hpk
        refine ⟨?_, by omega, fun h => absurd hk0 h, fun _ => by omega, by simp⟩
        cases hx : t.get (t.asked + 1) with
        | none => rfl
        | some i => have := hi _ i hx; omega
    obtain ⟨y1, y2, y3, y4, y5⟩ := hy
    have hgx : ∃ v, ∀ x, (t3.addToMaps y ni).get x = if x = y then
        some ⟨join pit.path it.name, it.name, it.fmt, p, some p, [], v⟩ else if x = p then
        some { pit with kids := y :: pit.kids } else t.get x := by
      obtain ⟨v, hv⟩ := addToMaps_get t3 y ni y
      refine ⟨v, fun x => ?_⟩
      by_cases hx : x = y
      · subst hx; rw [hv, if_pos rfl, if_pos rfl, hni]
      · obtain ⟨v', hv'⟩ := addToMaps_get t3 y ni x
        rw [hv', if_neg hx, if_neg hx, hlget]
    have hpaths : (t3.addToMaps y ni).paths = AMap.insert t.paths (join pit.path it.name) y := by
      rw [a1, l1, v2, hni]
    refine ⟨fun _ => ⟨y, rfl, ?_, y3, y4⟩, fun h => absurd rfl h, ?_, fun _ _ => rfl⟩
    · refine ⟨y1, hgx, hpaths, hfree, by rw [a2, l2, v3], ?_, ?_, by rw [a3, l4, v6]; exact hasked, by rw [a4, l3, v4],
        by rw [addToMaps_excl, hle]⟩
      · obtain ⟨v, hgx⟩ := hgx
        exact WF_insert w (it := ⟨join pit.path it.name, it.name, it.fmt, p, some p, [], v⟩) hp y1 hfree rfl hn rfl rfl
          rfl hgx hpaths (by rw [a2, l2, v3]) (a6 hln)
      · intro x ix e
        obtain ⟨v, hgx⟩ := hgx
        rw [a3, l4, v6]
        rw [hgx] at e
        by_cases hx : x = y
        · rw [hx]; exact y5
        · rw [if_neg hx] at e
          by_cases hxp : x = p
          · rw [hxp]; exact Nat.le_trans (hi p pit hp) hasked
          · rw [if_neg hxp] at e; exact Nat.le_trans (hi x ix e) hasked
    · rw [a3, l4, v6]; exact hasked

/-- The objects `ks` of `s`, with everything below them, are created one after the other below `p`; `m` pairs each
source object with its copy. -/
inductive Grafts (s : Tree) : Tree → Nat → List Nat → Tree → List (Nat × Nat) → Prop where
  | nil (t : Tree) (p : Nat) : Grafts s t p [] t []
  | cons {t t1 t2 t3 : Tree} {p k y : Nat} {ks : List Nat} {ki pit : Item} {m1 m2 : List (Nat × Nat)} :
      s.get k = some ki → t.get p = some pit → Made t p pit ki.name ki.fmt y t1 →
      Grafts s t1 y (if ki.fmt = ASSOC then ki.kids else []) t2 m1 → Grafts s t2 p ks t3 m2 →
      Grafts s t p (k :: ks) t3 ((k, y) :: (m1 ++ m2))

/-- What the tree looks like after objects `ks`, lying in directory `P` of `s`, were copied below `p`. -/
structure Grafted (s t : Tree) (p : Nat) (pit : Item) (P : Path) (ks : List Nat) (t' : Tree) (m : List (Nat × Nat)) :
    Prop where
  wf : TreeWF t'
  issued : Issued t'
  asked : t.asked ≤ t'.asked
  root : t'.rootPath = t.rootPath
  fs : t'.fs = t.fs
  excl : t'.excl = t.excl
  old : ∀ x ix, t.get x = some ix → x ≠ p → t'.get x = some ix
  par : ∃ l, t'.get p = some { pit with kids := l ++ pit.kids }
  pair : ∀ x y, (x, y) ∈ m → ∃ k ∈ ks, Below s k x ∧ ∃ xi yi, s.get x = some xi ∧ t'.get y = some yi ∧
    yi.name = xi.name ∧ yi.fmt = xi.fmt ∧ Under P xi.path ∧ yi.path = reprefix P pit.path xi.path
  all : ∀ k ∈ ks, ∀ x, Below s k x → ∃ y, (x, y) ∈ m
  new : ∀ y, (t'.has y = true ∧ t.get y = none) ↔ ∃ x, (x, y) ∈ m
  nodup1 : (m.map (·.1)).Nodup
  nodup2 : (m.map (·.2)).Nodup

theorem reprefix_below (P Q n q : Path) (h : Under (join P n) q) :
    reprefix (join P n) (join Q n) q = reprefix P Q q ∧ Under P q := by
  refine ⟨?_, (Spec.Under.join P n).trans h⟩
  unfold reprefix
  rcases h with rfl | ⟨z, rfl⟩
  · simp [join]
  · simp [join, List.drop_append]

theorem reprefix_child (P Q n : Path) : reprefix P Q (join P n) = join Q n := by
  simp [reprefix, join]

/-- The objects of `ks` lie directly in directory `P`. -/
def InDir (s : Tree) (P : Path) (ks : List Nat) : Prop :=
  ks.Nodup ∧ ∀ k ∈ ks, ∃ ki, s.get k = some ki ∧ ki.path = join P ki.name ∧ '/' ∉ ki.name

theorem InDir.kids {s : Tree} (w : TreeWF s) {h : Nat} {it : Item} (e : s.get h = some it) :
    InDir s it.path it.kids := by
  refine ⟨w.kids_nodup e, fun k hk => ?_⟩
  obtain ⟨ci, c1, _, _, c4, c5, _⟩ := w.kid e hk
  exact ⟨ci, c1, c4, c5⟩

theorem InDir.one {s : Tree} (w : TreeWF s) {h p : Nat} {it pit : Item} (e : s.get h = some it) (h0 : h ≠ 0)
    (hp : it.parent = some p) (hpi : s.get p = some pit) : InDir s pit.path [h] := by
  refine ⟨by simp, fun k hk => ?_⟩
  rw [List.mem_singleton] at hk
  subst hk
  obtain ⟨q, qi, q1, _, q3, _, q5, q6⟩ := w.parent k it e h0
  rw [hp] at q1; cases q1
  rw [hpi] at q3; cases q3
  exact ⟨it, e, q5, q6⟩

/-- Nothing is below two different objects of one directory. -/
theorem InDir.disjoint {s : Tree} (w : TreeWF s) {P : Path} {ks : List Nat} (hd : InDir s P ks) {k k' x : Nat}
    {xi : Item} (hk : k ∈ ks) (hk' : k' ∈ ks) (hx : s.get x = some xi) (h : Below s k x) (h' : Below s k' x) :
    k = k' := by
  obtain ⟨ki, e, e1, e2⟩ := hd.2 k hk
  obtain ⟨ki', e', e1', e2'⟩ := hd.2 k' hk'
  have u := (w.below_iff e hx).mp h
  have u' := (w.below_iff e' hx).mp h'
  rw [e1] at u; rw [e1'] at u'
  have := u.sibling u' e2 e2'
  exact w.inj e e' (by rw [e1, e1', this])

theorem below_get {s : Tree} {k x : Nat} {ki : Item} (hk : s.get k = some ki) (h : Below s k x) :
    ∃ xi, s.get x = some xi := by
  cases h with
  | self => exact ⟨ki, hk⟩
  | child e _ _ => exact ⟨_, e⟩

theorem below_of_kid {s : Tree} (w : TreeWF s) {k c x : Nat} {ki : Item} (hk : s.get k = some ki) (hc : c ∈ ki.kids)
    (h : Below s c x) : Below s k x := by
  obtain ⟨ci, c1, c2, _⟩ := w.kid hk hc
  induction h with
  | self => exact .child c1 c2 .self
  | child e1 e2 _ ih => exact .child e1 e2 ih

theorem grafts_spec {s : Tree} (ws : TreeWF s)
    (leaf : ∀ x ix, s.get x = some ix → ix.kids ≠ [] → ix.fmt = ASSOC)
    {t t' : Tree} {p : Nat} {ks : List Nat} {m : List (Nat × Nat)} (g : Grafts s t p ks t' m) :
    ∀ (pit : Item) (P : Path), TreeWF t → Issued t → t.get p = some pit → InDir s P ks →
      Grafted s t p pit P ks t' m := by
  induction g with
  | nil t p =>
    intro pit P w hi hp _
    refine ⟨w, hi, Nat.le_refl _, rfl, rfl, rfl, fun x ix e _ => e, ⟨[], by simpa using hp⟩, ?_, ?_, ?_, by simp, by simp⟩
    · intro x y hm; cases hm
    · intro k hk; cases hk
    · intro y
      constructor
      · rintro ⟨h1, h2⟩
        obtain ⟨i, e⟩ := has_iff.mp h1
        rw [h2] at e; cases e
      · rintro ⟨x, hm⟩; cases hm
  | @cons t t1 t2 t3 p k y ks ki pit' m1 m2 hk hp mk _ _ ih1 ih2 =>
    intro pit P w hi hp' hd
    rw [hp] at hp'; cases hp'
    obtain ⟨hnd, hin⟩ := hd
    obtain ⟨ki', hk', kpath, kname⟩ := hin k List.mem_cons_self
    rw [hk] at hk'; cases hk'
    obtain ⟨v, hget⟩ := mk.get
    have hyp : y ≠ p := by rintro rfl; cases mk.fresh.symm.trans hp
    have hy1 : t1.get y = some ⟨join pit'.path ki.name, ki.name, ki.fmt, p, some p, [], v⟩ := by
      rw [hget, if_pos rfl]
    have hp1 : t1.get p = some { pit' with kids := y :: pit'.kids } := by
      rw [hget, if_neg (Ne.symm hyp), if_pos rfl]
    have hkids : InDir s ki.path (if ki.fmt = ASSOC then ki.kids else []) := by
      split
      · exact InDir.kids ws hk
      · exact ⟨by simp, fun k hk => by cases hk⟩
    have g1 := ih1 _ ki.path mk.wf mk.issued hy1 hkids
    have hp2 : t2.get p = some { pit' with kids := y :: pit'.kids } := g1.old p _ hp1 (Ne.symm hyp)
    have hd' : InDir s P ks := ⟨(List.nodup_cons.mp hnd).2, fun k hk => hin k (List.mem_cons_of_mem _ hk)⟩
    have g2 := ih2 _ P g1.wf g1.issued hp2 hd'
    have old1 : ∀ x ix, t.get x = some ix → x ≠ p → t1.get x = some ix := by
      intro x ix e hx
      have hxy : x ≠ y := by rintro rfl; rw [mk.fresh] at e; cases e
      rw [hget, if_neg hxy, if_neg hx]; exact e
    have has1 : ∀ x ix, t.get x = some ix → ∃ jx, t1.get x = some jx := by
      intro x ix e
      by_cases hx : x = p
      · subst hx; exact ⟨_, hp1⟩
      · exact ⟨ix, old1 x ix e hx⟩
    have has2 : ∀ x ix, t1.get x = some ix → ∃ jx, t2.get x = some jx := by
      intro x ix e
      by_cases hx : x = y
      · subst hx; obtain ⟨l, e'⟩ := g1.par; exact ⟨_, e'⟩
      · exact ⟨ix, g1.old x ix e hx⟩
    have has3 : ∀ x ix, t2.get x = some ix → ∃ jx, t3.get x = some jx := by
      intro x ix e
      by_cases hx : x = p
      · subst hx; obtain ⟨l, e'⟩ := g2.par; exact ⟨_, e'⟩
      · exact ⟨ix, g2.old x ix e hx⟩
    have new1 : ∀ z, t.get z = none → z ≠ y → t1.get z = none := by
      intro z hz hzy
      have hzp : z ≠ p := by rintro rfl; rw [hp] at hz; cases hz
      rw [hget, if_neg hzy, if_neg hzp]; exact hz
    -- objects below `k`: `k` itself or below one of the copied children
    have hbelow : ∀ x, Below s k x → x = k ∨ ∃ c ∈ (if ki.fmt = ASSOC then ki.kids else []), Below s c x := by
      intro x hb
      by_cases hx : x = k
      · exact Or.inl hx
      · right
        obtain ⟨c, hc, hb'⟩ := Below.step_down ws hb hx hk
        have : ki.fmt = ASSOC := leaf k ki hk (List.ne_nil_of_mem hc)
        rw [if_pos this]
        exact ⟨c, hc, hb'⟩
    have hbk : ∀ c ∈ (if ki.fmt = ASSOC then ki.kids else []), ∀ x, Below s c x → Below s k x ∧ x ≠ k := by
      intro c hc x hb
      have hc' : c ∈ ki.kids := by
        split at hc
        · exact hc
        · cases hc
      refine ⟨below_of_kid ws hk hc' hb, ?_⟩
      rintro rfl
      obtain ⟨ci, c1, _, _, c4, _⟩ := ws.kid hk hc'
      have := ((ws.below_iff c1 hk).mp hb).length
      rw [c4, join_length] at this
      omega
    have hyt2 : ∃ jy, t2.get y = some jy := has2 y _ hy1
    refine ⟨g2.wf, g2.issued, Nat.le_trans mk.asked (Nat.le_trans g1.asked g2.asked),
      g2.root.trans (g1.root.trans mk.root), g2.fs.trans (g1.fs.trans mk.fs), g2.excl.trans (g1.excl.trans mk.excl),
      ?_, ?_, ?_, ?_, ?_, ?_, ?_⟩
    · intro x ix e hx
      have hxy : x ≠ y := by rintro rfl; rw [mk.fresh] at e; cases e
      exact g2.old x ix (g1.old x ix (old1 x ix e hx) hxy) hx
    · obtain ⟨l, e⟩ := g2.par
      exact ⟨l ++ [y], by rw [e]; simp⟩
    · intro x z hm
      rcases List.mem_cons.mp hm with hm | hm
      · cases hm
        obtain ⟨l, e⟩ := g1.par
        refine ⟨k, List.mem_cons_self, .self, ki, _, hk, g2.old y _ e hyp, rfl, rfl, ?_, ?_⟩
        · rw [kpath]; exact Spec.Under.join _ _
        · dsimp only; rw [kpath, reprefix_child]
      · rcases List.mem_append.mp hm with hm | hm
        · obtain ⟨c, hc, hb, xi, zi, e1, e2, e3, e4, e5, e6⟩ := g1.pair x z hm
          have hzp : z ≠ p := by
            rintro rfl
            have := ((g1.new z).mpr ⟨x, hm⟩).2
            rw [hp1] at this; cases this
          refine ⟨k, List.mem_cons_self, (hbk c hc x hb).1, xi, zi, e1, g2.old z zi e2 hzp, e3, e4, ?_⟩
          have hr := reprefix_below P pit'.path ki.name xi.path (by rw [← kpath]; exact e5)
          refine ⟨hr.2, ?_⟩
          rw [e6]
          dsimp only
          rw [kpath]; exact hr.1
        · obtain ⟨c, hc, hb, xi, zi, e1, e2, e3, e4, e5, e6⟩ := g2.pair x z hm
          exact ⟨c, List.mem_cons_of_mem _ hc, hb, xi, zi, e1, e2, e3, e4, e5, e6⟩
    · intro c hc x hb
      rcases List.mem_cons.mp hc with rfl | hc
      · rcases hbelow x hb with rfl | ⟨c', hc', hb'⟩
        · exact ⟨y, List.mem_cons_self⟩
        · obtain ⟨z, hz⟩ := g1.all c' hc' x hb'
          exact ⟨z, List.mem_cons_of_mem _ (List.mem_append_left _ hz)⟩
      · obtain ⟨z, hz⟩ := g2.all c hc x hb
        exact ⟨z, List.mem_cons_of_mem _ (List.mem_append_right _ hz)⟩
    · intro z
      constructor
      · rintro ⟨h1, h2⟩
        by_cases hzy : z = y
        · subst hzy; exact ⟨k, List.mem_cons_self⟩
        · cases e2 : t2.get z with
          | none =>
            obtain ⟨x, hm⟩ := (g2.new z).mp ⟨h1, e2⟩
            exact ⟨x, List.mem_cons_of_mem _ (List.mem_append_right _ hm)⟩
          | some zi =>
            obtain ⟨x, hm⟩ := (g1.new z).mp ⟨has_iff.mpr ⟨zi, e2⟩, new1 z h2 hzy⟩
            exact ⟨x, List.mem_cons_of_mem _ (List.mem_append_left _ hm)⟩
      · have hnone1 : ∀ z, t1.get z = none → t.get z = none := by
          intro z hz
          cases e : t.get z with
          | none => rfl
          | some i => obtain ⟨j, e'⟩ := has1 z i e; rw [hz] at e'; cases e'
        rintro ⟨x, hm⟩
        rcases List.mem_cons.mp hm with hm | hm
        · cases hm
          obtain ⟨jy, ey⟩ := hyt2
          exact ⟨has_iff.mpr (has3 _ jy ey), mk.fresh⟩
        · rcases List.mem_append.mp hm with hm | hm
          · obtain ⟨h1, h2⟩ := (g1.new z).mpr ⟨x, hm⟩
            obtain ⟨zi, e⟩ := has_iff.mp h1
            exact ⟨has_iff.mpr (has3 z zi e), hnone1 z h2⟩
          · obtain ⟨h1, h2⟩ := (g2.new z).mpr ⟨x, hm⟩
            refine ⟨h1, hnone1 z ?_⟩
            cases e : t1.get z with
            | none => rfl
            | some i => obtain ⟨j, e'⟩ := has2 z i e; rw [h2] at e'; cases e'
    · rw [List.map_cons, List.map_append, List.nodup_cons, List.nodup_append]
      refine ⟨?_, g1.nodup1, g2.nodup1, ?_⟩
      · intro hm
        rcases List.mem_append.mp hm with hm | hm
        · obtain ⟨⟨x, z⟩, hm', hx⟩ := List.mem_map.mp hm
          obtain ⟨c, hc, hb, _⟩ := g1.pair x z hm'
          exact (hbk c hc x hb).2 hx
        · obtain ⟨⟨x, z⟩, hm', hx⟩ := List.mem_map.mp hm
          obtain ⟨c, hc, hb, xi, zi, e1, _⟩ := g2.pair x z hm'
          dsimp only at hx
          subst hx
          have := InDir.disjoint ws ⟨hnd, hin⟩ (List.mem_cons_of_mem _ hc) List.mem_cons_self e1 hb .self
          subst this
          exact (List.nodup_cons.mp hnd).1 hc
      · intro a ha b hb hab
        subst hab
        obtain ⟨⟨x, z⟩, hm, rfl⟩ := List.mem_map.mp ha
        obtain ⟨⟨x', z'⟩, hm', hx⟩ := List.mem_map.mp hb
        dsimp only at hx; subst hx
        obtain ⟨c, hc, hbc, xi, zi, e1, _⟩ := g1.pair x' z hm
        obtain ⟨c', hc', hbc', _⟩ := g2.pair x' z' hm'
        have := InDir.disjoint ws ⟨hnd, hin⟩ (List.mem_cons_of_mem _ hc') List.mem_cons_self e1 hbc' (hbk c hc x' hbc).1
        subst this
        exact (List.nodup_cons.mp hnd).1 hc'
    · rw [List.map_cons, List.map_append, List.nodup_cons, List.nodup_append]
      refine ⟨?_, g1.nodup2, g2.nodup2, ?_⟩
      · intro hm
        rcases List.mem_append.mp hm with hm | hm
        · obtain ⟨⟨x, z⟩, hm', hx⟩ := List.mem_map.mp hm
          have := ((g1.new z).mpr ⟨x, hm'⟩).2
          dsimp only at hx
          rw [hx, hy1] at this; cases this
        · obtain ⟨⟨x, z⟩, hm', hx⟩ := List.mem_map.mp hm
          have := ((g2.new z).mpr ⟨x, hm'⟩).2
          obtain ⟨jy, ey⟩ := hyt2
          dsimp only at hx
          rw [hx, ey] at this; cases this
      · intro a ha b hb hab
        subst hab
        obtain ⟨⟨x, z⟩, hm, rfl⟩ := List.mem_map.mp ha
        obtain ⟨⟨x', z'⟩, hm', hx⟩ := List.mem_map.mp hb
        dsimp only at hx; subst hx
        have h1 := ((g1.new z').mpr ⟨x, hm⟩).1
        have h2 := ((g2.new z').mpr ⟨x', hm'⟩).2
        obtain ⟨zi, e⟩ := has_iff.mp h1
        rw [h2] at e; cases e

end Mtp
