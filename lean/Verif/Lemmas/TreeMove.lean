import Verif.Lemmas.TreeAdd
/-! Moving and renaming: `Tree.adjust`, `Tree.repath`, `Tree.move`. -/
namespace Mtp
open Spec

/-! ### Prefix replacement -/

theorem under_split {p q : Path} (h : Under p q) : ∃ s, q = p ++ s ∧ (s = [] ∨ ∃ u, s = '/' :: u) := by
  rcases h with rfl | ⟨u, rfl⟩
  · exact ⟨[], by simp, Or.inl rfl⟩
  · exact ⟨'/' :: u, rfl, Or.inr ⟨u, rfl⟩⟩

theorem under_append {p s : Path} (h : s = [] ∨ ∃ u, s = '/' :: u) : Under p (p ++ s) := by
  rcases h with rfl | ⟨u, rfl⟩
  · left; simp
  · exact Or.inr ⟨u, rfl⟩

theorem reprefix_append (p q s : Path) : reprefix p q (p ++ s) = q ++ s := by
  unfold reprefix; simp

theorem reprefix_self (p q : Path) : reprefix p q p = q := by
  have := reprefix_append p q []; simpa using this

theorem reprefix_join {p q r n : Path} (h : Under p r) :
    reprefix p q (join r n) = join (reprefix p q r) n := by
  obtain ⟨s, rfl, _⟩ := under_split h
  rw [reprefix_append]
  have : join (p ++ s) n = p ++ (s ++ '/' :: n) := by simp [join]
  rw [this, reprefix_append]; simp [join]

theorem reprefix_under {p q r : Path} (h : Under p r) : Under q (reprefix p q r) := by
  obtain ⟨s, rfl, hs⟩ := under_split h
  rw [reprefix_append]; exact under_append hs

theorem reprefix_inj {p q r r' : Path} (h : Under p r) (h' : Under p r')
    (e : reprefix p q r = reprefix p q r') : r = r' := by
  obtain ⟨s, rfl, _⟩ := under_split h
  obtain ⟨s', rfl, _⟩ := under_split h'
  rw [reprefix_append, reprefix_append] at e
  rw [List.append_cancel_left e]

/-! ### Subtrees in preorder -/

/-- The subtree of `c`, to depth `n`. -/
def pre : Nat → Tree → Nat → List Nat
  | 0, _, _ => []
  | n+1, t, c =>
    match t.get c with
    | none => []
    | some it => c :: it.kids.flatMap (pre n t)

theorem mem_pre {t : Tree} (w : TreeWF t) {n c x : Nat} {ic : Item} (hc : t.get c = some ic)
    (hx : x ∈ pre n t c) : ∃ ix, t.get x = some ix ∧ Under ic.path ix.path := by
  induction n generalizing c ic with
  | zero => simp [pre] at hx
  | succ n ih =>
    simp only [pre, hc] at hx
    rcases List.mem_cons.mp hx with rfl | hx
    · exact ⟨ic, hc, Under.refl _⟩
    · obtain ⟨k, hk, hx⟩ := List.mem_flatMap.mp hx
      obtain ⟨ki, k1, _, _, k4, _⟩ := w.kid hc hk
      obtain ⟨ix, e, hu⟩ := ih k1 hx
      refine ⟨ix, e, (Under.trans ?_ hu)⟩
      rw [k4]; exact Under.join _ _

theorem Below.step_down {t : Tree} (w : TreeWF t) {c x : Nat} (hb : Below t c x) (hne : x ≠ c)
    {ic : Item} (hc : t.get c = some ic) : ∃ k ∈ ic.kids, Below t k x := by
  induction hb with
  | self => exact absurd rfl hne
  | @child x p it e1 e2 hb ih =>
    by_cases hp : p = c
    · subst hp
      have h0 : x ≠ 0 := by
        rintro rfl; obtain ⟨r, r1, _, r3⟩ := w.root
        rw [r1] at e1; cases e1; rw [r3] at e2; cases e2
      obtain ⟨q, qit, q1, _, q3, q4, _⟩ := w.parent x it e1 h0
      rw [e2] at q1; cases q1
      rw [hc] at q3; cases q3
      exact ⟨x, List.one_le_count_iff.mp (by omega), .self⟩
    · obtain ⟨k, hk, hb'⟩ := ih hp
      exact ⟨k, hk, .child e1 e2 hb'⟩

theorem pre_mem {t : Tree} (w : TreeWF t) {n c x : Nat} {ic ix : Item} (hc : t.get c = some ic)
    (hx : t.get x = some ix) (hu : Under ic.path ix.path)
    (hn : ix.path.length < n + ic.path.length) : x ∈ pre n t c := by
  induction n generalizing c ic with
  | zero => have := hu.length; omega
  | succ n ih =>
    simp only [pre, hc]
    by_cases hxc : x = c
    · simp [hxc]
    · obtain ⟨k, hk, hb⟩ := Below.step_down w ((w.below_iff hc hx).mpr hu) hxc hc
      obtain ⟨ki, k1, _, _, k4, _⟩ := w.kid hc hk
      refine List.mem_cons_of_mem _ (List.mem_flatMap.mpr ⟨k, hk, ?_⟩)
      refine ih k1 ((w.below_iff k1 hx).mp hb) ?_
      rw [k4, join_length]; omega

theorem pre_nodup {t : Tree} (w : TreeWF t) (n c : Nat) : (pre n t c).Nodup := by
  induction n generalizing c with
  | zero => simp [pre]
  | succ n ih =>
    simp only [pre]
    cases hc : t.get c with
    | none => simp
    | some ic =>
      dsimp only
      rw [List.nodup_cons]
      constructor
      · intro hm
        obtain ⟨k, hk, hx⟩ := List.mem_flatMap.mp hm
        obtain ⟨ki, k1, _, _, k4, _⟩ := w.kid hc hk
        obtain ⟨ix, e, hu⟩ := mem_pre w k1 hx
        rw [hc] at e; cases e
        have := hu.length; rw [k4, join_length] at this; omega
      · have key : ∀ ks : List Nat, ks.Nodup → (∀ k ∈ ks, k ∈ ic.kids) →
            (ks.flatMap (pre n t)).Nodup := by
          intro ks
          induction ks with
          | nil => intro _ _; simp
          | cons k ks ihk =>
            intro hnd hsub
            rw [List.flatMap_cons, List.nodup_append]
            refine ⟨ih k, ihk (List.nodup_cons.mp hnd).2 (fun j hj => hsub j (by simp [hj])), ?_⟩
            rintro a ha b hb rfl
            obtain ⟨j, hj, hb⟩ := List.mem_flatMap.mp hb
            obtain ⟨ki, k1, _, _, k4, k5, _⟩ := w.kid hc (hsub k (by simp))
            obtain ⟨ji, j1, _, _, j4, j5, _⟩ := w.kid hc (hsub j (by simp [hj]))
            obtain ⟨ia, e, hu⟩ := mem_pre w k1 ha
            obtain ⟨ib, e', hu'⟩ := mem_pre w j1 hb
            rw [e] at e'; cases e'
            rw [k4] at hu; rw [j4] at hu'
            have hnm := Under.sibling hu hu' k5 j5
            have : k = j := w.inj k1 j1 (by rw [k4, j4, hnm])
            subst this
            exact (List.nodup_cons.mp hnd).1 hj
        exact key _ (w.kids_nodup hc) (fun _ h => h)

/-! ### `adjust` visits the subtree once -/

/-- Path-map updates for the objects of a list, each from its old to its new path. -/
def pathFold (old new : Nat → Path) (m : AMap Path Nat) (l : List Nat) : AMap Path Nat :=
  l.foldl (fun m d => AMap.insert (AMap.erase m (old d)) (new d) d) m

/-- The path of an object, empty when there is none. -/
def pathAt (t : Tree) (d : Nat) : Path := ((t.get d).map Item.path).getD []

/-- What changes and what does not when the objects of `l` get their new paths. -/
structure Visited (t t1 t2 : Tree) (new : Nat → Path) (l : List Nat) : Prop where
  get : ∀ x, t2.get x = if x ∈ l then (t.get x).map (fun i => { i with path := new x }) else t1.get x
  paths : t2.paths = pathFold (pathAt t) new t1.paths l
  rootPath : t2.rootPath = t1.rootPath
  asked : t2.asked = t1.asked
  fs : t2.fs = t1.fs
  nodup : (t1.items.map (·.1)).Nodup → (t2.items.map (·.1)).Nodup

theorem Visited.nil (t t1 : Tree) (new : Nat → Path) : Visited t t1 t1 new [] :=
  ⟨fun x => by simp, rfl, rfl, rfl, rfl, fun h => h⟩

theorem Visited.append {t t1 t2 t3 : Tree} {new : Nat → Path} {l l' : List Nat}
    (v : Visited t t1 t2 new l) (v' : Visited t t2 t3 new l') (hd : ∀ x ∈ l, x ∉ l') :
    Visited t t1 t3 new (l ++ l') := by
  refine ⟨fun x => ?_, ?_, v'.rootPath.trans v.rootPath, v'.asked.trans v.asked, v'.fs.trans v.fs,
    fun h => v'.nodup (v.nodup h)⟩
  · rw [v'.get, v.get]
    by_cases hx : x ∈ l'
    · simp [hx]
    · simp [hx]
  · rw [v'.paths, v.paths]; unfold pathFold; rw [List.foldl_append]

theorem adjust_visited {t : Tree} (w : TreeWF t) (new : Nat → Path) (P0 : Path)
    (hnew : ∀ d it k ki, t.get d = some it → k ∈ it.kids → t.get k = some ki → Under P0 it.path →
      new k = join (new d) ki.name)
    (n : Nat) : ∀ (t1 : Tree) (c : Nat) (ic : Item) (anc : Path), t.get c = some ic →
      Under P0 ic.path → new c = join anc ic.name → (∀ x ∈ pre n t c, t1.get x = t.get x) →
      Visited t t1 (t1.adjust n anc c) new (pre n t c) := by
  induction n with
  | zero => intro t1 c ic anc hc _ _ _; exact Visited.nil _ _ _
  | succ n ih =>
    intro t1 c ic anc hc hu0 hnc hag
    have hnd := pre_nodup w (n+1) c
    simp only [pre, hc] at hag hnd ⊢
    have h1 : t1.get c = some ic := by rw [hag c (by simp), hc]
    simp only [Tree.adjust, h1]
    rw [← hnc]
    -- the object itself
    generalize ht2 : ({ t1 with
      paths := AMap.insert (AMap.erase t1.paths ic.path) (new c) c
      items := AMap.insert t1.items c { ic with path := new c } } : Tree) = t2
    have v1 : Visited t t1 t2 new [c] := by
      rw [← ht2]
      refine ⟨fun x => ?_, ?_, rfl, rfl, rfl, fun h => AMap.nodup_insert h _ _⟩
      · show AMap.get (AMap.insert t1.items c _) x = _
        rw [AMap.get_insert]
        by_cases hx : x = c
        · subst hx; simp [hc]
        · simp [hx]; rfl
      · simp [pathFold, pathAt, hc]
    -- its children
    have key : ∀ (ks : List Nat) (t2 : Tree), (∀ k ∈ ks, k ∈ ic.kids) →
        (ks.flatMap (pre n t)).Nodup → (∀ x ∈ ks.flatMap (pre n t), t2.get x = t.get x) →
        Visited t t2 (ks.foldl (fun t' k => t'.adjust n (new c) k) t2) new (ks.flatMap (pre n t)) := by
      intro ks
      induction ks with
      | nil => intro t2 _ _ _; exact Visited.nil _ _ _
      | cons k ks ihk =>
        intro t2 hsub hnd hag
        rw [List.flatMap_cons] at hnd hag ⊢
        rw [List.foldl_cons]
        rw [List.nodup_append] at hnd
        obtain ⟨ki, k1, _, _, k4, k5, _⟩ := w.kid hc (hsub k (by simp))
        have vk := ih t2 k ki (new c) k1 (hu0.trans (k4 ▸ Under.join _ _))
          (hnew c ic k ki hc (hsub k (by simp)) k1 hu0)
          (fun x hx => hag x (by simp [hx]))
        refine vk.append (ihk _ (fun j hj => hsub j (by simp [hj])) hnd.2.1 ?_)
          (fun x hx hx' => hnd.2.2 x hx x hx' rfl)
        intro x hx
        rw [vk.get, if_neg (fun h => hnd.2.2 x h x hx rfl)]
        exact hag x (by simp [hx])
    have hnd' := List.nodup_cons.mp hnd
    refine v1.append (key ic.kids t2 (fun _ h => h) hnd'.2 ?_) ?_
    · intro x hx
      have hxc : x ≠ c := by rintro rfl; exact hnd'.1 hx
      rw [v1.get, if_neg (by simpa using hxc)]
      exact hag x (by simp [hx])
    · intro x hx; rw [List.mem_singleton.mp hx]; exact hnd'.1

/-- The children's subtrees of `h`. -/
theorem adjustKids_visited {t : Tree} (w : TreeWF t) (new : Nat → Path) (P0 : Path)
    (hnew : ∀ d it k ki, t.get d = some it → k ∈ it.kids → t.get k = some ki → Under P0 it.path →
      new k = join (new d) ki.name)
    (n : Nat) {h : Nat} {it : Item} (hh : t.get h = some it) (hu0 : Under P0 it.path) (t1 : Tree)
    (hag : ∀ x ∈ it.kids.flatMap (pre n t), t1.get x = t.get x) :
    Visited t t1 (it.kids.foldl (fun t' k => t'.adjust n (new h) k) t1) new
      (it.kids.flatMap (pre n t)) := by
  have hnd := pre_nodup w (n+1) h
  simp only [pre, hh] at hnd
  have key : ∀ (ks : List Nat) (t2 : Tree), (∀ k ∈ ks, k ∈ it.kids) →
      (ks.flatMap (pre n t)).Nodup → (∀ x ∈ ks.flatMap (pre n t), t2.get x = t.get x) →
      Visited t t2 (ks.foldl (fun t' k => t'.adjust n (new h) k) t2) new (ks.flatMap (pre n t)) := by
    intro ks
    induction ks with
    | nil => intro t2 _ _ _; exact Visited.nil _ _ _
    | cons k ks ihk =>
      intro t2 hsub hnd hag
      rw [List.flatMap_cons] at hnd hag ⊢
      rw [List.foldl_cons]
      rw [List.nodup_append] at hnd
      obtain ⟨ki, k1, _, _, k4, k5, _⟩ := w.kid hh (hsub k (by simp))
      have vk := adjust_visited w new P0 hnew n t2 k ki (new h) k1 (hu0.trans (k4 ▸ Under.join _ _))
        (hnew h it k ki hh (hsub k (by simp)) k1 hu0) (fun x hx => hag x (by simp [hx]))
      refine vk.append (ihk _ (fun j hj => hsub j (by simp [hj])) hnd.2.1 ?_)
        (fun x hx hx' => hnd.2.2 x hx x hx' rfl)
      intro x hx
      rw [vk.get, if_neg (fun h => hnd.2.2 x h x hx rfl)]
      exact hag x (by simp [hx])
  exact key it.kids t1 (fun _ h => h) (List.nodup_cons.mp hnd).2 hag

/-! ### The path map after all updates -/

theorem pathFold_spec {old new : Nat → Path} (l : List Nat) (hnd : l.Nodup)
    (hinj : ∀ a ∈ l, ∀ b ∈ l, new a = new b → a = b)
    (hdis : ∀ a ∈ l, ∀ b ∈ l, new a ≠ old b) : ∀ m : AMap Path Nat,
    (∀ d ∈ l, AMap.get (pathFold old new m l) (new d) = some d) ∧
    (∀ q, (∀ d ∈ l, new d ≠ q) → (∃ d ∈ l, old d = q) → AMap.get (pathFold old new m l) q = none) ∧
    (∀ q, (∀ d ∈ l, new d ≠ q) → (∀ d ∈ l, old d ≠ q) →
      AMap.get (pathFold old new m l) q = AMap.get m q) := by
  induction l with
  | nil => intro m; exact ⟨by simp, by simp, fun _ _ _ => rfl⟩
  | cons a l ih =>
    intro m
    have hnd' := List.nodup_cons.mp hnd
    have ih := ih hnd'.2 (fun x hx y hy => hinj x (by simp [hx]) y (by simp [hy]))
      (fun x hx y hy => hdis x (by simp [hx]) y (by simp [hy]))
      (AMap.insert (AMap.erase m (old a)) (new a) a)
    obtain ⟨i1, i2, i3⟩ := ih
    have hf : pathFold old new m (a :: l) =
      pathFold old new (AMap.insert (AMap.erase m (old a)) (new a) a) l := rfl
    rw [hf]
    refine ⟨?_, ?_, ?_⟩
    · intro d hd
      rcases List.mem_cons.mp hd with rfl | hd
      · rw [i3 (new d)]
        · rw [AMap.get_insert, if_pos rfl]
        · intro x hx e
          have := hinj x (by simp [hx]) d (by simp) e
          subst this; exact hnd'.1 hx
        · intro x hx e; exact hdis d (by simp) x (by simp [hx]) e.symm
      · exact i1 d hd
    · intro q h1 ⟨d, hd, hq⟩
      by_cases hl : ∃ d ∈ l, old d = q
      · exact i2 q (fun x hx => h1 x (by simp [hx])) hl
      · have : d = a := by
          rcases List.mem_cons.mp hd with g | g
          · exact g
          · exact absurd ⟨d, g, hq⟩ hl
        subst this
        rw [i3 q (fun x hx => h1 x (by simp [hx])) (fun x hx e => hl ⟨x, hx, e⟩)]
        rw [AMap.get_insert, if_neg (fun e => h1 d (by simp) e.symm), AMap.get_erase, if_pos hq.symm]
    · intro q h1 h2
      rw [i3 q (fun x hx => h1 x (by simp [hx])) (fun x hx => h2 x (by simp [hx]))]
      rw [AMap.get_insert, if_neg (fun e => h1 a (by simp) e.symm), AMap.get_erase,
        if_neg (fun e => h2 a (by simp) e.symm)]

/-- Whatever lies below a path inside the storage has an ancestor there. -/
theorem ancestor_at {t : Tree} (w : TreeWF t) {x : Nat} {ix : Item} (hx : t.get x = some ix)
    {q : Path} (hq : Under q ix.path) (hr : Under t.rootPath q) : (AMap.get t.paths q).isSome := by
  have key : ∀ n x ix, t.get x = some ix → ix.path.length ≤ n → Under q ix.path →
      (AMap.get t.paths q).isSome := by
    intro n
    induction n with
    | zero =>
      intro x ix hx hl hu
      by_cases he : ix.path = q
      · rw [← he, w.pathOf x ix hx]; rfl
      · by_cases h0 : x = 0
        · subst h0
          obtain ⟨r, r1, r2, _⟩ := w.root
          rw [r1] at hx; cases hx
          rw [r2] at hu he
          exact absurd (hr.antisymm hu) he
        · obtain ⟨p, pit, _, _, _, _, e5, _⟩ := w.parent x ix hx h0
          rw [e5, join_length] at hl; omega
    | succ n ih =>
      intro x ix hx hl hu
      by_cases he : ix.path = q
      · rw [← he, w.pathOf x ix hx]; rfl
      · by_cases h0 : x = 0
        · subst h0
          obtain ⟨r, r1, r2, _⟩ := w.root
          rw [r1] at hx; cases hx
          rw [r2] at hu he
          exact absurd (hr.antisymm hu) he
        · obtain ⟨p, pit, _, _, e3, _, e5, e6⟩ := w.parent x ix hx h0
          rw [e5, join_length] at hl
          rw [e5] at hu he
          exact ih p pit e3 (by omega) (hu.of_join e6 he)
  exact key _ x ix hx (Nat.le_refl _) hq

/-- What a tree looks like after object `h` moved from path `P` to `Q` below parent `p`. -/
structure Relocated (t t' : Tree) (h p : Nat) (P Q : Path) : Prop where
  /-- objects outside the subtree -/
  out : ∀ x ix, t.get x = some ix → ¬ Under P ix.path → ∃ ks, t'.get x = some { ix with kids := ks } ∧
    ∀ c, ks.count c = if c = h then (if x = p then 1 else 0) else ix.kids.count c
  /-- objects below `h` -/
  below : ∀ x ix, t.get x = some ix → Under P ix.path → x ≠ h →
    t'.get x = some { ix with path := reprefix P Q ix.path }
  /-- `h` itself -/
  self : ∀ it, t.get h = some it → ∃ nm f, t'.get h = some
    { it with path := Q, name := nm, fmt := f, parent := some p, par := p } ∧ '/' ∉ nm ∧ ∀ pit, t.get p = some pit → Q = join pit.path nm
  only : ∀ x, t'.has x = true → t.has x = true
  newPath : ∀ x ix, t.get x = some ix → Under P ix.path →
    AMap.get t'.paths (reprefix P Q ix.path) = some x
  oldPath : ∀ q, ¬ Under Q q → (∃ x ix, t.get x = some ix ∧ Under P ix.path ∧ ix.path = q) →
    AMap.get t'.paths q = none
  samePath : ∀ q, (∀ x ix, t.get x = some ix → Under P ix.path → reprefix P Q ix.path ≠ q) →
    (∀ x ix, t.get x = some ix → Under P ix.path → ix.path ≠ q) →
    AMap.get t'.paths q = AMap.get t.paths q
  rootPath : t'.rootPath = t.rootPath
  nodup : (t'.items.map (·.1)).Nodup

open Classical in
theorem WF_relocated {t t' : Tree} (w : TreeWF t) {h p : Nat} {it pit : Item} {Q : Path}
    (hh : t.get h = some it) (h0 : h ≠ 0) (hp : t.get p = some pit) (hnb : ¬ Under it.path pit.path)
    (hfree : AMap.get t.paths Q = none) (hQ : Under t.rootPath Q)
    (R : Relocated t t' h p it.path Q) : TreeWF t' := by
  -- nothing lies below the new path
  have hnoQ : ∀ x ix, t.get x = some ix → ¬ Under Q ix.path := by
    intro x ix e hu
    have := ancestor_at w e hu hQ
    rw [hfree] at this; cases this
  have hroot0 : ∀ r, t.get 0 = some r → ¬ Under it.path r.path := by
    intro r hr hu
    obtain ⟨r', r1, r2, _⟩ := w.root
    rw [hr] at r1; cases r1
    rw [r2] at hu
    exact h0 (w.inj hh hr (by rw [r2]; exact hu.antisymm (w.under_root hh)))
  have hself : ∀ x ix, t.get x = some ix → Under it.path ix.path → x ≠ h → ¬ ix.path = it.path :=
    fun x ix e _ hne he => hne (w.inj e hh he)
  -- the new item of any old one
  have hfwd : ∀ x ix, t.get x = some ix → ∃ ix', t'.get x = some ix' ∧
      ix'.path = (if Under it.path ix.path then reprefix it.path Q ix.path else ix.path) := by
    intro x ix e
    by_cases hu : Under it.path ix.path
    · by_cases hx : x = h
      · subst hx
        rw [hh] at e; cases e
        obtain ⟨nm, f, e1, _⟩ := R.self it hh
        exact ⟨_, e1, by rw [if_pos hu, reprefix_self]⟩
      · exact ⟨_, R.below x ix e hu hx, by rw [if_pos hu]⟩
    · obtain ⟨ks, e1, _⟩ := R.out x ix e hu
      exact ⟨_, e1, by rw [if_neg hu]⟩
  -- what a parent of a moved object looks like
  refine ⟨?_, ?_, ?_, ?_, ?_, R.nodup⟩
  · obtain ⟨r, r1, r2, r3⟩ := w.root
    obtain ⟨ks, e1, _⟩ := R.out 0 r r1 (hroot0 r r1)
    exact ⟨_, e1, by rw [R.rootPath]; exact r2, r3⟩
  · intro x ix' e'
    obtain ⟨ix, e⟩ := has_iff.mp (R.only x (has_iff.mpr ⟨ix', e'⟩))
    obtain ⟨iy, f1, f2⟩ := hfwd x ix e
    rw [e'] at f1; cases f1
    rw [f2]
    by_cases hu : Under it.path ix.path
    · rw [if_pos hu]; exact R.newPath x ix e hu
    · rw [if_neg hu, R.samePath ix.path]
      · exact w.pathOf x ix e
      · intro y iy ey uy he
        exact hnoQ x ix e (he ▸ reprefix_under uy)
      · intro y iy ey uy he
        exact hu (he ▸ uy)
  · intro q x e
    by_cases hn : ∃ y iy, t.get y = some iy ∧ Under it.path iy.path ∧ reprefix it.path Q iy.path = q
    · obtain ⟨y, iy, ey, uy, rfl⟩ := hn
      rw [R.newPath y iy ey uy] at e
      obtain rfl := Option.some.inj e
      obtain ⟨iz, f1, f2⟩ := hfwd _ iy ey
      exact ⟨iz, f1, by rw [f2, if_pos uy]⟩
    · by_cases ho : ∃ y iy, t.get y = some iy ∧ Under it.path iy.path ∧ iy.path = q
      · have : ¬ Under Q q := by
          obtain ⟨y, iy, ey, uy, rfl⟩ := ho
          exact hnoQ y iy ey
        rw [R.oldPath q this ho] at e; cases e
      · rw [R.samePath q (fun y iy ey uy he => hn ⟨y, iy, ey, uy, he⟩)
          (fun y iy ey uy he => ho ⟨y, iy, ey, uy, he⟩)] at e
        obtain ⟨ix, e1, rfl⟩ := w.ofPath q x e
        obtain ⟨iz, f1, f2⟩ := hfwd x ix e1
        refine ⟨iz, f1, ?_⟩
        rw [f2, if_neg (fun hu => ho ⟨x, ix, e1, hu, rfl⟩)]
  · intro x ix' e' hx0
    obtain ⟨ix, e⟩ := has_iff.mp (R.only x (has_iff.mpr ⟨ix', e'⟩))
    by_cases hx : x = h
    · subst hx
      rw [hh] at e; cases e
      obtain ⟨nm, f, e1, e2, e3⟩ := R.self it hh
      rw [e'] at e1; cases e1
      obtain ⟨ks, e4, e5⟩ := R.out p pit hp hnb
      refine ⟨p, _, rfl, rfl, e4, ?_, e3 pit hp, e2⟩
      dsimp only; rw [e5]; simp
    · obtain ⟨q, qit, q1, q2, q3, q4, q5, q6⟩ := w.parent x ix e hx0
      by_cases hu : Under it.path ix.path
      · have := R.below x ix e hu hx
        rw [e'] at this; cases this
        have hqu : Under it.path qit.path := by
          rw [q5] at hu
          exact hu.of_join q6 (fun he => hx (w.inj e hh (q5.trans he)))
        have hqpath : reprefix it.path Q ix.path = join (reprefix it.path Q qit.path) ix.name := by
          rw [q5, reprefix_join hqu]
        by_cases hqh : q = h
        · subst hqh
          rw [hh] at q3; cases q3
          obtain ⟨nm, f, e1, _, _⟩ := R.self it hh
          refine ⟨q, _, q1, q2, e1, q4, ?_, q6⟩
          dsimp only
          rw [hqpath, reprefix_self]
        · exact ⟨q, _, q1, q2, R.below q qit q3 hqu hqh, q4, hqpath, q6⟩
      · obtain ⟨ks, e1, e2⟩ := R.out x ix e hu
        rw [e'] at e1; cases e1
        have hqu : ¬ Under it.path qit.path := fun hq => hu (hq.trans (q5 ▸ Under.join _ _))
        obtain ⟨ks', e3, e4⟩ := R.out q qit q3 hqu
        refine ⟨q, _, q1, q2, e3, ?_, q5, q6⟩
        dsimp only; rw [e4, if_neg hx]; exact q4
  · intro x ix' c e' hc
    obtain ⟨ix, e⟩ := has_iff.mp (R.only x (has_iff.mpr ⟨ix', e'⟩))
    -- a child other than `h` keeps its parent
    have hother : ∀ c, c ≠ h → c ∈ ix.kids → ∃ ci, t'.get c = some ci ∧ ci.parent = some x := by
      intro c hch hc
      obtain ⟨ci, c1, c2⟩ := w.kids x ix c e hc
      by_cases hu : Under it.path ci.path
      · exact ⟨_, R.below c ci c1 hu hch, c2⟩
      · obtain ⟨ks, e1, _⟩ := R.out c ci c1 hu
        exact ⟨_, e1, c2⟩
    have hnoself : ∀ y iy, t.get y = some iy → Under it.path iy.path → h ∉ iy.kids := by
      intro y iy ey uy hm
      obtain ⟨ci, c1, _, _, c4, _⟩ := w.kid ey hm
      rw [hh] at c1; cases c1
      have := uy.length; rw [c4, join_length] at this; omega
    by_cases hu : Under it.path ix.path
    · have hkids : ix'.kids = ix.kids := by
        by_cases hx : x = h
        · subst hx; rw [hh] at e; cases e
          obtain ⟨nm, f, e1, _⟩ := R.self it hh
          rw [e'] at e1; cases e1; rfl
        · have := R.below x ix e hu hx
          rw [e'] at this; cases this; rfl
      rw [hkids] at hc
      exact hother c (fun he => hnoself x ix e hu (he ▸ hc)) hc
    · obtain ⟨ks, e1, e2⟩ := R.out x ix e hu
      rw [e'] at e1; cases e1
      dsimp only at hc
      have hcount : 1 ≤ ks.count c := List.one_le_count_iff.mpr hc
      rw [e2] at hcount
      by_cases hch : c = h
      · subst hch
        rw [if_pos rfl] at hcount
        split at hcount
        · next hxp =>
          subst hxp
          obtain ⟨nm, f, e3, _⟩ := R.self it hh
          exact ⟨_, e3, rfl⟩
        · omega
      · rw [if_neg hch] at hcount
        exact hother c hch (List.one_le_count_iff.mp hcount)


/-! ### The subtree update of a relocation -/

/-- The new path of every object of the subtree at `P`. -/
def newAt (t : Tree) (P Q : Path) (x : Nat) : Path := reprefix P Q (pathAt t x)

theorem pathAt_eq {t : Tree} {x : Nat} {ix : Item} (h : t.get x = some ix) : pathAt t x = ix.path := by
  simp [pathAt, h]

/-- The strict descendants of `h`. -/
def kidsPre (t : Tree) (it : Item) : List Nat := it.kids.flatMap (pre (Tree.maxLen t.items + 1) t)

theorem mem_kidsPre {t : Tree} (w : TreeWF t) {h : Nat} {it : Item} (hh : t.get h = some it) {x : Nat} :
    x ∈ kidsPre t it ↔ x ≠ h ∧ ∃ ix, t.get x = some ix ∧ Under it.path ix.path := by
  unfold kidsPre
  constructor
  · intro hx
    obtain ⟨k, hk, hx⟩ := List.mem_flatMap.mp hx
    obtain ⟨ki, k1, _, _, k4, _⟩ := w.kid hh hk
    obtain ⟨ix, e, hu⟩ := mem_pre w k1 hx
    refine ⟨?_, ix, e, Under.trans (k4 ▸ Under.join _ _) hu⟩
    rintro rfl
    rw [hh] at e; cases e
    have := hu.length; rw [k4, join_length] at this; omega
  · rintro ⟨hne, ix, e, hu⟩
    obtain ⟨k, hk, hb⟩ := Below.step_down w ((w.below_iff hh e).mpr hu) hne hh
    obtain ⟨ki, k1, _, _, k4, _⟩ := w.kid hh hk
    refine List.mem_flatMap.mpr ⟨k, hk, pre_mem w k1 e ((w.below_iff k1 e).mp hb) ?_⟩
    have := len_le_maxLen e
    omega

theorem kidsPre_nodup {t : Tree} (w : TreeWF t) {h : Nat} {it : Item} (hh : t.get h = some it) :
    (h :: kidsPre t it).Nodup := by
  have := pre_nodup w (Tree.maxLen t.items + 1 + 1) h
  simpa only [pre, hh, kidsPre] using this

/-- The path map of the relocated tree. -/
theorem relocated_paths {t : Tree} (w : TreeWF t) {h : Nat} {it : Item} (hh : t.get h = some it)
    {Q : Path} (hfree : AMap.get t.paths Q = none) (hQ : Under t.rootPath Q) (m : AMap Path Nat)
    (hm : m = pathFold (pathAt t) (newAt t it.path Q)
      (AMap.insert (AMap.erase t.paths it.path) Q h) (kidsPre t it)) :
    (∀ x ix, t.get x = some ix → Under it.path ix.path →
      AMap.get m (reprefix it.path Q ix.path) = some x) ∧
    (∀ q, ¬ Under Q q → (∃ x ix, t.get x = some ix ∧ Under it.path ix.path ∧ ix.path = q) →
      AMap.get m q = none) ∧
    (∀ q, (∀ x ix, t.get x = some ix → Under it.path ix.path → reprefix it.path Q ix.path ≠ q) →
      (∀ x ix, t.get x = some ix → Under it.path ix.path → ix.path ≠ q) →
      AMap.get m q = AMap.get t.paths q) := by
  have hnoQ : ∀ x ix, t.get x = some ix → ¬ Under Q ix.path := by
    intro x ix e hu
    have := ancestor_at w e hu hQ
    rw [hfree] at this; cases this
  have hmem : ∀ x, x ∈ h :: kidsPre t it ↔ ∃ ix, t.get x = some ix ∧ Under it.path ix.path := by
    intro x
    rw [List.mem_cons, mem_kidsPre w hh]
    constructor
    · rintro (rfl | ⟨_, g⟩)
      · exact ⟨it, hh, Under.refl _⟩
      · exact g
    · intro g
      by_cases hx : x = h
      · exact Or.inl hx
      · exact Or.inr ⟨hx, g⟩
  have hm' : m = pathFold (pathAt t) (newAt t it.path Q) t.paths (h :: kidsPre t it) := by
    rw [hm]
    show _ = pathFold _ _ (AMap.insert (AMap.erase t.paths (pathAt t h)) (newAt t it.path Q h) h) _
    rw [newAt, pathAt_eq hh, reprefix_self]
  have hmem' : ∀ x ∈ h :: kidsPre t it, ∃ ix, t.get x = some ix ∧ Under it.path ix.path ∧
      newAt t it.path Q x = reprefix it.path Q ix.path ∧ pathAt t x = ix.path := by
    intro x hx
    obtain ⟨ix, e, hu⟩ := (hmem x).mp hx
    exact ⟨ix, e, hu, by rw [newAt, pathAt_eq e], pathAt_eq e⟩
  obtain ⟨s1, s2, s3⟩ := pathFold_spec (old := pathAt t) (new := newAt t it.path Q)
    (h :: kidsPre t it) (kidsPre_nodup w hh) (by
      intro a ha b hb e
      obtain ⟨ia, a1, a2, a3, _⟩ := hmem' a ha
      obtain ⟨ib, b1, b2, b3, _⟩ := hmem' b hb
      rw [a3, b3] at e
      exact w.inj a1 b1 (reprefix_inj a2 b2 e)) (by
      intro a ha b hb e
      obtain ⟨ia, a1, a2, a3, _⟩ := hmem' a ha
      obtain ⟨ib, b1, b2, _, b4⟩ := hmem' b hb
      rw [a3, b4] at e
      exact hnoQ b ib b1 (e ▸ reprefix_under a2)) t.paths
  rw [← hm'] at s1 s2 s3
  refine ⟨?_, ?_, ?_⟩
  · intro x ix e hu
    have := s1 x ((hmem x).mpr ⟨ix, e, hu⟩)
    rwa [newAt, pathAt_eq e] at this
  · rintro q hq ⟨x, ix, e, hu, rfl⟩
    refine s2 _ ?_ ⟨x, (hmem x).mpr ⟨ix, e, hu⟩, pathAt_eq e⟩
    intro d hd he
    obtain ⟨id, d1, d2, d3, _⟩ := hmem' d hd
    exact hq (by rw [← he, d3]; exact reprefix_under d2)
  · intro q h1 h2
    refine s3 q ?_ ?_
    · intro d hd
      obtain ⟨id, d1, d2, d3, _⟩ := hmem' d hd
      rw [d3]; exact h1 d id d1 d2
    · intro d hd
      obtain ⟨id, d1, d2, _, d4⟩ := hmem' d hd
      rw [d4]; exact h2 d id d1 d2

theorem newAt_kid {t : Tree} (w : TreeWF t) (P Q : Path) : ∀ d it k ki, t.get d = some it → k ∈ it.kids →
    t.get k = some ki → Under P it.path → newAt t P Q k = join (newAt t P Q d) ki.name := by
  intro d it k ki hd hk e hu
  obtain ⟨ki', k1, _, _, k4, _⟩ := w.kid hd hk
  rw [e] at k1; cases k1
  rw [newAt, newAt, pathAt_eq e, pathAt_eq hd, k4, reprefix_join hu]

/-- `repath` relocates the object under its old parent. -/
theorem repath_relocated {t : Tree} (w : TreeWF t) {h p : Nat} {it pit : Item} {n : Path}
    (hh : t.get h = some it) (h0 : h ≠ 0) (hpar : it.parent = some p) (hp : t.get p = some pit)
    (hn : '/' ∉ n) (hfree : AMap.get t.paths (join pit.path n) = none) :
    Relocated t (t.repath h it (join pit.path n) n) h p it.path (join pit.path n) ∧
    (t.repath h it (join pit.path n) n).asked = t.asked ∧
    (t.repath h it (join pit.path n) n).fs = t.fs ∧
    (t.repath h it (join pit.path n) n).get h =
      some { it with path := join pit.path n, name := n } ∧
    (∀ x ix, t.get x = some ix → ¬ Under it.path ix.path →
      (t.repath h it (join pit.path n) n).get x = some ix) := by
  have hQ : Under t.rootPath (join pit.path n) := (w.under_root hp).trans (Under.join _ _)
  obtain ⟨q, qit, q1, q2, q3, q4, q5, q6⟩ := w.parent h it hh h0
  rw [hpar] at q1; cases q1
  rw [hp] at q3; cases q3
  unfold Tree.repath
  dsimp only
  generalize hQe : join pit.path n = Q at *
  generalize ht1 : ({ t with
      paths := AMap.insert (AMap.erase t.paths it.path) Q h
      items := AMap.insert t.items h { it with path := Q, name := n } } : Tree) = t1
  have hg1 : ∀ x, t1.get x = if x = h then some { it with path := Q, name := n } else t.get x := by
    intro x; rw [← ht1]; exact AMap.get_insert _ _ _ _
  have hnewh : newAt t it.path Q h = Q := by rw [newAt, pathAt_eq hh, reprefix_self]
  have V := adjustKids_visited w (newAt t it.path Q) it.path (newAt_kid w it.path Q)
    (Tree.maxLen t.items + 1) hh (Under.refl _) t1 (by
      intro x hx
      rw [hg1, if_neg ((mem_kidsPre w hh).mp hx).1])
  rw [hnewh] at V
  have hl : it.kids.flatMap (pre (Tree.maxLen t.items + 1) t) = kidsPre t it := rfl
  rw [hl] at V
  generalize it.kids.foldl (fun t' k => t'.adjust (Tree.maxLen t.items + 1) Q k) t1 = t2 at V ⊢
  have hself : t2.get h = some { it with path := Q, name := n } := by
    rw [V.get, if_neg (fun hx => ((mem_kidsPre w hh).mp hx).1 rfl), hg1, if_pos rfl]
  have hout : ∀ x ix, t.get x = some ix → ¬ Under it.path ix.path → t2.get x = some ix := by
    intro x ix e hu
    have hxh : x ≠ h := by rintro rfl; rw [hh] at e; cases e; exact hu (Under.refl _)
    rw [V.get, if_neg, hg1, if_neg hxh, e]
    intro hx
    obtain ⟨_, iy, e', hu'⟩ := (mem_kidsPre w hh).mp hx
    rw [e] at e'; cases e'; exact hu hu'
  have hpaths := relocated_paths w hh hfree hQ t2.paths (by rw [V.paths, ← ht1])
  refine ⟨⟨?_, ?_, ?_, ?_, hpaths.1, hpaths.2.1, hpaths.2.2, ?_, ?_⟩, ?_, ?_, hself, hout⟩
  · intro x ix e hu
    refine ⟨ix.kids, hout x ix e hu, ?_⟩
    intro c
    split
    · next hc =>
      subst hc
      split
      · next hx => subst hx; rw [hp] at e; cases e; exact q4
      · next hx =>
        apply List.count_eq_zero_of_not_mem
        intro hm
        obtain ⟨ci, c1, c2⟩ := w.kids x ix c e hm
        rw [hh] at c1; cases c1
        rw [hpar] at c2; cases c2; exact hx rfl
    · rfl
  · intro x ix e hu hne
    rw [V.get, if_pos ((mem_kidsPre w hh).mpr ⟨hne, ix, e, hu⟩), e]
    simp [newAt, pathAt_eq e]
  · intro it' e
    rw [hh] at e; cases e
    refine ⟨n, it.fmt, ?_, hn, fun pit' e' => by rw [hp] at e'; cases e'; exact hQe.symm⟩
    rw [hself, ← hpar, ← q2]
  · intro x hx
    obtain ⟨ix, e⟩ := has_iff.mp hx
    rw [V.get] at e
    by_cases hm : x ∈ kidsPre t it
    · obtain ⟨_, iy, e', _⟩ := (mem_kidsPre w hh).mp hm
      exact has_iff.mpr ⟨iy, e'⟩
    · rw [if_neg hm, hg1] at e
      by_cases hxh : x = h
      · subst hxh; exact has_iff.mpr ⟨it, hh⟩
      · rw [if_neg hxh] at e; exact has_iff.mpr ⟨ix, e⟩
  · rw [V.rootPath, ← ht1]
  · exact V.nodup (by rw [← ht1]; exact AMap.nodup_insert w.nodup _ _)
  · rw [V.asked, ← ht1]
  · rw [V.fs, ← ht1]


/-- `relocate` moves the object under its new parent. -/
theorem relocate_relocated {t : Tree} (w : TreeWF t) {h p : Nat} {it pit : Item}
    (hh : t.get h = some it) (h0 : h ≠ 0) (hp : t.get p = some pit)
    (hnb : ¬ Under it.path pit.path) (hfree : AMap.get t.paths (join pit.path it.name) = none) :
    Relocated t (t.relocate h it p (join pit.path it.name)) h p it.path (join pit.path it.name) ∧
    (t.relocate h it p (join pit.path it.name)).asked = t.asked ∧
    (t.relocate h it p (join pit.path it.name)).fs = t.fs ∧
    (t.relocate h it p (join pit.path it.name)).get h =
      some { it with path := join pit.path it.name, parent := some p, par := p } ∧
    (∀ x ix, t.get x = some ix → ¬ Under it.path ix.path →
      (t.relocate h it p (join pit.path it.name)).get x =
        some { ix with kids := (if x = p then [h] else []) ++ ix.kids.filter (· ≠ h) }) := by
  have hQ : Under t.rootPath (join pit.path it.name) := (w.under_root hp).trans (Under.join _ _)
  obtain ⟨q, qit, q1, q2, q3, q4, q5, q6⟩ := w.parent h it hh h0
  unfold Tree.relocate
  dsimp only
  generalize hQe : join pit.path it.name = Q at *
  generalize ht1 : ({ t with paths := AMap.insert (AMap.erase t.paths it.path) Q h } :
    Tree).unlink h it.parent = t1
  have hg1 : ∀ x, t1.get x = if x = q then
      (t.get x).map (fun it => { it with kids := it.kids.filter (· ≠ h) }) else t.get x := by
    intro x; rw [← ht1, Tree.get_unlink, q1]; simp only [Option.some.injEq]; rfl
  have hnewh : newAt t it.path Q h = Q := by rw [newAt, pathAt_eq hh, reprefix_self]
  have hqnot : ¬ Under it.path qit.path := by
    intro hu; have := hu.length; rw [q5, join_length] at this; omega
  have hne : p ≠ h := by rintro rfl; rw [hh] at hp; cases hp; exact hnb (Under.refl _)
  have hqh : q ≠ h := by rintro rfl; rw [hh] at q3; cases q3; exact hqnot (Under.refl _)
  have V := adjustKids_visited w (newAt t it.path Q) it.path (newAt_kid w it.path Q)
    (Tree.maxLen t.items + 1) hh (Under.refl _) t1 (by
      intro x hx
      obtain ⟨_, ix, e, hu⟩ := (mem_kidsPre w hh).mp hx
      rw [hg1, if_neg]
      rintro rfl; rw [q3] at e; cases e; exact hqnot hu)
  rw [hnewh] at V
  have hl : it.kids.flatMap (pre (Tree.maxLen t.items + 1) t) = kidsPre t it := rfl
  rw [hl] at V
  generalize it.kids.foldl (fun t' k => t'.adjust (Tree.maxLen t.items + 1) Q k) t1 = t2 at V ⊢
  generalize ht3 : ((t2.link h p).upd h fun i => { i with parent := some p }).upd h
    (fun i => { i with path := Q, par := p }) = t3
  have hg3 : ∀ x, t3.get x = if x = h then (t2.get x).map
      (fun i => { i with path := Q, parent := some p, par := p }) else if x = p then (t2.get x).map
      (fun i => { i with kids := h :: i.kids }) else t2.get x := by
    intro x
    rw [← ht3, Tree.get_upd, Tree.get_upd]
    unfold Tree.link
    rw [Tree.get_upd]
    by_cases hx : x = h
    · subst hx
      simp only [if_pos]
      rw [if_neg (Ne.symm hne)]
      cases t2.get x <;> rfl
    · simp [hx]
  have hself : t3.get h = some { it with path := Q, parent := some p, par := p } := by
    rw [hg3, if_pos rfl, V.get, if_neg (fun hx => ((mem_kidsPre w hh).mp hx).1 rfl), hg1,
      if_neg (Ne.symm hqh), hh]
    rfl
  have hnoth : ∀ x ix, t.get x = some ix → x ≠ q → ix.kids.filter (· ≠ h) = ix.kids := by
    intro x ix e hxq
    rw [List.filter_eq_self]
    intro c hc
    simp only [ne_eq, decide_eq_true_eq]
    rintro rfl
    obtain ⟨ci, c1, c2⟩ := w.kids x ix c e hc
    rw [hh] at c1; cases c1
    rw [q1] at c2; cases c2; exact hxq rfl
  have hout : ∀ x ix, t.get x = some ix → ¬ Under it.path ix.path →
      t3.get x = some { ix with kids := (if x = p then [h] else []) ++ ix.kids.filter (· ≠ h) } := by
    intro x ix e hu
    have hxh : x ≠ h := by rintro rfl; rw [hh] at e; cases e; exact hu (Under.refl _)
    have h2 : t2.get x = some { ix with kids := ix.kids.filter (· ≠ h) } := by
      rw [V.get, if_neg, hg1, e]
      · by_cases hxq : x = q
        · rw [if_pos hxq]; rfl
        · rw [if_neg hxq, hnoth x ix e hxq]
      · intro hx
        obtain ⟨_, iy, e', hu'⟩ := (mem_kidsPre w hh).mp hx
        rw [e] at e'; cases e'; exact hu hu'
    rw [hg3, if_neg hxh, h2]
    by_cases hxp : x = p
    · rw [if_pos hxp, if_pos hxp]; rfl
    · rw [if_neg hxp, if_neg hxp]; rfl
  have hl4 : t3.paths = t2.paths ∧ t3.rootPath = t2.rootPath ∧ t3.asked = t2.asked ∧ t3.fs = t2.fs := by
    rw [← ht3]; simp [Tree.link]
  have hu1 := Tree.unlink_eq ({ t with paths := AMap.insert (AMap.erase t.paths it.path) Q h } : Tree)
    h it.parent
  rw [ht1] at hu1
  have hpaths := relocated_paths w hh hfree hQ t3.paths (by rw [hl4.1, V.paths, hu1.1])
  refine ⟨⟨?_, ?_, ?_, ?_, hpaths.1, hpaths.2.1, hpaths.2.2, ?_, ?_⟩, ?_, ?_, hself, hout⟩
  · intro x ix e hu
    refine ⟨_, hout x ix e hu, ?_⟩
    intro c
    rw [List.count_append]
    by_cases hc : c = h
    · subst hc
      have : (ix.kids.filter (· ≠ c)).count c = 0 := List.count_eq_zero_of_not_mem (by simp)
      rw [this]
      by_cases hxp : x = p
      · simp [hxp]
      · simp [hxp]
    · rw [if_neg hc, List.count_filter (by simpa using hc)]
      by_cases hxp : x = p
      · simp [hxp, Ne.symm hc]
      · simp [hxp]
  · intro x ix e hu hxh
    have hxp : x ≠ p := by rintro rfl; rw [hp] at e; cases e; exact hnb hu
    rw [hg3, if_neg hxh, if_neg hxp, V.get, if_pos ((mem_kidsPre w hh).mpr ⟨hxh, ix, e, hu⟩), e]
    simp [newAt, pathAt_eq e]
  · intro it' e
    rw [hh] at e; cases e
    exact ⟨it.name, it.fmt, hself, q6, fun pit' e' => by rw [hp] at e'; cases e'; exact hQe.symm⟩
  · intro x hx
    obtain ⟨ix, e⟩ := has_iff.mp hx
    have h2 : t2.has x = true := by
      rw [hg3] at e
      unfold Tree.has
      cases hx2 : t2.get x with
      | some _ => rfl
      | none => rw [hx2] at e; simp at e
    obtain ⟨ix2, e2⟩ := has_iff.mp h2
    rw [V.get] at e2
    by_cases hm : x ∈ kidsPre t it
    · obtain ⟨_, iy, e', _⟩ := (mem_kidsPre w hh).mp hm
      exact has_iff.mpr ⟨iy, e'⟩
    · rw [if_neg hm, hg1] at e2
      unfold Tree.has
      cases hx2 : t.get x with
      | some _ => rfl
      | none => rw [hx2] at e2; simp at e2
  · rw [hl4.2.1, V.rootPath, hu1.2.1]
  · rw [← ht3]
    refine Tree.upd_nodup (Tree.upd_nodup (Tree.upd_nodup (V.nodup ?_) _ _) _ _) _ _
    rw [← ht1]
    exact Tree.unlink_nodup (t := { t with paths := AMap.insert (AMap.erase t.paths it.path) Q h }) w.nodup _ _
  · rw [hl4.2.2.1, V.asked, hu1.2.2.1]
  · rw [hl4.2.2.2, V.fs, hu1.2.2.2.1]

end Mtp
