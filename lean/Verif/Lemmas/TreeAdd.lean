import Verif.Lemmas.TreeDel
/-! Adding objects: `Tree.addOne`, `Tree.add`. -/
namespace Mtp
open Spec

/-- `t'` results from `t` by adding objects; `handle` is a handle chosen by the caller (0 if none). -/
structure Grown (handle : Nat) (t t' : Tree) : Prop where
  item : ∀ x ix, t.get x = some ix → ∃ l, t'.get x = some { ix with kids := l ++ ix.kids }
  new : ∀ x, t'.has x = true → t.has x = true ∨ (t.asked < x ∧ x ≤ t'.asked) ∨ (x = handle ∧ x ≠ 0)
  rootPath : t'.rootPath = t.rootPath
  asked : t.asked ≤ t'.asked
  fs : t'.fs = t.fs

theorem Grown.refl (k : Nat) (t : Tree) : Grown k t t :=
  ⟨fun x ix e => ⟨[], by simpa using e⟩, fun x h => Or.inl h, rfl, Nat.le_refl _, rfl⟩

theorem Grown.trans {k : Nat} {t t' t'' : Tree} (g : Grown k t t') (g' : Grown 0 t' t'') :
    Grown k t t'' := by
  refine ⟨?_, ?_, g'.rootPath.trans g.rootPath, Nat.le_trans g.asked g'.asked, g'.fs.trans g.fs⟩
  · intro x ix e
    obtain ⟨l, e1⟩ := g.item x ix e
    obtain ⟨l', e2⟩ := g'.item x _ e1
    exact ⟨l' ++ l, by rw [e2]; simp⟩
  · intro x h
    have h1 := g.asked
    have h2 := g'.asked
    rcases g'.new x h with h | h | h
    · rcases g.new x h with h | h | h
      · exact Or.inl h
      · exact Or.inr (Or.inl ⟨h.1, Nat.le_trans h.2 h2⟩)
      · exact Or.inr (Or.inr h)
    · exact Or.inr (Or.inl ⟨Nat.lt_of_le_of_lt h1 h.1, h.2⟩)
    · exact absurd h.1 h.2

theorem Grown.has {k : Nat} {t t' : Tree} (g : Grown k t t') {x : Nat} (h : t.has x = true) :
    t'.has x = true := by
  obtain ⟨i, e⟩ := has_iff.mp h
  obtain ⟨l, e1⟩ := g.item x i e
  exact has_iff.mpr ⟨_, e1⟩

theorem Grown.emit {k : Nat} {t t' : Tree} (g : Grown k t t') (b : Bool) (e : TEvent) :
    Grown k t (t'.emit b e) := by
  obtain ⟨h1, h2, h3, h4, h5, h6⟩ := t'.emit_eq b e
  have hg : ∀ x, (t'.emit b e).get x = t'.get x := fun x => by unfold Tree.get; rw [h1]
  refine ⟨?_, ?_, h3.trans g.rootPath, ?_, h5.trans g.fs⟩
  · intro x ix ex; rw [hg]; exact g.item x ix ex
  · intro x hx
    rw [h4]; refine g.new x ?_
    unfold Tree.has at hx ⊢; rwa [hg] at hx
  · rw [h4]; exact g.asked

theorem newHandle_eq {t : Tree} (h : t.asked + 1 < 0xFFFFFFFF) :
    t.newHandle = (t.asked + 1, { t with asked := t.asked + 1 }) := by
  unfold Tree.newHandle nextHandle
  have h1 : u32 t.asked = t.asked := by
    unfold u32; exact Nat.mod_eq_of_lt (by omega)
  have h2 : u32 (t.asked + 1) = t.asked + 1 := by
    unfold u32; exact Nat.mod_eq_of_lt (by omega)
  simp only [h1, h2]
  rw [if_neg (by omega)]

/-- `addToMaps` on the handle and path maps. -/
theorem addToMaps_get (t : Tree) (h : Nat) (it : Item) (x : Nat) :
    ∃ v, (t.addToMaps h it).get x = if x = h then some { it with puoid := v } else t.get x := by
  unfold Tree.addToMaps
  split
  · next v t1 e =>
    refine ⟨v, ?_⟩
    show AMap.get (AMap.insert t1.items h _) x = _
    have hi : t1.items = t.items := by split at e <;> (cases e; rfl)
    rw [AMap.get_insert, hi]; rfl

theorem addToMaps_eq (t : Tree) (h : Nat) (it : Item) :
    (t.addToMaps h it).paths = AMap.insert t.paths it.path h ∧
    (t.addToMaps h it).rootPath = t.rootPath ∧ (t.addToMaps h it).asked = t.asked ∧
    (t.addToMaps h it).fs = t.fs ∧ (t.addToMaps h it).tick = t.tick ∧
    ((t.items.map (·.1)).Nodup → ((t.addToMaps h it).items.map (·.1)).Nodup) := by
  unfold Tree.addToMaps
  split
  next v t1 e =>
    have hi : t1.items = t.items ∧ t1.paths = t.paths ∧ t1.rootPath = t.rootPath ∧
        t1.asked = t.asked ∧ t1.fs = t.fs ∧ t1.tick = t.tick := by
      split at e <;> (cases e; exact ⟨rfl, rfl, rfl, rfl, rfl, rfl⟩)
    obtain ⟨h1, h2, h3, h4, h5, h6⟩ := hi
    refine ⟨?_, h3, h4, h5, h6, ?_⟩
    · show AMap.insert t1.paths it.path h = _; rw [h2]
    · intro hn; show ((AMap.insert t1.items h _).map (·.1)).Nodup
      rw [h1]; exact AMap.nodup_insert hn _ _

/-- A well-formed tree stays so when a new leaf is linked under an existing object. -/
theorem WF_insert {t t' : Tree} (w : TreeWF t) {h ph : Nat} {pit it : Item}
    (hp : t.get ph = some pit) (hh : t.get h = none) (hpath : AMap.get t.paths it.path = none)
    (hjoin : it.path = join pit.path it.name) (hslash : '/' ∉ it.name)
    (hpar : it.parent = some ph) (hpar' : it.par = ph) (hk : it.kids = [])
    (hg : ∀ x, t'.get x = if x = h then some it else if x = ph then
      some { pit with kids := h :: pit.kids } else t.get x)
    (hps : t'.paths = AMap.insert t.paths it.path h) (hr : t'.rootPath = t.rootPath)
    (hnd : (t'.items.map (·.1)).Nodup) : TreeWF t' := by
  have hne : ph ≠ h := by rintro rfl; rw [hp] at hh; cases hh
  have h0 : h ≠ 0 := by
    rintro rfl; obtain ⟨r, r1, _⟩ := w.root; rw [r1] at hh; cases hh
  have hnk : ∀ x ix, t.get x = some ix → h ∉ ix.kids := by
    intro x ix e hm
    obtain ⟨ci, c1, _⟩ := w.kids x ix h e hm
    rw [hh] at c1; cases c1
  have hfwd : ∀ x ix, t.get x = some ix → x ≠ h ∧
      t'.get x = some { ix with kids := if x = ph then h :: ix.kids else ix.kids } := by
    intro x ix e
    have hx : x ≠ h := by rintro rfl; rw [hh] at e; cases e
    refine ⟨hx, ?_⟩
    rw [hg, if_neg hx]
    by_cases hxp : x = ph
    · subst hxp; rw [hp] at e; cases e; simp
    · simp [hxp, e]
  have hth : t'.get h = some it := by rw [hg, if_pos rfl]
  have hback : ∀ x ix', t'.get x = some ix' → (x = h ∧ ix' = it) ∨ (x ≠ h ∧ ∃ ix, t.get x = some ix ∧
      ix' = { ix with kids := if x = ph then h :: ix.kids else ix.kids }) := by
    intro x ix' e
    by_cases hx : x = h
    · subst hx; rw [hth] at e; cases e; exact Or.inl ⟨rfl, rfl⟩
    · right
      refine ⟨hx, ?_⟩
      rw [hg, if_neg hx] at e
      by_cases hxp : x = ph
      · subst hxp; simp only [if_pos, Option.some.injEq] at e
        exact ⟨pit, hp, by simp [e.symm]⟩
      · rw [if_neg hxp] at e; exact ⟨ix', e, by simp [hxp]⟩
  refine ⟨?_, ?_, ?_, ?_, ?_, hnd⟩
  · obtain ⟨r, r1, r2, r3⟩ := w.root
    exact ⟨_, (hfwd 0 r r1).2, by rw [hr]; exact r2, r3⟩
  · intro x ix' e
    rw [hps, AMap.get_insert]
    rcases hback x ix' e with ⟨rfl, rfl⟩ | ⟨_, ix, e1, rfl⟩
    · simp
    · dsimp only
      have h1 := w.pathOf x ix e1
      rw [if_neg (by intro h; rw [h, hpath] at h1; cases h1)]
      exact h1
  · intro p x e
    rw [hps, AMap.get_insert] at e
    by_cases hpp : p = it.path
    · rw [if_pos hpp] at e; cases e; exact ⟨it, hth, hpp.symm⟩
    · rw [if_neg hpp] at e
      obtain ⟨ix, e1, rfl⟩ := w.ofPath p x e
      exact ⟨_, (hfwd x ix e1).2, rfl⟩
  · intro x ix' e hx0
    rcases hback x ix' e with ⟨rfl, rfl⟩ | ⟨hxh, ix, e1, rfl⟩
    · refine ⟨ph, _, hpar, hpar', (hfwd ph pit hp).2, ?_, hjoin, hslash⟩
      simp [List.count_eq_zero_of_not_mem (hnk ph pit hp)]
    · obtain ⟨q, qit, q1, q2, q3, q4, q5, q6⟩ := w.parent x ix e1 hx0
      refine ⟨q, _, q1, q2, (hfwd q qit q3).2, ?_, q5, q6⟩
      dsimp only
      split
      · rw [List.count_cons_of_ne (Ne.symm hxh)]; exact q4
      · exact q4
  · intro x ix' c e hc
    rcases hback x ix' e with ⟨rfl, rfl⟩ | ⟨_, ix, e1, rfl⟩
    · rw [hk] at hc; simp at hc
    · dsimp only at hc
      have hc' : c = h ∧ x = ph ∨ c ∈ ix.kids := by
        split at hc
        · next hx =>
          rcases List.mem_cons.mp hc with g | g
          · exact Or.inl ⟨g, hx⟩
          · exact Or.inr g
        · exact Or.inr hc
      rcases hc' with ⟨rfl, rfl⟩ | hc'
      · exact ⟨it, hth, hpar⟩
      · obtain ⟨ci, c1, c2⟩ := w.kids x ix c e1 hc'
        exact ⟨_, (hfwd c ci c1).2, c2⟩

/-- `Issued` when everything new was issued. -/
theorem Issued_grown {k : Nat} {t t' : Tree} (g : Grown k t t') (hi : Issued t) (hk : k ≤ t.asked) :
    Issued t' := by
  intro x ix e
  have h1 := g.asked
  rcases g.new x (has_iff.mpr ⟨ix, e⟩) with h | h | h
  · obtain ⟨i, hi'⟩ := has_iff.mp h
    exact Nat.le_trans (hi x i hi') h1
  · exact h.2
  · rw [h.1]; exact Nat.le_trans hk h1

theorem pickHandle_asked (t : Tree) (path : Path) (handle : Nat) :
    t.asked ≤ (t.pickHandle path handle).2.asked := by
  unfold Tree.pickHandle
  split
  · exact Nat.le_refl _
  · split
    · exact Nat.le_refl _
    · simp [Tree.newHandle]

theorem tryCreate_eq (t : Tree) (create : Bool) : (t.tryCreate create).2.items = t.items ∧
    (t.tryCreate create).2.paths = t.paths ∧ (t.tryCreate create).2.rootPath = t.rootPath ∧
    (t.tryCreate create).2.fs = t.fs ∧ (t.tryCreate create).2.asked = t.asked := by
  unfold Tree.tryCreate Tree.ask; split <;> simp

theorem linkOpt_eq (t : Tree) (h : Nat) (p : Option Nat) :
    (t.linkOpt h p).paths = t.paths ∧ (t.linkOpt h p).rootPath = t.rootPath ∧
    (t.linkOpt h p).fs = t.fs ∧ (t.linkOpt h p).asked = t.asked := by
  cases p <;> simp [Tree.linkOpt, Tree.link]

theorem addOne_asked (t : Tree) (path : Path) (link : Option (Option Path)) (dfmt : Nat)
    (info : Option Tree.Info) (create : Bool) (handle : Nat) :
    t.asked ≤ (t.addOne path link dfmt info create handle).1.asked ∧
    (t.refused path link = false → AMap.get t.paths path = none →
      (t.addOne path link dfmt info create handle).1.asked =
        (t.pickHandle path handle).2.asked) := by
  have h1 := pickHandle_asked t path handle
  have h2 := (tryCreate_eq (t.pickHandle path handle).2 create).2.2.2.2
  unfold Tree.addOne
  split
  · next hr => exact ⟨Nat.le_refl _, fun h => by rw [h] at hr; cases hr⟩
  · split
    · next hp => exact ⟨Nat.le_refl _, fun _ h => by rw [h] at hp; cases hp⟩
    · dsimp only
      split
      · dsimp only; rw [h2]; exact ⟨h1, fun _ _ => rfl⟩
      · dsimp only
        rw [(addToMaps_eq _ _ _).2.2.1, (linkOpt_eq _ _ _).2.2.2, h2]; exact ⟨h1, fun _ _ => rfl⟩

mutual
theorem add_asked (t : Tree) (path : Path) (d : Disk) (info : Option Tree.Info) (ev create : Bool)
    (handle : Nat) : t.asked ≤ (t.add path d info ev create handle).1.asked := by
  match d with
  | .node link dfmt entries =>
    rw [Tree.add.eq_def]
    have h1 := (addOne_asked t path link dfmt info create handle).1
    dsimp only
    split
    · next t1 h r e =>
      rw [e] at h1
      show _ ≤ (Tree.emit _ _ _).asked
      rw [(Tree.emit_eq _ _ _).2.2.2.1]
      split
      · exact Nat.le_trans h1 (addAll_asked _ _ _ _ entries)
      · exact h1
    · next t1 r e => rw [e] at h1; exact h1
  termination_by structural d

theorem addAll_asked (t : Tree) (path : Path) (ev create : Bool) (entries : List (Path × Disk)) :
    t.asked ≤ (t.addAll path ev create entries).asked := by
  match entries with
  | [] => rw [Tree.addAll]; exact Nat.le_refl _
  | (n, d) :: r =>
    rw [Tree.addAll]
    exact Nat.le_trans (add_asked t _ d none ev create 0) (addAll_asked _ _ _ _ r)
  termination_by structural entries
end

/-- `addOne` below an existing object. -/
theorem addOne_spec {t : Tree} (w : TreeWF t) (hi : Issued t) {ph : Nat} {pit : Item} {n : Path}
    (hp : t.get ph = some pit) (hn : '/' ∉ n) (link : Option (Option Path)) (dfmt : Nat)
    (info : Option Tree.Info) (hinfo : ∀ i, info = some i → i.name = n ∧ i.par = ph)
    (create : Bool) (handle : Nat) (hh : handle ≠ 0 → t.get handle = none)
    (hb : (t.addOne (join pit.path n) link dfmt info create handle).1.asked < 0xFFFFFFFF) :
    let R := t.addOne (join pit.path n) link dfmt info create handle
    TreeWF R.1 ∧ Grown handle t R.1 ∧
    (∀ h, R.2.1 = some h → ∃ it, R.1.get h = some it ∧ it.path = join pit.path n ∧ it.name = n ∧
      it.parent = some ph ∧ it.par = ph ∧ it.kids = [] ∧ t.get h = none ∧
      it.fmt = (Tree.newItem [] none dfmt info).fmt) ∧
    (R.2.1 = none → R.1.items = t.items ∧ R.1.paths = t.paths) ∧
    (∀ x ix, t.get x = some ix → x ≠ ph → R.1.get x = some ix) := by
  have hm := (addOne_asked t (join pit.path n) link dfmt info create handle).2
  have triv : ∀ r : Resp, TreeWF (t, (none : Option Nat), r).1 ∧ Grown handle t t ∧
    (∀ h, (none : Option Nat) = some h → ∃ it, t.get h = some it ∧ it.path = join pit.path n ∧
      it.name = n ∧ it.parent = some ph ∧ it.par = ph ∧ it.kids = [] ∧ t.get h = none ∧
      it.fmt = (Tree.newItem [] none dfmt info).fmt) ∧
    ((none : Option Nat) = none → t.items = t.items ∧ t.paths = t.paths) ∧
    (∀ x ix, t.get x = some ix → x ≠ ph → t.get x = some ix) :=
    fun r => ⟨w, Grown.refl _ _, (fun h e => by cases e), fun _ => ⟨rfl, rfl⟩, fun x ix e _ => e⟩
  intro R
  revert hb hm
  show _ → _ → TreeWF R.1 ∧ _
  have hR : R = t.addOne (join pit.path n) link dfmt info create handle := rfl
  rw [← hR]
  unfold Tree.addOne at hR
  by_cases hrf : t.refused (join pit.path n) link = true
  · rw [if_pos hrf] at hR
    intro _ _; rw [hR]; exact triv _
  rw [if_neg hrf] at hR
  by_cases hex : (AMap.get t.paths (join pit.path n)).isSome = true
  · rw [if_pos hex] at hR
    intro _ _; rw [hR]; exact triv _
  rw [if_neg hex] at hR
  have hfree : AMap.get t.paths (join pit.path n) = none := by
    cases hx : AMap.get t.paths (join pit.path n) with
    | none => rfl
    | some v => rw [hx] at hex; simp at hex
  have hroot : join pit.path n ≠ t.rootPath := by
    intro h
    have := (w.under_root hp).length
    rw [← h, join_length] at this; omega
  have hfind : t.parentFor (join pit.path n) = some ph := by
    unfold Tree.parentFor
    rw [dirOf_join hn]
    unfold Tree.findByPath
    rw [w.pathOf ph pit hp]
    dsimp only
    rw [if_pos (has_iff.mpr ⟨pit, hp⟩)]
  rw [hfind] at hR
  intro hb hm
  have hask := hm (by simpa using hrf) hfree
  rw [hask] at hb
  generalize hpk : t.pickHandle (join pit.path n) handle = pk at hR hb
  obtain ⟨h, t1⟩ := pk
  have ht1 : t.get h = none ∧ h ≠ 0 ∧ t1.items = t.items ∧ t1.paths = t.paths ∧
      t1.rootPath = t.rootPath ∧ t1.fs = t.fs ∧ t.asked ≤ t1.asked ∧
      ((t.asked < h ∧ h ≤ t1.asked) ∨ (h = handle ∧ h ≠ 0)) := by
    unfold Tree.pickHandle at hpk
    rw [if_neg hroot] at hpk
    split at hpk
    · next hne => cases hpk; exact ⟨hh hne, hne, rfl, rfl, rfl, rfl, Nat.le_refl _, Or.inr ⟨rfl, hne⟩⟩
    · have ha : t1.asked = t.asked + 1 := by
        unfold Tree.newHandle at hpk; cases hpk; rfl
      dsimp only at hb
      rw [newHandle_eq (by omega)] at hpk
      cases hpk
      refine ⟨?_, by omega, rfl, rfl, rfl, rfl, by simp, Or.inl ⟨by omega, by simp⟩⟩
      cases hx : t.get (t.asked + 1) with
      | none => rfl
      | some i => have := hi _ i hx; omega
  obtain ⟨g1, g2, g3, g4, g5, g6, g7, g8⟩ := ht1
  dsimp only at hR
  obtain ⟨k3, k4, k5, k6, k7⟩ := tryCreate_eq t1 create
  generalize t1.tryCreate create = ct at hR k3 k4 k5 k6 k7
  obtain ⟨good, t2⟩ := ct
  dsimp only at hR k3 k4 k5 k6 k7
  rw [g3] at k3; rw [g4] at k4; rw [g5] at k5; rw [g6] at k6
  have hg2 : ∀ x, t2.get x = t.get x := fun x => by unfold Tree.get; rw [k3]
  clear hask hm hb
  cases good with
  | false =>
    rw [if_pos rfl] at hR
    rw [hR]
    refine ⟨WF_congr w k3 k4 k5, ⟨?_, ?_, k5, ?_, k6⟩, (fun h e => by cases e),
      fun _ => ⟨k3, k4⟩, fun x ix e _ => by rw [hg2]; exact e⟩
    · intro x ix e; exact ⟨[], by rw [hg2]; simpa using e⟩
    · intro x hx; left; unfold Tree.has at hx ⊢; rwa [hg2] at hx
    · show _ ≤ t2.asked; omega
  | true =>
    rw [if_neg (by decide)] at hR
    generalize hit : Tree.newItem (join pit.path n) (some ph) dfmt info = it at hR
    have hfacts : it.name = n ∧ it.par = ph ∧ it.fmt = (Tree.newItem [] none dfmt info).fmt ∧
        it.path = join pit.path n ∧ it.parent = some ph ∧ it.kids = [] := by
      rw [← hit]
      cases info with
      | none => exact ⟨baseOf_join hn, rfl, rfl, rfl, rfl, rfl⟩
      | some i => exact ⟨(hinfo i rfl).1, (hinfo i rfl).2, rfl, rfl, rfl, rfl⟩
    obtain ⟨hname, hpar, hfmt, hpath, hparent, hkids⟩ := hfacts
    clear hit
    obtain ⟨l1, l2, l3, l4⟩ := linkOpt_eq t2 h (some ph)
    have hlget : ∀ x, (t2.linkOpt h (some ph)).get x = if x = ph then
        some { pit with kids := h :: pit.kids } else t.get x := by
      intro x
      show (t2.upd ph _).get x = _
      rw [Tree.get_upd, hg2]
      by_cases hxp : x = ph
      · subst hxp; simp [hp, if_pos]
      · simp [hxp]
    have hln : ((t2.linkOpt h (some ph)).items.map (·.1)).Nodup :=
      Tree.upd_nodup (by rw [k3]; exact w.nodup) _ _
    generalize t2.linkOpt h (some ph) = t3 at hR l1 l2 l3 l4 hlget hln
    obtain ⟨v, hv⟩ := addToMaps_get t3 h it h
    have hget : ∀ x, (t3.addToMaps h it).get x = if x = h then
        some { it with puoid := v } else if x = ph then
        some { pit with kids := h :: pit.kids } else t.get x := by
      intro x
      by_cases hx : x = h
      · subst hx; rw [hv, if_pos rfl, if_pos rfl]
      · obtain ⟨v', hv'⟩ := addToMaps_get t3 h it x
        rw [hv', if_neg hx, if_neg hx, hlget]
    obtain ⟨a1, a2, a3, a4, a5, a6⟩ := addToMaps_eq t3 h it
    have hself : (t3.addToMaps h it).get h = some { it with puoid := v } := by
      rw [hget, if_pos rfl]
    rw [hR]
    refine ⟨?_, ⟨?_, ?_, ?_, ?_, ?_⟩, ?_, fun e => (by cases e), ?_⟩
    · exact WF_insert w (it := { it with puoid := v }) hp g1 (by rw [hpath]; exact hfree)
        (by rw [hpath, hname]) (by rw [hname]; exact hn) hparent hpar hkids hget
        (by rw [a1, l1, k4]) (by rw [a2, l2, k5]) (a6 hln)
    · intro x ix e
      have hx : x ≠ h := by rintro rfl; rw [g1] at e; cases e
      show ∃ l, (t3.addToMaps h it).get x = _
      rw [hget, if_neg hx]
      by_cases hxp : x = ph
      · subst hxp; rw [hp] at e; cases e
        exact ⟨[h], by simp [if_pos]⟩
      · rw [if_neg hxp, e]; exact ⟨[], by simp⟩
    · intro x hx
      by_cases hxh : x = h
      · subst hxh; right
        dsimp only
        rw [a3, l4, k7]; exact g8
      · left
        obtain ⟨ix, e⟩ := has_iff.mp hx
        dsimp only at e
        rw [hget, if_neg hxh] at e
        by_cases hxp : x = ph
        · subst hxp; exact has_iff.mpr ⟨pit, hp⟩
        · rw [if_neg hxp] at e; exact has_iff.mpr ⟨ix, e⟩
    · dsimp only; rw [a2, l2, k5]
    · dsimp only; rw [a3, l4, k7]; exact g7
    · dsimp only; rw [a4, l3, k6]
    · intro h' e; cases e
      exact ⟨_, hself, hpath, hname, hparent, hpar, hkids, g1, hfmt⟩
    · intro x ix e hx
      have hx' : x ≠ h := by rintro rfl; rw [g1] at e; cases e
      dsimp only
      rw [hget, if_neg hx', if_neg hx, e]

mutual
/-- Adding an object with everything below it keeps the tree well formed. -/
theorem add_spec {t : Tree} (w : TreeWF t) (hi : Issued t) {ph : Nat} {pit : Item} {n : Path}
    (hp : t.get ph = some pit) (hn : '/' ∉ n) (d : Disk) (hd : DiskOk d)
    (info : Option Tree.Info) (hinfo : ∀ i, info = some i → i.name = n ∧ i.par = ph)
    (ev create : Bool) (handle : Nat) (hh : handle ≠ 0 → t.get handle = none)
    (hha : handle ≤ t.asked)
    (hb : (t.add (join pit.path n) d info ev create handle).1.asked < 0xFFFFFFFF) :
    TreeWF (t.add (join pit.path n) d info ev create handle).1 ∧
    Issued (t.add (join pit.path n) d info ev create handle).1 ∧
    Grown handle t (t.add (join pit.path n) d info ev create handle).1 := by
  match d with
  | .node link dfmt entries =>
    rw [DiskOk] at hd
    rw [Tree.add.eq_def] at hb ⊢
    dsimp only at hb ⊢
    have key := addOne_spec w hi hp hn link dfmt info hinfo create handle hh
    split
    · next t1 h r e =>
      rw [e] at key hb
      dsimp only at hb
      rw [(Tree.emit_eq _ _ _).2.2.2.1] at hb
      obtain ⟨k1, k2, k3, _, _⟩ := key (by
        refine Nat.lt_of_le_of_lt ?_ hb
        split
        · exact addAll_asked _ _ _ _ entries
        · exact Nat.le_refl _)
      dsimp only at k1 k2 k3
      obtain ⟨it, e1, e2, _⟩ := k3 h rfl
      have i1 := Issued_grown k2 hi hha
      have fin : ∀ t2, (TreeWF t2 ∧ Issued t2 ∧ Grown 0 t1 t2) → TreeWF (t2.emit ev (.added h)) ∧
          Issued (t2.emit ev (.added h)) ∧ Grown handle t (t2.emit ev (.added h)) := by
        rintro t2 ⟨w2, i2, g2⟩
        exact ⟨WF_emit w2 _ _, Issued_grown ((k2.trans g2).emit _ _) hi hha, (k2.trans g2).emit _ _⟩
      refine fin _ ?_
      split
      · next hf =>
        rw [if_pos hf] at hb
        have := addAll_spec k1 i1 e1 ev create entries hd (by rw [e2]; exact hb)
        rw [e2] at this; exact this
      · exact ⟨k1, i1, Grown.refl _ _⟩
    · next t1 r e =>
      rw [e] at key hb
      obtain ⟨k1, k2, _, k4, _⟩ := key hb
      exact ⟨k1, Issued_grown k2 hi hha, k2⟩
  termination_by structural d

theorem addAll_spec {t : Tree} (w : TreeWF t) (hi : Issued t) {h : Nat} {it : Item}
    (hp : t.get h = some it) (ev create : Bool) (entries : List (Path × Disk)) (hd : DisksOk entries)
    (hb : (t.addAll it.path ev create entries).asked < 0xFFFFFFFF) :
    TreeWF (t.addAll it.path ev create entries) ∧ Issued (t.addAll it.path ev create entries) ∧
    Grown 0 t (t.addAll it.path ev create entries) := by
  match entries with
  | [] => rw [Tree.addAll]; exact ⟨w, hi, Grown.refl _ _⟩
  | (n, d) :: r =>
    rw [DisksOk] at hd
    rw [Tree.addAll] at hb ⊢
    obtain ⟨k1, k2, k3⟩ := add_spec w hi hp hd.1.1 d hd.1.2 none (fun i e => by cases e) ev create 0
      (fun h => absurd rfl h) (Nat.zero_le _) (Nat.lt_of_le_of_lt (addAll_asked _ _ _ _ r) hb)
    obtain ⟨l, e1⟩ := k3.item h it hp
    obtain ⟨j1, j2, j3⟩ := addAll_spec k1 k2 e1 ev create r hd.2 hb
    exact ⟨j1, j2, k3.trans j3⟩
  termination_by structural entries
end

end Mtp
