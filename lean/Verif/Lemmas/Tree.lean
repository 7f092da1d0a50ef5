import Verif.Spec.Tree
import Verif.Lemmas.AMap
/-! Lemmas about paths and the primitive updates of the object tree. -/
namespace Mtp
open Spec

/-! ### Paths -/

theorem join_length (p n : Path) : (join p n).length = p.length + 1 + n.length := by
  simp [join]; omega

theorem join_inj_left {p n m : Path} (h : join p n = join p m) : n = m := by
  simpa [join] using h

theorem join_cases {p s q n : Path} (h : join p s = join q n) (hn : '/' ∉ n) : Under p q := by
  unfold join at h
  rcases List.append_eq_append_iff.mp h with ⟨a, h1, h2⟩ | ⟨c, h1, h2⟩
  · cases a with
    | nil => left; simpa using h1
    | cons x a =>
      simp only [List.cons_append, List.cons.injEq] at h2
      obtain ⟨rfl, _⟩ := h2
      exact Or.inr ⟨a, h1⟩
  · cases c with
    | nil => left; simpa using h1.symm
    | cons x c =>
      simp only [List.cons_append, List.cons.injEq] at h2
      exact absurd (by rw [h2.2]; simp) hn

theorem join_inj {p n q m : Path} (h : join p n = join q m) (hn : '/' ∉ n) (hm : '/' ∉ m) :
    p = q ∧ n = m := by
  have hl : p = q := by
    rcases join_cases h hm with e | ⟨s, e⟩
    · exact e.symm
    · rcases join_cases h.symm hn with e' | ⟨s', e'⟩
      · exact e'
      · exfalso
        have h1 := congrArg List.length e
        have h2 := congrArg List.length e'
        rw [join_length] at h1 h2
        omega
  subst hl
  exact ⟨rfl, join_inj_left h⟩

theorem dirOf_join {p n : Path} (hn : '/' ∉ n) : dirOf (join p n) = p := by
  unfold dirOf
  rw [if_pos (by simp [join])]
  have : (join p n).reverse = n.reverse ++ '/' :: p.reverse := by simp [join]
  rw [this, List.dropWhile_append_of_pos (by
    intro x hx; simp only [ne_eq, decide_eq_true_eq]
    rintro rfl; exact hn (by simpa using hx))]
  simp

theorem baseOf_join {p n : Path} (hn : '/' ∉ n) : baseOf (join p n) = n := by
  unfold baseOf
  have : (join p n).reverse = n.reverse ++ '/' :: p.reverse := by simp [join]
  rw [this, List.takeWhile_append_of_pos (by
    intro x hx; simp only [ne_eq, decide_eq_true_eq]
    rintro rfl; exact hn (by simpa using hx))]
  simp

theorem _root_.Spec.Under.refl (p : Path) : Under p p := Or.inl rfl

theorem _root_.Spec.Under.join (p n : Path) : Under p (join p n) := Or.inr ⟨n, rfl⟩

theorem _root_.Spec.Under.trans {p q r : Path} (h1 : Under p q) (h2 : Under q r) : Under p r := by
  rcases h1 with rfl | ⟨s, rfl⟩
  · exact h2
  · rcases h2 with rfl | ⟨s', rfl⟩
    · exact Or.inr ⟨s, rfl⟩
    · exact Or.inr ⟨s ++ '/' :: s', by simp [Mtp.join]⟩

theorem _root_.Spec.Under.length {p q : Path} (h : Under p q) : p.length ≤ q.length := by
  rcases h with rfl | ⟨s, rfl⟩
  · exact Nat.le_refl _
  · rw [join_length]; omega

theorem _root_.Spec.Under.antisymm {p q : Path} (h1 : Under p q) (h2 : Under q p) : p = q := by
  rcases h1 with rfl | ⟨s, rfl⟩
  · rfl
  · have := h2.length; rw [join_length] at this; omega

theorem _root_.Spec.Under.of_join {p q n : Path} (h : Under p (Mtp.join q n)) (hn : '/' ∉ n)
    (hne : Mtp.join q n ≠ p) : Under p q := by
  rcases h with e | ⟨s, e⟩
  · exact absurd e hne
  · exact join_cases e.symm hn

/-- Two siblings have disjoint subtrees. -/
theorem _root_.Spec.Under.sibling {q n m r : Path} (h1 : Under (Mtp.join q n) r) (h2 : Under (Mtp.join q m) r)
    (hn : '/' ∉ n) (hm : '/' ∉ m) : n = m := by
  have key : ∀ {n m : Path}, '/' ∉ n → '/' ∉ m → ∀ {s s' : Path},
      n ++ s = m ++ s' → (s = [] ∨ ∃ u, s = '/' :: u) → (s' = [] ∨ ∃ u, s' = '/' :: u) → n = m := by
    intro n
    induction n with
    | nil =>
      intro m _ hm s s' e hs hs'
      cases m with
      | nil => rfl
      | cons x m =>
        rcases hs with rfl | ⟨u, rfl⟩
        · simp at e
        · simp only [List.nil_append, List.cons_append, List.cons.injEq] at e
          exact absurd (by rw [← e.1]; simp) hm
    | cons y n ih =>
      intro m hn hm s s' e hs hs'
      cases m with
      | nil =>
        rcases hs' with rfl | ⟨u, rfl⟩
        · simp at e
        · simp only [List.nil_append, List.cons_append, List.cons.injEq] at e
          exact absurd (by rw [e.1]; simp) hn
      | cons x m =>
        simp only [List.cons_append, List.cons.injEq] at e
        obtain ⟨rfl, e⟩ := e
        rw [ih (fun h => hn (by simp [h])) (fun h => hm (by simp [h])) e hs hs']
  have ex : ∀ {n r : Path}, Under (Mtp.join q n) r → ∃ s, r = q ++ '/' :: (n ++ s) ∧
      (s = [] ∨ ∃ u, s = '/' :: u) := by
    intro n r h
    rcases h with rfl | ⟨u, rfl⟩
    · exact ⟨[], by simp [Mtp.join], Or.inl rfl⟩
    · exact ⟨'/' :: u, by simp [Mtp.join], Or.inr ⟨u, rfl⟩⟩
  obtain ⟨s, e1, hs⟩ := ex h1
  obtain ⟨s', e2, hs'⟩ := ex h2
  rw [e1] at e2
  simp only [List.append_cancel_left_eq, List.cons.injEq, true_and] at e2
  exact key hn hm e2 hs hs'

/-! ### Maps -/

namespace AMap
variable {K V : Type} [DecidableEq K]

theorem keys_erase (m : AMap K V) (k : K) :
    (AMap.erase m k).map (·.1) = (m.map (·.1)).filter (· ≠ k) := by
  unfold AMap.erase; rw [List.filter_map]; rfl

theorem nodup_erase {m : AMap K V} (h : (m.map (·.1)).Nodup) (k : K) :
    ((AMap.erase m k).map (·.1)).Nodup := by rw [keys_erase]; exact h.filter _

theorem nodup_insert {m : AMap K V} (h : (m.map (·.1)).Nodup) (k : K) (v : V) :
    ((AMap.insert m k v).map (·.1)).Nodup := by
  unfold AMap.insert
  simp only [List.map_cons, List.nodup_cons]
  refine ⟨?_, nodup_erase h k⟩
  rw [keys_erase]; simp

theorem get_of_mem {m : AMap K V} (h : (m.map (·.1)).Nodup) {k : K} {v : V} (hm : (k, v) ∈ m) :
    AMap.get m k = some v := by
  induction m with
  | nil => simp at hm
  | cons e m ih =>
    obtain ⟨x, w⟩ := e
    simp only [List.map_cons, List.nodup_cons] at h
    simp only [AMap.get]
    rcases List.mem_cons.mp hm with e | e
    · cases e; simp
    · have : k ≠ x := by
        rintro rfl; exact h.1 (List.mem_map.mpr ⟨_, e, rfl⟩)
      rw [if_neg this, ih h.2 e]

theorem mem_iff_get {m : AMap K V} (h : (m.map (·.1)).Nodup) {k : K} {v : V} :
    (k, v) ∈ m ↔ AMap.get m k = some v := ⟨get_of_mem h, mem_of_get⟩

theorem length_erase_lt {m : AMap K V} {k : K} {v : V} (h : AMap.get m k = some v) :
    (AMap.erase m k).length < m.length := by
  unfold AMap.erase
  exact List.length_filter_lt_length_iff_exists.mpr ⟨(k, v), mem_of_get h, by simp⟩

end AMap

namespace Tree

theorem get_insert_items (t : Tree) (h x : Nat) (i : Item) :
    AMap.get (AMap.insert t.items h i) x = if x = h then some i else t.get x := by
  rw [AMap.get_insert]; rfl

theorem get_upd (t : Tree) (h x : Nat) (f : Item → Item) :
    (t.upd h f).get x = if x = h then (t.get x).map f else t.get x := by
  unfold upd
  split
  · next e =>
    split
    · next hx => subst hx; simp [e]
    · rfl
  · next it e =>
    show AMap.get (AMap.insert t.items h (f it)) x = _
    rw [AMap.get_insert]
    split
    · next hx => subst hx; rw [e]; rfl
    · rfl

@[simp] theorem upd_paths (t : Tree) (h : Nat) (f : Item → Item) : (t.upd h f).paths = t.paths := by
  unfold upd; split <;> rfl
@[simp] theorem upd_rootPath (t : Tree) (h : Nat) (f : Item → Item) :
    (t.upd h f).rootPath = t.rootPath := by unfold upd; split <;> rfl
@[simp] theorem upd_asked (t : Tree) (h : Nat) (f : Item → Item) : (t.upd h f).asked = t.asked := by
  unfold upd; split <;> rfl
@[simp] theorem upd_fs (t : Tree) (h : Nat) (f : Item → Item) : (t.upd h f).fs = t.fs := by
  unfold upd; split <;> rfl
@[simp] theorem upd_tick (t : Tree) (h : Nat) (f : Item → Item) : (t.upd h f).tick = t.tick := by
  unfold upd; split <;> rfl

theorem upd_nodup {t : Tree} (hn : (t.items.map (·.1)).Nodup) (h : Nat) (f : Item → Item) :
    ((t.upd h f).items.map (·.1)).Nodup := by
  unfold upd; split
  · exact hn
  · exact AMap.nodup_insert hn _ _

theorem emit_eq (t : Tree) (b : Bool) (e : TEvent) :
    (t.emit b e).items = t.items ∧ (t.emit b e).paths = t.paths ∧
    (t.emit b e).rootPath = t.rootPath ∧ (t.emit b e).asked = t.asked ∧ (t.emit b e).fs = t.fs ∧
    (t.emit b e).tick = t.tick := by
  unfold emit; split <;> simp

end Tree

/-- Well-formedness depends only on the maps and the storage path. -/
theorem WF_congr {t t' : Tree} (h : TreeWF t) (hi : t'.items = t.items) (hp : t'.paths = t.paths)
    (hr : t'.rootPath = t.rootPath) : TreeWF t' := by
  have hg : ∀ x, t'.get x = t.get x := fun x => by unfold Tree.get; rw [hi]
  refine ⟨?_, ?_, ?_, ?_, ?_, ?_⟩
  · simpa only [hg, hr] using h.root
  · simpa only [hg, hp] using h.pathOf
  · simpa only [hg, hp] using h.ofPath
  · simpa only [hg] using h.parent
  · simpa only [hg] using h.kids
  · rw [hi]; exact h.nodup

theorem WF_emit {t : Tree} (h : TreeWF t) (b : Bool) (e : TEvent) : TreeWF (t.emit b e) :=
  WF_congr h (t.emit_eq b e).1 (t.emit_eq b e).2.1 (t.emit_eq b e).2.2.1

end Mtp
namespace Spec.TreeWF
open Mtp
variable {t : Tree} (w : TreeWF t)
include w

theorem inj {h h' : Nat} {i i' : Item} (e : t.get h = some i) (e' : t.get h' = some i')
    (hp : i.path = i'.path) : h = h' := by
  have h1 := w.pathOf h i e
  have h2 := w.pathOf h' i' e'
  rw [hp, h2] at h1
  exact (Option.some.inj h1).symm

theorem kid_ne_zero {h c : Nat} {it : Item} (e : t.get h = some it) (hc : c ∈ it.kids) : c ≠ 0 := by
  rintro rfl
  obtain ⟨ci, e1, e2⟩ := w.kids h it 0 e hc
  obtain ⟨r, e3, _, e4⟩ := w.root
  rw [e3] at e1; cases e1
  rw [e4] at e2; cases e2

theorem kid {h c : Nat} {it : Item} (e : t.get h = some it) (hc : c ∈ it.kids) :
    ∃ ci, t.get c = some ci ∧ ci.parent = some h ∧ ci.par = h ∧ ci.path = join it.path ci.name ∧
      '/' ∉ ci.name ∧ it.kids.count c = 1 := by
  obtain ⟨ci, e1, e2⟩ := w.kids h it c e hc
  obtain ⟨p, pit, h1, h2, h3, h4, h5, h6⟩ := w.parent c ci e1 (w.kid_ne_zero e hc)
  rw [e2] at h1; cases h1
  rw [e] at h3; cases h3
  exact ⟨ci, e1, e2, h2, h5, h6, h4⟩

theorem kids_nodup {h : Nat} {it : Item} (e : t.get h = some it) : it.kids.Nodup := by
  rw [List.nodup_iff_count]
  intro a
  by_cases ha : a ∈ it.kids
  · obtain ⟨_, _, _, _, _, _, h6⟩ := w.kid e ha
    exact Nat.le_of_eq h6
  · rw [List.count_eq_zero_of_not_mem ha]; omega

theorem under_root {h : Nat} {it : Item} (e : t.get h = some it) : Under t.rootPath it.path := by
  have key : ∀ n h it, t.get h = some it → it.path.length ≤ n → Under t.rootPath it.path := by
    intro n
    induction n with
    | zero =>
      intro h it e hl
      by_cases h0 : h = 0
      · subst h0
        obtain ⟨r, e1, e2, _⟩ := w.root
        rw [e1] at e; cases e; rw [e2]; exact Under.refl _
      · obtain ⟨p, pit, _, _, _, _, e5, _⟩ := w.parent h it e h0
        rw [e5, join_length] at hl; omega
    | succ n ih =>
      intro h it e hl
      by_cases h0 : h = 0
      · subst h0
        obtain ⟨r, e1, e2, _⟩ := w.root
        rw [e1] at e; cases e; rw [e2]; exact Under.refl _
      · obtain ⟨p, pit, _, _, e3, _, e5, _⟩ := w.parent h it e h0
        rw [e5, join_length] at hl
        rw [e5]
        exact (ih p pit e3 (by omega)).trans (Under.join _ _)
  exact key _ h it e (Nat.le_refl _)

/-- Descendants are exactly the objects whose path lies below. -/
theorem below_iff {a x : Nat} {ia ix : Item} (ha : t.get a = some ia) (hx : t.get x = some ix) :
    Below t a x ↔ Under ia.path ix.path := by
  constructor
  · intro hb
    induction hb generalizing ix with
    | self => rw [ha] at hx; cases hx; exact Under.refl _
    | @child x p it e1 e2 _ ih =>
      rw [hx] at e1; cases e1
      by_cases h0 : x = 0
      · subst h0
        obtain ⟨r, e3, _, e4⟩ := w.root
        rw [e3] at hx; cases hx; rw [e4] at e2; cases e2
      · obtain ⟨q, pit, h1, _, h3, _, h5, _⟩ := w.parent x _ hx h0
        rw [e2] at h1; cases h1
        rw [h5]
        exact (ih h3).trans (Under.join _ _)
  · intro hu
    have key : ∀ n x ix, t.get x = some ix → ix.path.length ≤ n → Under ia.path ix.path →
        Below t a x := by
      intro n
      induction n with
      | zero =>
        intro x ix hx hl hu
        by_cases hxa : x = a
        · subst hxa; exact .self
        · by_cases h0 : x = 0
          · subst h0
            obtain ⟨r, e3, e5, _⟩ := w.root
            rw [e3] at hx; cases hx
            have h1 := w.under_root ha
            rw [e5] at hu
            exact absurd (w.inj e3 ha (by rw [e5]; exact h1.antisymm hu)) hxa
          · obtain ⟨p, pit, _, _, _, _, e5, _⟩ := w.parent x ix hx h0
            rw [e5, join_length] at hl; omega
      | succ n ih =>
        intro x ix hx hl hu
        by_cases hxa : x = a
        · subst hxa; exact .self
        · by_cases h0 : x = 0
          · subst h0
            obtain ⟨r, e3, e5, _⟩ := w.root
            rw [e3] at hx; cases hx
            have h1 := w.under_root ha
            rw [e5] at hu
            exact absurd (w.inj e3 ha (by rw [e5]; exact h1.antisymm hu)) hxa
          · obtain ⟨p, pit, e1, _, e3, _, e5, e6⟩ := w.parent x ix hx h0
            rw [e5, join_length] at hl
            refine .child hx e1 (ih p pit e3 (by omega) ?_)
            rw [e5] at hu
            exact hu.of_join e6 (fun e => hxa (w.inj hx ha (e5.trans e)))
    exact key _ x ix hx (Nat.le_refl _) hu

end Spec.TreeWF
namespace Mtp
open Spec

/-! ### Removing a leaf -/

namespace Tree

theorem get_unlink (t : Tree) (c : Nat) (p : Option Nat) (x : Nat) :
    (t.unlink c p).get x = if some x = p then
      (t.get x).map (fun it => { it with kids := it.kids.filter (· ≠ c) }) else t.get x := by
  unfold unlink
  cases p with
  | none => simp
  | some p => simp only [get_upd, Option.some.injEq]

theorem unlink_eq (t : Tree) (c : Nat) (p : Option Nat) :
    (t.unlink c p).paths = t.paths ∧ (t.unlink c p).rootPath = t.rootPath ∧
    (t.unlink c p).asked = t.asked ∧ (t.unlink c p).fs = t.fs ∧ (t.unlink c p).tick = t.tick := by
  unfold unlink; cases p <;> simp

theorem unlink_nodup {t : Tree} (hn : (t.items.map (·.1)).Nodup) (c : Nat) (p : Option Nat) :
    ((t.unlink c p).items.map (·.1)).Nodup := by
  unfold unlink; cases p
  · exact hn
  · exact upd_nodup hn _ _

/-- The effect of `remove` on the maps. -/
theorem remove_get {t : Tree} {h : Nat} {it : Item} (e : t.get h = some it) (ev : Bool) (x : Nat) :
    (t.remove h ev).get x = if x = h then none else if some x = it.parent then
      (t.get x).map (fun it => { it with kids := it.kids.filter (· ≠ h) }) else t.get x := by
  unfold remove
  simp only [e]
  have h1 : ∀ (t : Tree) b ev x, (t.emit b ev).get x = t.get x := by
    intro t b ev x; unfold Tree.get; rw [(t.emit_eq b ev).1]
  rw [h1, get_unlink]
  have h2 : ∀ x, ({ t with items := AMap.erase t.items h, paths := AMap.erase t.paths it.path } :
      Tree).get x = if x = h then none else t.get x := fun x => AMap.get_erase t.items h x
  rw [h2]
  by_cases hx : x = h
  · simp [hx]
  · simp [hx]

theorem remove_paths {t : Tree} {h : Nat} {it : Item} (e : t.get h = some it) (ev : Bool) (p : Path) :
    AMap.get (t.remove h ev).paths p = if p = it.path then none else AMap.get t.paths p := by
  unfold remove
  simp only [e]
  rw [(emit_eq _ _ _).2.1, (unlink_eq _ _ _).1]
  exact AMap.get_erase _ _ _

theorem remove_eq (t : Tree) (h : Nat) (ev : Bool) :
    (t.remove h ev).rootPath = t.rootPath ∧ (t.remove h ev).asked = t.asked ∧
    (t.remove h ev).fs = t.fs ∧ (t.remove h ev).tick = t.tick := by
  unfold remove
  simp only [(emit_eq _ _ _).2.2.1, (emit_eq _ _ _).2.2.2.1, (emit_eq _ _ _).2.2.2.2.1,
    (emit_eq _ _ _).2.2.2.2.2]
  split
  · exact ⟨rfl, rfl, rfl, rfl⟩
  · exact ⟨(unlink_eq _ _ _).2.1, (unlink_eq _ _ _).2.2.1, (unlink_eq _ _ _).2.2.2.1,
      (unlink_eq _ _ _).2.2.2.2⟩

theorem remove_nodup {t : Tree} (hn : (t.items.map (·.1)).Nodup) (h : Nat) (ev : Bool) :
    ((t.remove h ev).items.map (·.1)).Nodup := by
  unfold remove
  rw [(emit_eq _ _ _).1]
  split
  · exact hn
  · exact unlink_nodup (AMap.nodup_erase hn _) _ _

end Tree

theorem WF_remove {t : Tree} (w : TreeWF t) {h : Nat} {it : Item} (e : t.get h = some it)
    (h0 : h ≠ 0) (hk : it.kids = []) (ev : Bool) : TreeWF (t.remove h ev) := by
  obtain ⟨p, pit, hp1, hp2, hp3, hp4, hp5, hp6⟩ := w.parent h it e h0
  have hph : p ≠ h := by
    rintro rfl
    rw [e] at hp3; cases hp3
    rw [hk] at hp4; simp at hp4
  have hg := fun x => Tree.remove_get e ev x
  rw [hp1] at hg
  simp only [Option.some.injEq] at hg
  have hgp : (t.remove h ev).get p = some { pit with kids := pit.kids.filter (· ≠ h) } := by
    rw [hg, if_neg hph, if_pos rfl, hp3]; rfl
  -- every object left comes from an object with the same fields except children
  have hback : ∀ x ix', (t.remove h ev).get x = some ix' → x ≠ h ∧ ∃ ix, t.get x = some ix ∧
      ix' = { ix with kids := if x = p then ix.kids.filter (· ≠ h) else ix.kids } := by
    intro x ix' ex
    rw [hg] at ex
    by_cases hx : x = h
    · simp [hx] at ex
    · refine ⟨hx, ?_⟩
      rw [if_neg hx] at ex
      by_cases hxp : x = p
      · subst hxp
        simp only [if_pos, hp3, Option.map_some, Option.some.injEq] at ex
        exact ⟨pit, hp3, by simp [ex.symm]⟩
      · rw [if_neg hxp] at ex
        exact ⟨ix', ex, by simp [hxp]⟩
  have hfwd : ∀ x ix, t.get x = some ix → x ≠ h → (t.remove h ev).get x =
      some { ix with kids := if x = p then ix.kids.filter (· ≠ h) else ix.kids } := by
    intro x ix ex hx
    rw [hg, if_neg hx]
    by_cases hxp : x = p
    · subst hxp; simp [ex]
    · simp [hxp, ex]
  refine ⟨?_, ?_, ?_, ?_, ?_, Tree.remove_nodup w.nodup h ev⟩
  · obtain ⟨r, r1, r2, r3⟩ := w.root
    refine ⟨_, hfwd 0 r r1 (Ne.symm h0), ?_, r3⟩
    rw [(t.remove_eq h ev).1]; exact r2
  · intro x ix' ex
    obtain ⟨hx, ix, e1, rfl⟩ := hback x ix' ex
    rw [Tree.remove_paths e]
    rw [if_neg (fun he => hx (w.inj e1 e he))]
    exact w.pathOf x ix e1
  · intro q x ex
    rw [Tree.remove_paths e] at ex
    by_cases hq : q = it.path
    · simp [hq] at ex
    · rw [if_neg hq] at ex
      obtain ⟨ix, e1, rfl⟩ := w.ofPath q x ex
      have hx : x ≠ h := by
        rintro rfl; rw [e] at e1; cases e1; exact hq rfl
      exact ⟨_, hfwd x ix e1 hx, rfl⟩
  · intro x ix' ex hx0
    obtain ⟨hx, ix, e1, rfl⟩ := hback x ix' ex
    obtain ⟨q, qit, q1, q2, q3, q4, q5, q6⟩ := w.parent x ix e1 hx0
    have hqh : q ≠ h := by
      rintro rfl
      rw [e] at q3; cases q3; rw [hk] at q4; simp at q4
    refine ⟨q, _, q1, q2, hfwd q qit q3 hqh, ?_, q5, q6⟩
    dsimp only
    split
    · rw [List.count_filter (by simpa using hx)]; exact q4
    · exact q4
  · intro x ix' c ex hc
    obtain ⟨hx, ix, e1, rfl⟩ := hback x ix' ex
    have hc' : c ∈ ix.kids ∧ c ≠ h := by
      dsimp only at hc
      split at hc
      · simpa using hc
      · next hxp =>
        refine ⟨hc, ?_⟩
        rintro rfl
        obtain ⟨ci, c1, c2⟩ := w.kids x ix c e1 hc
        rw [e] at c1; cases c1
        rw [hp1] at c2; cases c2
        exact hxp rfl
    obtain ⟨ci, c1, c2⟩ := w.kids x ix c e1 hc'.1
    exact ⟨_, hfwd c ci c1 hc'.2, c2⟩

end Mtp
