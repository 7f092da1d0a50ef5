import Verif.Lemmas.Tree
/-! Deletion of objects: `Tree.del`. -/
namespace Mtp
open Spec

/-- `t'` results from `t` by removing objects: those left keep everything but removed children. -/
structure Shrunk (t t' : Tree) : Prop where
  item : ∀ x, t'.get x = none ∨ ∃ ix, t.get x = some ix ∧
    t'.get x = some { ix with kids := ix.kids.filter (fun c => t'.has c) }
  rootPath : t'.rootPath = t.rootPath
  asked : t'.asked = t.asked
  fs : t'.fs = t.fs
  tick : t.tick ≤ t'.tick

theorem has_iff {t : Tree} {x : Nat} : t.has x = true ↔ ∃ i, t.get x = some i := by
  unfold Tree.has; exact Option.isSome_iff_exists

theorem has_false {t : Tree} {x : Nat} : t.has x = false ↔ t.get x = none := by
  unfold Tree.has; cases t.get x <;> simp

theorem _root_.Spec.TreeWF.kid_has {t : Tree} (w : TreeWF t) {h : Nat} {it : Item} (e : t.get h = some it) :
    it.kids.filter (fun c => t.has c) = it.kids := by
  rw [List.filter_eq_self]
  intro c hc
  obtain ⟨ci, h1, _⟩ := w.kids h it c e hc
  exact has_iff.mpr ⟨ci, h1⟩

theorem Shrunk.refl {t : Tree} (w : TreeWF t) : Shrunk t t := by
  refine ⟨fun x => ?_, rfl, rfl, rfl, Nat.le_refl _⟩
  cases e : t.get x with
  | none => exact Or.inl rfl
  | some i => exact Or.inr ⟨i, rfl, by rw [w.kid_has e]⟩

theorem Shrunk.has {t t' : Tree} (s : Shrunk t t') {x : Nat} (h : t'.has x = true) :
    t.has x = true := by
  obtain ⟨i, hi⟩ := has_iff.mp h
  rcases s.item x with e | ⟨ix, e1, _⟩
  · rw [e] at hi; cases hi
  · exact has_iff.mpr ⟨ix, e1⟩

theorem Shrunk.trans {t t' t'' : Tree} (s : Shrunk t t') (s' : Shrunk t' t'') : Shrunk t t'' := by
  refine ⟨fun x => ?_, s'.rootPath.trans s.rootPath, s'.asked.trans s.asked, s'.fs.trans s.fs,
    Nat.le_trans s.tick s'.tick⟩
  rcases s'.item x with e | ⟨ix', e1, e2⟩
  · exact Or.inl e
  · rcases s.item x with e | ⟨ix, e3, e4⟩
    · rw [e] at e1; cases e1
    · refine Or.inr ⟨ix, e3, ?_⟩
      rw [e4] at e1; cases e1
      rw [e2]
      simp only [List.filter_filter]
      congr 3
      funext c
      cases hc : t''.has c with
      | false => simp
      | true => simp [s'.has hc]

theorem Shrunk.tickOnly {t : Tree} (w : TreeWF t) (k : Nat) : Shrunk t { t with tick := t.tick + k } := by
  have := Shrunk.refl w
  exact ⟨this.item, rfl, rfl, rfl, by simp⟩

theorem Shrunk.remove {t : Tree} (w : TreeWF t) {h : Nat} {it : Item} (e : t.get h = some it)
    (ev : Bool) : Shrunk t (t.remove h ev) := by
  refine ⟨fun x => ?_, (t.remove_eq h ev).1, (t.remove_eq h ev).2.1, (t.remove_eq h ev).2.2.1,
    Nat.le_of_eq (t.remove_eq h ev).2.2.2.symm⟩
  have hg := fun x => Tree.remove_get e ev x
  have hh : ∀ c, t.has c = true → ((t.remove h ev).has c = true ↔ c ≠ h) := by
    intro c hc
    obtain ⟨ci, hci⟩ := has_iff.mp hc
    rw [has_iff]
    constructor
    · rintro ⟨i, hi⟩ rfl
      rw [hg, if_pos rfl] at hi; cases hi
    · intro hne
      rw [hg, if_neg hne, hci]
      split
      · exact ⟨_, rfl⟩
      · exact ⟨_, rfl⟩
  by_cases hx : x = h
  · left; rw [hg, if_pos hx]
  · cases ex : t.get x with
    | none => left; rw [hg, if_neg hx, ex]; simp
    | some ix =>
      refine Or.inr ⟨ix, rfl, ?_⟩
      have hf : ix.kids.filter (fun c => (t.remove h ev).has c) = ix.kids.filter (· ≠ h) := by
        apply List.filter_congr
        intro c hc
        obtain ⟨ci, hci, _⟩ := w.kids x ix c ex hc
        have := hh c (has_iff.mpr ⟨ci, hci⟩)
        rw [Bool.eq_iff_iff, this]; simp
      rw [hf, hg, if_neg hx, ex]
      split
      · rfl
      · next hxp =>
        have : ix.kids.filter (· ≠ h) = ix.kids := by
          rw [List.filter_eq_self]
          intro c hc
          simp only [ne_eq, decide_eq_true_eq]
          rintro rfl
          obtain ⟨ci, hci, hcp⟩ := w.kids x ix c ex hc
          rw [e] at hci; cases hci
          exact hxp hcp.symm
        rw [this]

theorem ask_eq (t : Tree) : (t.ask).2 = { t with tick := t.tick + 1 } ∧ t.ask.1 = t.fs t.tick :=
  ⟨rfl, rfl⟩

theorem WF_tick {t : Tree} (w : TreeWF t) (k : Nat) : TreeWF { t with tick := k } :=
  WF_congr w rfl rfl rfl

/-- The statement about `del` and `delKids` at recursion bound `n`. -/
private def DelSpec (n : Nat) : Prop :=
  (∀ (t : Tree) h phys ev, TreeWF t →
    TreeWF (t.del n h phys ev).1 ∧ Shrunk t (t.del n h phys ev).1 ∧
    (∀ x ix, t.get x = some ix → (∀ it, t.get h = some it → ¬ Under it.path ix.path) →
      (t.del n h phys ev).1.has x = true) ∧
    ((t.del n h phys ev).2 = .ok → ∃ it, t.get h = some it ∧ h ≠ 0 ∧
      ((t.del n h phys ev).1.get h = none ∨
        (it.kids ≠ [] ∧ (t.del n h phys ev).1.get h = some { it with kids := [] }))) ∧
    ((t.del n h phys ev).2 ≠ .ok → t.has h = true → (t.del n h phys ev).1.has h = true)) ∧
  (∀ (t : Tree) h phys ev, TreeWF t → t.has h = true →
    TreeWF (t.delKids n h phys ev).1 ∧ Shrunk t (t.delKids n h phys ev).1 ∧
    (∀ x ix, t.get x = some ix → (∀ it, t.get h = some it → ix.path = it.path ∨
      ¬ Under it.path ix.path) → (t.delKids n h phys ev).1.has x = true) ∧
    ((t.delKids n h phys ev).2 = true → ∀ it, t.get h = some it →
      (t.delKids n h phys ev).1.get h = some { it with kids := [] }))


theorem del_unfold (n : Nat) (t : Tree) (h : Nat) (phys ev : Bool) :
    t.del (n+1) h phys ev = match t.get h with
    | none => (t, .invalidObjectHandle)
    | some it =>
      if h = 0 then (t, .objectWriteProtected)
      else if it.kids = [] then
        if phys = true ∧ t.fs t.tick = false then ({ t with tick := t.tick + 1 }, .generalError)
        else ((if phys then { t with tick := t.tick + 1 } else t : Tree).remove h ev, .ok)
      else if (t.delKids n h phys ev).2 = true then
        (((t.delKids n h phys ev).1.del n h true false).1, .ok)
      else ((t.delKids n h phys ev).1, .partialDeletion) := by
  rw [Tree.del]
  cases t.get h with
  | none => rfl
  | some it =>
    dsimp only
    split
    · rfl
    · split
      · cases phys
        · simp
        · simp only [Tree.ask, if_true, true_and]
          cases hf : t.fs t.tick <;> simp
      · cases hk : t.delKids n h phys ev with
        | mk t1 b => cases b <;> simp

theorem delKids_unfold (n : Nat) (t : Tree) (h : Nat) (phys ev : Bool) :
    t.delKids (n+1) h phys ev = match t.get h with
    | none => (t, true)
    | some it => match it.kids with
      | [] => (t, true)
      | c :: _ => if (t.del n c phys ev).2 = .ok then (t.del n c phys ev).1.delKids n h phys ev
        else ((t.del n c phys ev).1, false) := by
  rw [Tree.delKids]
  cases t.get h with
  | none => rfl
  | some it =>
    dsimp only
    cases it.kids with
    | nil => rfl
    | cons c r =>
      dsimp only
      cases hd : t.del n c phys ev with
      | mk t1 b => cases b <;> simp

private theorem delSpec (n : Nat) : DelSpec n := by
  induction n with
  | zero =>
    constructor
    · intro t h phys ev w
      refine ⟨?_, ?_, ?_, ?_, ?_⟩ <;> simp only [Tree.del]
      · exact w
      · exact Shrunk.refl w
      · intro x ix e _; exact has_iff.mpr ⟨ix, e⟩
      · intro h; cases h
      · intro _ h; exact h
    · intro t h phys ev w hh
      refine ⟨?_, ?_, ?_, ?_⟩ <;> simp only [Tree.delKids]
      · exact w
      · exact Shrunk.refl w
      · intro x ix e _; exact has_iff.mpr ⟨ix, e⟩
      · intro h; cases h
  | succ n ih =>
    obtain ⟨ihd, ihk⟩ := ih
    constructor
    · intro t h phys ev w
      rw [del_unfold]
      cases e : t.get h with
      | none =>
        refine ⟨w, Shrunk.refl w, fun x ix e _ => has_iff.mpr ⟨ix, e⟩, ?_, ?_⟩
        · intro h; cases h
        · intro _ h; exact h
      | some it =>
        dsimp only
        by_cases h0 : h = 0
        · simp only [if_pos h0]
          refine ⟨w, Shrunk.refl w, fun x ix e _ => has_iff.mpr ⟨ix, e⟩, ?_, ?_⟩
          · intro h; cases h
          · intro _ h; exact h
        · simp only [if_neg h0]
          by_cases hk : it.kids = []
          · simp only [if_pos hk]
            by_cases hc : phys = true ∧ t.fs t.tick = false
            · simp only [if_pos hc]
              refine ⟨WF_tick w _, Shrunk.tickOnly w 1, fun x ix e _ => has_iff.mpr ⟨ix, e⟩, ?_, ?_⟩
              · intro h; cases h
              · intro _ h; exact h
            · simp only [if_neg hc]
              generalize ht1 : (if phys = true then { t with tick := t.tick + 1 } else t : Tree) = t1
              have w1 : TreeWF t1 := by rw [← ht1]; split; exact WF_tick w _; exact w
              have s1 : Shrunk t t1 := by
                rw [← ht1]; split; exact Shrunk.tickOnly w 1; exact Shrunk.refl w
              have g1 : ∀ x, t1.get x = t.get x := by
                intro x; rw [← ht1]; split <;> rfl
              have e1 : t1.get h = some it := (g1 h).trans e
              refine ⟨WF_remove w1 e1 h0 hk ev, s1.trans (Shrunk.remove w1 e1 ev), ?_, ?_, ?_⟩
              · intro x ix ex hu
                rw [has_iff, Tree.remove_get e1]
                have : x ≠ h := by
                  rintro rfl; rw [e] at ex; cases ex
                  exact hu it rfl (Under.refl _)
                rw [if_neg this, g1, ex]
                split
                · exact ⟨_, rfl⟩
                · exact ⟨_, rfl⟩
              · intro _
                exact ⟨it, rfl, h0, Or.inl (by rw [Tree.remove_get e1, if_pos rfl])⟩
              · intro hne; exact absurd rfl hne
          · simp only [if_neg hk]
            obtain ⟨k1, k2, k3, k4⟩ := ihk t h phys ev w (has_iff.mpr ⟨it, e⟩)
            have kh : (t.delKids n h phys ev).1.has h = true :=
              k3 h it e (fun i hi => by rw [e] at hi; cases hi; exact Or.inl rfl)
            by_cases hb : (t.delKids n h phys ev).2 = true
            · simp only [if_pos hb]
              have k5 := k4 hb it e
              obtain ⟨d1, d2, d3, d4, d5⟩ := ihd _ h true false k1
              refine ⟨d1, k2.trans d2, ?_, ?_, ?_⟩
              · intro x ix ex hu
                have hx := k3 x ix ex (fun i hi => Or.inr (hu i (by rw [e] at hi; exact hi)))
                obtain ⟨ix1, hx1⟩ := has_iff.mp hx
                refine d3 x ix1 hx1 ?_
                intro i hi
                rw [k5] at hi; cases hi
                have : ix1.path = ix.path := by
                  rcases k2.item x with g | ⟨iy, g1, g2⟩
                  · rw [g] at hx1; cases hx1
                  · rw [ex] at g1; cases g1
                    rw [hx1] at g2; cases g2; rfl
                rw [this]; exact hu it rfl
              · intro _
                refine ⟨it, rfl, h0, ?_⟩
                rcases d2.item h with g | ⟨iy, g1, g2⟩
                · exact Or.inl g
                · refine Or.inr ⟨hk, ?_⟩
                  rw [k5] at g1; cases g1
                  rw [g2]; rfl
              · intro hne; exact absurd rfl hne
            · simp only [if_neg hb]
              refine ⟨k1, k2, ?_, ?_, ?_⟩
              · intro x ix ex hu
                exact k3 x ix ex (fun i hi => Or.inr (hu i (by rw [e] at hi; exact hi)))
              · intro h; cases h
              · intro _ _; exact kh
    · intro t h phys ev w hh
      rw [delKids_unfold]
      obtain ⟨it, e⟩ := has_iff.mp hh
      rw [e]
      dsimp only
      cases hk : it.kids with
      | nil =>
        refine ⟨w, Shrunk.refl w, fun x ix e _ => has_iff.mpr ⟨ix, e⟩, ?_⟩
        intro _ i hi
        cases hi
        dsimp only
        rw [e, ← hk]
      | cons c r =>
        dsimp only
        have hc : c ∈ it.kids := by rw [hk]; simp
        obtain ⟨ci, c1, c2, c3, c4, c5, _⟩ := w.kid e hc
        obtain ⟨d1, d2, d3, d4, d5⟩ := ihd t c phys ev w
        -- objects not strictly below `h` are not below `c`
        have hout : ∀ ix : Item, (ix.path = it.path ∨ ¬ Under it.path ix.path) →
            ¬ Under ci.path ix.path := by
          rintro ix (g | g) hu
          · rw [g, c4] at hu
            have := hu.length; rw [join_length] at this; omega
          · exact g ((c4 ▸ Under.join it.path ci.name).trans hu)
        have dh : (t.del n c phys ev).1.has h = true :=
          d3 h it e (fun i hi => by rw [c1] at hi; cases hi; exact hout it (Or.inl rfl))
        have dk : ∀ x ix, t.get x = some ix → (∀ i, some it = some i → ix.path = i.path ∨
            ¬ Under i.path ix.path) → (t.del n c phys ev).1.has x = true := by
          intro x ix ex hu
          exact d3 x ix ex (fun i hi => by rw [c1] at hi; cases hi; exact hout ix (hu it rfl))
        by_cases hr : (t.del n c phys ev).2 = .ok
        · simp only [if_pos hr]
          obtain ⟨k1, k2, k3, k4⟩ := ihk _ h phys ev d1 dh
          obtain ⟨it1, e1⟩ := has_iff.mp dh
          have hit1 : it1 = { it with kids := it1.kids } := by
            rcases d2.item h with g | ⟨iy, g1, g2⟩
            · rw [g] at e1; cases e1
            · rw [e] at g1; cases g1; rw [g2] at e1; cases e1; rfl
          refine ⟨k1, d2.trans k2, ?_, ?_⟩
          · intro x ix ex hu
            have hx := dk x ix ex hu
            obtain ⟨ix1, hx1⟩ := has_iff.mp hx
            have hp : ix1.path = ix.path := by
              rcases d2.item x with g | ⟨iy, g1, g2⟩
              · rw [g] at hx1; cases hx1
              · rw [ex] at g1; cases g1
                rw [hx1] at g2; cases g2; rfl
            refine k3 x ix1 hx1 ?_
            intro i hi
            rw [e1] at hi; cases hi
            rw [hp, hit1]; exact hu it rfl
          · intro hb i hi
            cases hi
            rw [k4 hb it1 e1, hit1]
        · simp only [if_neg hr]
          exact ⟨d1, d2, dk, fun h => by cases h⟩


/-! ### The recursion bound suffices -/

/-- 0 for no object, 1 for one without, 2 for one with children. -/
def weight (t : Tree) (x : Nat) : Nat :=
  match t.get x with
  | none => 0
  | some it => if it.kids = [] then 1 else 2

def mass (t : Tree) : Nat := ((t.items.map (·.1)).map (weight t)).sum

theorem sum_le_of_subset (f : Nat → Nat) : ∀ (l l' : List Nat), l.Nodup → (∀ x ∈ l, x ∈ l') →
    (l.map f).sum ≤ (l'.map f).sum := by
  intro l
  induction l with
  | nil => intro l' _ _; simp
  | cons a l ih =>
    intro l' hn hs
    have ha : a ∈ l' := hs a (by simp)
    have hp := (List.perm_cons_erase ha).map f
    rw [hp.sum_nat]
    simp only [List.map_cons, List.sum_cons]
    have := ih (l'.erase a) (List.nodup_cons.mp hn).2 (by
      intro x hx
      have hxa : x ≠ a := by rintro rfl; exact (List.nodup_cons.mp hn).1 hx
      exact (List.mem_erase_of_ne hxa).mpr (hs x (by simp [hx])))
    omega

theorem sum_lt {f g : Nat → Nat} {l : List Nat} (hle : ∀ x ∈ l, f x ≤ g x) {a : Nat} (ha : a ∈ l)
    (hlt : f a < g a) : (l.map f).sum < (l.map g).sum := by
  induction l with
  | nil => simp at ha
  | cons b l ih =>
    simp only [List.map_cons, List.sum_cons]
    have hb := hle b (by simp)
    rcases List.mem_cons.mp ha with e | e
    · subst e
      have : (l.map f).sum ≤ (l.map g).sum := by
        have : ∀ l : List Nat, (∀ x ∈ l, f x ≤ g x) → (l.map f).sum ≤ (l.map g).sum := by
          intro l
          induction l with
          | nil => simp
          | cons c l ih' =>
            intro h
            simp only [List.map_cons, List.sum_cons]
            have h1 := h c (by simp)
            have h2 := ih' (fun x hx => h x (by simp [hx]))
            omega
        exact this l (fun x hx => hle x (by simp [hx]))
      omega
    · have := ih (fun x hx => hle x (by simp [hx])) e
      omega

theorem mem_keys {t : Tree} {x : Nat} : x ∈ t.items.map (·.1) ↔ t.has x = true := by
  unfold Tree.has Tree.get
  rw [AMap.get_isSome_iff]
  simp

theorem mass_lt {t t' : Tree} (w' : TreeWF t') (s : Shrunk t t') {a : Nat} {it : Item}
    (e : t.get a = some it)
    (hd : t'.get a = none ∨ (it.kids ≠ [] ∧ t'.get a = some { it with kids := [] })) :
    mass t' < mass t := by
  unfold mass
  refine Nat.lt_of_le_of_lt (sum_le_of_subset (weight t') _ (t.items.map (·.1)) w'.nodup ?_) ?_
  · intro x hx; exact mem_keys.mpr (s.has (mem_keys.mp hx))
  · refine sum_lt ?_ (mem_keys.mpr (has_iff.mpr ⟨it, e⟩)) (a := a) ?_
    · intro x _
      unfold weight
      rcases s.item x with g | ⟨ix, g1, g2⟩
      · rw [g]; simp
      · rw [g1, g2]
        dsimp only
        by_cases hk : ix.kids = []
        · simp [hk]
        · rw [if_neg hk]; split <;> omega
    · unfold weight
      rcases hd with g | ⟨g1, g2⟩
      · rw [g, e]; dsimp only; split <;> omega
      · rw [g2, e]; dsimp only; rw [if_pos rfl, if_neg g1]; omega

theorem mass_le (t : Tree) : mass t ≤ 2 * t.items.length := by
  unfold mass
  have : ∀ l : List Nat, (l.map (weight t)).sum ≤ 2 * l.length := by
    intro l
    induction l with
    | nil => simp
    | cons a l ih =>
      simp only [List.map_cons, List.sum_cons, List.length_cons]
      have : weight t a ≤ 2 := by unfold weight; split; omega; split <;> omega
      omega
  simpa using this (t.items.map (·.1))

theorem len_le_maxLen {m : AMap Nat Item} {x : Nat} {ix : Item} (h : AMap.get m x = some ix) :
    ix.path.length ≤ Tree.maxLen m := by
  have : ∀ (m : AMap Nat Item), (x, ix) ∈ m → ix.path.length ≤ Tree.maxLen m := by
    intro m
    induction m with
    | nil => simp
    | cons e m ih =>
      intro h
      show _ ≤ max e.2.path.length (Tree.maxLen m)
      rcases List.mem_cons.mp h with g | g
      · rw [← g]; exact Nat.le_max_left _ _
      · exact Nat.le_trans (ih g) (Nat.le_max_right _ _)
  exact this m (AMap.mem_of_get h)

private theorem Shrunk.bound {t t' : Tree} (s : Shrunk t t') {L : Nat}
    (h : ∀ x ix, t.get x = some ix → ix.path.length ≤ L) :
    ∀ x ix, t'.get x = some ix → ix.path.length ≤ L := by
  intro x ix e
  rcases s.item x with g | ⟨iy, g1, g2⟩
  · rw [g] at e; cases e
  · rw [g2] at e; cases e; exact h x iy g1

/-- The statement about the recursion bound. -/
private def FuelSpec (n : Nat) : Prop :=
  (∀ (t : Tree) h it phys ev L, TreeWF t → (∀ x ix, t.get x = some ix → ix.path.length ≤ L) →
    t.get h = some it → h ≠ 0 → 2 * (L - it.path.length) + 2 * mass t + 1 ≤ n →
    (∀ i, t.tick ≤ i → i < (t.del n h phys ev).1.tick → t.fs i = true) →
    (t.del n h phys ev).2 = .ok ∧ (t.del n h phys ev).1.get h = none) ∧
  (∀ (t : Tree) h it phys ev L, TreeWF t → (∀ x ix, t.get x = some ix → ix.path.length ≤ L) →
    t.get h = some it → 2 * (L - it.path.length) + 2 * mass t ≤ n → 0 < n →
    (∀ i, t.tick ≤ i → i < (t.delKids n h phys ev).1.tick → t.fs i = true) →
    (t.delKids n h phys ev).2 = true)

private theorem fuelSpec (n : Nat) : FuelSpec n := by
  induction n with
  | zero =>
    constructor
    · intro t h it phys ev L w hL e h0 hn; omega
    · intro t h it phys ev L w hL e hn h0; omega
  | succ n ih =>
    obtain ⟨ihd, ihk⟩ := ih
    obtain ⟨sd, sk⟩ := delSpec n
    have hpos : ∀ (t : Tree) h it, t.get h = some it → 0 < mass t := by
      intro t h it e
      have h1 : h ∈ t.items.map (·.1) := mem_keys.mpr (has_iff.mpr ⟨it, e⟩)
      unfold mass
      have : ∀ l : List Nat, h ∈ l → 0 < (l.map (weight t)).sum := by
        intro l
        induction l with
        | nil => simp
        | cons a l ih =>
          intro hm
          simp only [List.map_cons, List.sum_cons]
          rcases List.mem_cons.mp hm with g | g
          · subst g
            have : 0 < weight t h := by unfold weight; rw [e]; dsimp only; split <;> omega
            omega
          · have := ih g; omega
      exact this _ h1
    constructor
    · intro t h it phys ev L w hL e h0 hn
      have hm := hpos t h it e
      rw [del_unfold, e]
      dsimp only
      simp only [if_neg h0]
      by_cases hk : it.kids = []
      · simp only [if_pos hk]
        by_cases hc : phys = true ∧ t.fs t.tick = false
        · simp only [if_pos hc]
          intro hr
          have := hr t.tick (Nat.le_refl _) (Nat.lt_succ_self _)
          rw [hc.2] at this; cases this
        · simp only [if_neg hc]
          intro _
          refine ⟨trivial, ?_⟩
          generalize ht1 : (if phys = true then { t with tick := t.tick + 1 } else t : Tree) = t1
          have g1 : t1.get h = some it := by rw [← ht1]; split <;> exact e
          rw [Tree.remove_get g1, if_pos rfl]
      · simp only [if_neg hk]
        obtain ⟨k1, k2, k3, k4⟩ := sk t h phys ev w (has_iff.mpr ⟨it, e⟩)
        by_cases hb : (t.delKids n h phys ev).2 = true
        · simp only [if_pos hb]
          intro hr
          refine ⟨trivial, ?_⟩
          have k5 := k4 hb it e
          cases n with
          | zero => omega
          | succ m =>
            rw [del_unfold, k5] at hr ⊢
            dsimp only at hr ⊢
            simp only [if_neg h0, if_true, true_and] at hr ⊢
            generalize (t.delKids (m+1) h phys ev).1 = t1 at *
            by_cases hf : t1.fs t1.tick = false
            · simp only [if_pos hf] at hr
              have := hr t1.tick k2.tick (Nat.lt_succ_self _)
              rw [k2.fs] at hf; rw [hf] at this; cases this
            · simp only [if_neg hf]
              have g1 : ({ t1 with tick := t1.tick + 1 } : Tree).get h =
                some { it with kids := [] } := k5
              rw [Tree.remove_get g1, if_pos rfl]
        · simp only [if_neg hb]
          intro hr
          exact absurd (ihk t h it phys ev L w hL e (by omega) (by omega) hr) hb
    · intro t h it phys ev L w hL e hn _
      rw [delKids_unfold, e]
      dsimp only
      cases hk : it.kids with
      | nil => intro _; rfl
      | cons c r =>
        dsimp only
        have hc : c ∈ it.kids := by rw [hk]; simp
        obtain ⟨ci, c1, c2, c3, c4, c5, _⟩ := w.kid e hc
        obtain ⟨d1, d2, d3, d4, d5⟩ := sd t c phys ev w
        have hm := hpos t h it e
        have hci := hL c ci c1
        have hlen : ci.path.length = it.path.length + 1 + ci.name.length := by
          rw [c4, join_length]
        have dh : (t.del n c phys ev).1.has h = true :=
          d3 h it e (fun i hi => by
            rw [c1] at hi; cases hi
            intro hu
            have := hu.length; omega)
        by_cases hr : (t.del n c phys ev).2 = .ok
        · simp only [if_pos hr]
          intro hf
          obtain ⟨it1, e1⟩ := has_iff.mp dh
          have hit1 : it1.path = it.path := by
            rcases d2.item h with g | ⟨iy, g1, g2⟩
            · rw [g] at e1; cases e1
            · rw [e] at g1; cases g1; rw [g2] at e1; cases e1; rfl
          obtain ⟨ci', c1', _, hcd⟩ := d4 hr
          have hlt := mass_lt d1 d2 c1' hcd
          refine ihk _ h it1 phys ev L d1 (d2.bound hL) e1 (by rw [hit1]; omega) ?_ ?_
          · have := hL h it e; omega
          · intro i h1 h2
            rw [d2.fs]
            exact hf i (Nat.le_trans d2.tick h1) h2
        · simp only [if_neg hr]
          intro hf
          exact absurd (ihd t c ci phys ev L w hL c1 (w.kid_ne_zero e hc) (by omega) hf).1 hr

/-! ### Summary -/

theorem del_wf {t : Tree} (w : TreeWF t) (n h : Nat) (phys ev : Bool) :
    TreeWF (t.del n h phys ev).1 := ((delSpec n).1 t h phys ev w).1

theorem delKids_facts {t : Tree} (w : TreeWF t) (n : Nat) {h : Nat} {it : Item} (e : t.get h = some it)
    (phys ev : Bool) : TreeWF (t.delKids n h phys ev).1 ∧ Shrunk t (t.delKids n h phys ev).1 ∧
    ((t.delKids n h phys ev).2 = true → (t.delKids n h phys ev).1.get h = some { it with kids := [] }) := by
  obtain ⟨a, b, _, d⟩ := (delSpec n).2 t h phys ev w (has_iff.mpr ⟨it, e⟩)
  exact ⟨a, b, fun h => d h it e⟩

theorem del_shrunk {t : Tree} (w : TreeWF t) (n h : Nat) (phys ev : Bool) :
    Shrunk t (t.del n h phys ev).1 := ((delSpec n).1 t h phys ev w).2.1

theorem del_keeps {t : Tree} (w : TreeWF t) (n h : Nat) (phys ev : Bool) {x : Nat}
    (hx : t.has x = true) (hb : ¬ Below t h x) : (t.del n h phys ev).1.has x = true := by
  obtain ⟨ix, ex⟩ := has_iff.mp hx
  exact ((delSpec n).1 t h phys ev w).2.2.1 x ix ex
    (fun it e hu => hb ((w.below_iff e ex).mpr hu))

theorem del_ok {t : Tree} (w : TreeWF t) (n h : Nat) (phys ev : Bool)
    (hr : (t.del n h phys ev).2 = .ok) : ∃ it, t.get h = some it ∧ h ≠ 0 ∧
      ((t.del n h phys ev).1.get h = none ∨
        (it.kids ≠ [] ∧ (t.del n h phys ev).1.get h = some { it with kids := [] })) :=
  ((delSpec n).1 t h phys ev w).2.2.2.1 hr

theorem del_not_ok {t : Tree} (w : TreeWF t) (n h : Nat) (phys ev : Bool)
    (hr : (t.del n h phys ev).2 ≠ .ok) (hh : t.has h = true) : (t.del n h phys ev).1.has h = true :=
  ((delSpec n).1 t h phys ev w).2.2.2.2 hr hh

theorem del_all {t : Tree} (w : TreeWF t) {h : Nat} (hh : t.has h = true) (h0 : h ≠ 0)
    (phys ev : Bool)
    (hf : ∀ i, t.tick ≤ i → i < (t.del t.delFuel h phys ev).1.tick → t.fs i = true) :
    (t.del t.delFuel h phys ev).2 = .ok ∧ (t.del t.delFuel h phys ev).1.get h = none := by
  obtain ⟨it, e⟩ := has_iff.mp hh
  have := mass_le t
  refine (fuelSpec _).1 t h it phys ev (Tree.maxLen t.items) w (fun x ix e => len_le_maxLen e) e h0
    ?_ hf
  unfold Tree.delFuel; omega

end Mtp
