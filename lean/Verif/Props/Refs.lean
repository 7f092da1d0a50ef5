import Verif.Props.Handles
/-! Property theorem C26: object references. -/
namespace Props
open Mtp Spec

/-- The references last accepted for each object, following the history: a request is accepted iff the object and all
the referenced objects exist at that moment. `t` is the tree at the beginning. -/
def accepted : Tree → (Nat → List Nat) → List RefTree.Op → (Nat → List Nat)
  | _, f, [] => f
  | t, f, .tree op :: r => accepted (t.step op) f r
  | t, f, .set h l :: r =>
    accepted t (if t.has h = true ∧ (∀ x ∈ l, t.has x = true) then (fun k => if k = h then l else f k) else f) r
  | t, f, .get _ :: r => accepted t f r

/-- The tree operations of a history. -/
def treeOps : List RefTree.Op → List Tree.Op
  | [] => []
  | .tree op :: r => op :: treeOps r
  | _ :: r => treeOps r

theorem run_tree (ops : List RefTree.Op) : ∀ s : RefTree, (s.run ops).t = s.t.run (treeOps ops) := by
  induction ops with
  | nil => intro s; rfl
  | cons op ops ih =>
    intro s
    show ((s.step op).run ops).t = _
    rw [ih]
    cases op with
    | tree op => rfl
    | set h l =>
      have : (s.step (.set h l)).t = s.t := by
        show (s.setRefs h l).1.t = _
        unfold RefTree.setRefs; split
        · rfl
        · split <;> rfl
      rw [this]; rfl
    | get h =>
      have : (s.step (.get h)).t = s.t := by
        show (s.getRefs h).1.t = _
        unfold RefTree.getRefs; split
        · rfl
        · split <;> rfl
      rw [this]; rfl

/-- The references recorded for `h`. -/
def recorded (s : RefTree) (h : Nat) : List Nat := (AMap.get s.refs h).getD []

/-- The table and the history agree on everything that exists. -/
structure RefInv (s : RefTree) (f : Nat → List Nat) : Prop where
  wf : TreeWF s.t
  issued : Issued s.t
  agree : ∀ h, s.t.has h = true → (recorded s h).filter s.t.has = (f h).filter s.t.has
  old : ∀ h x, x ∈ recorded s h ∨ x ∈ f h → h ≤ s.t.asked ∧ x ≤ s.t.asked

theorem get_purge (m : AMap Nat (List Nat)) (h k : Nat) :
    AMap.get ((AMap.erase m h).map (fun e => (e.1, e.2.filter (· ≠ h)))) k =
      if k = h then none else (AMap.get m k).map (List.filter (· ≠ h)) := by
  have : ∀ m : AMap Nat (List Nat), AMap.get (m.map (fun e => (e.1, e.2.filter (· ≠ h)))) k =
      (AMap.get m k).map (List.filter (· ≠ h)) := by
    intro m
    induction m with
    | nil => rfl
    | cons e m ih =>
      obtain ⟨a, b⟩ := e
      simp only [List.map_cons, AMap.get]
      split
      · rfl
      · exact ih
  rw [this, AMap.get_erase]
  split <;> rfl

theorem filter_sub {p q : Nat → Bool} {l l' : List Nat} (h : l.filter p = l'.filter p)
    (hq : ∀ x, x ∈ l ∨ x ∈ l' → q x = true → p x = true) : l.filter q = l'.filter q := by
  have h1 : ∀ m : List Nat, (∀ x ∈ m, q x = true → p x = true) → m.filter q = (m.filter p).filter q := by
    intro m hm
    rw [List.filter_filter]
    apply List.filter_congr
    intro x hx
    cases hqx : q x with
    | false => simp
    | true => simp [hm x hx hqx]
  rw [h1 l (fun x hx => hq x (Or.inl hx)), h1 l' (fun x hx => hq x (Or.inr hx)), h]

theorem refs_inv (ops : List RefTree.Op) : ∀ (s : RefTree) (f : Nat → List Nat), RefInv s f →
    HistOk s.t (treeOps ops) → (∀ i d h, Tree.Op.adopt i d h ∉ treeOps ops) →
    (s.run ops).t.asked < 0xFFFFFFFF → RefInv (s.run ops) (accepted s.t f ops) := by
  induction ops with
  | nil => intro s f I _ _ _; exact I
  | cons op ops ih =>
    intro s f I ok hna hb
    change ((s.step op).run ops).t.asked < _ at hb
    show RefInv ((s.step op).run ops) _
    cases op with
    | tree op =>
      have hb1 : (s.t.step op).asked < 0xFFFFFFFF := by
        rw [run_tree] at hb
        exact Nat.lt_of_le_of_lt (run_asked _ _) hb
      have st := treeStep_ok I.wf I.issued op ok.1 hb1
      refine ih _ f ?_ ok.2 (fun i d h hm => hna i d h (List.mem_cons_of_mem _ hm)) hb
      have had : adopted op = 0 := by
        cases op with
        | adopt i d h => exact absurd List.mem_cons_self (hna i d h)
        | _ => rfl
      -- what exists now and is old existed before
      have hold : ∀ x, x ≤ s.t.asked → (s.t.step op).has x = true → s.t.has x = true := by
        intro x hx hh
        rcases st.new x hh with h | h | h
        · exact h
        · omega
        · rw [had] at h; subst h
          obtain ⟨r, r1, _⟩ := I.wf.root
          exact has_iff.mpr ⟨r, r1⟩
      refine ⟨st.wf, st.issued, ?_, ?_⟩
      · intro h hh
        show (recorded s h).filter (s.t.step op).has = _
        by_cases hle : h ≤ s.t.asked
        · exact filter_sub (I.agree h (hold h hle hh)) (fun x hx hq => hold x (I.old h x hx).2 hq)
        · have h1 : recorded s h = [] := by
            cases hr : recorded s h with
            | nil => rfl
            | cons a r => exact absurd (I.old h a (Or.inl (by rw [hr]; exact List.mem_cons_self))).1 hle
          have h2 : f h = [] := by
            cases hr : f h with
            | nil => rfl
            | cons a r => exact absurd (I.old h a (Or.inr (by rw [hr]; exact List.mem_cons_self))).1 hle
          rw [h1, h2]; rfl
      · intro h x hx
        have := I.old h x hx
        exact ⟨Nat.le_trans this.1 st.asked, Nat.le_trans this.2 st.asked⟩
    | set h l =>
      change RefInv ((s.setRefs h l).1.run ops) _
      change (((s.setRefs h l).1).run ops).t.asked < _ at hb
      have ht : (s.setRefs h l).1.t = s.t := by
        unfold RefTree.setRefs; split
        · rfl
        · split <;> rfl
      have key := ih (s.setRefs h l).1 (if s.t.has h = true ∧ (∀ x ∈ l, s.t.has x = true) then
        (fun k => if k = h then l else f k) else f)
      rw [ht] at key
      refine key ?_ ok hna hb
      unfold RefTree.setRefs
      split
      · next hn => rw [if_neg (by rw [hn]; simp)]; exact I
      · next hh =>
        have hh : s.t.has h = true := by simpa using hh
        split
        · next hl =>
          have hl : ∀ x ∈ l, s.t.has x = true := by simpa using hl
          rw [if_pos ⟨hh, hl⟩]
          have hrec : ∀ k, recorded ({ s with refs := AMap.insert s.refs h l } : RefTree) k =
              if k = h then l else recorded s k := by
            intro k
            unfold recorded
            rw [AMap.get_insert]
            split <;> rfl
          refine ⟨I.wf, I.issued, ?_, ?_⟩
          · intro k hk
            rw [hrec]
            dsimp only
            split
            · rfl
            · exact I.agree k hk
          · intro k x hx
            rw [hrec] at hx
            by_cases hkh : k = h
            · rw [if_pos hkh, if_pos hkh] at hx
              have hxl : x ∈ l := hx.elim id id
              obtain ⟨ih, eh⟩ := has_iff.mp hh
              obtain ⟨ix, ex⟩ := has_iff.mp (hl x hxl)
              exact ⟨by rw [hkh]; exact I.issued h ih eh, I.issued x ix ex⟩
            · rw [if_neg hkh, if_neg hkh] at hx
              exact I.old k x hx
        · next hl =>
          rw [if_neg (by rintro ⟨_, h2⟩; exact hl (List.all_eq_true.mpr h2))]
          exact I
    | get h =>
      change RefInv ((s.getRefs h).1.run ops) _
      change (((s.getRefs h).1).run ops).t.asked < _ at hb
      have ht : (s.getRefs h).1.t = s.t := by
        unfold RefTree.getRefs; split
        · rfl
        · split <;> rfl
      have key := ih (s.getRefs h).1 f
      rw [ht] at key
      refine key ?_ ok hna hb
      unfold RefTree.getRefs
      split
      · next hn =>
        have hrec : ∀ k, recorded (s.purge h) k = if k = h then [] else (recorded s k).filter (· ≠ h) := by
          intro k
          unfold recorded RefTree.purge
          dsimp only
          rw [get_purge]
          split
          · rfl
          · cases AMap.get s.refs k <;> simp
        refine ⟨I.wf, I.issued, ?_, ?_⟩
        · intro k hk
          change s.t.has k = true at hk
          have hkh : k ≠ h := by rintro rfl; rw [hn] at hk; cases hk
          rw [hrec, if_neg hkh]
          show ((recorded s k).filter (· ≠ h)).filter s.t.has = (f k).filter s.t.has
          rw [← I.agree k hk, List.filter_filter]
          apply List.filter_congr
          intro x _
          by_cases hx : x = h
          · subst hx; simp [hn]
          · simp [hx]
        · intro k x hx
          rw [hrec] at hx
          rcases hx with hx | hx
          · split at hx
            · cases hx
            · exact I.old k x (Or.inl (List.mem_filter.mp hx).1)
          · exact I.old k x (Or.inr hx)
      · split
        · exact I
        · next l el =>
          have hrec : ∀ k, recorded ({ s with refs := AMap.insert s.refs h (l.filter s.t.has) } : RefTree) k =
              if k = h then (recorded s h).filter s.t.has else recorded s k := by
            intro k
            unfold recorded
            rw [AMap.get_insert, el]
            split <;> rfl
          refine ⟨I.wf, I.issued, ?_, ?_⟩
          · intro k hk
            rw [hrec]
            dsimp only
            split
            · next hkh =>
              subst hkh
              rw [List.filter_filter, ← I.agree k hk]
              simp
            · exact I.agree k hk
          · intro k x hx
            rw [hrec] at hx
            rcases hx with hx | hx
            · split at hx
              · next hkh => subst hkh; exact I.old k x (Or.inl (List.mem_filter.mp hx).1)
              · exact I.old k x (Or.inl hx)
            · exact I.old k x (Or.inr hx)

/-- C26. After any history of reference updates, queries, deletions and other changes of the tree, a query for an
existing object answers OK with exactly those of the references last accepted for it that still exist, in order;
a query for an object that does not exist is refused. -/
theorem C26_query (t : Tree) (w : TreeWF t) (hi : Issued t) (ops : List RefTree.Op) (ok : HistOk t (treeOps ops))
    (hna : ∀ i d h, Tree.Op.adopt i d h ∉ treeOps ops)
    (hb : (t.run (treeOps ops)).asked < 0xFFFFFFFF) (h : Nat) :
    let s := RefTree.run ⟨t, []⟩ ops
    (s.t.has h = true → (s.getRefs h).2 = (.ok, (accepted t (fun _ => []) ops h).filter s.t.has)) ∧
    (s.t.has h = false → (s.getRefs h).2 = (.invalidObjectHandle, [])) := by
  dsimp only
  have I := refs_inv ops ⟨t, []⟩ (fun _ => [])
    ⟨w, hi, fun h _ => rfl, fun h x hx => by rcases hx with hx | hx <;> cases hx⟩ ok hna
    (by rw [run_tree]; exact hb)
  change RefInv _ (accepted t (fun _ => []) ops) at I
  generalize RefTree.run ⟨t, []⟩ ops = s at I ⊢
  constructor
  · intro hh
    have ha := I.agree h hh
    unfold RefTree.getRefs
    rw [if_neg (by rw [hh]; simp)]
    unfold recorded at ha
    split
    · next e => rw [e] at ha; rw [← ha]; rfl
    · next l e => rw [e] at ha; rw [← ha]; rfl
  · intro hh
    unfold RefTree.getRefs
    rw [if_pos hh]

/-- C26. References are stored only if the object and every referenced object exist; otherwise the request is refused
and changes nothing. -/
theorem C26_set (s : RefTree) (h : Nat) (l : List Nat) :
    ((s.setRefs h l).2 = .ok ↔ s.t.has h = true ∧ ∀ x ∈ l, s.t.has x = true) ∧
    ((s.setRefs h l).2 ≠ .ok → (s.setRefs h l).1 = s) ∧
    ((s.setRefs h l).2 = .ok → (s.setRefs h l).1.t = s.t ∧
      ((s.setRefs h l).1.getRefs h).2 = (.ok, l) ∧
      ∀ k, k ≠ h → ((s.setRefs h l).1.getRefs k).2 = (s.getRefs k).2) := by
  unfold RefTree.setRefs
  split
  · next hn => simp [hn]
  · next hh =>
    have hh : s.t.has h = true := by simpa using hh
    split
    · next hl =>
      have hl' : ∀ x ∈ l, s.t.has x = true := by simpa using hl
      refine ⟨⟨fun _ => ⟨hh, hl'⟩, fun _ => rfl⟩, fun h => absurd rfl h, fun _ => ⟨rfl, ?_, ?_⟩⟩
      · unfold RefTree.getRefs
        rw [if_neg (by show ¬ s.t.has h = false; rw [hh]; simp)]
        simp only [AMap.get_insert, if_true]
        have : l.filter s.t.has = l := List.filter_eq_self.mpr hl'
        rw [this]
      · intro k hk
        unfold RefTree.getRefs
        dsimp only
        split
        · rfl
        · rw [AMap.get_insert, if_neg hk]
          split <;> rfl
    · next hl =>
      refine ⟨Iff.intro (fun h => nomatch h) (fun h => absurd (List.all_eq_true.mpr h.2) hl), fun _ => rfl, fun h => nomatch h⟩

/-- Witness: set references of 1 to [3, 2], delete 3, query 1. -/
theorem C26_witness :
    ((RefTree.run ⟨demoTree, []⟩ [.set 1 [3, 2], .tree (.delete 3 0), .get 3]).getRefs 1).2 = (.ok, [2]) ∧
    HistOk demoTree (treeOps [.set 1 [3, 2], .tree (.delete 3 0), .get 3]) := by
  exact ⟨by decide +kernel, trivial, trivial⟩

end Props
