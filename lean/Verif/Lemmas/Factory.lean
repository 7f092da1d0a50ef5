import Verif.Model.Factory
import Verif.Lemmas.Cache
/-! Cache coherence of the storage factory. -/
namespace Mtp.Fac
variable {V : Type}

/-- An event that will invalidate the cached property `p` of `h` is on its way. -/
def Pending (q : List SEvent) (h p : Nat) : Prop :=
  .propChanged h p ∈ q ∨ .infoChanged h ∈ q ∨ .removed h ∈ q

structure Inv (s : Fac V) : Prop where
  coh : ∀ h p v, s.store.has h = true → s.cache.get h p = some v →
    v = s.store.val h p ∨ Pending s.queue h p
  fresh : ∀ h p v, s.cache.get h p = some v → h < s.next
  live : ∀ h, s.store.has h = true → h < s.next
  kids : ∀ par, ∀ k ∈ s.store.kids par, k < s.next

theorem over_eq (l : List (Nat × V)) : ∀ (f : Nat → V) (p : Nat),
    over f l p = (Spec.lastIn l p).getD (f p) := by
  induction l with
  | nil => intro f p; simp [over, Spec.lastIn]
  | cons e l ih =>
    intro f p
    have : over f (e :: l) = over (fun p => if p = e.1 then e.2 else f p) l := rfl
    rw [this, ih]
    unfold Spec.lastIn
    rw [List.filter_cons]
    by_cases hp : e.1 = p
    · simp only [hp, decide_true, ite_true, List.getLast?_cons]
      cases (l.filter (fun e => decide (e.1 = p))).getLast? <;> simp
    · simp [hp, Ne.symm hp]

theorem lastIn_mem {l : List (Nat × V)} {p : Nat} {v : V} (h : Spec.lastIn l p = some v) :
    (p, v) ∈ l := by
  unfold Spec.lastIn at h
  simp only [Option.map_eq_some_iff] at h
  obtain ⟨e, h1, h2⟩ := h
  have := List.mem_of_getLast? h1
  rw [List.mem_filter] at this
  simp only [decide_eq_true_eq] at this
  obtain ⟨a, b⟩ := this
  subst b; subst h2; exact a

theorem feedOne_get (val : Nat → Nat → V) (k : Nat) (missing : List Nat) : ∀ (c : Cache V) (h p : Nat)
    (v : V), (missing.foldl (fun c p => c.add k p (val k p)) c).get h p = some v →
    (v = val h p ∧ h = k ∧ p ∈ missing) ∨ c.get h p = some v := by
  induction missing with
  | nil => intro c h p v e; exact Or.inr e
  | cons m ms ih =>
    intro c h p v e
    rcases ih _ h p v e with g | g
    · exact Or.inl ⟨g.1, g.2.1, List.mem_cons_of_mem _ g.2.2⟩
    · rw [Cache.get_add] at g
      split at g
      · next x => obtain ⟨rfl, rfl⟩ := x; cases g; exact Or.inl ⟨rfl, rfl, by simp⟩
      · exact Or.inr g

theorem feed_get_aux (val : Nat → Nat → V) (missing : List Nat) : ∀ (ks : List Nat) (c : Cache V)
    (h p : Nat) (v : V),
    (ks.foldl (fun c k => missing.foldl (fun c p => c.add k p (val k p)) c) c).get h p = some v →
    (v = val h p ∧ h ∈ ks) ∨ c.get h p = some v := by
  intro ks
  induction ks with
  | nil => intro c h p v e; exact Or.inr e
  | cons k ks ih =>
    intro c h p v e
    rcases ih _ h p v e with g | g
    · exact Or.inl ⟨g.1, List.mem_cons_of_mem _ g.2⟩
    · rcases feedOne_get val k missing c h p v g with x | x
      · exact Or.inl ⟨x.1, by simp [x.2.1]⟩
      · exact Or.inr x

theorem feed_get (s : Fac V) (par : Nat) (missing : List Nat) {h p : Nat} {v : V}
    (e : (s.feed par missing).get h p = some v) :
    (v = s.store.val h p ∧ h ∈ s.store.kids par) ∨ s.cache.get h p = some v :=
  feed_get_aux s.store.val missing _ s.cache h p v e

theorem addTrue_get (s : Fac V) (h : Nat) (missing : List Nat) {h' p : Nat} {v : V}
    (e : (s.cache.addList h (missing.map (fun p => (p, s.store.val h p)))).get h' p = some v) :
    (v = s.store.val h' p ∧ h' = h) ∨ s.cache.get h' p = some v := by
  rw [Cache.get_addList] at e
  split at e
  · next g =>
    subst g
    cases hl : Spec.lastIn (missing.map (fun p => (p, s.store.val h p))) p with
    | none => rw [hl] at e; exact Or.inr (by simpa using e)
    | some w =>
      rw [hl] at e
      have hm := lastIn_mem hl
      simp only [List.mem_map, Prod.mk.injEq] at hm
      obtain ⟨q, _, rfl, rfl⟩ := hm
      simp at e
      exact Or.inl ⟨e.symm, rfl⟩
  · exact Or.inr e

theorem Inv.readOne {s : Fac V} (h : Inv s) (x : Nat) (hx : s.store.has x = true)
    (f : List (Nat × V)) (m : List Nat) : Inv (s.readOne x f m).1 := by
  refine ⟨fun h' p v hh e => ?_, fun h' p v e => ?_, h.live, h.kids⟩
  · rcases addTrue_get s x m e with g | g
    · exact Or.inl g.1
    · exact h.coh h' p v hh g
  · rcases addTrue_get s x m e with g | g
    · rw [g.2]; exact h.live x hx
    · exact h.fresh h' p v g

theorem Inv.feed {s : Fac V} (h : Inv s) (par : Nat) (m : List Nat) (ms : List Nat) :
    Inv { s with cache := s.feed par m, mass := ms } := by
  refine ⟨fun h' p v hh e => ?_, fun h' p v e => ?_, h.live, h.kids⟩
  · rcases feed_get s par m e with g | g
    · exact Or.inl g.1
    · exact h.coh h' p v hh g
  · rcases feed_get s par m e with g | g
    · exact h.kids par h' g.2
    · exact h.fresh h' p v g

/-! ### splitReq -/

theorem split_perm (c : Cache V) (h : Nat) (val : Nat → V) : ∀ (codes : List Nat),
    (∀ p ∈ codes, ∀ v, c.get h p = some v → v = val p) →
    ((splitReq c h codes).1 ++ (splitReq c h codes).2.map (fun p => (p, val p))).Perm
      (codes.map (fun p => (p, val p)))
  | [], _ => List.Perm.nil
  | p :: r, hc => by
    have ih := split_perm c h val r (fun q hq => hc q (by simp [hq]))
    simp only [splitReq]
    cases hg : c.get h p with
    | some v =>
      have := hc p (by simp) v hg
      subst this
      simpa using ih
    | none =>
      simp only [List.map_cons]
      exact List.perm_middle.trans (ih.cons _)

theorem split_codes (c : Cache V) (h : Nat) : ∀ (codes : List Nat),
    ((splitReq c h codes).1.map (·.1) ++ (splitReq c h codes).2).Perm codes
  | [] => List.Perm.nil
  | p :: r => by
    have ih := split_codes c h r
    simp only [splitReq]
    cases hg : c.get h p with
    | some v => simpa using ih
    | none => exact List.perm_middle.trans (ih.cons _)

/-- The outcome of a property read. -/
theorem read_spec {s : Fac V} (hi : Inv s) (h : Nat) (codes : List Nat) :
    Inv (s.read h codes).1 ∧ (s.read h codes).1.store = s.store ∧
    (s.store.has h = true → (s.store.has (s.store.parent h) = true ∨ h = 0) →
      (∀ p ∈ codes, ¬ Pending s.queue h p) →
      (s.read h codes).2.1 = .ok ∧
      (s.read h codes).2.2.Perm (codes.map (fun p => (p, s.store.val h p)))) := by
  have tru : ∀ (s' : Fac V), Inv s' → s'.store.has h = true →
      ∀ codes' : List Nat, (∀ p ∈ codes', ¬ Pending s'.queue h p) →
      ∀ p ∈ codes', ∀ v, s'.cache.get h p = some v → v = s'.store.val h p := by
    intro s' hi' hh codes' hp p hpm v e
    rcases hi'.coh h p v hh e with g | g
    · exact g
    · exact absurd g (hp p hpm)
  unfold read
  simp only
  split
  · next hm =>
    refine ⟨hi, rfl, fun hh hpar hp => ⟨rfl, ?_⟩⟩
    have := split_perm s.cache h (s.store.val h) codes (tru s hi hh codes hp)
    rw [hm] at this
    simpa using this
  · split
    · next hn => exact ⟨hi, rfl, fun hh => absurd hh (by simpa using hn)⟩
    · next hn =>
      have hh : s.store.has h = true := by simpa using hn
      split
      · refine ⟨hi.readOne h hh [] _, rfl, fun _ _ hp => ⟨rfl, ?_⟩⟩
        exact split_perm s.cache h (s.store.val h) codes (tru s hi hh codes hp)
      · next hmass =>
        split
        · next hnp =>
          refine ⟨hi, rfl, fun _ hpar => ?_⟩
          rcases hpar with g | g
          · exact absurd g (by simpa using hnp)
          · exact absurd (Or.inr g) hmass
        · have hi2 := hi.feed (s.store.parent h) (splitReq s.cache h codes).2
            (s.store.parent h :: s.mass)
          have hperm := split_codes s.cache h codes
          split
          · next hm2 =>
            refine ⟨hi2, rfl, fun _ _ hp => ⟨rfl, ?_⟩⟩
            have := split_perm _ h (s.store.val h) _ (tru _ hi2 hh
              ((splitReq s.cache h codes).1.map (·.1) ++ (splitReq s.cache h codes).2)
              (fun p hpm => hp p (hperm.mem_iff.mp hpm)))
            simp only at this hm2 ⊢
            rw [hm2] at this
            simp only [List.map_nil, List.append_nil] at this
            exact this.trans (hperm.map _)
          · refine ⟨hi2.readOne h hh [] _, rfl, fun _ _ hp => ⟨rfl, ?_⟩⟩
            have := split_perm _ h (s.store.val h) _ (tru _ hi2 hh
              ((splitReq s.cache h codes).1.map (·.1) ++ (splitReq s.cache h codes).2)
              (fun p hpm => hp p (hperm.mem_iff.mp hpm)))
            exact this.trans (hperm.map _)

/-- What is cached about the properties in `P` is true. -/
def CohOn (P : Nat → Nat → Prop) (s : Fac V) : Prop :=
  ∀ h p v, P h p → s.cache.get h p = some v → v = s.store.val h p

/-- The outcome of a property read, if what is cached about those properties is true. -/
theorem read_on {P : Nat → Nat → Prop} {s : Fac V} (hc : CohOn P s) (h : Nat) (codes : List Nat) :
    CohOn P (s.read h codes).1 ∧ (s.read h codes).1.store = s.store ∧
    (s.store.has h = true → (s.store.has (s.store.parent h) = true ∨ h = 0) → (∀ p ∈ codes, P h p) →
      (s.read h codes).2.1 = .ok ∧
      (s.read h codes).2.2.Perm (codes.map (fun p => (p, s.store.val h p)))) := by
  have one : ∀ (s : Fac V), CohOn P s → ∀ f m, CohOn P (s.readOne h f m).1 := by
    intro s hc f m x p v hp e
    rcases addTrue_get s h m e with g | g
    · exact g.1
    · exact hc x p v hp g
  unfold read
  simp only
  split
  · next hm =>
    refine ⟨hc, rfl, fun hh hpar hp => ⟨rfl, ?_⟩⟩
    have := split_perm s.cache h (s.store.val h) codes (fun p hpm v => hc h p v (hp p hpm))
    rw [hm] at this
    simpa using this
  · split
    · next hn => exact ⟨hc, rfl, fun hh => absurd hh (by simpa using hn)⟩
    · next hn =>
      split
      · refine ⟨one s hc [] _, rfl, fun _ _ hp => ⟨rfl, ?_⟩⟩
        exact split_perm s.cache h (s.store.val h) codes (fun p hpm v => hc h p v (hp p hpm))
      · next hmass =>
        split
        · next hnp =>
          refine ⟨hc, rfl, fun _ hpar => ?_⟩
          rcases hpar with g | g
          · exact absurd g (by simpa using hnp)
          · exact absurd (Or.inr g) hmass
        · have hc2 : CohOn P { s with cache := s.feed (s.store.parent h) (splitReq s.cache h codes).2
                                      mass := s.store.parent h :: s.mass } := by
            intro x p v hp e
            rcases feed_get s _ _ e with g | g
            · exact g.1
            · exact hc x p v hp g
          have hperm := split_codes s.cache h codes
          split
          · next hm2 =>
            refine ⟨hc2, rfl, fun _ _ hp => ⟨rfl, ?_⟩⟩
            have := split_perm _ h (s.store.val h) ((splitReq s.cache h codes).1.map (·.1) ++ (splitReq s.cache h codes).2)
              (fun p hpm v => hc2 h p v (hp p (hperm.mem_iff.mp hpm)))
            simp only at this hm2 ⊢
            rw [hm2] at this
            simp only [List.map_nil, List.append_nil] at this
            exact this.trans (hperm.map _)
          · refine ⟨one _ hc2 [] _, rfl, fun _ _ hp => ⟨rfl, ?_⟩⟩
            have := split_perm _ h (s.store.val h) ((splitReq s.cache h codes).1.map (·.1) ++ (splitReq s.cache h codes).2)
              (fun p hpm v => hc2 h p v (hp p (hperm.mem_iff.mp hpm)))
            exact this.trans (hperm.map _)

theorem Pending.append_right {q q' : List SEvent} {h p : Nat} (x : Pending q h p) :
    Pending (q ++ q') h p := by
  rcases x with x | x | x
  · exact Or.inl (List.mem_append_left _ x)
  · exact Or.inr (Or.inl (List.mem_append_left _ x))
  · exact Or.inr (Or.inr (List.mem_append_left _ x))

/-- Removing from the cache keeps what is left. -/
theorem get_of_remove {c : Cache V} {h p h' p' : Nat} {v : V}
    (e : (c.remove h p).get h' p' = some v) :
    c.get h' p' = some v ∧ ¬ (h = h' ∧ Spec.invalidates p p') := by
  rw [Cache.get_remove] at e
  split at e
  · simp at e
  · next g => exact ⟨e, g⟩

theorem inval0 (p : Nat) : Spec.invalidates 0 p = true := by simp [Spec.invalidates]
theorem invalSelf (p : Nat) : Spec.invalidates p p = true := by simp [Spec.invalidates]

theorem Inv.deliver {s : Fac V} (h : Inv s) : Inv s.deliver := by
  unfold Fac.deliver
  cases hq : s.queue with
  | nil => exact h
  | cons ev q =>
    cases ev with
    | propChanged x y =>
      refine ⟨fun h' p v hh e => ?_, fun h' p v e => h.fresh h' p v (get_of_remove e).1, h.live,
        h.kids⟩
      obtain ⟨e1, e2⟩ := get_of_remove e
      rcases h.coh h' p v hh e1 with g | g
      · exact Or.inl g
      · rw [hq] at g
        unfold Pending at g ⊢
        simp only [List.mem_cons, SEvent.propChanged.injEq, reduceCtorEq, false_or] at g
        rcases g with (⟨rfl, rfl⟩ | g) | g
        · exact absurd ⟨rfl, invalSelf _⟩ e2
        · exact Or.inr (Or.inl g)
        · exact Or.inr (Or.inr g)
    | infoChanged x =>
      refine ⟨fun h' p v hh e => ?_, fun h' p v e => h.fresh h' p v (get_of_remove e).1, h.live,
        h.kids⟩
      obtain ⟨e1, e2⟩ := get_of_remove e
      rcases h.coh h' p v hh e1 with g | g
      · exact Or.inl g
      · rw [hq] at g
        unfold Pending at g ⊢
        simp only [List.mem_cons, SEvent.infoChanged.injEq, reduceCtorEq, false_or] at g
        rcases g with g | (rfl | g) | g
        · exact Or.inr (Or.inl g)
        · exact absurd ⟨rfl, inval0 _⟩ e2
        · exact Or.inr (Or.inr (Or.inl g))
        · exact Or.inr (Or.inr (Or.inr g))
    | removed x =>
      refine ⟨fun h' p v hh e => ?_, fun h' p v e => h.fresh h' p v (get_of_remove e).1, h.live,
        h.kids⟩
      obtain ⟨e1, e2⟩ := get_of_remove e
      rcases h.coh h' p v hh e1 with g | g
      · exact Or.inl g
      · rw [hq] at g
        unfold Pending at g ⊢
        simp only [List.mem_cons, SEvent.removed.injEq, reduceCtorEq, false_or] at g
        rcases g with g | g | (rfl | g)
        · exact Or.inr (Or.inl g)
        · exact Or.inr (Or.inr (Or.inl g))
        · exact absurd ⟨rfl, inval0 _⟩ e2
        · exact Or.inr (Or.inr (Or.inr g))

/-- The operation changes values only through the factory with the storage taking them, within one
storage, or with an announcement. -/
def Announced : Op V → Prop
  | .set _ _ applied => applied = true
  | .move _ _ newStorage _ => newStorage = none
  | _ => True

theorem Inv.step {s : Fac V} (h : Inv s) (op : Op V) (ha : Announced op) : Inv (s.step op) := by
  cases op with
  | read x codes => exact (read_spec h x codes).1
  | deliver => exact h.deliver
  | set x l applied =>
    simp only [Announced] at ha
    subst ha
    simp only [Fac.step]
    split
    · next hx =>
      refine ⟨fun h' p v hh e => ?_, fun h' p v e => ?_, h.live, h.kids⟩
      · simp only [ite_true] at hh e ⊢
        rw [Cache.get_addList] at e
        simp only [Store.setVals]
        by_cases g : x = h'
        · subst g
          simp only [ite_true, over_eq] at e ⊢
          cases hl : Spec.lastIn l p with
          | none => rw [hl] at e; simp at e; simpa using h.coh x p v hh e
          | some w => rw [hl] at e; simp at e; simp [e]
        · rw [if_neg g] at e
          rw [if_neg (Ne.symm g)]
          exact h.coh h' p v hh e
      · rw [Cache.get_addList] at e
        by_cases g : x = h'
        · subst g; exact h.live x hx
        · rw [if_neg g] at e; exact h.fresh h' p v e
    · exact h
  | devProp x y w =>
    simp only [Fac.step]
    split
    · refine ⟨fun h' p v hh e => ?_, h.fresh, h.live, h.kids⟩
      simp only [Store.setVals, over] at hh ⊢
      rcases h.coh h' p v hh e with g | g
      · by_cases hx : h' = x
        · subst hx
          by_cases hp : p = y
          · subst hp; exact Or.inr (Or.inl (by simp))
          · left; simp [hp, g]
        · left; simp [hx, g]
      · exact Or.inr g.append_right
    · exact h
  | devInfo x f =>
    simp only [Fac.step]
    split
    · refine ⟨fun h' p v hh e => ?_, h.fresh, h.live, h.kids⟩
      simp only [Store.setVals] at hh ⊢
      rcases h.coh h' p v hh e with g | g
      · by_cases hx : h' = x
        · subst hx; exact Or.inr (Or.inr (Or.inl (by simp)))
        · left; simp [hx, g]
      · exact Or.inr g.append_right
    · exact h
  | devRemove x =>
    refine ⟨fun h' p v hh e => ?_, h.fresh, fun h' hh => ?_, h.kids⟩
    · simp only [Fac.step] at hh
      split at hh
      · simp at hh
      · rcases h.coh h' p v hh e with g | g
        · exact Or.inl g
        · exact Or.inr g.append_right
    · simp only [Fac.step] at hh
      split at hh
      · simp at hh
      · exact h.live h' hh
  | delete x sub =>
    refine ⟨fun h' p v hh e => ?_, fun h' p v e => h.fresh h' p v (get_of_remove e).1,
      fun h' hh => ?_, h.kids⟩
    · simp only [Fac.step] at hh
      split at hh
      · simp at hh
      · exact h.coh h' p v hh (get_of_remove e).1
    · simp only [Fac.step] at hh
      split at hh
      · simp at hh
      · exact h.live h' hh
  | move x par ns pv =>
    simp only [Announced] at ha
    subst ha
    simp only [Fac.step]
    split
    · next hx =>
      refine ⟨fun h' p v hh e => ?_, fun h' p v e => h.fresh h' p v (get_of_remove e).1, h.live,
        fun q k hk => ?_⟩
      · obtain ⟨e1, e2⟩ := get_of_remove e
        simp only [Store.setVals, over] at hh ⊢
        rcases h.coh h' p v hh e1 with g | g
        · left
          by_cases hxx : h' = x
          · subst hxx
            have hp : p ≠ PARENT := by
              rintro rfl; exact e2 ⟨rfl, invalSelf _⟩
            simp [hp, g]
          · simp [hxx, g]
        · exact Or.inr g
      · simp only at hk
        split at hk
        · rcases List.mem_cons.mp hk with g | g
          · subst g; exact h.live _ hx
          · exact h.kids q k (List.mem_filter.mp g).1
        · exact h.kids q k (List.mem_filter.mp hk).1
    · exact h
  | add par f =>
    refine ⟨fun h' p v hh e => ?_, fun h' p v e => ?_, fun h' hh => ?_, fun q k hk => ?_⟩
    · simp only [Fac.step, Store.setVals] at hh e ⊢
      have hlt := h.fresh h' p v e
      have hne : h' ≠ s.next := by omega
      simp only [hne, ite_false] at hh ⊢
      exact h.coh h' p v hh e
    · have := h.fresh h' p v e; simp only [Fac.step]; omega
    · simp only [Fac.step] at hh ⊢
      split at hh
      · omega
      · have := h.live h' hh; omega
    · simp only [Fac.step] at hk ⊢
      split at hk
      · rcases List.mem_cons.mp hk with g | g
        · omega
        · have := h.kids q k g; omega
      · have := h.kids q k hk; omega
  | flush x =>
    exact ⟨fun h' p v hh e => h.coh h' p v hh (get_of_remove e).1,
      fun h' p v e => h.fresh h' p v (get_of_remove e).1, h.live, h.kids⟩

end Mtp.Fac
