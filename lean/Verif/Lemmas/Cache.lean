import Verif.Spec.Cache
import Verif.Lemmas.AMap
/-! The cache operations seen through `get`. -/
namespace Mtp.Cache
variable {V : Type}

theorem get_eq (c : Cache V) (h p : Nat) : c.get h p = AMap.get (c.at_ h) p := by
  unfold Cache.get at_
  cases AMap.get c h <;> rfl

theorem at_insert (c : Cache V) (h h' : Nat) (m : AMap Nat V) :
    at_ (AMap.insert c h m) h' = if h' = h then m else c.at_ h' := by
  unfold at_
  rw [AMap.get_insert]
  split <;> simp

theorem at_erase (c : Cache V) (h h' : Nat) :
    at_ (AMap.erase c h) h' = if h' = h then [] else c.at_ h' := by
  unfold at_
  rw [AMap.get_erase]
  split <;> simp

theorem get_add (c : Cache V) (h p : Nat) (v : V) (h' p' : Nat) :
    (c.add h p v).get h' p' = if h = h' ∧ p = p' then some v else c.get h' p' := by
  rw [get_eq, get_eq, Cache.add, at_insert]
  by_cases e : h' = h
  · subst e
    simp only [ite_true, AMap.get_insert, true_and]
    by_cases e2 : p' = p
    · simp [e2]
    · simp [e2, Ne.symm e2]
  · simp [e, Ne.symm e]

theorem get_remove (c : Cache V) (h p : Nat) (h' p' : Nat) :
    (c.remove h p).get h' p' =
      if h = h' ∧ Spec.invalidates p p' then none else c.get h' p' := by
  rw [get_eq, get_eq]
  unfold Cache.remove Spec.invalidates
  simp only [decide_eq_true_eq]
  by_cases e : h' = h
  · subst e
    split
    · next g =>
      rw [at_erase, if_pos rfl, AMap.get_nil]
      rcases g with g | g
      · have : AMap.get (AMap.erase (c.at_ h') p) p' = none := by
          rw [AMap.eq_nil_of_isEmpty g]; rfl
        rw [AMap.get_erase] at this
        by_cases e2 : p' = p
        · simp [e2]
        · rw [if_neg e2] at this; simp [this]
      · simp [g]
    · next g =>
      have hp : ¬ p = 0 := fun x => g (Or.inr x)
      rw [at_insert, if_pos rfl, AMap.get_erase]
      by_cases e2 : p' = p
      · simp [e2]
      · simp [e2, hp, Ne.symm e2]
  · have hh : ¬ h = h' := fun x => e x.symm
    simp only [hh, false_and, ite_false]
    split
    · rw [at_erase, if_neg e, at_insert, if_neg e]
    · rw [at_insert, if_neg e]

theorem get_addList (l : List (Nat × V)) : ∀ (c : Cache V) (h h' p' : Nat),
    (c.addList h l).get h' p' =
      if h = h' then (Spec.lastIn l p').or (c.get h' p') else c.get h' p' := by
  induction l with
  | nil => intro c h h' p'; simp [addList, Spec.lastIn]
  | cons e l ih =>
    intro c h h' p'
    have : c.addList h (e :: l) = (c.add h e.1 e.2).addList h l := rfl
    rw [this, ih, get_add]
    by_cases hh : h = h'
    · simp only [hh, ite_true, true_and]
      unfold Spec.lastIn
      rw [List.filter_cons]
      by_cases hp : e.1 = p'
      · simp only [hp, ite_true, decide_true, List.getLast?_cons]
        cases (l.filter (fun e => decide (e.1 = p'))).getLast? <;> simp
      · simp [hp]
    · simp [hh]

theorem get_removeList (l : List Nat) : ∀ (c : Cache V) (h h' p' : Nat),
    (c.removeList h l).get h' p' =
      if h = h' ∧ l.any (Spec.invalidates · p') then none else c.get h' p' := by
  induction l with
  | nil => intro c h h' p'; simp [removeList]
  | cons e l ih =>
    intro c h h' p'
    have : c.removeList h (e :: l) = (c.remove h e).removeList h l := rfl
    rw [this, ih, get_remove]
    by_cases hh : h = h'
    · simp only [hh, true_and, List.any_cons, Bool.or_eq_true]
      by_cases h1 : Spec.invalidates e p' = true <;>
        by_cases h2 : (l.any fun x => Spec.invalidates x p') = true <;> simp [h1, h2]
    · simp [hh]

theorem getList_found (c : Cache V) (h : Nat) (req : List (Nat × V)) :
    (c.getList h req).1 = req.filterMap (fun e => (c.get h e.1).map (fun v => (e.1, v))) := by
  induction req with
  | nil => rfl
  | cons e r ih =>
    obtain ⟨p, o⟩ := e
    simp only [getList, List.filterMap_cons]
    cases hg : c.get h p <;> simp [ih]

theorem getList_notFound (c : Cache V) (h : Nat) (req : List (Nat × V)) :
    (c.getList h req).2 = req.filter (fun e => (c.get h e.1).isNone) := by
  induction req with
  | nil => rfl
  | cons e r ih =>
    obtain ⟨p, o⟩ := e
    simp only [getList, List.filter_cons]
    cases hg : c.get h p <;> simp [ih]

end Mtp.Cache
