import Verif.Lemmas.Cache
/-! Property theorems C15, C16: the object property cache. -/
namespace Props
open Mtp

/-- C15: after any history of operations a lookup returns exactly the value last stored for that
object and property, unless the property or the object was invalidated since. -/
theorem C15_cache_is_history {V : Type} (ops : List (Cache.Op V)) (h p : Nat) :
    (ops.foldl Cache.step ([] : Cache V)).get h p = Spec.cached ops.reverse h p := by
  rw [← List.foldr_reverse]
  generalize ops.reverse = past
  induction past with
  | nil => rfl
  | cons op past ih =>
    rw [List.foldr_cons]
    generalize List.foldr (fun y (x : Cache V) => x.step y) [] past = c at ih
    cases op with
    | add h' p' v => simp only [Cache.step, Cache.get_add, Spec.cached, ih]
    | addList h' l => simp only [Cache.step, Cache.get_addList, Spec.cached, ih]
    | remove h' c => simp only [Cache.step, Cache.get_remove, Spec.cached, ih]
    | removeList h' l => simp only [Cache.step, Cache.get_removeList, Spec.cached, ih]
    | clear => rfl
    | lookup h' p' => simp only [Cache.step, Spec.cached, ih]

/-- C15: an operation on one object leaves every cached property of another as it was. -/
theorem C15_other_objects_untouched {V : Type} (c : Cache V) (op : Cache.Op V) (h p : Nat)
    (hother : match op with
      | .add h' _ _ | .addList h' _ | .remove h' _ | .removeList h' _ => h' ≠ h
      | .clear => False
      | .lookup _ _ => True) :
    (c.step op).get h p = c.get h p := by
  cases op <;> simp_all [Cache.step, Cache.get_add, Cache.get_addList, Cache.get_remove,
    Cache.get_removeList]

example : (([Cache.Op.add 1 7 "a", .add 2 7 "b", .remove 1 8, .addList 1 [(9, "c"), (9, "d")],
    .remove 2 0].foldl Cache.step ([] : Cache String)).get 1 9,
    ([Cache.Op.add 1 7 "a", .remove 1 0].foldl Cache.step ([] : Cache String)).get 1 7) =
    (some "d", none) := by decide

/-- C16: a batched lookup keeps in the request exactly the cached properties, in request order and
with the cached values, and reports exactly the others, in request order and untouched; the lookup
succeeds as a whole iff every requested property is cached. -/
theorem C16_batched_lookup_partitions {V : Type} (c : Cache V) (h : Nat) (req : List (Nat × V)) :
    (c.getList h req).1 = req.filterMap (fun e => (c.get h e.1).map (fun v => (e.1, v))) ∧
    (c.getList h req).2 = req.filter (fun e => (c.get h e.1).isNone) ∧
    ((c.getList h req).2 = [] ↔ ∀ e ∈ req, (c.get h e.1).isSome) := by
  refine ⟨Cache.getList_found c h req, Cache.getList_notFound c h req, ?_⟩
  rw [Cache.getList_notFound, List.filter_eq_nil_iff]
  constructor
  · intro g e he; have := g e he; cases hx : c.get h e.1 <;> simp_all
  · intro g e he; have := g e he; cases hx : c.get h e.1 <;> simp_all

/-- C16: no requested property is lost or reported twice: the codes reported are a rearrangement of
the codes requested. -/
theorem C16_each_code_once {V : Type} (c : Cache V) (h : Nat) (req : List (Nat × V)) :
    (((c.getList h req).1 ++ (c.getList h req).2).map (·.1)).Perm (req.map (·.1)) := by
  induction req with
  | nil => exact List.Perm.nil
  | cons e r ih =>
    obtain ⟨p, o⟩ := e
    simp only [Cache.getList]
    cases c.get h p with
    | some v => simpa using ih
    | none =>
      simp only [List.map_append, List.map_cons] at ih ⊢
      exact List.perm_middle.trans (ih.cons p)

example : Cache.getList ([(1, [(7, "x")])] : Cache String) 1 [(8, ""), (7, ""), (9, "")] =
    ([(7, "x")], [(8, ""), (9, "")]) := by decide

end Props
