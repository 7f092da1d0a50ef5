import Verif.Lemmas.Persist
import Verif.Lemmas.TreeIds
/-! Lemmas about the reference file. -/
namespace Mtp
open Spec

/-- The entry of an object with id `e.1` and references to the ids `e.2`. -/
def refBytes (e : Nat × List Nat) : List UInt8 :=
  leBytes 16 e.1 ++ (leBytes 4 e.2.length ++ e.2.flatMap (leBytes 16))

/-- Sizes within the fields. -/
def RefOk (e : Nat × List Nat) : Prop := e.1 < 2^128 ∧ e.2.length < 2^32 ∧ ∀ v ∈ e.2, v < 2^128

theorem loadRefList_spec (look : Nat → Option Nat) (f : List UInt8) : ∀ (vs : List Nat) (pu : List UInt8) (acc : List Nat),
    pu.length = 16 → (∀ v ∈ vs, v < 2^128) →
    ∃ pu', pu'.length = 16 ∧
      loadRefList look vs.length pu (vs.flatMap (leBytes 16) ++ f) acc = some (acc ++ vs.filterMap look, pu', f) := by
  intro vs
  induction vs with
  | nil => intro pu acc hp _; exact ⟨pu, hp, by simp [loadRefList]⟩
  | cons v vs ih =>
    intro pu acc hp hv
    obtain ⟨pu', a, b⟩ := ih (leBytes 16 v) (match look v with | some h => acc ++ [h] | none => acc) (leBytes_length _ _)
      (fun v h => hv v (List.mem_cons_of_mem _ h))
    refine ⟨pu', a, ?_⟩
    rw [List.length_cons, List.flatMap_cons, List.append_assoc]
    unfold loadRefList
    rw [rdInto_append (leBytes_length _ _) (by omega) (by omega)]
    simp only [leVal16 (hv v List.mem_cons_self)]
    cases hl : look v with
    | none => rw [hl] at b; simp only at b ⊢; rw [b]; simp [hl]
    | some h => rw [hl] at b; simp only at b ⊢; rw [b]; simp [hl]

/-- What reading an entry does to the map. -/
def refPut (look : Nat → Option Nat) (m : AMap Nat (List Nat)) (e : Nat × List Nat) : AMap Nat (List Nat) :=
  match look e.1 with
  | some h => AMap.insert m h (e.2.filterMap look)
  | none => m

theorem loadRefs_spec (look : Nat → Option Nat) (f : List UInt8) (j : Nat) : ∀ (es : List (Nat × List Nat))
    (op n rp : List UInt8) (m : AMap Nat (List Nat)), op.length = 16 → n.length = 4 → rp.length = 16 →
    (∀ e ∈ es, RefOk e) →
    ∃ op' n' rp', loadRefs look (es.length + j) op n rp (es.flatMap refBytes ++ f) m =
      loadRefs look j op' n' rp' f (es.foldl (refPut look) m) := by
  intro es
  induction es with
  | nil => intro op n rp m _ _ _ _; exact ⟨op, n, rp, by simp⟩
  | cons e es ih =>
    intro op n rp m h1 h2 h3 hok
    obtain ⟨o1, o2, o3⟩ := hok e List.mem_cons_self
    obtain ⟨pu', hp', hl⟩ := loadRefList_spec look (es.flatMap refBytes ++ f) e.2 rp [] h3 o3
    obtain ⟨op', n', rp', hrec⟩ := ih (leBytes 16 e.1) (leBytes 4 e.2.length) pu' (refPut look m e) (leBytes_length _ _)
      (leBytes_length _ _) hp' (fun e he => hok e (List.mem_cons_of_mem _ he))
    refine ⟨op', n', rp', ?_⟩
    rw [List.length_cons, show es.length + 1 + j = (es.length + j) + 1 by omega, List.flatMap_cons, refBytes,
      List.append_assoc, List.append_assoc, List.append_assoc, List.foldl_cons, ← hrec]
    conv => lhs; unfold loadRefs
    rw [rdInto_append (leBytes_length _ _) (by omega) (by omega)]
    simp only
    rw [rdInto_append (leBytes_length _ _) (by omega) (by omega)]
    simp only [leVal4 o2, leVal16 o1]
    rw [hl]
    rfl

/-- The references of a storage in terms of ids, as stored. -/
def idRefs (s : RefTree) : List (Nat × List Nat) :=
  s.refs.filterMap (fun e => match s.t.get e.1 with
    | none => none
    | some it => if it.fmt = PLAYLIST then none else some (it.puoid, refIds s.t e.2))

theorem storeRefs_eq (s : RefTree) : storeRefs s = leBytes 4 (idRefs s).length ++ (idRefs s).flatMap refBytes := by
  have h : ∀ l : List (Nat × List Nat), l.filterMap (refEntry s.t) =
      (l.filterMap (fun e => match s.t.get e.1 with
        | none => none
        | some it => if it.fmt = PLAYLIST then none else some (it.puoid, refIds s.t e.2))).map refBytes := by
    intro l
    rw [List.map_filterMap]
    congr 1
    funext e
    unfold refEntry
    cases s.t.get e.1 with
    | none => rfl
    | some it =>
      simp only
      split
      · rfl
      · simp [refBytes]
  unfold storeRefs
  rw [h]
  simp only [List.length_map, List.flatMap_def]
  rfl

theorem readRefs_eq (look : Nat → Option Nat) (es : List (Nat × List Nat)) (hn : es.length < 2^32)
    (hok : ∀ e ∈ es, RefOk e) :
    readRefs look (leBytes 4 es.length ++ es.flatMap refBytes) = es.foldl (refPut look) [] := by
  unfold readRefs
  rw [rdInto_append (leBytes_length _ _) (by omega) (by simp [leBytes_length])]
  simp only [leVal4 hn]
  obtain ⟨op', n', rp', h⟩ := loadRefs_spec look [] 0 es (leBytes 16 0) (leBytes 4 0) (leBytes 16 0) [] (leBytes_length _ _)
    (leBytes_length _ _) (leBytes_length _ _) hok
  rw [List.append_nil, Nat.add_zero] at h
  rw [h]; rfl

theorem foldl_refPut {look : Nat → Option Nat} (hinj : ∀ a b h, look a = some h → look b = some h → a = b) :
    ∀ (es : List (Nat × List Nat)) (m : AMap Nat (List Nat)), (es.map (·.1)).Nodup → ∀ h2,
      (∀ e ∈ es, look e.1 = some h2 → AMap.get (es.foldl (refPut look) m) h2 = some (e.2.filterMap look)) ∧
      ((∀ e ∈ es, look e.1 ≠ some h2) → AMap.get (es.foldl (refPut look) m) h2 = AMap.get m h2) := by
  intro es
  induction es with
  | nil => intro m _ h2; exact ⟨fun e he => absurd he (List.not_mem_nil), fun _ => rfl⟩
  | cons e es ih =>
    intro m hn h2
    rw [List.map_cons, List.nodup_cons] at hn
    obtain ⟨i1, i2⟩ := ih (refPut look m e) hn.2 h2
    have hput : ∀ h', look e.1 = some h' → AMap.get (refPut look m e) h' = some (e.2.filterMap look) := by
      intro h' he
      unfold refPut; rw [he]; simp only; rw [AMap.get_insert, if_pos rfl]
    have hother : look e.1 ≠ some h2 → AMap.get (refPut look m e) h2 = AMap.get m h2 := by
      intro hne
      unfold refPut
      cases hl : look e.1 with
      | none => rfl
      | some h' =>
        simp only
        rw [AMap.get_insert, if_neg]
        rintro rfl; exact hne hl
    constructor
    · intro e' he' hl
      rw [List.foldl_cons]
      rcases List.mem_cons.mp he' with rfl | hm
      · rw [i2 ?_, hput h2 hl]
        intro e'' hm hl'
        exact hn.1 (List.mem_map.mpr ⟨e'', hm, hinj _ _ _ hl' hl⟩)
      · exact i1 e' hm hl
    · intro hno
      rw [List.foldl_cons, i2 (fun e' hm => hno e' (List.mem_cons_of_mem _ hm)), hother (hno e List.mem_cons_self)]

/-- Looking up an id among the files. -/
theorem p2h_iff {t : Tree} (w : TreeWF t) (i : IdsInv t) (v h : Nat) :
    p2h t v = some h ↔ ∃ it, t.get h = some it ∧ it.puoid = v ∧ it.fmt ≠ ASSOC := by
  have hmem : ∀ (l : AMap Nat Item), (l.map (·.1)).Nodup → ∀ h it, (h, it) ∈ l → AMap.get l h = some it := by
    intro l
    induction l with
    | nil => intro _ h it hm; cases hm
    | cons e l ih =>
      intro hn h it hm
      rw [List.map_cons, List.nodup_cons] at hn
      obtain ⟨k, v⟩ := e
      rcases List.mem_cons.mp hm with heq | hm'
      · cases heq; simp [AMap.get]
      · have : h ≠ k := by
          intro hk; subst hk; exact hn.1 (List.mem_map.mpr ⟨(h, it), hm', rfl⟩)
        simp only [AMap.get, this, if_false]
        exact ih hn.2 h it hm'
  constructor
  · intro hp
    have := AMap.mem_of_get hp
    rw [List.mem_filterMap] at this
    obtain ⟨⟨k, it⟩, hm, he⟩ := this
    simp only at he
    split at he
    · cases he
    · next hf =>
      injection he with he
      injection he with he1 he2
      exact ⟨it, he2 ▸ hmem _ w.nodup k it hm, he1, hf⟩
  · rintro ⟨it, hg, rfl, hf⟩
    have hs : (p2h t it.puoid).isSome := by
      unfold p2h
      rw [AMap.get_isSome_iff]
      refine ⟨h, ?_⟩
      rw [List.mem_filterMap]
      exact ⟨(h, it), AMap.mem_of_get hg, by simp [hf]⟩
    obtain ⟨h', hh'⟩ := Option.isSome_iff_exists.mp hs
    have := AMap.mem_of_get hh'
    rw [List.mem_filterMap] at this
    obtain ⟨⟨k, it'⟩, hm, he⟩ := this
    simp only at he
    split at he
    · cases he
    · next hf' =>
      injection he with he
      injection he with he1 he2
      have hg' := hmem _ w.nodup k it' hm
      have : it'.path = it.path := i.inj _ _ _ (i.own k it' hg') (by rw [he1]; exact i.own h it hg)
      have hk : k = h := w.inj hg' hg this
      rw [hh', ← he2, hk]

end Mtp
