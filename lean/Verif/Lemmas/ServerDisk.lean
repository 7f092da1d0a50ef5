import Verif.Lemmas.AMap
import Verif.Lemmas.FileIO
import Verif.Lemmas.TreeStep
import Verif.Spec.Server
/-! The files of a storage: writing to one of them. -/
namespace Mtp

theorem AMap.get_mapVal {K V W : Type} [DecidableEq K] (g : K → V → W) (m : AMap K V) (k : K) :
    AMap.get (m.map fun e => (e.1, g e.1 e.2)) k = (AMap.get m k).map (g k) := by
  induction m with
  | nil => rfl
  | cons e m ih =>
    obtain ⟨x, v⟩ := e
    simp only [List.map_cons, AMap.get]
    split
    · next h => subst h; rfl
    · exact ih

theorem AMap.get_filterKey {K V : Type} [DecidableEq K] (f : K → Bool) (m : AMap K V) (k : K) :
    AMap.get (m.filter fun e => f e.1) k = if f k then AMap.get m k else none := by
  induction m with
  | nil => simp [AMap.get]
  | cons e m ih =>
    obtain ⟨x, v⟩ := e
    simp only [List.filter_cons]
    split
    · next h =>
      simp only [AMap.get]
      split
      · next hk => subst hk; simp [h]
      · exact ih
    · next h =>
      rw [ih]
      simp only [AMap.get]
      split
      · next hf =>
        rw [if_neg]
        intro hk; subst hk; exact h hf
      · rfl

/-- Renaming keys. -/
theorem AMap.get_mapKey {K V : Type} [DecidableEq K] (f : K → K) (m : AMap K V) (k : K)
    (inj : ∀ j, (AMap.get m j).isSome → f j = f k → j = k) :
    AMap.get (m.map fun e => (f e.1, e.2)) (f k) = AMap.get m k := by
  induction m with
  | nil => rfl
  | cons e m ih =>
    obtain ⟨x, v⟩ := e
    simp only [List.map_cons, AMap.get]
    by_cases hx : k = x
    · subst hx; simp
    · rw [if_neg hx, if_neg]
      · apply ih
        intro j hj e
        apply inj j _ e
        simp only [AMap.get]; split
        · rfl
        · exact hj
      · intro e
        exact hx (inj x (by simp [AMap.get]) e.symm).symm

theorem AMap.get_mapKey_none {K V : Type} [DecidableEq K] (f : K → K) (m : AMap K V) (k : K)
    (h : ∀ j, (AMap.get m j).isSome → f j ≠ k) :
    AMap.get (m.map fun e => (f e.1, e.2)) k = none := by
  induction m with
  | nil => rfl
  | cons e m ih =>
    obtain ⟨x, v⟩ := e
    simp only [List.map_cons, AMap.get]
    rw [if_neg]
    · apply ih
      intro j hj
      apply h
      simp only [AMap.get]; split
      · rfl
      · exact hj
    · intro e
      exact h x (by simp [AMap.get]) e.symm

namespace FStore

theorem writeLoop_keys : ∀ (ws : List (Option Nat)) (s : FStore) (path : String) (pos : Nat) (d : List UInt8) (p : String),
    (AMap.get (s.writeLoop path pos d ws).1.files p).isSome = (AMap.get s.files p).isSome := by
  have ins : ∀ (s : FStore) (path p : String) (c c' : List UInt8), AMap.get s.files path = some c →
      (AMap.get (AMap.insert s.files path c') p).isSome = (AMap.get s.files p).isSome := by
    intro s path p c c' h
    rw [AMap.get_insert]
    split
    · next e => subst e; rw [h]; rfl
    · rfl
  intro ws
  induction ws with
  | nil =>
    intro s path pos d p
    unfold writeLoop
    split
    · rfl
    · split
      · rfl
      · next h => exact ins s path p _ _ h
  | cons w ws ih =>
    intro s path pos d p
    unfold writeLoop
    split
    · rfl
    · split
      · rfl
      · split
        · exact ih ..
        · next h =>
          dsimp only
          split
          · exact ih ..
          · rw [ih]; exact ins s path p _ _ h

/-- The same files, object `h` perhaps of another size; a file open now was open before or is `q`. -/
structure Same (f f' : FStore) (h : Nat) (q : String) : Prop where
  items : ∀ x, x ≠ h → AMap.get f'.items x = AMap.get f.items x
  item : ∀ it, AMap.get f.items h = some it → ∃ n, AMap.get f'.items h = some { it with size := n }
  keys : ∀ p, (AMap.get f'.files p).isSome = (AMap.get f.files p).isSome
  open_ : ∀ p n, f'.dataFile = some (p, n) → (∃ m, f.dataFile = some (p, m)) ∨ (p = q ∧ (AMap.get f.files p).isSome = true)
  /-- only `q` and the file that was open are changed -/
  other : ∀ p, p ≠ q → (∀ m, f.dataFile ≠ some (p, m)) → AMap.get f'.files p = AMap.get f.files p

theorem Same.refl (f : FStore) (h : Nat) (q : String) : Same f f h q :=
  ⟨fun _ _ => rfl, fun it e => ⟨it.size, e⟩, fun _ => rfl, fun _ n e => Or.inl ⟨n, e⟩, fun _ _ _ => rfl⟩

theorem Same.of {f f' : FStore} {h : Nat} {q : String} (h1 : f'.items = f.items) (h2 : f'.files = f.files)
    (h3 : ∀ p n, f'.dataFile = some (p, n) → (∃ m, f.dataFile = some (p, m)) ∨ (p = q ∧ (AMap.get f.files p).isSome = true)) : Same f f' h q :=
  ⟨fun _ _ => by rw [h1], fun it e => ⟨it.size, by rw [h1]; exact e⟩, fun _ => by rw [h2], h3, fun _ _ _ => by rw [h2]⟩

theorem openRW_same (f : FStore) (h : Nat) (q : String) (hq : (AMap.get f.files q).isSome = true) :
    Same f (f.openRW q) h q := by
  unfold openRW
  rw [if_pos hq]
  exact Same.of rfl rfl (fun p n e => by cases e; exact Or.inr ⟨rfl, hq⟩)

theorem Same.trans {a b c : FStore} {h : Nat} {q : String} (h1 : Same a b h q) (h2 : Same b c h q) : Same a c h q := by
  refine ⟨fun x hx => (h2.items x hx).trans (h1.items x hx), ?_, fun p => (h2.keys p).trans (h1.keys p), ?_, ?_⟩
  · intro it e
    obtain ⟨n, e1⟩ := h1.item it e
    obtain ⟨m, e2⟩ := h2.item _ e1
    exact ⟨m, e2⟩
  · intro p n e
    rcases h2.open_ p n e with ⟨m, e⟩ | e
    · exact h1.open_ p m e
    · exact Or.inr ⟨e.1, by rw [← h1.keys]; exact e.2⟩
  · intro p hp hd
    rw [h2.other p hp, h1.other p hp hd]
    intro m e
    rcases h1.open_ p m e with ⟨n, e⟩ | e
    · exact hd n e
    · exact hp e.1

theorem loop_same (f : FStore) (h : Nat) (q path : String) (pos off : Nat) (d : List UInt8) (ws : List (Option Nat)) (n : Nat)
    (hd : f.dataFile = some (path, pos)) :
    Same f { (f.writeLoop path off d ws).1 with dataFile := some (path, n) } h q := by
  obtain ⟨h1, h2, h3, h4⟩ := writeLoop_frame ws f path off d
  refine ⟨fun x _ => ?_, fun it e => ⟨it.size, ?_⟩, fun p => writeLoop_keys .., fun p m e => ?_, fun p _ hn => ?_⟩
  · show AMap.get (f.writeLoop path off d ws).1.items x = _
    rw [h1]
  · show AMap.get (f.writeLoop path off d ws).1.items h = _
    rw [h1]; exact e
  · cases e; exact Or.inl ⟨_, hd⟩
  · exact h4 p (fun e => by subst e; exact hn _ hd)

theorem closeCut_same (f : FStore) (h : Nat) (q : String) (lost : Nat) : Same f (f.closeCut lost) h q := by
  unfold closeCut
  split
  · exact Same.refl ..
  · next path pos hd =>
    refine ⟨fun _ _ => rfl, fun it e => ⟨it.size, e⟩, fun p => ?_, fun _ _ e => (by cases e), fun p _ hn => ?_⟩
    · show (AMap.get (match AMap.get f.files path with
        | none => f.files | some c => AMap.insert f.files path _) p).isSome = _
      split
      · rfl
      · next c hc =>
        rw [AMap.get_insert]
        split
        · next e => subst e; rw [hc]; rfl
        · rfl
    · show AMap.get (match AMap.get f.files path with
        | none => f.files | some c => AMap.insert f.files path _) p = _
      split
      · rfl
      · next c hc =>
        rw [AMap.get_insert, if_neg]
        intro e; subst e; exact hn _ hd

theorem writeData_same (f : FStore) (io : FileIO) (h : Nat) (buf : Option (List UInt8)) (first last : Bool) (it : FItem)
    (hi : AMap.get f.items h = some it) (hq : io.openOk = true → (AMap.get f.files it.path).isSome = true) :
    Same f (f.writeData io h buf first last).1 h it.path := by
  unfold writeData
  rw [hi]
  simp only
  split
  · exact Same.trans (b := { f with writing := 0 }) (Same.of rfl rfl fun _ n e => Or.inl ⟨n, e⟩) (closeCut_same ..)
  · have h0 : Same f { f with writing := h } h it.path := Same.of rfl rfl fun _ n e => Or.inl ⟨n, e⟩
    split
    · exact Same.of rfl rfl fun _ n e => by cases e
    · next hno =>
      have h1 : Same f (if first = true then FStore.openRW { f with writing := h } it.path else { f with writing := h }) h it.path := by
        split
        · next hf =>
          refine h0.trans (openRW_same _ _ _ (hq ?_))
          cases ho : io.openOk
          · exact absurd ⟨hf, ho⟩ hno
          · rfl
        · exact h0
      generalize (if first = true then FStore.openRW { f with writing := h } it.path else { f with writing := h }) = g at h1 ⊢
      split
      · exact h1
      · next path pos hd =>
        split
        · exact h1
        · exact h1.trans (loop_same g h it.path path pos pos _ _ _ hd)

theorem truncateItem_same (f : FStore) (io : FileIO) (h size : Nat) (it : FItem) (hi : AMap.get f.items h = some it) :
    Same f (f.truncateItem io h size).1 h it.path := by
  unfold truncateItem
  rw [hi]
  simp only
  split
  · exact Same.refl ..
  · split
    · next c _ hc =>
      refine ⟨fun x hx => ?_, fun it' e => ⟨size, ?_⟩, fun p => ?_, fun _ n e => Or.inl ⟨n, e⟩, fun p hp _ => ?_⟩
      · show AMap.get (AMap.insert f.items h _) x = _
        rw [AMap.get_insert, if_neg hx]
      · show AMap.get (AMap.insert f.items h _) h = _
        rw [hi] at e; cases e
        rw [AMap.get_insert, if_pos rfl]
      · show (AMap.get (AMap.insert f.files it.path _) p).isSome = _
        rw [AMap.get_insert]
        split
        · next e => subst e; rw [hc]; rfl
        · rfl
      · show AMap.get (AMap.insert f.files it.path _) p = _
        rw [AMap.get_insert, if_neg hp]
    · exact Same.refl ..

theorem closePartial_same (f : FStore) (h : Nat) (q : String) (it it' : FItem) (hi : AMap.get f.items h = some it)
    (hp : it' = { it with size := it'.size }) :
    Same f (f.closePartial h it') h q := by
  unfold closePartial
  split
  · exact Same.of rfl rfl fun _ n e => Or.inl ⟨n, e⟩
  · refine ⟨fun x hx => ?_, fun i e => ?_, fun _ => rfl, fun _ n e => (by cases e), fun _ _ _ => rfl⟩
    · show AMap.get (AMap.insert f.items h _) x = _
      rw [AMap.get_insert, if_neg hx]
    · rw [hi] at e; cases e
      refine ⟨((AMap.get f.files it'.path).getD []).length, ?_⟩
      show AMap.get (AMap.insert f.items h _) h = _
      rw [AMap.get_insert, if_pos rfl, hp]

theorem writePartial_same (f f' : FStore) (io : FileIO) (h off : Nat) (d : List UInt8) (first last : Bool) (it : FItem) (r : Resp)
    (hi : AMap.get f.items h = some it) (hq : io.openOk = true → (AMap.get f.files it.path).isSome = true)
    (e : f.writePartial io h off d first last = .ok (f', r)) : Same f f' h it.path := by
  unfold writePartial at e
  rw [hi] at e
  simp only at e
  have fin : ∀ g : FStore, Same f g h it.path → Same f (g.closePartial h it) h it.path := by
    intro g hg
    obtain ⟨n, e⟩ := hg.item it hi
    exact hg.trans (closePartial_same g h it.path _ it e rfl)
  split at e
  · simp only [Res.ok.injEq, Prod.mk.injEq] at e; obtain ⟨e, _⟩ := e; subst e
    exact Same.of rfl rfl fun _ n e => by cases e
  · next hno =>
    have h1 : Same f (if first = true then FStore.openRW { f with writing := h } it.path else f) h it.path := by
      split
      · next hf =>
        refine Same.trans (b := { f with writing := h }) (Same.of rfl rfl fun _ n e => Or.inl ⟨n, e⟩) (openRW_same _ _ _ (hq ?_))
        cases ho : io.openOk
        · exact absurd ⟨hf, ho⟩ hno
        · rfl
      · exact Same.refl ..
    generalize (if first = true then FStore.openRW { f with writing := h } it.path else f) = g at h1 e
    split at e
    · simp only [Res.ok.injEq, Prod.mk.injEq] at e; obtain ⟨e, _⟩ := e; subst e
      split
      · exact h1.trans (Same.of rfl rfl fun _ n e => Or.inl ⟨n, e⟩)
      · exact h1
    · next path pos hd =>
      have h2 := h1.trans (loop_same g h it.path path pos off d io.writes (g.writeLoop path off d io.writes).2.1 hd)
      split at e
      · simp only [Res.ok.injEq, Prod.mk.injEq] at e; obtain ⟨e, _⟩ := e; subst e
        exact fin _ h1
      · split at e
        · simp only [Res.ok.injEq, Prod.mk.injEq] at e; obtain ⟨e, _⟩ := e; subst e
          split
          · exact fin _ h2
          · exact h2
        · simp only [Res.ok.injEq, Prod.mk.injEq] at e; obtain ⟨e, _⟩ := e; subst e
          exact fin _ h2

end FStore
end Mtp
