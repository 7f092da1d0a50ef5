import Verif.Lemmas.Factory
/-! Property theorems C17, C59: property reads through the factory, routing. -/
namespace Props
open Mtp

/-- C17: after any history of reads, host-side changes the storage took, device-side changes it
announced, deletions, moves within a storage and additions, reading properties of a live object
succeeds and returns exactly the values the storages hold at that moment, provided no change
announcement for these properties is still undelivered. -/
theorem C17_reads_fresh_partial {V : Type} (st : Store V) (next : Nat) (ops : List (Fac.Op V))
    (hlive : ∀ h, st.has h = true → h < next) (hkids : ∀ p, ∀ k ∈ st.kids p, k < next)
    (ha : ∀ op ∈ ops, Fac.Announced op) (h : Nat) (codes : List Nat) :
    let s := ops.foldl Fac.step (Fac.init st next)
    s.store.has h = true → (s.store.has (s.store.parent h) = true ∨ h = 0) →
    (∀ p ∈ codes, ¬ Fac.Pending s.queue h p) →
    (s.read h codes).2.1 = .ok ∧
    (s.read h codes).2.2.Perm (codes.map (fun p => (p, s.store.val h p))) := by
  have key : ∀ (ops : List (Fac.Op V)) (s : Fac V), Fac.Inv s → (∀ op ∈ ops, Fac.Announced op) →
      Fac.Inv (ops.foldl Fac.step s) := by
    intro ops
    induction ops with
    | nil => intro s hs _; exact hs
    | cons op ops ih =>
      intro s hs ha
      exact ih _ (hs.step op (ha op (by simp))) (fun o ho => ha o (by simp [ho]))
  have h0 : Fac.Inv (Fac.init st next) :=
    ⟨fun h p v _ e => by simp [Fac.init, Cache.get, AMap.get] at e,
     fun h p v e => by simp [Fac.init, Cache.get, AMap.get] at e, hlive, hkids⟩
  exact (Fac.read_spec (key ops _ h0 ha) h codes).2.2

/-- C17: once every announcement has been delivered, every read is exact. -/
theorem C17_quiescent_reads_fresh_partial {V : Type} (st : Store V) (next : Nat)
    (ops : List (Fac.Op V))
    (hlive : ∀ h, st.has h = true → h < next) (hkids : ∀ p, ∀ k ∈ st.kids p, k < next)
    (ha : ∀ op ∈ ops, Fac.Announced op) (h : Nat) (codes : List Nat) :
    let s := ops.foldl Fac.step (Fac.init st next)
    s.queue = [] → s.store.has h = true → (s.store.has (s.store.parent h) = true ∨ h = 0) →
    (s.read h codes).2.1 = .ok ∧
    (s.read h codes).2.2.Perm (codes.map (fun p => (p, s.store.val h p))) := by
  intro s hq hh hp
  exact C17_reads_fresh_partial st next ops hlive hkids ha h codes hh hp
    (fun p _ => by rw [show (ops.foldl Fac.step (Fac.init st next)).queue = [] from hq]
                   simp [Fac.Pending])

/-- A storage with root 0 and two files 1 and 2. -/
def demoStore : Store Nat :=
  { has := fun h => decide (h ≤ 2), parent := fun _ => 0,
    kids := fun h => if h = 0 then [2, 1] else [], val := fun h p => 100 * h + p }

private def demo (ops : List (Fac.Op Nat)) : Fac Nat := ops.foldl Fac.step (Fac.init demoStore 3)

example : ((demo [.read 1 [5, 6], .devProp 2 5 7, .read 1 [6], .deliver, .move 2 1 none 1,
    .set 1 [(6, 9)] true]).read 2 [5, 6]).2 = (.ok, [(6, 206), (5, 7)]) := by decide

/-- C17 is violated while an announcement is still queued: the old value is returned. -/
theorem C17_pending_announcement_violated :
    let s := demo [.read 1 [5], .devProp 1 5 7]
    (s.read 1 [5]).2 = (.ok, [(5, 105)]) ∧ s.store.val 1 5 = 7 := by decide

/-- C17 is violated if the storage answers OK to a set it did not carry out (failed rename,
property other than the file name): the factory caches the requested value. -/
theorem C17_set_not_applied_violated :
    let s := demo [.set 1 [(5, 7)] false]
    (s.read 1 [5]).2 = (.ok, [(5, 7)]) ∧ s.store.val 1 5 = 105 ∧ s.queue = [] := by decide

/-- C17 is violated by a move to another storage: the cached storage id stays. -/
theorem C17_cross_storage_move_violated :
    let s := demo [.read 1 [STORAGEID], .move 1 0 (some 65538) 0]
    (s.read 1 [STORAGEID]).2 = (.ok, [(STORAGEID, 100 + STORAGEID)]) ∧
    s.store.val 1 STORAGEID = 65538 ∧ s.queue = [] := by decide

/-- C17: nothing is told about an object that is gone: right after the host deleted it, any property asked for is refused
as an unknown handle, whatever was cached, and so it is for a handle that never existed. -/
theorem C17_gone_refused {V : Type} (s : Fac V) (h : Nat) (sub codes : List Nat) (hne : codes ≠ []) :
    ((s.step (.delete h sub)).read h codes).2 = (.invalidObjectHandle, []) ∧
    (s.store.has h = false → (∀ p, s.cache.get h p = none) → (s.read h codes).2 = (.invalidObjectHandle, [])) := by
  have split : ∀ (c : Cache V) (l : List Nat), (∀ p, c.get h p = none) → Fac.splitReq c h l = ([], l) := by
    intro c l hc
    induction l with
    | nil => rfl
    | cons p l ih => simp [Fac.splitReq, ih, hc p]
  have key : ∀ s : Fac V, s.store.has h = false → (∀ p, s.cache.get h p = none) →
      (s.read h codes).2 = (.invalidObjectHandle, []) := by
    intro s hh hc
    unfold Fac.read
    simp [split _ codes hc, hne, hh]
  refine ⟨key _ (by simp [Fac.step]) ?_, key s⟩
  intro p
  simp [Fac.step, Cache.get_remove, Spec.invalidates]

example : ((demo [.read 1 [5]]).step (.delete 1 [])).read 1 [5] |>.2 |> (· = (.invalidObjectHandle, [])) := by decide

/-! ### C59 -/

variable {S Q R : Type}

/-- C59: a request about a handle is executed by exactly one storage, which contains the handle; all
others stay as they are, and the result is that storage's. Storages before it do not contain the
handle. -/
theorem C59_handle_routed (pl : Plugin S Q R) (bad : R) (h : Nat) (q : Q) (ss : List (Nat × S))
    (hex : ∃ s ∈ ss, pl.has s.2 h = true) :
    ∃ before after i s, ss = before ++ (i, s) :: after ∧ pl.has s h = true ∧
      (∀ t ∈ before, pl.has t.2 h = false) ∧
      routeHandle pl bad h q ss = (before ++ (i, (pl.exec s h q).1) :: after, (pl.exec s h q).2) := by
  induction ss with
  | nil => obtain ⟨s, hs, _⟩ := hex; simp at hs
  | cons e r ih =>
    obtain ⟨i, s⟩ := e
    by_cases hs : pl.has s h = true
    · exact ⟨[], r, i, s, rfl, hs, by simp, by simp [routeHandle, hs]⟩
    · obtain ⟨b, a, j, t, e1, e2, e3, e4⟩ := ih (by
        obtain ⟨t, ht, hh⟩ := hex
        rcases List.mem_cons.mp ht with g | g
        · subst g; exact absurd hh hs
        · exact ⟨t, g, hh⟩)
      refine ⟨(i, s) :: b, a, j, t, by simp [e1], e2, ?_, ?_⟩
      · intro t ht
        rcases List.mem_cons.mp ht with g | g
        · subst g; simpa using hs
        · exact e3 t g
      · simp [routeHandle, hs, e4]

/-- C59: an unknown handle is refused and nothing changes. -/
theorem C59_unknown_handle_refused (pl : Plugin S Q R) (bad : R) (h : Nat) (q : Q)
    (ss : List (Nat × S)) (hno : ∀ s ∈ ss, pl.has s.2 h = false) :
    routeHandle pl bad h q ss = (ss, bad) := by
  induction ss with
  | nil => rfl
  | cons e r ih =>
    obtain ⟨i, s⟩ := e
    have h1 := hno (i, s) (by simp)
    simp only at h1
    simp [routeHandle, h1, ih (fun s hs => hno s (by simp [hs]))]

/-- C59: if handles are not shared between storages, the executing storage is the owner. -/
theorem C59_owner_executes (pl : Plugin S Q R) (bad : R) (h : Nat) (q : Q) (before after : List (Nat × S))
    (i : Nat) (s : S) (hown : pl.has s h = true) (huniq : ∀ t ∈ before, pl.has t.2 h = false) :
    routeHandle pl bad h q (before ++ (i, s) :: after) =
      (before ++ (i, (pl.exec s h q).1) :: after, (pl.exec s h q).2) := by
  induction before with
  | nil => simp [routeHandle, hown]
  | cons e r ih =>
    obtain ⟨j, t⟩ := e
    have h1 := huniq (j, t) (by simp)
    simp only at h1
    simp [routeHandle, h1, ih (fun s hs => huniq s (by simp [hs]))]

/-- C59: a request naming a storage is executed by that storage only; an unknown id is refused. -/
theorem C59_storage_routed (f : S → S × R) (bad : R) (id : Nat) (ss : List (Nat × S)) :
    (∀ before after s, ss = before ++ (id, s) :: after → (∀ t ∈ before, t.1 ≠ id) →
      routeStorage f bad id ss = (before ++ (id, (f s).1) :: after, (f s).2)) ∧
    ((∀ s ∈ ss, s.1 ≠ id) → routeStorage f bad id ss = (ss, bad)) := by
  induction ss with
  | nil => exact ⟨fun b a s e => by simp at e, fun _ => rfl⟩
  | cons e r ih =>
    obtain ⟨j, t⟩ := e
    constructor
    · intro b a s e hb
      cases b with
      | nil =>
        simp only [List.nil_append, List.cons.injEq, Prod.mk.injEq] at e
        obtain ⟨⟨rfl, rfl⟩, rfl⟩ := e
        simp [routeStorage]
      | cons x b =>
        simp only [List.cons_append, List.cons.injEq] at e
        obtain ⟨rfl, e⟩ := e
        have hj := hb (j, t) (by simp)
        simp only at hj
        simp [routeStorage, hj, ih.1 b a s e (fun t ht => hb t (by simp [ht]))]
    · intro hno
      have hj := hno (j, t) (by simp)
      simp only at hj
      simp [routeStorage, hj, ih.2 (fun s hs => hno s (by simp [hs]))]

/-- Two storages both containing the root handle 0, and one object each. -/
private def demoPl : Plugin (List Nat) Unit (List Nat) :=
  { has := fun s h => s.contains h, exec := fun s h _ => (h :: s, s) }

example : routeHandle demoPl [] 7 () [(1, [0, 5]), (2, [0, 7])] =
    ([(1, [0, 5]), (2, [7, 0, 7])], [0, 7]) := by decide

/-- C59 is violated by property reads of a deleted object whose properties are still cached: the
request succeeds although no storage has the object (here a descendant removed together with its
folder, for which no event is sent). -/
theorem C59_deleted_object_violated :
    let s := demo [.move 1 2 none 2, .read 1 [5], .delete 2 [1]]
    s.store.has 1 = false ∧ (s.read 1 [5]).2 = (.ok, [(5, 105)]) := by decide

/-- C59: the root handle 0 exists in every storage, so a request about the root of the second
storage is executed by the first. -/
theorem C59_root_ambiguous_violated :
    (routeHandle demoPl [] 0 () [(1, [0, 5]), (2, [0, 7])]).2 = [0, 5] := by decide

end Props
