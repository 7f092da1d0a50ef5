import Verif.Lemmas.FactsStep
/-! The invariants behind C81: the objects of a storage and the files, for every history and every delay of notifications. -/
namespace Mtp
open Spec

/-- The path of an object. -/
def whereIs (s : FactSt) (h : Nat) : Option Path := (AMap.get s.objs h).map (·.1)

/-- The two maps agree, and what is known exists or a waiting notification will make it go. -/
structure Maps (s : FactSt) : Prop where
  both : ∀ h p, whereIs s h = some p ↔ AMap.get s.paths p = some h
  small : ∀ h p, whereIs s h = some p → h < s.next
  here : ∀ p, AMap.get s.paths p ≠ none → AMap.get s.disk p ≠ none ∨ GoneIn s.pending p
  adds : AddOk (AMap.get s.disk) s.pending
  other : ∀ p, .moved p p ∉ s.pending

/-- Objects stay, files may appear, and their appearance is notified. -/
structure Grows (s s' : FactSt) (l : List Note) : Prop where
  objs : ∀ h, whereIs s' h = whereIs s h
  paths : s'.paths = s.paths
  next : s'.next = s.next
  pending : s'.pending = s.pending ++ l
  notes : ∀ n ∈ l, (∃ p, n = .created p ∧ AMap.get s'.disk p ≠ none) ∨ ∃ p, n = .closed p
  disk : ∀ p, AMap.get s.disk p ≠ none → AMap.get s'.disk p ≠ none
  new : ∀ p, AMap.get s'.disk p ≠ none → AMap.get s.disk p ≠ none ∨ .created p ∈ l

/-- The same, whatever the notifications. -/
def Grow (s s' : FactSt) : Prop := ∃ l, Grows s s' l

theorem Grow.refl (s : FactSt) : Grow s s :=
  ⟨[], fun _ => rfl, rfl, rfl, (List.append_nil _).symm, nofun, fun _ h => h, fun _ h => .inl h⟩

theorem Grow.trans {a b c : FactSt} (x : Grow a b) (y : Grow b c) : Grow a c := by
  obtain ⟨l, x⟩ := x
  obtain ⟨m, y⟩ := y
  refine ⟨l ++ m, fun h => (y.objs h).trans (x.objs h), y.paths.trans x.paths, y.next.trans x.next,
    by rw [y.pending, x.pending, List.append_assoc], fun n hn => ?_, fun p h => y.disk p (x.disk p h), fun p h => ?_⟩
  · rcases List.mem_append.1 hn with hn | hn
    · rcases x.notes n hn with ⟨p, e, g⟩ | g
      · exact .inl ⟨p, e, y.disk p g⟩
      · exact .inr g
    · exact y.notes n hn
  · rcases y.new p h with h | h
    · rcases x.new p h with h | h
      · exact .inl h
      · exact .inr (List.mem_append_left _ h)
    · exact .inr (List.mem_append_right _ h)

theorem grow_same {s s' : FactSt} (ho : ∀ h, whereIs s' h = whereIs s h) (hp : s'.paths = s.paths) (hn : s'.next = s.next)
    (hq : s'.pending = s.pending) (hd : s'.disk = s.disk) : Grow s s' :=
  ⟨[], ho, hp, hn, by rw [hq, List.append_nil], nofun, fun _ h => by rw [hd]; exact h, fun _ h => by rw [hd] at h; exact .inl h⟩

theorem grow_put (s : FactSt) (p : Path) (n : FileNode) (h : AMap.get s.disk p ≠ none) : Grow s (s.put p n) := by
  have get : ∀ q, AMap.get (s.put p n).disk q = if q = p then some n else AMap.get s.disk q := fun q => AMap.get_insert ..
  refine ⟨[], fun _ => rfl, rfl, rfl, (List.append_nil _).symm, nofun, fun q hq => ?_, fun q hq => ?_⟩
  · rw [get]; split
    · exact nofun
    · exact hq
  · rw [get] at hq
    split at hq
    · next e => subst e; exact .inl h
    · exact .inl hq

theorem grow_closed (s : FactSt) (p : Path) : Grow s (s.note (.closed p)) := by
  refine ⟨[.closed p], fun _ => rfl, rfl, rfl, rfl, fun n hn => .inr ⟨p, List.mem_singleton.1 hn⟩, fun _ h => h, fun _ h => .inl h⟩

theorem grow_new (s : FactSt) (p : Path) (n : FileNode) (h : AMap.get s.disk p = none) : Grow s ((s.note (.created p)).put p n) := by
  have get : ∀ q, AMap.get ((s.note (.created p)).put p n).disk q = if q = p then some n else AMap.get s.disk q := fun q => AMap.get_insert ..
  refine ⟨[.created p], fun _ => rfl, rfl, rfl, rfl, fun n hn => .inl ⟨p, List.mem_singleton.1 hn, ?_⟩, fun q hq => ?_, fun q hq => ?_⟩
  · rw [get, if_pos rfl]; exact nofun
  · rw [get]; split
    · exact nofun
    · exact hq
  · rw [get] at hq
    split at hq
    · next e => subst e; exact .inr (List.mem_singleton.2 rfl)
    · exact .inl hq

theorem grow_open (s : FactSt) (p : Path) (now : Int) :
    Grow s (s.openFile p now) ∧ AMap.get (s.openFile p now).disk p ≠ none := by
  unfold FactSt.openFile
  split
  · next h => exact ⟨.refl s, by rw [h]; exact nofun⟩
  · next h =>
    refine ⟨grow_new s p _ h, ?_⟩
    rw [show AMap.get ((s.put p ⟨0, now⟩).note (.created p)).disk p = _ from AMap.get_insert .., if_pos rfl]
    exact nofun

theorem grow_mtime (s : FactSt) (p : Path) (t : Int) (ok : Bool) : Grow s (s.setMtime p t ok) := by
  unfold FactSt.setMtime
  split
  · exact .refl s
  · split
    · exact .refl s
    · next h => exact grow_put s p _ (by rw [h]; exact nofun)

theorem grow_store (s : FactSt) (p : Option Path) (pos n : Nat) (now : Int) : Grow s (s.store p pos n now) := by
  unfold FactSt.store
  split
  · exact .refl s
  · split
    · exact .refl s
    · next h =>
      split
      · exact .refl s
      · exact grow_put s _ _ (by rw [h]; exact nofun)

theorem grow_cut (s : FactSt) (p : Option Path) (pos : Nat) (now : Int) : Grow s (s.cut p pos now) := by
  unfold FactSt.cut
  split
  · exact .refl s
  · split
    · exact .refl s
    · next h => exact (grow_put s _ _ (by rw [h]; exact nofun)).trans (grow_closed _ _)

/-- Other facts about an object. -/
theorem where_said {s s' : FactSt} {h : Nat} {p : Path} {f g : Facts} (hf : whereIs s h = some p)
    (ho : s'.objs = AMap.insert s.objs h (p, g)) (j : Nat) : whereIs s' j = whereIs s j := by
  unfold whereIs
  rw [ho, AMap.get_insert]
  split
  · next e => subst e; exact hf.symm
  · rfl

theorem Grow.pos {s s' : FactSt} (x : Grow s s') (h : Nat) : whereIs s' h = whereIs s h := x.choose_spec.objs h

theorem where_eq {s : FactSt} {h : Nat} {p : Path} {f : Facts} (g : AMap.get s.objs h = some (p, f)) : whereIs s h = some p := by
  unfold whereIs; rw [g]; rfl

theorem grow_seg (s : FactSt) (h : Nat) (first opened ut : Bool) (n : Nat) (now : Int) : Grow s (s.writeSeg h first opened ut n now) := by
  unfold FactSt.writeSeg
  split
  · exact .refl s
  · next p f hf =>
    dsimp only
    split
    · exact grow_same (fun _ => rfl) rfl rfl rfl rfl
    · have hs : ∃ s', (if first = true then
          ({ (({ s with writing := h } : FactSt).openFile p now).setMtime p (parseDate s.zone f.modified) ut with dataFile := some (some p, 0) } : FactSt)
          else { s with writing := h }) = s' ∧ Grow s s' := by
        refine ⟨_, rfl, ?_⟩
        split
        · refine Grow.trans ?_ (grow_same (s := (({ s with writing := h } : FactSt).openFile p now).setMtime p (parseDate s.zone f.modified) ut) (fun _ => rfl) rfl rfl rfl rfl)
          refine Grow.trans ?_ (grow_mtime _ _ _ _)
          refine Grow.trans ?_ (grow_open _ _ _).1
          exact grow_same (fun _ => rfl) rfl rfl rfl rfl
        · exact grow_same (fun _ => rfl) rfl rfl rfl rfl
      obtain ⟨s', e, g⟩ := hs
      rw [e]
      split
      · exact g
      · next q pos _ =>
        exact (g.trans (grow_store s' q pos n now)).trans (grow_same (fun _ => rfl) rfl rfl rfl rfl)

theorem grow_end (s : FactSt) (h : Nat) (ut : Bool) (now : Int) : Grow s (s.writeEnd h ut now) := by
  unfold FactSt.writeEnd
  split
  · exact .refl s
  · next p f hf =>
    dsimp only
    split
    · exact grow_same (fun _ => rfl) rfl rfl rfl rfl
    · next q pos _ =>
      have g : Grow s ((({ s with writing := 0, dataFile := none } : FactSt).cut q pos now).setMtime p (parseDate (({ s with writing := 0, dataFile := none } : FactSt).cut q pos now).zone f.modified) ut) :=
        ((grow_same (s := s) (s' := { s with writing := 0, dataFile := none }) (fun _ => rfl) rfl rfl rfl rfl).trans (grow_cut _ q pos now)).trans (grow_mtime _ _ _ _)
      refine g.trans (grow_same (fun j => where_said (f := f) ?_ rfl j) rfl rfl rfl rfl)
      rw [g.pos]
      exact where_eq hf

theorem grow_edit (s : FactSt) (h off n : Nat) (opened ut : Bool) (now : Int) : Grow s (s.editWrite h off n opened ut now) := by
  unfold FactSt.editWrite
  split
  · exact .refl s
  · next p f hf =>
    split
    · exact grow_same (fun _ => rfl) rfl rfl rfl rfl
    · dsimp only
      have g : Grow s ((((s.openFile p now).store (some p) off n now).note (.closed p)).setMtime p (parseDate s.zone f.modified) ut) :=
        (((grow_open s p now).1.trans (grow_store _ _ _ _ _)).trans (grow_closed _ _)).trans (grow_mtime _ _ _ _)
      refine g.trans (grow_same (fun j => where_said (f := f) ?_ rfl j) rfl rfl rfl rfl)
      rw [g.pos]
      exact where_eq hf

theorem grow_truncate (s : FactSt) (h size : Nat) (ok : Bool) (now : Int) : Grow s (s.truncate h size ok now) := by
  unfold FactSt.truncate
  split
  · exact .refl s
  · next p f hf =>
    split
    · next hd =>
      refine (grow_put s p ⟨size, now⟩ (by rw [hd]; exact nofun)).trans (grow_same (fun j => where_said (f := f) ?_ rfl j) rfl rfl rfl rfl)
      exact where_eq hf
    · exact .refl s

theorem grow_change (s : FactSt) (p : Path) (n : FileNode) : Grow s (s.step (.change p n)) := by
  simp only [FactSt.step]
  split
  · next h =>
    refine (grow_put s p n ?_).trans (grow_same (fun _ => rfl) rfl rfl rfl rfl)
    intro e; rw [e] at h; cases h
  · next h =>
    refine (grow_new s p n ?_).trans (grow_same (fun _ => rfl) rfl rfl rfl rfl)
    simpa using h

theorem grow_close (s : FactSt) (p : Path) : Grow s (s.step (.close p)) := by
  simp only [FactSt.step]
  split
  · exact (grow_same (s := s) (s' := { s with dirty := s.dirty.filter (· ≠ p) }) (fun _ => rfl) rfl rfl rfl rfl).trans (grow_closed _ p)
  · exact .refl s

theorem grow_byName (s : FactSt) (p : Path) (n : FileNode) : Grow s (s.step (.byName p n)) := by
  simp only [FactSt.step]
  split
  · next h => exact grow_put s p n (by intro e; rw [e] at h; cases h)
  · exact .refl s

/-- The names known once the waiting notifications have been handled. -/
def after : List Note → (Path → Prop) → Path → Prop
  | [], k => k
  | .created p :: r, k => after r fun x => x = p ∨ k x
  | .deleted p :: r, k => after r fun x => x ≠ p ∧ k x
  | .moved p q :: r, k => after r fun x => (x = q ∧ k p) ∨ (x ≠ p ∧ k x)
  | .closed _ :: r, k => after r k

theorem after_append (a b : List Note) (k : Path → Prop) : after (a ++ b) k = after b (after a k) := by
  induction a generalizing k with
  | nil => rfl
  | cons n r ih => cases n <;> exact ih _

theorem after_mono {ns : List Note} {k k' : Path → Prop} (h : ∀ x, k x → k' x) (x : Path) : after ns k x → after ns k' x := by
  induction ns generalizing k k' with
  | nil => exact h x
  | cons n r ih =>
    cases n with
    | created p => exact ih fun y => Or.imp_right (h y)
    | deleted p => exact ih fun y => And.imp_right (h y)
    | moved p q => exact ih fun y => Or.imp (And.imp_right (h p)) (And.imp_right (h y))
    | closed p => exact ih h

/-- What is known stays known if no notification makes it go. -/
theorem after_stay {ns : List Note} {k : Path → Prop} {p : Path} (g : ¬ GoneIn ns p) (h : k p) : after ns k p := by
  induction ns generalizing k with
  | nil => exact h
  | cons n r ih =>
    have gr : ¬ GoneIn r p := fun c => g (goneIn_cons.2 (.inr c))
    have gn : ¬ (n = .deleted p ∨ ∃ q, n = .moved p q) := fun c => g (goneIn_cons.2 (.inl c))
    cases n with
    | created q => exact ih gr (.inr h)
    | deleted q => exact ih gr ⟨fun e => gn (.inl (by rw [e])), h⟩
    | moved x y => exact ih gr (.inr ⟨fun e => gn (.inr ⟨y, by rw [e]⟩), h⟩)
    | closed q => exact ih gr h

/-- Forgetting `p` matters for `p` only, unless a notification of its renaming is waiting. -/
theorem after_without {ns : List Note} {k k' : Path → Prop} {p : Path} (g : ∀ y, .moved p y ∉ ns)
    (h : ∀ x, x ≠ p → k x → k' x) (x : Path) (hx : x ≠ p) : after ns k x → after ns k' x := by
  induction ns generalizing k k' with
  | nil => exact h x hx
  | cons n r ih =>
    have gr : ∀ y, Note.moved p y ∉ r := fun y c => g y (List.mem_cons_of_mem _ c)
    cases n with
    | created q => exact ih gr fun y hy => Or.imp_right (h y hy)
    | deleted q => exact ih gr fun y hy => And.imp_right (h y hy)
    | moved a b =>
      have ha : a ≠ p := fun e => g b (by rw [e]; exact List.mem_cons_self)
      exact ih gr fun y hy => Or.imp (And.imp_right (h a ha)) (And.imp_right (h y hy))
    | closed q => exact ih gr h

theorem after_touch {l : List Note} {k : Path → Prop} (hl : ∀ n ∈ l, (∃ p, n = .created p) ∨ ∃ p, n = .closed p) (x : Path)
    (h : k x ∨ .created x ∈ l) : after l k x := by
  induction l generalizing k with
  | nil => rcases h with h | h
           · exact h
           · cases h
  | cons n r ih =>
    have hr : ∀ n ∈ r, (∃ p, n = Note.created p) ∨ ∃ p, n = .closed p := fun m hm => hl m (List.mem_cons_of_mem _ hm)
    rcases hl n List.mem_cons_self with ⟨p, e⟩ | ⟨p, e⟩
    · subst e
      refine ih hr ?_
      rcases h with h | h
      · exact .inl (.inr h)
      · rcases List.mem_cons.1 h with h | h
        · cases h; exact .inl (.inl rfl)
        · exact .inr h
    · subst e
      refine ih hr ?_
      rcases h with h | h
      · exact .inl h
      · rcases List.mem_cons.1 h with h | h
        · cases h
        · exact .inr h

/-- Every file will be known. -/
def AllKnown (s : FactSt) : Prop := ∀ p, AMap.get s.disk p ≠ none → after s.pending (fun x => AMap.get s.paths x ≠ none) p

theorem Grow.maps {s s' : FactSt} (g : Grow s s') (m : Maps s) : Maps s' := by
  obtain ⟨l, g⟩ := g
  refine ⟨fun h p => ?_, fun h p => ?_, fun p hp => ?_, ?_, ?_⟩
  · rw [g.objs, g.paths]; exact m.both h p
  · rw [g.objs, g.next]; exact m.small h p
  · rw [g.paths] at hp
    rcases m.here p hp with h | h
    · exact .inl (g.disk p h)
    · exact .inr (by rw [g.pending]; exact goneIn_append.2 (.inl h))
  · rw [g.pending]
    exact addOk_append m.adds (fun p h => .inl (g.disk p h)) (addOk_touch g.notes)
  · rw [g.pending]
    intro p hp
    rcases List.mem_append.1 hp with hp | hp
    · exact m.other p hp
    · rcases g.notes _ hp with ⟨_, e, _⟩ | ⟨_, e⟩ <;> cases e

theorem Grow.all {s s' : FactSt} (g : Grow s s') (m : AllKnown s) : AllKnown s' := by
  obtain ⟨l, g⟩ := g
  intro p hp
  rw [g.pending, g.paths, after_append]
  refine after_touch (fun n hn => ?_) p ?_
  · rcases g.notes n hn with ⟨q, e, _⟩ | h
    · exact .inl ⟨q, e⟩
    · exact .inr h
  · rcases g.new p hp with h | h
    · exact .inl (m p h)
    · exact .inr h

theorem maps_addObj {s : FactSt} (m : Maps s) (p : Path) (f : Facts) (hk : AMap.get s.paths p = none)
    (hd : AMap.get s.disk p ≠ none ∨ GoneIn s.pending p) : Maps (s.addObj p f) := by
  have get : ∀ j, whereIs (s.addObj p f) j = if j = s.next then some p else whereIs s j := by
    intro j
    show (AMap.get (AMap.insert s.objs s.next (p, f)) j).map _ = _
    rw [AMap.get_insert]
    split <;> rfl
  have getp : ∀ q, AMap.get (s.addObj p f).paths q = if q = p then some s.next else AMap.get s.paths q := fun j => AMap.get_insert ..
  refine ⟨fun h q => ?_, fun h q e => ?_, fun q hq => ?_, m.adds, m.other⟩
  · rw [get, getp]
    by_cases e : h = s.next
    · rw [if_pos e]
      by_cases e' : q = p
      · rw [if_pos e', e, e']; exact ⟨fun _ => rfl, fun _ => rfl⟩
      · rw [if_neg e']
        constructor
        · intro c; cases c; exact absurd rfl e'
        · intro c
          have := m.small h q ((m.both h q).2 c)
          omega
    · rw [if_neg e]
      by_cases e' : q = p
      · rw [if_pos e', m.both, e', hk]
        constructor
        · exact nofun
        · intro c; cases c; exact absurd rfl e
      · rw [if_neg e']; exact m.both h q
  · rw [get] at e
    show h < s.next + 1
    split at e
    · next e' => omega
    · exact Nat.lt_succ_of_lt (m.small h q e)
  · rw [getp] at hq
    show AMap.get s.disk q ≠ none ∨ GoneIn s.pending q
    split at hq
    · next e => subst e; exact hd
    · exact m.here q hq

theorem all_addObj {s : FactSt} (m : AllKnown s) (p : Path) (f : Facts) : AllKnown (s.addObj p f) := by
  intro q hq
  refine after_mono (fun x hx => ?_) q (m q hq)
  rw [show AMap.get (s.addObj p f).paths x = _ from AMap.get_insert ..]
  split
  · exact nofun
  · exact hx

theorem grow_announce (s : FactSt) (a : FactSt.Announced) (opened fal ut : Bool) (now : Int) :
    s.announce a opened fal ut now = s ∨ s.announce a opened fal ut now = { s with next := s.next + 1 } ∨
    ∃ s' f, Grow s s' ∧ AMap.get s'.disk a.path ≠ none ∧ AMap.get s.paths a.path = none ∧
      s.announce a opened fal ut now = s'.addObj a.path f := by
  unfold FactSt.announce
  split
  · exact .inl rfl
  · next hk =>
    split
    · exact .inr (.inl rfl)
    · refine .inr (.inr ⟨_, _, ?_, ?_, unknown_iff.1 (by simpa using hk), rfl⟩)
      · refine Grow.trans (Grow.trans (Grow.trans (grow_open s a.path now).1 ?_) (grow_closed _ _)) (grow_mtime _ _ _ _)
        exact grow_put _ _ _ (grow_open s a.path now).2
      · refine (grow_mtime _ _ _ _).choose_spec.disk _ ?_
        refine (grow_closed _ _).choose_spec.disk _ ?_
        rw [show AMap.get (FactSt.put (s.openFile a.path now) a.path _).disk a.path = _ from AMap.get_insert .., if_pos rfl]
        exact nofun

theorem maps_drop {s : FactSt} (m : Maps s) (h : Nat) (p : Path) (hk : AMap.get s.paths p = some h) : Maps (s.dropObj h p) := by
  have get : ∀ j, whereIs (s.dropObj h p) j = if j = h then none else whereIs s j := by
    intro j
    show (AMap.get (AMap.erase s.objs h) j).map _ = _
    rw [AMap.get_erase]
    split <;> rfl
  have getp : ∀ q, AMap.get (s.dropObj h p).paths q = if q = p then none else AMap.get s.paths q := fun j => AMap.get_erase ..
  refine ⟨fun j q => ?_, fun j q e => ?_, fun q hq => ?_, m.adds, m.other⟩
  · rw [get, getp]
    by_cases e : j = h
    · rw [if_pos e]
      by_cases e' : q = p
      · rw [if_pos e']; exact ⟨nofun, nofun⟩
      · rw [if_neg e']
        refine ⟨nofun, fun c => ?_⟩
        have := (m.both j q).2 c
        rw [e, (m.both h p).2 hk] at this
        cases this; exact absurd rfl e'
    · rw [if_neg e]
      by_cases e' : q = p
      · rw [if_pos e', m.both, e', hk]
        refine ⟨fun c => ?_, nofun⟩
        cases c; exact absurd rfl e
      · rw [if_neg e']; exact m.both j q
  · rw [get] at e
    split at e
    · cases e
    · exact m.small j q e
  · rw [getp] at hq
    show AMap.get s.disk q ≠ none ∨ GoneIn s.pending q
    split at hq
    · exact absurd rfl hq
    · exact m.here q hq

theorem disk_move_get {s : FactSt} {p : Path} {n : FileNode} (hn : AMap.get s.disk p = some n) (q x : Path) :
    AMap.get (s.diskMove p q).disk x = if x = q then some n else if x = p then none else AMap.get s.disk x := by
  simp only [FactSt.diskMove, hn]
  show AMap.get (AMap.insert (AMap.erase s.disk p) q n) x = _
  rw [AMap.get_insert, AMap.get_erase]

theorem disk_move_rest {s : FactSt} {p : Path} {n : FileNode} (hn : AMap.get s.disk p = some n) (q : Path) :
    (s.diskMove p q).objs = s.objs ∧ (s.diskMove p q).paths = s.paths ∧ (s.diskMove p q).next = s.next ∧
    (s.diskMove p q).pending = s.pending ++ [.moved p q] ∧ (s.diskMove p q).zone = s.zone := by
  simp only [FactSt.diskMove, hn]
  exact ⟨rfl, rfl, rfl, rfl, rfl⟩

theorem move_adds {s : FactSt} (m : Maps s) {p : Path} {n : FileNode} (hn : AMap.get s.disk p = some n) (q : Path) :
    AddOk (AMap.get (s.diskMove p q).disk) (s.diskMove p q).pending := by
  rw [(disk_move_rest hn q).2.2.2.1]
  refine addOk_append m.adds (fun x hx => ?_) ⟨fun x a => ?_, trivial⟩
  · rw [disk_move_get hn]
    by_cases e : x = p
    · subst e; exact .inr (.inr ⟨q, List.mem_singleton.2 rfl⟩)
    · left
      rw [if_neg e]
      split
      · exact nofun
      · exact hx
  · rcases a with a | ⟨_, a⟩
    · cases a
    · cases a; left; rw [disk_move_get hn, if_pos rfl]; exact nofun

theorem move_other {s : FactSt} (m : Maps s) {p : Path} {n : FileNode} (hn : AMap.get s.disk p = some n) {q : Path} (hpq : p ≠ q) (x : Path) :
    .moved x x ∉ (s.diskMove p q).pending := by
  rw [(disk_move_rest hn q).2.2.2.1]
  intro h
  rcases List.mem_append.1 h with h | h
  · exact m.other x h
  · cases List.mem_singleton.1 h; exact hpq rfl

theorem maps_move {s : FactSt} (m : Maps s) (p q : Path) (hpq : p ≠ q) : Maps (s.diskMove p q) := by
  cases hn : AMap.get s.disk p with
  | none => simp only [FactSt.diskMove, hn]; exact m
  | some n =>
    have r := disk_move_rest hn q
    refine ⟨fun h x => ?_, fun h x => ?_, fun x hx => ?_, move_adds m hn q, move_other m hn hpq⟩
    · unfold whereIs; rw [r.1, r.2.1]; exact m.both h x
    · unfold whereIs; rw [r.1, r.2.2.1]; exact m.small h x
    · rw [r.2.1] at hx
      rw [disk_move_get hn, r.2.2.2.1]
      by_cases e : x = p
      · subst e; exact .inr (goneIn_append.2 (.inr (.inr ⟨q, List.mem_singleton.2 rfl⟩)))
      · rw [if_neg e]
        rcases m.here x hx with h | h
        · left; split
          · exact nofun
          · exact h
        · exact .inr (goneIn_append.2 (.inl h))

theorem all_move {s : FactSt} (m : AllKnown s) (p q : Path) : AllKnown (s.diskMove p q) := by
  cases hn : AMap.get s.disk p with
  | none => simp only [FactSt.diskMove, hn]; exact m
  | some n =>
    have r := disk_move_rest hn q
    intro x hx
    rw [disk_move_get hn] at hx
    rw [r.2.2.2.1, r.2.1, after_append]
    by_cases e : x = q
    · exact .inl ⟨e, m p (by rw [hn]; exact nofun)⟩
    · rw [if_neg e] at hx
      by_cases e' : x = p
      · rw [if_pos e'] at hx; exact absurd rfl hx
      · rw [if_neg e'] at hx; exact .inr ⟨e', m x hx⟩

theorem maps_delete {s : FactSt} (m : Maps s) (p : Path) : Maps (s.diskDelete p) := by
  have get : ∀ x, AMap.get (s.diskDelete p).disk x = if x = p then none else AMap.get s.disk x := fun x => AMap.get_erase ..
  refine ⟨m.both, m.small, fun x hx => ?_, ?_, fun x h => ?_⟩
  · rw [get]
    by_cases e : x = p
    · subst e; exact .inr (.inl (List.mem_append_right _ (List.mem_singleton.2 rfl)))
    · rw [if_neg e]
      rcases m.here x hx with h | h
      · exact .inl h
      · exact .inr (goneIn_append.2 (.inl h))
  · refine addOk_append (l := [.deleted p]) m.adds (fun x hx => ?_) ⟨fun x a => ?_, trivial⟩
    · rw [get]
      by_cases e : x = p
      · subst e; exact .inr (.inl (List.mem_singleton.2 rfl))
      · rw [if_neg e]; exact .inl hx
    · rcases a with a | ⟨_, a⟩ <;> cases a
  · rcases List.mem_append.1 h with h | h
    · exact m.other x h
    · cases List.mem_singleton.1 h

theorem all_delete {s : FactSt} (m : AllKnown s) (p : Path) : AllKnown (s.diskDelete p) := by
  intro x hx
  rw [show AMap.get (s.diskDelete p).disk x = _ from AMap.get_erase ..] at hx
  show after (s.pending ++ [.deleted p]) _ x
  rw [after_append]
  split at hx
  · exact absurd rfl hx
  · next e => exact ⟨e, m x hx⟩

/-- The object `h` gets another path that is not in use. -/
theorem rename_both {s s' : FactSt} (m : Maps s) {h : Nat} {p q : Path} {f : Facts} (hp : whereIs s h = some p) (hq : AMap.get s.paths q = none)
    (ho : s'.objs = AMap.insert s.objs h (q, f)) (hs : s'.paths = AMap.insert (AMap.erase s.paths p) q h) :
    (∀ j x, whereIs s' j = some x ↔ AMap.get s'.paths x = some j) ∧ (∀ j x, whereIs s' j = some x → j < s.next) ∧
    (∀ x, AMap.get s'.paths x ≠ none ↔ x = q ∨ (x ≠ p ∧ AMap.get s.paths x ≠ none)) := by
  have hp' := (m.both h p).1 hp
  have hpq : p ≠ q := fun e => by rw [← e, hp'] at hq; cases hq
  have get : ∀ j, whereIs s' j = if j = h then some q else whereIs s j := by
    intro j
    unfold whereIs
    rw [ho, AMap.get_insert]
    split <;> rfl
  have getp : ∀ x, AMap.get s'.paths x = if x = q then some h else if x = p then none else AMap.get s.paths x := fun x => by
    rw [hs, AMap.get_insert, AMap.get_erase]
  refine ⟨fun j x => ?_, fun j x e => ?_, fun x => ?_⟩
  · rw [get, getp]
    by_cases e : j = h
    · rw [if_pos e]
      by_cases e' : x = q
      · rw [if_pos e', e, e']; exact ⟨fun _ => rfl, fun _ => rfl⟩
      · rw [if_neg e']
        constructor
        · intro c; cases c; exact absurd rfl e'
        · intro c
          split at c
          · cases c
          · next e2 =>
            have := (m.both j x).2 c
            rw [e, hp] at this
            cases this; exact absurd rfl e2
    · rw [if_neg e]
      by_cases e' : x = q
      · rw [if_pos e', m.both, e', hq]
        constructor
        · exact nofun
        · intro c; cases c; exact absurd rfl e
      · rw [if_neg e']
        by_cases e2 : x = p
        · rw [if_pos e2, m.both, e2, hp']
          refine ⟨fun c => ?_, nofun⟩
          cases c; exact absurd rfl e
        · rw [if_neg e2]; exact m.both j x
  · rw [get] at e
    split at e
    · next e' => rw [e']; exact m.small h p hp
    · exact m.small j x e
  · rw [getp]
    by_cases e' : x = q
    · rw [if_pos e']; exact ⟨fun _ => .inl e', fun _ => nofun⟩
    · rw [if_neg e']
      by_cases e2 : x = p
      · rw [if_pos e2]
        refine ⟨fun c => absurd rfl c, ?_⟩
        rintro (c | c)
        · exact absurd c e'
        · exact absurd e2 c.1
      · rw [if_neg e2]
        refine ⟨fun c => .inr ⟨e2, c⟩, ?_⟩
        rintro (c | c)
        · exact absurd c e'
        · exact c.2

theorem host_move_eq (s : FactSt) (h : Nat) (q : Path) (ok : Bool) :
    s.hostMove h q ok = s ∨ ∃ p f n, AMap.get s.objs h = some (p, f) ∧ AMap.get s.disk p = some n ∧ AMap.get s.disk q = none ∧
      AMap.get s.paths q = none ∧
      s.hostMove h q ok = { s.diskMove p q with objs := AMap.insert s.objs h (q, f), paths := AMap.insert (AMap.erase s.paths p) q h } := by
  unfold FactSt.hostMove
  split
  · exact .inl rfl
  · next p f hf =>
    split
    · exact .inl rfl
    · next hc =>
      right
      simp only [not_or] at hc
      obtain ⟨h1, h2, h3, h4⟩ := hc
      cases hn : AMap.get s.disk p with
      | none => exact absurd hn h3
      | some n =>
        exact ⟨p, f, n, hf, hn, Classical.byContradiction h4, unknown_iff.1 (Bool.eq_false_iff.2 h1), rfl⟩

theorem maps_host_move {s : FactSt} (m : Maps s) (h : Nat) (q : Path) (ok : Bool) : Maps (s.hostMove h q ok) := by
  rcases host_move_eq s h q ok with e | ⟨p, f, n, hf, hn, hd, hq, e⟩
  · rw [e]; exact m
  · have r := rename_both (s' := s.hostMove h q ok) m (where_eq hf) hq (by rw [e]) (by rw [e])
    have d := disk_move_rest hn q
    have hpq : p ≠ q := fun e => by rw [← e, hn] at hd; cases hd
    have hmm := maps_move m p q hpq
    rw [e] at r ⊢
    refine ⟨r.1, fun j x c => ?_, fun x hx => ?_, move_adds m hn q, move_other m hn hpq⟩
    · show j < (s.diskMove p q).next
      rw [d.2.2.1]; exact r.2.1 j x c
    · rcases (r.2.2 x).1 hx with c | ⟨c1, c2⟩
      · subst c
        left
        show AMap.get (s.diskMove p x).disk x ≠ none
        rw [disk_move_get hn, if_pos rfl]; exact nofun
      · exact hmm.here x (by rw [d.2.1]; exact c2)

theorem all_host_move {s : FactSt} (m : Maps s) (a : AllKnown s) (h : Nat) (q : Path) (ok : Bool)
    (hok : ∀ p f, AMap.get s.objs h = some (p, f) → (∀ y, .moved p y ∉ s.pending) ∧ ¬ GoneIn s.pending q) : AllKnown (s.hostMove h q ok) := by
  rcases host_move_eq s h q ok with e | ⟨p, f, n, hf, hn, hd, hq, e⟩
  · rw [e]; exact a
  · have r := rename_both (s' := s.hostMove h q ok) m (where_eq hf) hq (by rw [e]) (by rw [e])
    have d := disk_move_rest hn q
    obtain ⟨o1, o2⟩ := hok p f hf
    intro x hx
    have hx : AMap.get (s.diskMove p q).disk x ≠ none := by rw [e] at hx; exact hx
    rw [disk_move_get hn] at hx
    have hp : (s.hostMove h q ok).pending = s.pending ++ [.moved p q] := by rw [e]; exact d.2.2.2.1
    rw [hp, after_append]
    show (x = q ∧ _) ∨ (x ≠ p ∧ _)
    right
    by_cases c : x = q
    · subst c
      refine ⟨fun c => (by rw [← c, hd] at hn; cases hn), after_stay o2 ?_⟩
      exact (r.2.2 x).2 (.inl rfl)
    · rw [if_neg c] at hx
      by_cases c' : x = p
      · rw [if_pos c'] at hx; exact absurd rfl hx
      · rw [if_neg c'] at hx
        exact ⟨c', after_without o1 (fun y hy hk => (r.2.2 y).2 (.inr ⟨hy, hk⟩)) x c' (a x hx)⟩

theorem host_delete_eq (s : FactSt) (h : Nat) (ok : Bool) :
    s.hostDelete h ok = s ∨ ∃ p f, AMap.get s.objs h = some (p, f) ∧ s.hostDelete h ok = (s.diskDelete p).dropObj h p := by
  unfold FactSt.hostDelete
  split
  · exact .inl rfl
  · next p f hf =>
    split
    · exact .inl rfl
    · exact .inr ⟨p, f, hf, rfl⟩

theorem maps_host_delete {s : FactSt} (m : Maps s) (h : Nat) (ok : Bool) : Maps (s.hostDelete h ok) := by
  rcases host_delete_eq s h ok with e | ⟨p, f, hf, e⟩
  · rw [e]; exact m
  · rw [e]
    exact maps_drop (maps_delete m p) h p ((m.both h p).1 (where_eq hf))

theorem all_host_delete {s : FactSt} (a : AllKnown s) (h : Nat) (ok : Bool)
    (hok : ∀ p f, AMap.get s.objs h = some (p, f) → ∀ y, .moved p y ∉ s.pending) : AllKnown (s.hostDelete h ok) := by
  rcases host_delete_eq s h ok with e | ⟨p, f, hf, e⟩
  · rw [e]; exact a
  · rw [e]
    intro x hx
    have hx : AMap.get (s.diskDelete p).disk x ≠ none := hx
    have xp : x ≠ p := fun c => by
      rw [c, show AMap.get (s.diskDelete p).disk p = _ from AMap.get_erase .., if_pos rfl] at hx
      exact absurd rfl hx
    refine after_without (p := p) (fun y c => ?_) (fun y hy hk => ?_) x xp (all_delete a p x hx)
    · rcases List.mem_append.1 c with c | c
      · exact hok p f hf y c
      · cases List.mem_singleton.1 c
    · show AMap.get (AMap.erase s.paths p) y ≠ none
      rw [AMap.get_erase, if_neg hy]
      exact hk

theorem maps_take {s : FactSt} (m : Maps s) {n : Note} {r : List Note} (hr : s.pending = n :: r)
    (h : ∀ p, AMap.get s.paths p ≠ none → ¬ (n = .deleted p ∨ ∃ q, n = .moved p q)) : Maps { s with pending := r } := by
  refine ⟨m.both, m.small, fun p hp => ?_, ?_, fun p hp => m.other p (by rw [hr]; exact List.mem_cons_of_mem _ hp)⟩
  · rcases m.here p hp with c | c
    · exact .inl c
    · rw [hr] at c
      rcases goneIn_cons.1 c with c | c
      · exact absurd c (h p hp)
      · exact .inr c
  · have := m.adds
    rw [hr] at this
    exact this.2

theorem maps_evs {s : FactSt} (m : Maps s) (e : List TEvent) : Maps { s with evs := e } := ⟨m.both, m.small, m.here, m.adds, m.other⟩

theorem maps_deliver {s : FactSt} (m : Maps s) : Maps s.deliver := by
  unfold FactSt.deliver
  split
  · exact m
  · next n r hr =>
    have ad : AddOk (AMap.get s.disk) (n :: r) := by rw [← hr]; exact m.adds
    cases n with
    | created p =>
      have m' := maps_take m hr (by rintro q _ (c | ⟨_, c⟩) <;> cases c)
      simp only [FactSt.process]
      split
      · exact m'
      · next hk =>
        have hk : AMap.get s.paths p = none := unknown_iff.1 (Bool.eq_false_iff.2 (show s.known p ≠ true from hk))
        exact maps_evs (maps_addObj m' p _ hk (ad.1 p (.inl rfl))) _
    | deleted p =>
      simp only [FactSt.process]
      split
      · next hk =>
        have hk : AMap.get s.paths p = none := hk
        exact maps_take m hr (by rintro q hq (c | ⟨_, c⟩) <;> cases c; exact hq hk)
      · next h hk =>
        have hk : AMap.get s.paths p = some h := hk
        refine maps_evs (maps_take (s := s.dropObj h p) (maps_drop m h p hk) hr ?_) _
        rintro q hq (c | ⟨_, c⟩) <;> cases c
        rw [show AMap.get (s.dropObj h p).paths p = _ from AMap.get_erase .., if_pos rfl] at hq
        exact hq rfl
    | moved p q =>
      simp only [FactSt.process]
      split
      · next hk =>
        have hk : AMap.get s.paths p = none := hk
        exact maps_take m hr (by rintro q hq (c | ⟨_, c⟩) <;> cases c; exact hq hk)
      · next h hk =>
        have hk : AMap.get s.paths p = some h := hk
        split
        · refine maps_evs (maps_take (s := s.dropObj h p) (maps_drop m h p hk) hr ?_) _
          rintro q hq (c | ⟨_, c⟩) <;> cases c
          rw [show AMap.get (s.dropObj h p).paths p = _ from AMap.get_erase .., if_pos rfl] at hq
          exact hq rfl
        · next hq =>
          have hq : AMap.get s.paths q = none := unknown_iff.1 (Bool.eq_false_iff.2 (show s.known q ≠ true from hq))
          have rb := rename_both (s' := { s with pending := r, objs := AMap.insert s.objs h (q, s.fresh q), paths := AMap.insert (AMap.erase s.paths p) q h, evs := s.evs ++ [.infoChanged h] })
            m ((m.both h p).2 hk) hq rfl rfl
          refine ⟨rb.1, rb.2.1, fun x hx => ?_, ad.2, fun x hx => m.other x (by rw [hr]; exact List.mem_cons_of_mem _ hx)⟩
          rcases (rb.2.2 x).1 hx with c | ⟨c1, c2⟩
          · subst c; exact ad.1 x (.inr ⟨p, rfl⟩)
          · rcases m.here x c2 with c | c
            · exact .inl c
            · rw [hr] at c
              rcases goneIn_cons.1 c with (c | ⟨_, c⟩) | c
              · cases c
              · cases c; exact absurd rfl c1
              · exact .inr c
    | closed p =>
      have m' := maps_take m hr (by rintro q _ (c | ⟨_, c⟩) <;> cases c)
      simp only [FactSt.process]
      split
      · exact m'
      · next h hk =>
        split
        · exact m'
        · next y f hf =>
          split
          · exact m'
          · have hk : AMap.get s.paths p = some h := hk
            refine Grow.maps (s := { s with pending := r }) (grow_same (fun j => where_said (f := f) (p := p) ?_ rfl j) rfl rfl rfl rfl) m'
            exact (m.both h p).2 hk

theorem all_deliver {s : FactSt} (m : Maps s) (a : AllKnown s) : AllKnown s.deliver := by
  unfold FactSt.deliver
  split
  · exact a
  · next n r hr =>
    have key : ∀ s' : FactSt, s'.disk = s.disk → s'.pending = r →
        (∀ x, (match n with
          | .created p => x = p ∨ AMap.get s.paths x ≠ none
          | .deleted p => x ≠ p ∧ AMap.get s.paths x ≠ none
          | .moved p q => (x = q ∧ AMap.get s.paths p ≠ none) ∨ (x ≠ p ∧ AMap.get s.paths x ≠ none)
          | .closed _ => AMap.get s.paths x ≠ none) → AMap.get s'.paths x ≠ none) → AllKnown s' := by
      intro s' h1 h2 h3 p hp
      rw [h1] at hp
      have := a p hp
      rw [hr] at this
      rw [h2]
      cases n <;> exact after_mono h3 p this
    cases n with
    | created p =>
      simp only [FactSt.process]
      split
      · next hk =>
        refine key _ rfl rfl fun x c => ?_
        rcases c with c | c
        · subst c
          have hk : s.known x = true := hk
          intro e
          have e : AMap.get s.paths x = none := e
          rw [unknown_iff.2 e] at hk; cases hk
        · exact c
      · refine key _ rfl rfl fun x c => ?_
        show AMap.get (AMap.insert s.paths p s.next) x ≠ none
        rw [AMap.get_insert]
        split
        · exact nofun
        · next e => exact c.resolve_left e
    | deleted p =>
      simp only [FactSt.process]
      split
      · exact key _ rfl rfl fun x c => c.2
      · refine key _ rfl rfl fun x c => ?_
        show AMap.get (AMap.erase s.paths p) x ≠ none
        rw [AMap.get_erase, if_neg c.1]; exact c.2
    | moved p q =>
      simp only [FactSt.process]
      split
      · next hk =>
        have hk : AMap.get s.paths p = none := hk
        refine key _ rfl rfl fun x c => ?_
        rcases c with ⟨_, c⟩ | c
        · exact absurd hk c
        · exact c.2
      · next h hk =>
        split
        · next hq =>
          have hk : AMap.get s.paths p = some h := hk
          have hq : s.known q = true := hq
          have hq' : AMap.get s.paths q ≠ none := fun e => by rw [unknown_iff.2 e] at hq; cases hq
          have e : q ≠ p := fun e => m.other p (by rw [hr, e]; exact List.mem_cons_self)
          refine key _ rfl rfl fun x c => ?_
          show AMap.get (AMap.erase s.paths p) x ≠ none
          rw [AMap.get_erase]
          rcases c with ⟨c1, c2⟩ | c
          · subst c1; rw [if_neg e]; exact hq'
          · rw [if_neg c.1]; exact c.2
        · refine key _ rfl rfl fun x c => ?_
          show AMap.get (AMap.insert (AMap.erase s.paths p) q h) x ≠ none
          rw [AMap.get_insert, AMap.get_erase]
          split
          · exact nofun
          · next e =>
            rcases c with c | c
            · exact absurd c.1 e
            · rw [if_neg c.1]; exact c.2
    | closed p =>
      simp only [FactSt.process]
      split
      · exact key _ rfl rfl fun x c => c
      · split
        · exact key _ rfl rfl fun x c => c
        · split
          · exact key _ rfl rfl fun x c => c
          · exact key _ rfl rfl fun x c => c

theorem maps_step {s : FactSt} (m : Maps s) (o : FactSt.FOp) : Maps (s.step o) := by
  cases o with
  | announce a o fa u n =>
    simp only [FactSt.step]
    rcases grow_announce s a o fa u n with e | e | ⟨s', f, g, hd, hk, e⟩
    · rw [e]; exact m
    · rw [e]
      exact ⟨m.both, fun h p c => Nat.lt_succ_of_lt (m.small h p c), m.here, m.adds, m.other⟩
    · rw [e]
      exact maps_addObj (g.maps m) a.path f (by obtain ⟨l, g⟩ := g; rw [g.paths]; exact hk) (.inl hd)
  | writeSeg h f o u k n => exact (grow_seg s h f o u k n).maps m
  | writeEnd h u n => exact (grow_end s h u n).maps m
  | editWrite h off k o u n => exact (grow_edit s h off k o u n).maps m
  | truncate h k o n => exact (grow_truncate s h k o n).maps m
  | hostMove h q o => exact maps_host_move m h q o
  | hostDelete h o => exact maps_host_delete m h o
  | change p n => exact (grow_change s p n).maps m
  | close p => exact (grow_close s p).maps m
  | unlink p =>
    simp only [FactSt.step]
    split
    · exact maps_delete m p
    · exact m
  | rename p q =>
    simp only [FactSt.step]
    split
    · exact m
    · next h => exact maps_move m p q h
  | byName p n => exact (grow_byName s p n).maps m
  | deliver => exact maps_deliver m

theorem maps_run {s : FactSt} (m : Maps s) (ops : List FactSt.FOp) : Maps (s.run ops) := by
  induction ops generalizing s with
  | nil => exact m
  | cons o os ih => exact ih (maps_step m o)

theorem all_step {s : FactSt} (m : Maps s) (a : AllKnown s) (o : FactSt.FOp) (ok : KOk s o) : AllKnown (s.step o) := by
  cases o with
  | announce b o fa u n =>
    simp only [FactSt.step]
    rcases grow_announce s b o fa u n with e | e | ⟨s', f, g, hd, hk, e⟩
    · rw [e]; exact a
    · rw [e]; exact a
    · rw [e]; exact all_addObj (g.all a) b.path f
  | writeSeg h f o u k n => exact (grow_seg s h f o u k n).all a
  | writeEnd h u n => exact (grow_end s h u n).all a
  | editWrite h off k o u n => exact (grow_edit s h off k o u n).all a
  | truncate h k o n => exact (grow_truncate s h k o n).all a
  | hostMove h q o => exact all_host_move m a h q o ok
  | hostDelete h o => exact all_host_delete a h o ok
  | change p n => exact (grow_change s p n).all a
  | close p => exact (grow_close s p).all a
  | unlink p =>
    simp only [FactSt.step]
    split
    · exact all_delete a p
    · exact a
  | rename p q =>
    simp only [FactSt.step]
    split
    · exact a
    · exact all_move a p q
  | byName p n => exact (grow_byName s p n).all a
  | deliver => exact all_deliver m a

theorem all_run {s : FactSt} (m : Maps s) (a : AllKnown s) (ops : List FactSt.FOp) (ok : KHist s ops) : AllKnown (s.run ops) := by
  induction ops generalizing s with
  | nil => exact a
  | cons o os ih => exact ih (maps_step m o) (all_step m a o ok.1) ok.2

theorem start_maps (z : Zone) (other : Char → List Char) (disk : AMap Path FileNode) :
    Maps (FactSt.start z other disk) ∧ (FactSt.start z other disk).pending = [] ∧
      ∀ p, AMap.get (FactSt.start z other disk).disk p ≠ none → AMap.get (FactSt.start z other disk).paths p ≠ none := by
  have fold : ∀ (l : List Path) (s : FactSt), Maps s → (∀ p ∈ l, AMap.get s.disk p ≠ none) → s.pending = [] → ∀ s',
      s' = l.foldl (fun s p => if s.known p then s else s.addObj p (s.fresh p)) s →
      Maps s' ∧ s'.pending = [] ∧ s'.disk = s.disk ∧ (∀ p, AMap.get s.paths p ≠ none → AMap.get s'.paths p ≠ none) ∧
      ∀ p ∈ l, AMap.get s'.paths p ≠ none := by
    intro l
    induction l with
    | nil => exact fun s m _ hp s' e => by subst e; exact ⟨m, hp, rfl, fun _ h => h, nofun⟩
    | cons p l ih =>
      intro s m h hp s' e
      simp only [List.foldl_cons] at e
      split at e
      · next hk =>
        obtain ⟨a, b, c, d, f⟩ := ih s m (fun q hq => h q (List.mem_cons_of_mem _ hq)) hp s' e
        refine ⟨a, b, c, d, fun q hq => ?_⟩
        rcases List.mem_cons.1 hq with e | hq
        · subst e
          refine d q fun e => ?_
          rw [unknown_iff.2 e] at hk; cases hk
        · exact f q hq
      · next hk =>
        obtain ⟨a, b, c, d, f⟩ := ih (s.addObj p (s.fresh p)) (maps_addObj m p _ (unknown_iff.1 (by simpa using hk)) (.inl (h p List.mem_cons_self)))
          (fun q hq => h q (List.mem_cons_of_mem _ hq)) hp s' e
        have get : ∀ q, AMap.get (s.addObj p (s.fresh p)).paths q = if q = p then some s.next else AMap.get s.paths q := fun j => AMap.get_insert ..
        refine ⟨a, b, c, fun q hq => d q ?_, fun q hq => ?_⟩
        · rw [get]; split
          · exact nofun
          · exact hq
        · rcases List.mem_cons.1 hq with e | hq
          · subst e; exact d q (by rw [get, if_pos rfl]; exact nofun)
          · exact f q hq
  obtain ⟨a, b, c, d, f⟩ := fold (disk.map (·.1))
    { zone := z, other := other, disk := disk, objs := [], paths := [], next := 1, dataFile := none, writing := 0,
      pending := [], dirty := [], evs := [] } ⟨fun _ _ => ⟨nofun, nofun⟩, nofun, fun _ h => absurd rfl h, trivial, nofun⟩
    (fun p hp => by
      obtain ⟨e, he, rfl⟩ := List.mem_map.1 hp
      have := AMap.get_isSome_iff.2 ⟨e.2, he⟩
      intro h; rw [h] at this; cases this) rfl _ rfl
  refine ⟨a, b, fun p hp => f p ?_⟩
  have hp : AMap.get disk p ≠ none := by rw [← show (FactSt.start z other disk).disk = disk from c]; exact hp
  cases e : AMap.get disk p with
  | none => exact absurd e hp
  | some n => exact List.mem_map.2 ⟨(p, n), AMap.mem_of_get e, rfl⟩

theorem start_all (z : Zone) (other : Char → List Char) (disk : AMap Path FileNode) : AllKnown (FactSt.start z other disk) := by
  obtain ⟨_, h, k⟩ := start_maps z other disk
  intro p hp
  rw [h]
  exact k p hp

end Mtp
