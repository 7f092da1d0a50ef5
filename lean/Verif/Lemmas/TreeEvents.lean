import Verif.Lemmas.TreeStep
import Verif.Lemmas.TreeMove
/-! Lemmas about the events a storage emits for changes on the device. -/
namespace Mtp
open Spec

theorem upd_has (t : Tree) (h : Nat) (f : Item → Item) (x : Nat) : (t.upd h f).has x = t.has x := by
  unfold Tree.upd
  split
  · rfl
  · next it e =>
    unfold Tree.has
    show (AMap.get (AMap.insert t.items h (f it)) x).isSome = _
    rw [AMap.get_insert]
    split
    · next hx => subst hx; rw [e]; rfl
    · rfl

theorem upd_evs (t : Tree) (h : Nat) (f : Item → Item) : (t.upd h f).evs = t.evs := by
  unfold Tree.upd; split <;> rfl

theorem linkOpt_has (t : Tree) (h : Nat) (p : Option Nat) (x : Nat) : (t.linkOpt h p).has x = t.has x := by
  cases p with
  | none => rfl
  | some p => exact upd_has _ _ _ _

theorem linkOpt_evs (t : Tree) (h : Nat) (p : Option Nat) : (t.linkOpt h p).evs = t.evs := by
  cases p with
  | none => rfl
  | some p => exact upd_evs _ _ _

theorem addToMaps_has (t : Tree) (h : Nat) (it : Item) (x : Nat) :
    (t.addToMaps h it).has x = (decide (x = h) || t.has x) := by
  obtain ⟨v, e⟩ := addToMaps_get t h it x
  unfold Tree.has
  rw [e]
  split <;> simp [*]

theorem addToMaps_evs (t : Tree) (h : Nat) (it : Item) : (t.addToMaps h it).evs = t.evs := by
  unfold Tree.addToMaps
  split
  next v t1 e => split at e <;> cases e <;> rfl

theorem pickHandle_evs (t : Tree) (path : Path) (handle : Nat) :
    (t.pickHandle path handle).2.evs = t.evs ∧ (t.pickHandle path handle).2.items = t.items := by
  unfold Tree.pickHandle Tree.newHandle
  split
  · exact ⟨rfl, rfl⟩
  · split <;> exact ⟨rfl, rfl⟩

theorem tryCreate_evs (t : Tree) (create : Bool) : (t.tryCreate create).2.evs = t.evs := by
  unfold Tree.tryCreate Tree.ask; split <;> rfl

/-- `addOne` emits nothing and adds at most the handle it returns. -/
theorem addOne_new (t : Tree) (path : Path) (link : Option (Option Path)) (dfmt : Nat) (info : Option Tree.Info)
    (create : Bool) (handle : Nat) :
    (t.addOne path link dfmt info create handle).1.evs = t.evs ∧
    ∀ x, (t.addOne path link dfmt info create handle).1.has x =
      (decide ((t.addOne path link dfmt info create handle).2.1 = some x) || t.has x) := by
  unfold Tree.addOne
  split
  · simp
  · split
    · simp
    · dsimp only
      have h1 := pickHandle_evs t path handle
      have h2 := tryCreate_evs (t.pickHandle path handle).2 create
      have h3 := tryCreate_eq (t.pickHandle path handle).2 create
      have hh : ∀ x, ((t.pickHandle path handle).2.tryCreate create).2.has x = t.has x := by
        intro x; unfold Tree.has Tree.get; rw [h3.1, h1.2]
      split
      · refine ⟨h2.trans h1.1, fun x => ?_⟩
        simp [hh]
      · refine ⟨?_, fun x => ?_⟩
        · rw [addToMaps_evs, linkOpt_evs, h2, h1.1]
        · rw [addToMaps_has, linkOpt_has, hh]
          congr 1
          simp [eq_comm]

/-- `l` lists the objects that `t'` has more than `t`, each once, and the events say so. -/
structure AddedEv (ev : Bool) (t t' : Tree) (l : List Nat) : Prop where
  nodup : l.Nodup
  evs : t'.evs = t.evs ++ (if ev then l.map TEvent.added else [])
  mem : ∀ x, x ∈ l ↔ t'.has x = true ∧ t.has x = false
  kept : ∀ x, t.has x = true → t'.has x = true

theorem AddedEv.refl (ev : Bool) (t : Tree) : AddedEv ev t t [] :=
  ⟨List.nodup_nil, by simp, fun x => ⟨fun h => (nomatch h), fun h => by rw [h.1] at h; cases h.2⟩, fun _ h => h⟩

theorem AddedEv.trans {ev : Bool} {t t1 t2 : Tree} {l l' : List Nat} (a : AddedEv ev t t1 l) (b : AddedEv ev t1 t2 l') :
    AddedEv ev t t2 (l ++ l') := by
  refine ⟨List.nodup_append.mpr ⟨a.nodup, b.nodup, fun x hx y hy e => ?_⟩, ?_, fun x => ?_,
    fun x h => b.kept x (a.kept x h)⟩
  · subst e
    have h1 := ((a.mem x).mp hx).1
    rw [((b.mem x).mp hy).2] at h1; cases h1
  · rw [b.evs, a.evs]; cases ev <;> simp
  · rw [List.mem_append, a.mem, b.mem]
    constructor
    · rintro (⟨h1, h2⟩ | ⟨h1, h2⟩)
      · exact ⟨b.kept x h1, h2⟩
      · refine ⟨h1, ?_⟩
        cases hx : t.has x with
        | false => rfl
        | true => rw [a.kept x hx] at h2; cases h2
    · rintro ⟨h1, h2⟩
      cases hx : t1.has x with
      | true => exact Or.inl ⟨rfl, h2⟩
      | false => exact Or.inr ⟨h1, rfl⟩

theorem emit_has (t : Tree) (b : Bool) (e : TEvent) (x : Nat) : (t.emit b e).has x = t.has x := by
  unfold Tree.emit; split <;> rfl

mutual
/-- Adding an object with everything below it: one event for every new object, if events are asked for. -/
theorem add_evs {t : Tree} (w : TreeWF t) (hi : Issued t) {ph : Nat} {pit : Item} {n : Path}
    (hp : t.get ph = some pit) (hn : '/' ∉ n) (d : Disk) (hd : DiskOk d)
    (info : Option Tree.Info) (hinfo : ∀ i, info = some i → i.name = n ∧ i.par = ph)
    (ev create : Bool) (handle : Nat) (hh : handle ≠ 0 → t.get handle = none)
    (hha : handle ≤ t.asked)
    (hb : (t.add (join pit.path n) d info ev create handle).1.asked < 0xFFFFFFFF) :
    ∃ l, AddedEv ev t (t.add (join pit.path n) d info ev create handle).1 l := by
  match d with
  | .node link dfmt entries =>
    rw [DiskOk] at hd
    rw [Tree.add.eq_def] at hb ⊢
    dsimp only at hb ⊢
    have key := addOne_spec w hi hp hn link dfmt info hinfo create handle hh
    have new := addOne_new t (join pit.path n) link dfmt info create handle
    split
    · next t1 h r e =>
      rw [e] at key hb new
      dsimp only at hb new
      rw [(Tree.emit_eq _ _ _).2.2.2.1] at hb
      obtain ⟨k1, k2, k3, _, _⟩ := key (by
        refine Nat.lt_of_le_of_lt ?_ hb
        split
        · exact addAll_asked _ _ _ _ entries
        · exact Nat.le_refl _)
      dsimp only at k1 k2 k3
      obtain ⟨it, e1, e2, _, _, _, _, e7, _⟩ := k3 h rfl
      have i1 := Issued_grown k2 hi hha
      have fin : ∀ t2 l, AddedEv ev t1 t2 l → AddedEv ev t (t2.emit ev (.added h)) (l ++ [h]) := by
        intro t2 l a
        have hl : h ∉ l := fun hm => by
          have := ((a.mem h).mp hm).2
          rw [has_iff.mpr ⟨it, e1⟩] at this; cases this
        refine ⟨List.nodup_append.mpr ⟨a.nodup, by simp, fun x hx y hy exy => ?_⟩, ?_, fun x => ?_, fun x hx => ?_⟩
        · rw [List.mem_singleton] at hy; rw [exy, hy] at hx; exact hl hx
        · unfold Tree.emit
          cases ev
          · simp only [Bool.false_eq_true, if_false]; rw [a.evs, new.1]; simp
          · simp only [if_true]; rw [a.evs, new.1]; simp
        · rw [emit_has, List.mem_append, List.mem_singleton, a.mem, new.2]
          constructor
          · rintro (⟨h1, h2⟩ | rfl)
            · rw [Bool.or_eq_false_iff] at h2; exact ⟨h1, h2.2⟩
            · exact ⟨a.kept _ (has_iff.mpr ⟨it, e1⟩), has_false.mpr e7⟩
          · rintro ⟨h1, h2⟩
            by_cases hx : x = h
            · exact Or.inr hx
            · refine Or.inl ⟨h1, ?_⟩
              rw [h2]; simp [Ne.symm hx]
        · rw [emit_has]
          refine a.kept x ?_
          rw [new.2, hx]; simp
      split
      · next hf =>
        rw [if_pos hf] at hb
        obtain ⟨l, a⟩ := addAll_evs k1 i1 e1 ev create entries hd (by rw [e2]; exact hb)
        rw [e2] at a
        exact ⟨_, fin _ _ a⟩
      · exact ⟨_, fin _ _ (AddedEv.refl _ _)⟩
    · next t1 r e =>
      rw [e] at new
      refine ⟨[], List.nodup_nil, ?_, fun x => ?_, fun x hx => ?_⟩
      · rw [new.1]; simp
      · have := new.2 x
        simp only [reduceCtorEq, decide_false, Bool.false_or] at this
        rw [this]
        constructor
        · intro h; cases h
        · rintro ⟨h1, h2⟩; rw [h1] at h2; cases h2
      · rw [new.2, hx]; simp
  termination_by structural d

/-- The same for the entries of a directory. -/
theorem addAll_evs {t : Tree} (w : TreeWF t) (hi : Issued t) {h : Nat} {it : Item}
    (hp : t.get h = some it) (ev create : Bool) (entries : List (Path × Disk)) (hd : DisksOk entries)
    (hb : (t.addAll it.path ev create entries).asked < 0xFFFFFFFF) :
    ∃ l, AddedEv ev t (t.addAll it.path ev create entries) l := by
  match entries with
  | [] => rw [Tree.addAll]; exact ⟨[], AddedEv.refl _ _⟩
  | (n, d) :: r =>
    rw [Tree.addAll] at hb ⊢
    rw [DisksOk] at hd
    obtain ⟨⟨hn, hd1⟩, hd2⟩ := hd
    have hb1 := Nat.lt_of_le_of_lt (addAll_asked (t.add (join it.path n) d none ev create 0).1 it.path ev create r) hb
    obtain ⟨l, a⟩ := add_evs w hi hp hn d hd1 none (fun i e => by cases e) ev create 0 (fun h => absurd rfl h)
      (Nat.zero_le _) hb1
    obtain ⟨w1, i1, g1⟩ := add_spec w hi hp hn d hd1 none (fun i e => by cases e) ev create 0 (fun h => absurd rfl h)
      (Nat.zero_le _) hb1
    obtain ⟨ks, hg⟩ := g1.item h it hp
    obtain ⟨l', b⟩ := addAll_evs w1 i1 hg ev create r hd2 hb
    exact ⟨_, a.trans b⟩
  termination_by structural entries
end

/-! ### Removal -/

/-- `l` lists objects that are gone in `t'`, the events say so, and every other object that is gone had children. -/
structure GoneEv (ev : Bool) (t t' : Tree) (l : List Nat) : Prop where
  nodup : l.Nodup
  evs : t'.evs = t.evs ++ (if ev then l.map TEvent.removed else [])
  mem : ∀ x ∈ l, t.has x = true ∧ t'.has x = false
  rest : ∀ x ix, t.get x = some ix → t'.has x = false → x ∈ l ∨ ix.kids ≠ []

theorem GoneEv.refl (ev : Bool) {t t' : Tree} (he : t'.evs = t.evs) (hi : t'.items = t.items) : GoneEv ev t t' [] := by
  refine ⟨List.nodup_nil, by rw [he]; simp, fun x h => (nomatch h), fun x ix e h => ?_⟩
  have : t'.get x = some ix := by unfold Tree.get; rw [hi]; exact e
  rw [has_iff.mpr ⟨ix, this⟩] at h; cases h

theorem GoneEv.trans {ev : Bool} {t t1 t2 : Tree} {l l' : List Nat} (s : Shrunk t t1) (s' : Shrunk t1 t2)
    (a : GoneEv ev t t1 l) (b : GoneEv ev t1 t2 l') : GoneEv ev t t2 (l ++ l') := by
  have kept : ∀ x, t1.has x = false → t2.has x = false := by
    intro x h
    cases hx : t2.has x with
    | false => rfl
    | true => rw [s'.has hx] at h; cases h
  refine ⟨List.nodup_append.mpr ⟨a.nodup, b.nodup, fun x hx y hy e => ?_⟩, ?_, fun x hx => ?_, fun x ix e h => ?_⟩
  · subst e
    have h1 := (b.mem x hy).1
    rw [(a.mem x hx).2] at h1; cases h1
  · rw [b.evs, a.evs]; cases ev <;> simp
  · rcases List.mem_append.mp hx with h | h
    · exact ⟨(a.mem x h).1, kept x (a.mem x h).2⟩
    · exact ⟨s.has (b.mem x h).1, (b.mem x h).2⟩
  · rcases s.item x with g | ⟨iy, g1, g2⟩
    · rcases a.rest x ix e (has_false.mpr g) with h' | h'
      · exact Or.inl (List.mem_append.mpr (Or.inl h'))
      · exact Or.inr h'
    · rw [e] at g1; cases g1
      rcases b.rest x _ g2 h with h' | h'
      · exact Or.inl (List.mem_append.mpr (Or.inr h'))
      · refine Or.inr (fun hk => h' ?_)
        show ix.kids.filter _ = []
        rw [hk]; rfl

theorem remove_evs (t : Tree) (h : Nat) (ev : Bool) :
    (t.remove h ev).evs = t.evs ++ (if ev then [TEvent.removed h] else []) := by
  have hu : ∀ (t : Tree) c p, (t.unlink c p).evs = t.evs := by
    intro t c p; unfold Tree.unlink; split
    · rfl
    · exact upd_evs _ _ _
  unfold Tree.remove Tree.emit
  cases t.get h with
  | none => cases ev <;> simp
  | some it => cases ev <;> simp [hu]

/-- What disappears when an object is deleted, and which events say so. -/
theorem del_evs (n : Nat) : (∀ (t : Tree) h phys ev, TreeWF t → ∃ l, GoneEv ev t (t.del n h phys ev).1 l) ∧
    (∀ (t : Tree) h phys ev, TreeWF t → ∃ l, GoneEv ev t (t.delKids n h phys ev).1 l) := by
  induction n with
  | zero =>
    refine ⟨fun t h phys ev _ => ⟨[], ?_⟩, fun t h phys ev _ => ⟨[], ?_⟩⟩
    · unfold Tree.del; exact GoneEv.refl _ rfl rfl
    · unfold Tree.delKids; exact GoneEv.refl _ rfl rfl
  | succ n ih =>
    refine ⟨fun t h phys ev w => ?_, fun t h phys ev w => ?_⟩
    · rw [del_unfold]
      cases e : t.get h with
      | none => exact ⟨[], GoneEv.refl _ rfl rfl⟩
      | some it =>
        dsimp only
        split
        · exact ⟨[], GoneEv.refl _ rfl rfl⟩
        split
        · next hk =>
          split
          · exact ⟨[], GoneEv.refl _ rfl rfl⟩
          · refine ⟨[h], ?_⟩
            have core : ∀ t0 : Tree, t0.items = t.items → t0.evs = t.evs → GoneEv ev t (t0.remove h ev) [h] := by
              intro t0 hi he
              have e0 : t0.get h = some it := by unfold Tree.get; rw [hi]; exact e
              refine ⟨by simp, ?_, fun x hx => ?_, fun x ix ex hx => ?_⟩
              · rw [remove_evs, he]; cases ev <;> rfl
              · rw [List.mem_singleton] at hx; subst hx
                refine ⟨has_iff.mpr ⟨it, e⟩, has_false.mpr ?_⟩
                rw [Tree.remove_get e0, if_pos rfl]
              · left
                rw [List.mem_singleton]
                refine Classical.byContradiction (fun hne => ?_)
                have hg := has_false.mp hx
                rw [Tree.remove_get e0, if_neg hne] at hg
                have ex0 : t0.get x = some ix := by unfold Tree.get; rw [hi]; exact ex
                rw [ex0] at hg
                split at hg <;> cases hg
            split
            · exact core _ rfl rfl
            · exact core _ rfl rfl
        · next hk =>
          obtain ⟨w1, s1, k1⟩ := delKids_facts w n e phys ev
          obtain ⟨l, a⟩ := ih.2 t h phys ev w
          split
          · next hd =>
            refine ⟨l, ?_⟩
            dsimp only
            generalize (t.delKids n h phys ev).1 = t1 at *
            have hh1 := k1 hd
            obtain ⟨l2, b⟩ := ih.1 t1 h true false w1
            have s2 := del_shrunk w1 n h true false
            have keep := fun x => del_keeps w1 n h true false (x := x)
            generalize (t1.del n h true false).1 = t2 at *
            refine ⟨a.nodup, ?_, fun x hx => ?_, fun x ix ex hx => ?_⟩
            · rw [b.evs, a.evs]; simp
            · refine ⟨(a.mem x hx).1, ?_⟩
              cases hx2 : t2.has x with
              | false => rfl
              | true => have := s2.has hx2; rw [(a.mem x hx).2] at this; cases this
            · cases hx1 : t1.has x with
              | false => exact a.rest x ix ex hx1
              | true =>
                right
                by_cases hxh : x = h
                · subst hxh; rw [e] at ex; cases ex; exact hk
                · exfalso
                  have := keep x hx1 (fun hb => by
                    obtain ⟨k, hk, _⟩ := Below.step_down w1 hb hxh hh1
                    cases hk)
                  rw [this] at hx; cases hx
          · exact ⟨l, a⟩
    · rw [delKids_unfold]
      cases e : t.get h with
      | none => exact ⟨[], GoneEv.refl _ rfl rfl⟩
      | some it =>
        dsimp only
        split
        · exact ⟨[], GoneEv.refl _ rfl rfl⟩
        · next c r hk =>
          obtain ⟨l, a⟩ := ih.1 t c phys ev w
          split
          · next hd =>
            have w1 := del_wf w n c phys ev
            have s1 := del_shrunk w n c phys ev
            generalize (t.del n c phys ev).1 = t1 at *
            obtain ⟨l2, b⟩ := ih.2 t1 h phys ev w1
            cases e1 : t1.get h with
            | none =>
              have : (t1.delKids n h phys ev).1.items = t1.items ∧ (t1.delKids n h phys ev).1.evs = t1.evs := by
                cases n with
                | zero => unfold Tree.delKids; exact ⟨rfl, rfl⟩
                | succ n => rw [delKids_unfold, e1]; exact ⟨rfl, rfl⟩
              have hs : Shrunk t1 t1 := by
                refine ⟨fun x => ?_, rfl, rfl, rfl, Nat.le_refl _⟩
                cases ex : t1.get x with
                | none => exact Or.inl rfl
                | some ix =>
                  refine Or.inr ⟨ix, rfl, ?_⟩
                  have : ix.kids.filter (fun c => t1.has c) = ix.kids := by
                    rw [List.filter_eq_self]
                    intro k hk
                    obtain ⟨ki, k1, _⟩ := w1.kids x ix k ex hk
                    exact has_iff.mpr ⟨ki, k1⟩
                  rw [this]
              refine ⟨l ++ [], ?_⟩
              have hb : GoneEv ev t1 (t1.delKids n h phys ev).1 [] := GoneEv.refl _ this.2 this.1
              have hsh : Shrunk t1 (t1.delKids n h phys ev).1 := by
                cases n with
                | zero => unfold Tree.delKids; exact hs
                | succ n => rw [delKids_unfold, e1]; exact hs
              exact a.trans s1 hsh hb
            | some i1 => exact ⟨_, a.trans s1 (delKids_facts w1 n e1 phys ev).2.1 b⟩
          · exact ⟨l, a⟩

/-! ### Moves and renames: no object appears or disappears, no event -/

/-- The same objects and no event. -/
def Quiet (t t' : Tree) : Prop := (∀ x, t'.has x = t.has x) ∧ t'.evs = t.evs

theorem Quiet.refl (t : Tree) : Quiet t t := ⟨fun _ => rfl, rfl⟩

theorem Quiet.trans {t t1 t2 : Tree} (a : Quiet t t1) (b : Quiet t1 t2) : Quiet t t2 :=
  ⟨fun x => (b.1 x).trans (a.1 x), b.2.trans a.2⟩

theorem quiet_upd (t : Tree) (h : Nat) (f : Item → Item) : Quiet t (t.upd h f) := ⟨upd_has t h f, upd_evs t h f⟩

theorem quiet_unlink (t : Tree) (c : Nat) (p : Option Nat) : Quiet t (t.unlink c p) := by
  unfold Tree.unlink; split
  · exact Quiet.refl t
  · exact quiet_upd _ _ _

theorem quiet_insert {t : Tree} {h : Nat} {it : Item} (e : t.get h = some it) (paths : AMap Path Nat) (it' : Item) :
    Quiet t { t with paths := paths, items := AMap.insert t.items h it' } := by
  refine ⟨fun x => ?_, rfl⟩
  unfold Tree.has
  show (AMap.get (AMap.insert t.items h it') x).isSome = _
  rw [AMap.get_insert]
  split
  · next hx => subst hx; rw [e]; rfl
  · rfl

theorem quiet_adjust (n : Nat) : ∀ (t : Tree) (a : Path) (c : Nat), Quiet t (t.adjust n a c) := by
  induction n with
  | zero => intro t a c; exact Quiet.refl t
  | succ n ih =>
    intro t a c
    unfold Tree.adjust
    split
    · exact Quiet.refl t
    · next it e =>
      have : ∀ (l : List Nat) (t' : Tree) (d : Path), Quiet t' (l.foldl (fun t c => t.adjust n d c) t') := by
        intro l
        induction l with
        | nil => intro t' d; exact Quiet.refl t'
        | cons c l ihl => intro t' d; rw [List.foldl_cons]; exact (ih t' d c).trans (ihl _ d)
      exact (quiet_insert e _ _).trans (this _ _ _)

theorem quiet_fold (n : Nat) (d : Path) : ∀ (l : List Nat) (t : Tree),
    Quiet t (l.foldl (fun t c => t.adjust n d c) t) := by
  intro l
  induction l with
  | nil => intro t; exact Quiet.refl t
  | cons c l ihl => intro t; rw [List.foldl_cons]; exact (quiet_adjust n t d c).trans (ihl _)

theorem quiet_relocate (t : Tree) (h : Nat) (it : Item) (p : Nat) (dest : Path) : Quiet t (t.relocate h it p dest) := by
  unfold Tree.relocate
  dsimp only
  have h1 : Quiet t { t with paths := AMap.insert (AMap.erase t.paths it.path) dest h } := ⟨fun _ => rfl, rfl⟩
  exact h1.trans ((quiet_unlink _ _ _).trans ((quiet_fold _ _ _ _).trans
    ((quiet_upd _ p _).trans ((quiet_upd _ h _).trans (quiet_upd _ h _)))))

theorem quiet_move (t : Tree) (h p : Nat) (phys : Bool) : Quiet t (t.move h p phys).1 := by
  unfold Tree.move
  split
  · exact Quiet.refl t
  · split
    · exact Quiet.refl t
    · dsimp only
      split
      · exact Quiet.refl t
      · cases phys
        · exact quiet_relocate _ _ _ _ _
        · simp only [if_true]
          split
          · exact ⟨fun _ => rfl, rfl⟩
          · have h1 : Quiet t t.ask.2 := ⟨fun _ => rfl, rfl⟩
            exact h1.trans (quiet_relocate _ _ _ _ _)

theorem quiet_repath {t : Tree} {h : Nat} {it : Item} (e : t.get h = some it) (path name : Path) :
    Quiet t (t.repath h it path name) := by
  unfold Tree.repath
  exact (quiet_insert e _ _).trans (quiet_fold _ _ _ _)

theorem quiet_rename (t : Tree) (h : Nat) (name : Path) : Quiet t (t.rename h name).1 := by
  unfold Tree.rename
  split
  · exact Quiet.refl t
  · next it e =>
    split
    · exact Quiet.refl t
    · split
      · exact Quiet.refl t
      · dsimp only
        split
        · exact ⟨fun _ => rfl, rfl⟩
        · have h1 : Quiet t t.ask.2 := ⟨fun _ => rfl, rfl⟩
          have := h1.trans (quiet_repath (t := t.ask.2) (h := h) (it := it) e
            (if '/' ∈ it.path then join (dirOf it.path) name else name) name)
          exact ⟨this.1, this.2⟩

end Mtp
