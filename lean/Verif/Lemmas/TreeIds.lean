import Verif.Lemmas.TreeStep
import Verif.Spec.Persist
/-! The persistent ids of a storage's objects. -/
namespace Mtp
open Spec

/-- Recorded ids stay. -/
def IdsKept (t t' : Tree) : Prop := ∀ p v, AMap.get t.puoids p = some v → AMap.get t'.puoids p = some v

theorem IdsKept.refl (t : Tree) : IdsKept t t := fun _ _ h => h
theorem IdsKept.trans {t t' t'' : Tree} (a : IdsKept t t') (b : IdsKept t' t'') : IdsKept t t'' :=
  fun p v h => b p v (a p v h)

/-- Objects of `t'` are objects of `t` up to links. -/
theorem IdsInv.congr {t t' : Tree} (i : IdsInv t) (h1 : t'.puoids = t.puoids) (h2 : t'.idsAsked = t.idsAsked)
    (h3 : ∀ h it, t'.get h = some it → ∃ it0 h0, t.get h0 = some it0 ∧ it0.path = it.path ∧ it0.puoid = it.puoid) :
    IdsInv t' := by
  refine ⟨?_, ?_, ?_, by rw [h1]; exact i.keys⟩
  · intro h it e
    obtain ⟨it0, h0, e0, a, b⟩ := h3 h it e
    rw [h1, ← a, ← b]; exact i.own h0 it0 e0
  · rw [h1]; exact i.inj
  · rw [h1, h2]; exact i.bound

theorem upd_ids (t : Tree) (h : Nat) (f : Item → Item) : (t.upd h f).puoids = t.puoids ∧ (t.upd h f).idsAsked = t.idsAsked := by
  unfold Tree.upd; split <;> exact ⟨rfl, rfl⟩

theorem linkOpt_ids (t : Tree) (h : Nat) (p : Option Nat) :
    (t.linkOpt h p).puoids = t.puoids ∧ (t.linkOpt h p).idsAsked = t.idsAsked ∧
    ∀ x it, (t.linkOpt h p).get x = some it → ∃ it0, t.get x = some it0 ∧ it0.path = it.path ∧ it0.puoid = it.puoid := by
  cases p with
  | none => exact ⟨rfl, rfl, fun x it e => ⟨it, e, rfl, rfl⟩⟩
  | some p =>
    refine ⟨(upd_ids t p _).1, (upd_ids t p _).2, ?_⟩
    intro x it e
    simp only [Tree.linkOpt, Tree.link, Tree.upd] at e
    split at e
    · exact ⟨it, e, rfl, rfl⟩
    · next pit hp =>
      have : AMap.get (AMap.insert t.items p { pit with kids := h :: pit.kids }) x = some it := e
      rw [AMap.get_insert] at this
      split at this
      · next hx => subst hx; cases this; exact ⟨pit, hp, rfl, rfl⟩
      · exact ⟨it, this, rfl, rfl⟩

theorem addToMaps_ids {t : Tree} (i : IdsInv t) (h : Nat) (it : Item) :
    IdsInv (t.addToMaps h it) ∧ IdsKept t (t.addToMaps h it) := by
  unfold Tree.addToMaps
  cases e : AMap.get t.puoids it.path with
  | some v =>
    simp only
    refine ⟨⟨?_, i.inj, i.bound, i.keys⟩, IdsKept.refl _⟩
    intro x ix ex
    have ex : AMap.get (AMap.insert t.items h { it with puoid := v }) x = some ix := ex
    rw [AMap.get_insert] at ex
    split at ex
    · cases ex; exact e
    · exact i.own x ix ex
  | none =>
    simp only
    have hk : ∀ p v, AMap.get t.puoids p = some v →
        AMap.get (AMap.insert t.puoids it.path (t.idsAsked + 1)) p = some v := by
      intro p v hp
      rw [AMap.get_insert, if_neg (by rintro rfl; rw [e] at hp; cases hp)]; exact hp
    refine ⟨⟨?_, ?_, ?_, AMap.nodup_insert i.keys _ _⟩, hk⟩
    · intro x ix ex
      have ex : AMap.get (AMap.insert t.items h { it with puoid := t.idsAsked + 1 }) x = some ix := ex
      rw [AMap.get_insert] at ex
      split at ex
      · cases ex
        show AMap.get (AMap.insert t.puoids it.path (t.idsAsked + 1)) it.path = _
        rw [AMap.get_insert, if_pos rfl]
      · exact hk _ _ (i.own x ix ex)
    · intro p q v hp hq
      have hp : AMap.get (AMap.insert t.puoids it.path (t.idsAsked + 1)) p = some v := hp
      have hq : AMap.get (AMap.insert t.puoids it.path (t.idsAsked + 1)) q = some v := hq
      rw [AMap.get_insert] at hp hq
      split at hp <;> split at hq
      · next a b => exact a.trans b.symm
      · cases hp; have := i.bound _ _ hq; omega
      · cases hq; have := i.bound _ _ hp; omega
      · exact i.inj _ _ _ hp hq
    · intro p v hp
      have hp : AMap.get (AMap.insert t.puoids it.path (t.idsAsked + 1)) p = some v := hp
      rw [AMap.get_insert] at hp
      show v ≤ t.idsAsked + 1
      split at hp
      · cases hp; exact Nat.le_refl _
      · exact Nat.le_succ_of_le (i.bound _ _ hp)

theorem addOne_ids {t : Tree} (i : IdsInv t) (path : Path) (link : Option (Option Path)) (dfmt : Nat)
    (info : Option Tree.Info) (create : Bool) (handle : Nat) :
    IdsInv (t.addOne path link dfmt info create handle).1 ∧ IdsKept t (t.addOne path link dfmt info create handle).1 := by
  have hp : ((t.pickHandle path handle).2.tryCreate create).2.puoids = t.puoids ∧
      ((t.pickHandle path handle).2.tryCreate create).2.idsAsked = t.idsAsked ∧
      ((t.pickHandle path handle).2.tryCreate create).2.items = t.items := by
    unfold Tree.pickHandle Tree.tryCreate Tree.ask Tree.newHandle
    repeat' split
    all_goals exact ⟨rfl, rfl, rfl⟩
  unfold Tree.addOne
  split
  · exact ⟨i, IdsKept.refl _⟩
  · split
    · exact ⟨i, IdsKept.refl _⟩
    · dsimp only
      generalize (t.pickHandle path handle).2.tryCreate create = ct at hp ⊢
      obtain ⟨p1, p2, p3⟩ := hp
      have ic : IdsInv ct.2 := i.congr p1 p2 (fun h it e => ⟨it, h, by unfold Tree.get at e ⊢; rw [← p3]; exact e, rfl, rfl⟩)
      have kc : IdsKept t ct.2 := by intro p v h; rw [p1]; exact h
      split
      · exact ⟨ic, kc⟩
      · obtain ⟨l1, l2, l3⟩ := linkOpt_ids ct.2 (t.pickHandle path handle).1 (t.parentFor path)
        have il := ic.congr l1 l2 (fun h it e => by obtain ⟨a, b, c, d⟩ := l3 h it e; exact ⟨a, h, b, c, d⟩)
        obtain ⟨a, b⟩ := addToMaps_ids il (t.pickHandle path handle).1
          (Tree.newItem path (t.parentFor path) dfmt info)
        exact ⟨a, kc.trans (IdsKept.trans (by intro p v h; rw [l1]; exact h) b)⟩

theorem emit_ids {t : Tree} (i : IdsInv t) (b : Bool) (e : TEvent) : IdsInv (t.emit b e) ∧ IdsKept t (t.emit b e) := by
  unfold Tree.emit
  split
  · exact ⟨⟨i.own, i.inj, i.bound, i.keys⟩, fun _ _ h => h⟩
  · exact ⟨i, IdsKept.refl _⟩

mutual
theorem add_ids {t : Tree} (i : IdsInv t) (path : Path) (d : Disk) (info : Option Tree.Info) (ev create : Bool)
    (handle : Nat) : IdsInv (t.add path d info ev create handle).1 ∧ IdsKept t (t.add path d info ev create handle).1 := by
  match d with
  | .node link dfmt entries =>
    rw [Tree.add.eq_def]
    have h1 := addOne_ids i path link dfmt info create handle
    dsimp only
    split
    · next t1 h r e =>
      rw [e] at h1
      show IdsInv (Tree.emit _ _ _) ∧ IdsKept _ (Tree.emit _ _ _)
      split
      · obtain ⟨a, b⟩ := addAll_ids h1.1 path ev create entries
        obtain ⟨c, d⟩ := emit_ids a ev (.added h)
        exact ⟨c, h1.2.trans (b.trans d)⟩
      · obtain ⟨c, d⟩ := emit_ids h1.1 ev (.added h)
        exact ⟨c, h1.2.trans d⟩
    · next t1 r e => rw [e] at h1; exact h1
  termination_by structural d

theorem addAll_ids {t : Tree} (i : IdsInv t) (path : Path) (ev create : Bool) (entries : List (Path × Disk)) :
    IdsInv (t.addAll path ev create entries) ∧ IdsKept t (t.addAll path ev create entries) := by
  match entries with
  | [] => rw [Tree.addAll]; exact ⟨i, IdsKept.refl _⟩
  | (n, d) :: r =>
    rw [Tree.addAll]
    obtain ⟨a, b⟩ := add_ids i (join path n) d none ev create 0
    obtain ⟨c, e⟩ := addAll_ids a path ev create r
    exact ⟨c, b.trans e⟩
  termination_by structural entries
end

theorem remove_ids (t : Tree) (h : Nat) (ev : Bool) :
    (t.remove h ev).puoids = t.puoids ∧ (t.remove h ev).idsAsked = t.idsAsked := by
  unfold Tree.remove
  dsimp only
  have he : ∀ (t : Tree) b e, (t.emit b e).puoids = t.puoids ∧ (t.emit b e).idsAsked = t.idsAsked := by
    intro t b e; unfold Tree.emit; split <;> exact ⟨rfl, rfl⟩
  rw [(he _ _ _).1, (he _ _ _).2]
  split
  · exact ⟨rfl, rfl⟩
  · next it _ =>
    unfold Tree.unlink
    cases it.parent with
    | none => exact ⟨rfl, rfl⟩
    | some p => exact upd_ids _ _ _

theorem del_ids (n : Nat) : ∀ (t : Tree) (h : Nat) (phys ev : Bool),
    ((t.del n h phys ev).1.puoids = t.puoids ∧ (t.del n h phys ev).1.idsAsked = t.idsAsked) ∧
    ((t.delKids n h phys ev).1.puoids = t.puoids ∧ (t.delKids n h phys ev).1.idsAsked = t.idsAsked) := by
  induction n with
  | zero => intro t h phys ev; exact ⟨by rw [Tree.del]; exact ⟨rfl, rfl⟩, by rw [Tree.delKids]; exact ⟨rfl, rfl⟩⟩
  | succ n ih =>
    intro t h phys ev
    constructor
    · rw [del_unfold]
      split
      · exact ⟨rfl, rfl⟩
      · split
        · exact ⟨rfl, rfl⟩
        · split
          · split
            · exact ⟨rfl, rfl⟩
            · rw [(remove_ids _ h ev).1, (remove_ids _ h ev).2]; split <;> exact ⟨rfl, rfl⟩
          · split
            · show (Tree.del n _ h true false).1.puoids = _ ∧ (Tree.del n _ h true false).1.idsAsked = _
              rw [(ih _ _ _ _).1.1, (ih _ _ _ _).2.1, (ih _ _ _ _).1.2, (ih _ _ _ _).2.2]; exact ⟨rfl, rfl⟩
            · exact (ih _ _ _ _).2
    · rw [delKids_unfold]
      split
      · exact ⟨rfl, rfl⟩
      · split
        · exact ⟨rfl, rfl⟩
        · split
          · rw [(ih _ _ _ _).2.1, (ih _ _ _ _).1.1, (ih _ _ _ _).2.2, (ih _ _ _ _).1.2]; exact ⟨rfl, rfl⟩
          · exact (ih _ _ _ _).1

theorem delAll_ids (fmt : Nat) : ∀ (l : List (Nat × Item)) (t : Tree) (resp : Resp) (a b c : Bool),
    (Tree.delAll fmt l t resp a b c).1.puoids = t.puoids ∧
    (Tree.delAll fmt l t resp a b c).1.idsAsked = t.idsAsked := by
  intro l
  induction l with
  | nil => intro t resp a b c; exact ⟨rfl, rfl⟩
  | cons e l ih =>
    intro t resp a b c
    obtain ⟨h, it⟩ := e
    unfold Tree.delAll
    dsimp only
    split
    · exact ih _ _ _ _ _
    · have h1 := (del_ids t.delFuel t h true false).1
      have h2 := ih (t.del t.delFuel h true false).1 (t.del t.delFuel h true false).2
        (a || (t.del t.delFuel h true false).2 = .ok)
        (b || ((t.del t.delFuel h true false).2 ≠ .ok && (t.del t.delFuel h true false).2 ≠ .invalidObjectHandle))
        (c || (decide (fmt ≠ 0 ∧ fmt ≠ UNDEF) && !t.has h))
      exact ⟨h2.1.trans h1.1, h2.2.trans h1.2⟩

theorem IdsInv.shrunk {t t' : Tree} (i : IdsInv t) (s : Shrunk t t') (h1 : t'.puoids = t.puoids)
    (h2 : t'.idsAsked = t.idsAsked) : IdsInv t' := by
  apply i.congr h1 h2
  intro h it e
  rcases s.item h with g | ⟨ix, g1, g2⟩
  · rw [g] at e; cases e
  · rw [g2] at e; cases e; exact ⟨ix, h, g1, rfl, rfl⟩

theorem step_ids {t : Tree} (w : TreeWF t) (i : IdsInv t) (op : Tree.Op) (hp : PlainOp op) :
    IdsInv (t.step op) ∧ IdsKept t (t.step op) := by
  cases op with
  | add inf d =>
    simp only [Tree.step, Tree.addItem]
    split
    · exact ⟨i, IdsKept.refl _⟩
    · exact add_ids i _ _ _ _ _ _
  | adopt inf d h =>
    simp only [Tree.step, Tree.adopt]
    split
    · exact ⟨i, IdsKept.refl _⟩
    · split
      · exact ⟨i, IdsKept.refl _⟩
      · exact add_ids i _ _ _ _ _ _
  | delete h fmt =>
    have hs := (deleteItem_spec w h fmt).2
    have hids : (t.deleteItem h fmt).1.puoids = t.puoids ∧ (t.deleteItem h fmt).1.idsAsked = t.idsAsked := by
      unfold Tree.deleteItem
      split
      · exact delAll_ids fmt t.items t .generalError false false false
      · exact (del_ids _ _ _ _ _).1
    refine ⟨i.shrunk hs hids.1 hids.2, ?_⟩
    intro p v h; show AMap.get (t.deleteItem _ fmt).1.puoids p = _; rw [hids.1]; exact h
  | move h p => exact absurd hp (by simp [PlainOp])
  | rename h n => exact absurd hp (by simp [PlainOp])
  | fsCreate d n k =>
    simp only [Tree.step, Tree.fsCreate]
    split
    · exact ⟨i, IdsKept.refl _⟩
    · split
      · exact ⟨i, IdsKept.refl _⟩
      · exact add_ids i _ _ _ _ _ _
  | fsDelete d n =>
    simp only [Tree.step, Tree.fsDelete]
    split
    · exact ⟨i, IdsKept.refl _⟩
    · split
      · exact ⟨i, IdsKept.refl _⟩
      · next h _ =>
        have hids := (del_ids t.delFuel t h false true).1
        refine ⟨i.shrunk (del_shrunk w t.delFuel h false true) hids.1 hids.2, ?_⟩
        intro p v hh; rw [hids.1]; exact hh
  | fsMove a b c d e => exact absurd hp (by simp [PlainOp])
  | other n => exact ⟨⟨i.own, i.inj, i.bound, i.keys⟩, IdsKept.refl _⟩

theorem run_ids (ops : List Tree.Op) : ∀ {t : Tree}, TreeWF t → Issued t → HistOk t ops →
    (t.run ops).asked < 0xFFFFFFFF → IdsInv t → (∀ op ∈ ops, PlainOp op) →
    IdsInv (t.run ops) ∧ IdsKept t (t.run ops) := by
  induction ops with
  | nil => intro t _ _ _ _ i _; exact ⟨i, IdsKept.refl _⟩
  | cons op ops ih =>
    intro t w hi hh hb i hp
    obtain ⟨a, b⟩ := step_ids w i op (hp op List.mem_cons_self)
    have hb1 : (t.step op).asked < 0xFFFFFFFF := Nat.lt_of_le_of_lt (run_asked ops _) hb
    have s := treeStep_ok w hi op hh.1 hb1
    obtain ⟨c, d⟩ := ih s.wf s.issued hh.2 hb a (fun o ho => hp o (List.mem_cons_of_mem _ ho))
    exact ⟨c, b.trans d⟩

/-- The state before enumeration. -/
theorem empty_ids {rp : Path} {excl : List Path} {pol : SymPolicy} {pu : AMap Path Nat} {fs : Nat → Bool}
    {asked ids : Nat} (hinj : ∀ p q v, AMap.get pu p = some v → AMap.get pu q = some v → p = q)
    (hb : ∀ p v, AMap.get pu p = some v → v ≤ ids) (hk : (pu.map (·.1)).Nodup) :
    IdsInv (Tree.empty rp excl pol pu fs asked ids) :=
  ⟨(by intro h it e; cases e), hinj, hb, hk⟩

theorem dropUnused_ids {t : Tree} (w : TreeWF t) (i : IdsInv t) :
    IdsInv { t with puoids := t.puoids.filter (fun e => (AMap.get t.paths e.1).isSome) } := by
  have hg : ∀ p, AMap.get (t.puoids.filter (fun e => (AMap.get t.paths e.1).isSome)) p =
      if (AMap.get t.paths p).isSome then AMap.get t.puoids p else none := by
    intro p
    generalize t.puoids = l
    induction l with
    | nil => simp [AMap.get]
    | cons e l ih =>
      obtain ⟨k, v⟩ := e
      rw [List.filter_cons]
      by_cases hk : p = k
      · subst hk
        by_cases hs : (AMap.get t.paths p).isSome = true
        · simp [hs, AMap.get]
        · simp only [hs, if_false, Bool.false_eq_true] at ih ⊢
          exact ih
      · by_cases hs : (AMap.get t.paths k).isSome = true
        · simp only [hs, if_true, AMap.get, hk, if_false]; exact ih
        · simp only [hs, if_false, Bool.false_eq_true, AMap.get, hk]; exact ih
  refine ⟨?_, ?_, ?_, List.Nodup.sublist (List.Sublist.map _ List.filter_sublist) i.keys⟩
  · intro h it e
    show AMap.get (t.puoids.filter _) it.path = _
    rw [hg, w.pathOf h it e]
    exact i.own h it e
  · intro p q v hp hq
    have hp : AMap.get (t.puoids.filter _) p = some v := hp
    have hq : AMap.get (t.puoids.filter _) q = some v := hq
    rw [hg] at hp hq
    split at hp
    · split at hq
      · exact i.inj _ _ _ hp hq
      · cases hq
    · cases hp
  · intro p v hp
    have hp : AMap.get (t.puoids.filter _) p = some v := hp
    rw [hg] at hp
    split at hp
    · exact i.bound _ _ hp
    · cases hp

end Mtp
