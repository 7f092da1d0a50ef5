import Verif.Lemmas.TreeStep
import Verif.Lemmas.TreeEvents
import Verif.Props.Names
import Verif.Spec.Startup
/-! What is shown of a directory when it is enumerated. -/
namespace Mtp
open Spec

theorem mayShow_iff (t : Tree) (p : Path) (l : Option (Option Path)) :
    t.refused p l = false ↔ MayShow t.excl t.policy t.rootPath p l := by
  rw [Props.refused_spec]
  unfold MayShow Props.LinkAllowed
  cases l with
  | none => rfl
  | some l => cases l <;> rfl

theorem Shown.may {excl pol root p l f' es q f} (h : Shown excl pol root p (.node l f' es) q f) : MayShow excl pol root p l := by
  cases h <;> assumption

theorem shown_under {excl pol root p d q f} (h : Shown excl pol root p d q f) : Under p q := by
  induction h with
  | self => exact Under.refl _
  | inside _ _ _ ih => exact (Under.join _ _).trans ih

theorem DisksOk.mem {es : List (Path × Disk)} (h : DisksOk es) {n : Path} {d : Disk} (hm : (n, d) ∈ es) : '/' ∉ n ∧ DiskOk d := by
  induction es with
  | nil => cases hm
  | cons e r ih =>
    obtain ⟨n', d'⟩ := e
    rw [DisksOk] at h
    rcases List.mem_cons.mp hm with e | e
    · cases e; exact h.1
    · exact ih h.2 e

theorem shown_parent {excl pol root p d q f} (h : Shown excl pol root p d q f) (hd : DiskOk d) :
    q = p ∨ ∃ q' n, q = join q' n ∧ '/' ∉ n ∧ Shown excl pol root p d q' ASSOC := by
  induction h with
  | self => exact Or.inl rfl
  | inside hm hin _ ih =>
    rw [DiskOk] at hd
    obtain ⟨h1, h2⟩ := DisksOk.mem hd hin
    right
    rcases ih h2 with rfl | ⟨q', n', e, hn, hs⟩
    · exact ⟨_, _, rfl, h1, .self hm⟩
    · exact ⟨q', n', e, hn, .inside hm hin hs⟩

theorem HasAt.paths {t : Tree} (w : TreeWF t) {q : Path} : (AMap.get t.paths q).isSome = true ↔ ∃ f, HasAt t q f := by
  constructor
  · intro h
    obtain ⟨x, hx⟩ := Option.isSome_iff_exists.mp h
    obtain ⟨it, e, hp⟩ := w.ofPath q x hx
    exact ⟨it.fmt, x, it, e, hp, rfl⟩
  · rintro ⟨f, x, it, e, rfl, _⟩
    rw [w.pathOf x it e]; rfl

theorem hasAt_grown {k : Nat} {t t' : Tree} (g : Grown k t t') {q : Path} {f : Nat} (h : HasAt t q f) : HasAt t' q f := by
  obtain ⟨x, ix, e, hp, hf⟩ := h
  obtain ⟨l, e'⟩ := g.item x ix e
  exact ⟨x, _, e', hp, hf⟩

theorem hasAt_emit (t : Tree) (b : Bool) (e : TEvent) (q : Path) (f : Nat) : HasAt (t.emit b e) q f ↔ HasAt t q f := by
  unfold HasAt Tree.get
  rw [(Tree.emit_eq t b e).1]

theorem addOne_free (t : Tree) (path : Path) (link : Option (Option Path)) (dfmt : Nat) (hr : t.refused path link = false)
    (hf : AMap.get t.paths path = none) : ∃ h, (t.addOne path link dfmt none false 0).2 = (some h, .ok) := by
  unfold Tree.addOne
  rw [hr, hf]
  simp [Tree.tryCreate]

mutual
theorem add_shown {t : Tree} (w : TreeWF t) (hi : Issued t) {ph : Nat} {pit : Item} {n : Path}
    (hp : t.get ph = some pit) (hn : '/' ∉ n) (d : Disk) (hd : DiskOk d) (hu : DiskNames d) (ev : Bool)
    (hfree : ∀ q, Under (join pit.path n) q → AMap.get t.paths q = none)
    (hb : (t.add (join pit.path n) d none ev false 0).1.asked < 0xFFFFFFFF) (q : Path) (f : Nat) :
    HasAt (t.add (join pit.path n) d none ev false 0).1 q f ↔
      HasAt t q f ∨ Shown t.excl t.policy t.rootPath (join pit.path n) d q f := by
  match d with
  | .node link dfmt entries =>
    rw [DiskOk] at hd
    rw [DiskNames] at hu
    have cfg := (Props.addOne_cfg t (join pit.path n) link dfmt none false 0).1
    rw [Tree.add.eq_def] at hb ⊢
    dsimp only at hb ⊢
    have key := addOne_spec w hi hp hn link dfmt none (fun i e => by cases e) false 0 (fun h => absurd rfl h)
    cases hr : t.refused (join pit.path n) link with
    | true =>
      have e : t.addOne (join pit.path n) link dfmt none false 0 = (t, none, .accessDenied) := by
        unfold Tree.addOne; rw [hr]; rfl
      simp only [e]
      refine ⟨Or.inl, ?_⟩
      rintro (h | h)
      · exact h
      · have := (mayShow_iff _ _ _).mpr (Shown.may h)
        rw [hr] at this; cases this
    | false =>
      have may := (mayShow_iff _ _ _).mp hr
      obtain ⟨h, e⟩ := addOne_free t (join pit.path n) link dfmt hr (hfree _ (Under.refl _))
      have hh := addOne_new t (join pit.path n) link dfmt none false 0
      generalize ht1 : t.addOne (join pit.path n) link dfmt none false 0 = R at *
      obtain ⟨t1, r1, r2⟩ := R
      simp only [Prod.mk.injEq] at e
      obtain ⟨rfl, rfl⟩ := e
      dsimp only at hb key hh cfg ⊢
      rw [(Tree.emit_eq _ _ _).2.2.2.1] at hb
      rw [hasAt_emit]
      have hfm : (Tree.newItem (join pit.path n) none dfmt none).fmt = dfmt := rfl
      rw [hfm] at hb ⊢
      obtain ⟨k1, k2, k3, _, k5⟩ := key (by
        refine Nat.lt_of_le_of_lt ?_ hb
        split
        · exact addAll_asked _ _ _ _ entries
        · exact Nat.le_refl _)
      obtain ⟨it, e1, e2, _, _, _, _, e3, e4⟩ := k3 h rfl
      have i1 := Issued_grown k2 hi (Nat.zero_le _)
      -- what one addition does
      have one : ∀ q f, HasAt t1 q f ↔ HasAt t q f ∨ (q = join pit.path n ∧ f = dfmt) := by
        intro q f
        constructor
        · rintro ⟨x, ix, ex, hq, hf⟩
          by_cases hx : x = h
          · subst hx
            rw [e1] at ex; cases ex
            exact Or.inr ⟨hq ▸ e2, by rw [← hf, e4]; rfl⟩
          · left
            have := hh.2 x
            have hx1 : t1.has x = true := has_iff.mpr ⟨ix, ex⟩
            rw [hx1] at this
            have hx2 : t.has x = true := by
              have h3 : decide ((some h : Option Nat) = some x) = false := by
                simp only [Option.some.injEq, decide_eq_false_iff_not]; exact fun e => hx e.symm
              rw [h3] at this; simpa using this.symm
            obtain ⟨iy, ey⟩ := has_iff.mp hx2
            obtain ⟨l, el⟩ := k2.item x iy ey
            rw [ex] at el; cases el
            exact ⟨x, iy, ey, hq, hf⟩
        · rintro (h' | ⟨rfl, rfl⟩)
          · exact hasAt_grown k2 h'
          · exact ⟨h, it, e1, e2, by rw [e4]; rfl⟩
      by_cases ha : dfmt = ASSOC
      · rw [if_pos ha] at hb ⊢
        have fr : ∀ m d', (m, d') ∈ entries → ∀ q, Under (join it.path m) q → AMap.get t1.paths q = none := by
          intro m d' hm q hq
          rw [e2] at hq
          cases hg : AMap.get t1.paths q with
          | none => rfl
          | some x =>
            obtain ⟨f', hf'⟩ := (HasAt.paths k1).mp (by rw [hg]; rfl)
            rcases (one q f').mp hf' with h' | ⟨rfl, _⟩
            · have := (HasAt.paths w).mpr ⟨f', h'⟩
              rw [hfree q ((Under.join _ _).trans hq)] at this; cases this
            · have := hq.length
              rw [join_length] at this; omega
        have := addAll_shown k1 i1 e1 entries hd hu.1 hu.2 ev fr (by rw [e2]; exact hb) q f
        rw [e2] at this
        rw [this, one, or_assoc]
        have ec : t1.excl = t.excl ∧ t1.policy = t.policy ∧ t1.rootPath = t.rootPath := cfg
        rw [ec.1, ec.2.1, ec.2.2]
        refine or_congr_right ?_
        subst ha
        constructor
        · rintro (⟨rfl, rfl⟩ | ⟨m, d', hm, hs⟩)
          · exact .self may
          · exact .inside may hm hs
        · intro hs
          cases hs with
          | self _ => exact Or.inl ⟨rfl, rfl⟩
          | inside _ hm hs => exact Or.inr ⟨_, _, hm, hs⟩
      · rw [if_neg ha, one]
        refine or_congr_right ?_
        constructor
        · rintro ⟨rfl, rfl⟩; exact .self may
        · intro hs
          cases hs with
          | self _ => exact ⟨rfl, rfl⟩
          | inside _ _ _ => exact absurd rfl ha
  termination_by structural d

theorem addAll_shown {t : Tree} (w : TreeWF t) (hi : Issued t) {h : Nat} {it : Item}
    (hp : t.get h = some it) (entries : List (Path × Disk)) (hd : DisksOk entries)
    (hu : (entries.map (·.1)).Nodup) (hus : DisksNames entries) (ev : Bool)
    (hfree : ∀ n d, (n, d) ∈ entries → ∀ q, Under (join it.path n) q → AMap.get t.paths q = none)
    (hb : (t.addAll it.path ev false entries).asked < 0xFFFFFFFF) (q : Path) (f : Nat) :
    HasAt (t.addAll it.path ev false entries) q f ↔
      HasAt t q f ∨ ∃ n d, (n, d) ∈ entries ∧ Shown t.excl t.policy t.rootPath (join it.path n) d q f := by
  match entries with
  | [] => rw [Tree.addAll]; simp
  | (n, d) :: r =>
    rw [DisksOk] at hd
    rw [DisksNames] at hus
    rw [Tree.addAll] at hb ⊢
    have hb1 := Nat.lt_of_le_of_lt (addAll_asked _ _ _ _ r) hb
    obtain ⟨k1, k2, k3⟩ := add_spec w hi hp hd.1.1 d hd.1.2 none (fun i e => by cases e) ev false 0
      (fun h => absurd rfl h) (Nat.zero_le _) hb1
    have sh := add_shown w hi hp hd.1.1 d hd.1.2 hus.1 ev (hfree n d List.mem_cons_self) hb1
    have cfg := (Props.add_at t (join it.path n) d none ev false 0).1
    generalize (t.add (join it.path n) d none ev false 0).1 = t1 at *
    obtain ⟨l, e1⟩ := k3.item h it hp
    simp only [List.map_cons, List.nodup_cons] at hu
    have fr : ∀ m d', (m, d') ∈ r → ∀ q, Under (join it.path m) q → AMap.get t1.paths q = none := by
      intro m d' hm q hq
      cases hg : AMap.get t1.paths q with
      | none => rfl
      | some x =>
        obtain ⟨f', hf'⟩ := (HasAt.paths k1).mp (by rw [hg]; rfl)
        rcases (sh q f').mp hf' with h' | h'
        · have := (HasAt.paths w).mpr ⟨f', h'⟩
          rw [hfree m d' (List.mem_cons_of_mem _ hm) q hq] at this; cases this
        · have := (shown_under h').sibling hq hd.1.1 (DisksOk.mem hd.2 hm).1
          subst this
          exact absurd (List.mem_map.mpr ⟨_, hm, rfl⟩) hu.1
    have hrec := addAll_shown k1 k2 e1 r hd.2 hu.2 hus.2 ev fr hb q f
    have ec : t1.excl = t.excl ∧ t1.policy = t.policy ∧ t1.rootPath = t.rootPath := cfg
    rw [ec.1, ec.2.1, ec.2.2] at hrec
    refine hrec.trans ?_
    rw [sh, or_assoc]
    refine or_congr_right ?_
    constructor
    · rintro (h' | ⟨m, d', hm, hs⟩)
      · exact ⟨n, d, List.mem_cons_self, h'⟩
      · exact ⟨m, d', List.mem_cons_of_mem _ hm, hs⟩
    · rintro ⟨m, d', hm, hs⟩
      rcases List.mem_cons.mp hm with e | e
      · cases e; exact Or.inl hs
      · exact Or.inr ⟨m, d', e, hs⟩
  termination_by structural entries
end

/-- What is shown after the start. -/
theorem enumerate_shown (rp : Path) (excl : List Path) (pol : SymPolicy) (pu : AMap Path Nat)
    (fs : Nat → Bool) (asked ids : Nat) (d : Disk) (hd : DiskOk d) (hu : DiskNames d)
    (hb : ((Tree.empty rp excl pol pu fs asked ids).enumerate d).asked < 0xFFFFFFFF) (q : Path) (f : Nat) :
    HasAt ((Tree.empty rp excl pol pu fs asked ids).enumerate d) q f ↔ Shown excl pol rp rp d q f := by
  obtain ⟨link, fmt, es⟩ := d
  rw [DiskOk] at hd
  rw [DiskNames] at hu
  cases hr : (Tree.empty rp excl pol pu fs asked ids).refused rp link with
  | true =>
    have e : (Tree.empty rp excl pol pu fs asked ids).enumerate (.node link fmt es) = Tree.empty rp excl pol pu fs asked ids := by
      unfold Tree.enumerate
      rw [Tree.add.eq_def]
      have : (Tree.empty rp excl pol pu fs asked ids).addOne (Tree.empty rp excl pol pu fs asked ids).rootPath link fmt none
          false 0 = (Tree.empty rp excl pol pu fs asked ids, none, .accessDenied) := by
        unfold Tree.addOne
        rw [show (Tree.empty rp excl pol pu fs asked ids).rootPath = rp from rfl, hr]; rfl
      simp only [this]
    rw [e]
    constructor
    · rintro ⟨x, ix, ex, _⟩; cases ex
    · intro h
      have := (mayShow_iff (Tree.empty rp excl pol pu fs asked ids) rp link).mpr (Shown.may h)
      rw [hr] at this; cases this
  | false =>
    have may := (mayShow_iff _ _ _).mp hr
    obtain ⟨t1, v, w1, i1, hv, only, c1, c2, c3, _, e⟩ := enumerate_root rp excl pol pu fs asked ids link fmt es hr
    rw [e] at hb ⊢
    have one : ∀ q f, HasAt t1 q f ↔ q = rp ∧ f = fmt := by
      intro q f
      constructor
      · rintro ⟨x, ix, ex, rfl, rfl⟩
        have := only x ix ex
        subst this
        rw [hv] at ex; cases ex
        exact ⟨rfl, rfl⟩
      · rintro ⟨rfl, rfl⟩
        exact ⟨0, _, hv, rfl, rfl⟩
    by_cases ha : fmt = ASSOC
    · subst ha
      rw [if_pos rfl] at hb ⊢
      have fr : ∀ m d', (m, d') ∈ es → ∀ q, Under (join rp m) q → AMap.get t1.paths q = none := by
        intro m d' _ q hq
        cases hg : AMap.get t1.paths q with
        | none => rfl
        | some x =>
          obtain ⟨f', hf'⟩ := (HasAt.paths w1).mp (by rw [hg]; rfl)
          have := hq.length
          rw [((one q f').mp hf').1, join_length] at this; omega
      have := addAll_shown w1 i1 hv es hd hu.1 hu.2 false fr hb q f
      rw [c1, c2, c3, one] at this
      refine this.trans ⟨?_, ?_⟩
      · rintro (⟨rfl, rfl⟩ | ⟨m, d', hm, hs⟩)
        · exact .self may
        · exact .inside may hm hs
      · intro hs
        cases hs with
        | self _ => exact Or.inl ⟨rfl, rfl⟩
        | inside _ hm hs => exact Or.inr ⟨_, _, hm, hs⟩
    · rw [if_neg ha, one]
      constructor
      · rintro ⟨rfl, rfl⟩; exact .self may
      · intro hs
        cases hs with
        | self _ => exact ⟨rfl, rfl⟩
        | inside _ _ _ => exact absurd rfl ha

end Mtp
