import Verif.Lemmas.CopyRun
/-! Lemmas: copies end, and succeed when nothing is refused; a folder copied into itself never ends. -/
namespace Mtp
open Spec
namespace Cp

theorem create_asked_le {c : Cp} (p : Nat) (pit it : Item) (size : Nat)
    (hroot : join pit.path it.name ≠ c.t.rootPath) :
    (c.create p pit it 0 size).1.t.asked ≤ c.t.asked + 1 := by
  have key : (c.t.add (join pit.path it.name) (.node none it.fmt []) (some ⟨it.name, it.fmt, p⟩) false true 0).1.asked ≤
      c.t.asked + 1 := by
    rw [Tree.add.eq_def]
    dsimp only
    have h1 : (c.t.addOne (join pit.path it.name) none it.fmt (some ⟨it.name, it.fmt, p⟩) true 0).1.asked ≤
        c.t.asked + 1 := by
      have hp : (c.t.pickHandle (join pit.path it.name) 0).2.asked = c.t.asked + 1 := by
        unfold Tree.pickHandle
        rw [if_neg hroot, if_neg (by simp)]
        rfl
      have h2 := (addOne_asked c.t (join pit.path it.name) none it.fmt (some ⟨it.name, it.fmt, p⟩) true 0).2
      by_cases hr : c.t.refused (join pit.path it.name) none = true
      · unfold Tree.addOne; rw [if_pos hr]; exact Nat.le_succ _
      · by_cases hk : (AMap.get c.t.paths (join pit.path it.name)).isSome = true
        · unfold Tree.addOne; rw [if_neg hr, if_pos hk]; exact Nat.le_succ _
        · rw [h2 (by simpa using hr) (by simpa using hk), hp]; exact Nat.le_refl _
    split
    · next t1 h r heq =>
      rw [heq] at h1
      dsimp only at h1 ⊢
      rw [Tree.addAll]
      simp only [ite_self]
      exact h1
    · next t1 r heq => rw [heq] at h1; exact h1
  unfold create
  split
  · next t1 y heq =>
    rw [heq] at key
    dsimp only at key ⊢
    split
    · exact key
    · split <;> exact key
  · next t1 y r _ heq => rw [heq] at key; exact key

theorem taken_free {t : Tree} (w : TreeWF t) {p : Nat} {dest : Path} (h : AMap.get t.paths dest = none) :
    taken t p dest = false := by
  unfold taken
  split
  · rw [List.any_eq_false]
    intro x _ hc
    split at hc
    · next i e =>
      have := w.pathOf x i e
      rw [of_decide_eq_true hc, h] at this
      cases this
    · cases hc
  · rfl

/-- Nothing is refused. -/
structure Grants (env : CopyEnv) (t : Tree) : Prop where
  full : ∀ k, env.full k = false
  file : ∀ k, (env.file k).cancelled = false ∧ (env.file k).resp = .ok
  fs : ∀ k, t.fs k = true
  excl : t.excl = []

theorem copyFile_done {env : CopyEnv} {c : Cp} (hg : ∀ k, (env.file k).cancelled = false ∧ (env.file k).resp = .ok)
    (d : List UInt8) {y : Nat} (hy : c.t.has y = true) : ∃ c', copyFile env c d y = (c', .ok) ∧ c'.t = c.t := by
  unfold copyFile
  rw [hy]
  simp only [Bool.not_true, Bool.false_eq_true, if_false, (hg c.k).1, (hg c.k).2]
  split
  · exact ⟨c, rfl, rfl⟩
  · exact ⟨_, rfl, rfl⟩

section
variable {env : CopyEnv} {src : CopySrc} {s : Tree} {D : Nat → List UInt8} {B : Nat → Prop}

/-- The statement about a function copying one object: it ends with OK. -/
def CopyDone (env : CopyEnv) (s : Tree) (D : Nat → List UInt8) (src : CopySrc) (B : Nat → Prop) (n : Nat)
    (f : Cp → Nat → Option (Cp × Resp × Nat)) (p : Nat) : Prop :=
  ∀ (c : Cp) (h : Nat) (pit it : Item), Reads src s D B c → B h → (src = none → ¬ B p) → TreeWF c.t → Issued c.t →
    c.t.get p = some pit → s.get h = some it → '/' ∉ it.name → AMap.get c.t.paths (join pit.path it.name) = none →
    Grants env c.t → (∀ x ix, s.get x = some ix → ix.path.length < n + it.path.length) →
    c.t.asked + (pre n s h).length < 0xFFFFFFFF →
    ∃ c' y, f c h = some (c', .ok, y) ∧ c'.t.asked ≤ c.t.asked + (pre n s h).length

theorem copyKids_done (ws : TreeWF s) (leaf : ∀ x ix, s.get x = some ix → ix.kids ≠ [] → ix.fmt = ASSOC)
    {f : Cp → Nat → Option (Cp × Resp × Nat)} {p n : Nat} (hf : CopyDone env s D src B n f p)
    (hok : CopyOk s D src B 0 False f p) :
    ∀ (ks : List Nat) (c : Cp) (pit : Item) (P : Path), Reads src s D B c → (∀ k ∈ ks, B k) → (src = none → ¬ B p) →
      TreeWF c.t → Issued c.t → c.t.get p = some pit → InDir s P ks →
      (∀ k ∈ ks, ∀ ki, s.get k = some ki → AMap.get c.t.paths (join pit.path ki.name) = none) →
      Grants env c.t → (∀ x ix, s.get x = some ix → ix.path.length < n + P.length + 1) →
      c.t.asked + (ks.flatMap (pre n s)).length < 0xFFFFFFFF →
      ∃ c', copyKids f ks c = some (c', .ok) ∧ c'.t.asked ≤ c.t.asked + (ks.flatMap (pre n s)).length := by
  intro ks
  induction ks with
  | nil => intro c pit P _ _ _ _ _ _ _ _ _ _ _; exact ⟨c, rfl, by simp⟩
  | cons k ks ih =>
    intro c pit P r hB hBp w hi hp hd hfree hg hl ha
    rw [List.flatMap_cons, List.length_append] at ha ⊢
    obtain ⟨ki, k1, k2, k3⟩ := hd.2 k List.mem_cons_self
    obtain ⟨c1, z, e, a1⟩ := hf c k pit ki r (hB k List.mem_cons_self) hBp w hi hp k1 k3
      (hfree k List.mem_cons_self ki k1) hg (fun x ix ex => by
        have := hl x ix ex
        rw [k2, join_length]; omega) (by omega)
    obtain ⟨m1, g1, d1, _⟩ := hok c c1 k z pit ki (Nat.zero_le _) r (hB k List.mem_cons_self) hBp w hi hp k1 k3
      (hfree k List.mem_cons_self ki k1) e (by omega)
    have hd1 : InDir s P [k] := ⟨by simp, fun k' hk' => by
      rw [List.mem_singleton] at hk'; subst hk'; exact ⟨ki, k1, k2, k3⟩⟩
    have hd2 : InDir s P ks := ⟨(List.nodup_cons.mp hd.1).2, fun k' hk' => hd.2 k' (List.mem_cons_of_mem _ hk')⟩
    have G := grafts_spec ws leaf g1 pit P w hi hp hd1
    obtain ⟨l, hp1⟩ := G.par
    have r1 : Reads src s D B c1 := r.same (fun hs x hx => by
      subst hs
      obtain ⟨ix, ex⟩ := r.dom x hx
      have hcx : c.t.get x = some ix := (r.tree x hx).trans ex
      have hxp : x ≠ p := by rintro rfl; exact hBp rfl hx
      refine ⟨by rw [G.old x ix hcx hxp, hcx], d1.others x (fun a hm => ?_)⟩
      have := ((G.new x).mpr ⟨a, hm⟩).2
      rw [hcx] at this; cases this)
    obtain ⟨c', e', a'⟩ := ih c1 _ P r1 (fun k' hk' => hB k' (List.mem_cons_of_mem _ hk')) hBp G.wf G.issued hp1 hd2
      (fun k' hk' ki' e' => by
        obtain ⟨ki'', f1, f2, f3⟩ := hd2.2 k' hk'
        rw [e'] at f1; cases f1
        refine G.free ws w hp k1 k2 k3 f3 ?_ (hfree k' (List.mem_cons_of_mem _ hk') ki' e')
        intro hn
        have : k' = k := ws.inj e' k1 (by rw [f2, k2, hn])
        subst this
        exact (List.nodup_cons.mp hd.1).1 hk')
      ⟨hg.full, hg.file, by rw [G.fs]; exact hg.fs, by rw [G.excl]; exact hg.excl⟩ hl (by omega)
    refine ⟨c', ?_, by omega⟩
    unfold copyKids
    rw [e]
    exact e'

theorem copyTo_done (ws : TreeWF s) (leaf : ∀ x ix, s.get x = some ix → ix.kids ≠ [] → ix.fmt = ASSOC)
    (hfa : Faithful env) (n : Nat) : ∀ (p : Nat) (top : Bool) (out : Nat),
      CopyDone env s D src B n (fun c h => copyTo env src n c h p top out) p := by
  induction n with
  | zero =>
    intro p top out c h pit it _ _ _ _ _ _ hs _ _ _ hl _
    have := hl h it hs
    omega
  | succ n ih =>
    intro p top out c h pit it r hB hBp w hi hp hs hn hfree hg hl ha
    have hread := r.tree h hB
    have hpre : pre (n+1) s h = h :: it.kids.flatMap (pre n s) := by simp only [pre, hs]
    rw [hpre, List.length_cons] at ha ⊢
    dsimp only
    unfold copyTo
    rw [hread, hs]
    dsimp only
    rw [hp]
    dsimp only
    rw [if_neg (by rw [hg.full]; decide), if_neg (by rw [taken_free w hfree]; simp)]
    generalize hc0 : ({ c with k := c.k + 1 } : Cp).removeWatch p = c0
    have t0 : c0.t = c.t := by rw [← hc0]; rfl
    have d0 : c0.data = c.data := by rw [← hc0]; rfl
    have hroot : join pit.path it.name ≠ c0.t.rootPath := by
      intro h
      have := (w.under_root hp).length
      rw [← t0, ← h, join_length] at this; omega
    have hca := create_asked_le (c := c0) p pit it ((src.data c) h).length hroot
    generalize hcr : c0.create p pit it 0 ((src.data c) h).length = R at hca
    obtain ⟨c1, oy, r1⟩ := R
    dsimp only at hca
    rw [t0] at hca
    obtain ⟨s1, _, _, _, s5⟩ := create_spec (c := c0) (by rw [t0]; exact w) (by rw [t0]; exact hi)
      (by rw [t0]; exact hp) hn (fun h => absurd rfl h) (by rw [t0]; exact hfree) hcr (by omega)
    have hr : r1 = .ok := s5 (by rw [t0, hg.excl]; simp) (by rw [t0]; exact hg.fs _)
    subst hr
    obtain ⟨y, rfl, mk, _, _, dd, dz, dw⟩ := s1 rfl
    rw [t0] at mk
    rw [d0] at dd
    dsimp only
    obtain ⟨rd1, hBy⟩ := made_reads (c := c) (c1 := c1) r mk dd hBp
    obtain ⟨v, hg1⟩ := mk.get
    have hy : c1.t.get y = some ⟨join pit.path it.name, it.name, it.fmt, p, some p, [], v⟩ := by
      rw [hg1, if_pos rfl]
    by_cases hf : it.fmt = ASSOC
    · rw [if_pos hf, rd1.tree h hB, hs]
      dsimp only [Option.map, Option.getD]
      obtain ⟨c2, e2, a2⟩ := copyKids_done (p := y) ws leaf (ih y false y) (copyTo_ok ws leaf hfa n y false y) it.kids c1
        _ it.path rd1 (fun k hk => r.closed h it k hB hs hk) hBy mk.wf mk.issued hy (InDir.kids ws hs)
        (fun k hk ki e1 => by
          obtain ⟨ki', f1, f2, f3⟩ := (InDir.kids ws hs).2 k hk
          rw [e1] at f1; cases f1
          exact made_free mk f3) ⟨hg.full, hg.file, by rw [mk.fs]; exact hg.fs, by rw [mk.excl]; exact hg.excl⟩
        (fun x ix ex => by have := hl x ix ex; omega) (by omega)
      rw [e2]
      exact ⟨_, _, rfl, by show c2.t.asked ≤ _; omega⟩
    · rw [if_neg hf]
      obtain ⟨c2, e2, a2⟩ := copyFile_done (c := c1) hg.file ((src.data c1) h) (has_iff.mpr ⟨_, hy⟩)
      rw [e2]
      refine ⟨_, _, rfl, ?_⟩
      show c2.t.asked ≤ _
      rw [a2]; omega

/-- A folder copied into itself: whatever the recursion bound, it is not enough. -/
theorem copyTo_self_diverges (hg0 : ∀ k, env.full k = false) (n : Nat) : ∀ (c : Cp) (h : Nat) (it : Item) (top : Bool)
    (out : Nat), TreeWF c.t → Issued c.t → c.t.get h = some it → it.fmt = ASSOC → '/' ∉ it.name →
    AMap.get c.t.paths (join it.path it.name) = none → (∀ k, c.t.fs k = true) → c.t.excl = [] →
    c.t.asked + n < 0xFFFFFFFF → copyTo env none n c h h top out = none := by
  induction n with
  | zero => intro c h it top out _ _ _ _ _ _ _ _ _; rfl
  | succ n ih =>
    intro c h it top out w hi hh hf hn hfree hfs hex ha
    unfold copyTo
    rw [show (CopySrc.tree none c).get h = some it from hh]
    dsimp only
    rw [hh]
    dsimp only
    rw [if_neg (by rw [hg0]; decide), if_neg (by rw [taken_free w hfree]; simp)]
    generalize hc0 : ({ c with k := c.k + 1 } : Cp).removeWatch h = c0
    have t0 : c0.t = c.t := by rw [← hc0]; rfl
    have hroot : join it.path it.name ≠ c0.t.rootPath := by
      intro h
      have := (w.under_root hh).length
      rw [← t0, ← h, join_length] at this; omega
    have hca := create_asked_le (c := c0) h it it ((CopySrc.data none c) h).length hroot
    generalize hcr : c0.create h it it 0 ((CopySrc.data none c) h).length = R at hca
    obtain ⟨c1, oy, r1⟩ := R
    dsimp only at hca
    rw [t0] at hca
    obtain ⟨s1, _, _, _, s5⟩ := create_spec (c := c0) (by rw [t0]; exact w) (by rw [t0]; exact hi)
      (by rw [t0]; exact hh) hn (fun h => absurd rfl h) (by rw [t0]; exact hfree) hcr (by omega)
    have hr : r1 = .ok := s5 (by rw [t0, hex]; simp) (by rw [t0]; exact hfs _)
    subst hr
    obtain ⟨y, rfl, mk, _, _, dd, dz, dw⟩ := s1 rfl
    rw [t0] at mk
    dsimp only
    rw [if_pos hf]
    obtain ⟨v, hg1⟩ := mk.get
    have hyh : h ≠ y := by rintro rfl; cases mk.fresh.symm.trans hh
    have hy : c1.t.get y = some ⟨join it.path it.name, it.name, it.fmt, h, some h, [], v⟩ := by
      rw [hg1, if_pos rfl]
    have hh1 : (CopySrc.tree none c1).get h = some { it with kids := y :: it.kids } := by
      show c1.t.get h = _
      rw [hg1, if_neg hyh, if_pos rfl]
    rw [hh1]
    dsimp only [Option.map, Option.getD]
    unfold copyKids
    rw [ih c1 y _ false y mk.wf mk.issued hy hf hn (made_free mk hn) (by rw [mk.fs]; exact hfs)
      (by rw [mk.excl]; exact hex) (by omega)]

end
end Cp
end Mtp
