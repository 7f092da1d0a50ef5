import Verif.Lemmas.CopyRun
/-! Lemmas: what was there before a copy is there afterwards, however the copy ends. -/
namespace Mtp
open Spec
namespace Cp

/-- The objects of `c` are still there in `c'`, unchanged but for new children of `p`. -/
structure Keeps (c c' : Cp) (p : Nat) : Prop where
  wf : TreeWF c'.t
  issued : Issued c'.t
  old : ∀ x ix, c.t.get x = some ix → x ≠ p → c'.t.get x = some ix
  par : ∀ pit, c.t.get p = some pit → ∃ l, c'.t.get p = some { pit with kids := l ++ pit.kids }
  data : ∀ x, c.t.has x = true → c'.data x = c.data x

theorem Keeps.refl {c : Cp} (w : TreeWF c.t) (hi : Issued c.t) (p : Nat) : Keeps c c p :=
  ⟨w, hi, fun _ _ e _ => e, fun pit e => ⟨[], by simpa using e⟩, fun _ _ => rfl⟩

theorem Keeps.trans {c c1 c2 : Cp} {p : Nat} (k : Keeps c c1 p) (k' : Keeps c1 c2 p) : Keeps c c2 p := by
  refine ⟨k'.wf, k'.issued, fun x ix e hx => k'.old x ix (k.old x ix e hx) hx, fun pit e => ?_, fun x hx => ?_⟩
  · obtain ⟨l, h⟩ := k.par pit e
    obtain ⟨l', h'⟩ := k'.par _ h
    exact ⟨l' ++ l, by simpa using h'⟩
  · obtain ⟨ix, e⟩ := has_iff.mp hx
    rw [k'.data x ?_, k.data x hx]
    by_cases hxp : x = p
    · subst hxp
      obtain ⟨l, h⟩ := k.par ix e
      exact has_iff.mpr ⟨_, h⟩
    · exact has_iff.mpr ⟨_, k.old x ix e hxp⟩

/-- Only the tree and the contents matter. -/
theorem Keeps.congr {c c1 c2 : Cp} {p : Nat} (k : Keeps c c1 p) (ht : c2.t = c1.t)
    (hd : ∀ x, c.t.has x = true → c2.data x = c1.data x) : Keeps c c2 p := by
  refine ⟨by rw [ht]; exact k.wf, by rw [ht]; exact k.issued, by rw [ht]; exact k.old, by rw [ht]; exact k.par,
    fun x hx => ?_⟩
  rw [hd x hx]; exact k.data x hx

/-- The same starting point. -/
theorem Keeps.congr' {c0 c c1 : Cp} {p : Nat} (k : Keeps c0 c1 p) (ht : c.t = c0.t) (hd : c.data = c0.data) :
    Keeps c c1 p :=
  ⟨k.wf, k.issued, by rw [ht]; exact k.old, by rw [ht]; exact k.par, by rw [ht, hd]; exact k.data⟩

theorem Keeps.made {c c1 : Cp} {p y fmt : Nat} {pit : Item} {name : Path} (hp : c.t.get p = some pit)
    (mk : Made c.t p pit name fmt y c1.t) (dd : ∀ x, x ≠ y → c1.data x = c.data x) : Keeps c c1 p := by
  obtain ⟨v, hg⟩ := mk.get
  have hyo : ∀ x ix, c.t.get x = some ix → x ≠ y := by
    rintro x ix e rfl; cases mk.fresh.symm.trans e
  refine ⟨mk.wf, mk.issued, fun x ix e hx => ?_, fun pit' e => ?_, fun x hx => ?_⟩
  · rw [hg, if_neg (hyo x ix e), if_neg hx]; exact e
  · rw [hp] at e; cases e
    exact ⟨[y], by rw [hg, if_neg (hyo p pit hp), if_pos rfl]; rfl⟩
  · obtain ⟨ix, e⟩ := has_iff.mp hx
    exact dd x (hyo x ix e)

/-- Work below an object that was not there before. -/
theorem Keeps.below {c c1 c2 : Cp} {p y : Nat} (k : Keeps c c1 p) (k' : Keeps c1 c2 y) (hy : c.t.get y = none) :
    Keeps c c2 p := by
  have hyo : ∀ x ix, c.t.get x = some ix → x ≠ y := by
    rintro x ix e rfl; cases hy.symm.trans e
  have hx1 : ∀ x ix, c.t.get x = some ix → ∃ jx, c1.t.get x = some jx := by
    intro x ix e
    by_cases hxp : x = p
    · subst hxp
      obtain ⟨l, h⟩ := k.par ix e
      exact ⟨_, h⟩
    · exact ⟨_, k.old x ix e hxp⟩
  refine ⟨k'.wf, k'.issued, fun x ix e hx => k'.old x ix (k.old x ix e hx) (hyo x ix e), fun pit e => ?_, fun x hx => ?_⟩
  · obtain ⟨l, h⟩ := k.par pit e
    exact ⟨l, k'.old p _ h (hyo p pit e)⟩
  · obtain ⟨ix, e⟩ := has_iff.mp hx
    rw [k'.data x (has_iff.mpr (hx1 x ix e)), k.data x hx]

/-- No object that was there before is below one that was not. -/
theorem Keeps.not_below {c c1 : Cp} {p y : Nat} (w : TreeWF c.t) (k : Keeps c c1 p) (hy : c.t.get y = none) :
    ∀ x, Below c1.t y x → c.t.has x = false := by
  intro x hb
  induction hb with
  | self => exact has_false.mpr hy
  | @child x q it e1 e2 _ ih =>
    cases hx : c.t.has x with
    | false => rfl
    | true =>
      obtain ⟨ix, e⟩ := has_iff.mp hx
      have hpar : ix.parent = some q := by
        by_cases hxp : x = p
        · subst hxp
          obtain ⟨l, h⟩ := k.par ix e
          rw [e1] at h; cases h; exact e2
        · have := k.old x ix e hxp
          rw [e1] at this; cases this; exact e2
      have hx0 : x ≠ 0 := by
        rintro rfl
        obtain ⟨r, r1, _, r3⟩ := w.root
        rw [e] at r1; cases r1
        rw [hpar] at r3; cases r3
      obtain ⟨q', qi, q1, _, q3, _⟩ := w.parent x ix e hx0
      rw [hpar] at q1; cases q1
      rw [has_iff.mpr ⟨qi, q3⟩] at ih
      cases ih

/-- Deleting an object that was not there before. -/
theorem Keeps.trim {c c1 c2 : Cp} {p y : Nat} (w : TreeWF c.t) (k : Keeps c c1 p) (hy : c.t.get y = none) (hA : y ≠ ALL)
    (ht : c2.t = (c1.t.deleteItem y UNDEF).1) (hd : c2.data = c1.data) : Keeps c c2 p := by
  have hdel : c1.t.deleteItem y UNDEF = c1.t.del c1.t.delFuel y true false := by
    unfold Tree.deleteItem; rw [if_neg hA]
  have sh := del_shrunk k.wf c1.t.delFuel y true false
  rw [← hdel, ← ht] at sh
  have keep : ∀ x, c.t.has x = true → ∃ ix, c1.t.get x = some ix ∧ c2.t.has x = true := by
    intro x hx
    have h1 : ∃ ix, c1.t.get x = some ix := by
      obtain ⟨ix, e⟩ := has_iff.mp hx
      by_cases hxp : x = p
      · subst hxp
        obtain ⟨l, h⟩ := k.par ix e
        exact ⟨_, h⟩
      · exact ⟨_, k.old x ix e hxp⟩
    obtain ⟨ix, e⟩ := h1
    refine ⟨ix, e, ?_⟩
    have := del_keeps k.wf c1.t.delFuel y true false (has_iff.mpr ⟨ix, e⟩)
      (fun hb => by rw [k.not_below w hy x hb] at hx; cases hx)
    rwa [← hdel, ← ht] at this
  have get : ∀ x ix, c.t.has x = true → c1.t.get x = some ix →
      c2.t.get x = some { ix with kids := ix.kids.filter (fun c => c2.t.has c) } := by
    intro x ix hx e
    obtain ⟨_, _, hk⟩ := keep x hx
    rcases sh.item x with g | ⟨iy, g1, g2⟩
    · rw [has_false.mpr g] at hk; cases hk
    · rw [e] at g1; cases g1; exact g2
  have kidsKept : ∀ x ix, c.t.get x = some ix → ix.kids.filter (fun c => c2.t.has c) = ix.kids := by
    intro x ix e
    rw [List.filter_eq_self]
    intro a ha
    obtain ⟨ai, a1, _⟩ := w.kid e ha
    obtain ⟨_, _, hk⟩ := keep a (has_iff.mpr ⟨ai, a1⟩)
    exact hk
  refine ⟨?_, ?_, fun x ix e hx => ?_, fun pit e => ?_, fun x hx => by rw [hd]; exact k.data x hx⟩
  · rw [ht, hdel]; exact del_wf k.wf _ _ _ _
  · intro x ix e
    rw [ht, deleteItem_asked]
    rcases sh.item x with g | ⟨iy, g1, g2⟩
    · rw [e] at g; cases g
    · exact k.issued x iy g1
  · rw [get x ix (has_iff.mpr ⟨ix, e⟩) (k.old x ix e hx), kidsKept x ix e]
  · obtain ⟨l, h⟩ := k.par pit e
    refine ⟨l.filter (fun c => c2.t.has c), ?_⟩
    rw [get p _ (has_iff.mpr ⟨pit, e⟩) h, List.filter_append, kidsKept p pit e]

theorem copyFile_keeps {env : CopyEnv} {c c1 c2 : Cp} {p y : Nat} {d : List UInt8} {r : Resp} (w : TreeWF c.t)
    (k : Keeps c c1 p) (hy : c.t.get y = none) (hA : y ≠ ALL) (h : copyFile env c1 d y = (c2, r)) : Keeps c c2 p := by
  unfold copyFile at h
  split at h
  · cases h; exact k
  split at h
  · cases h; exact k
  split at h
  · cases h; exact k.trim w hy hA rfl rfl
  · cases h
    refine k.congr rfl (fun x hx => ?_)
    rw [data_setData, if_neg]
    rintro rfl
    rw [has_false.mpr hy] at hx; cases hx

section
variable {env : CopyEnv} {src : CopySrc} {s : Tree} {D : Nat → List UInt8} {B : Nat → Prop}

/-- The statement proved by induction on the recursion bound. -/
def CopyKeeps (s : Tree) (D : Nat → List UInt8) (src : CopySrc) (B : Nat → Prop)
    (N : Nat) (f : Cp → Nat → Option (Cp × Resp × Nat)) (p out : Nat) : Prop :=
  ∀ (c c' : Cp) (h y : Nat) (r : Resp) (pit it : Item), N ≤ c.t.asked → Reads src s D B c → B h →
    (src = none → ¬ B p) → TreeWF c.t → Issued c.t →
    c.t.get p = some pit → s.get h = some it → '/' ∉ it.name → AMap.get c.t.paths (join pit.path it.name) = none →
    f c h = some (c', r, y) → c'.t.asked < 0xFFFFFFFF →
    Keeps c c' p ∧ (y = out ∨ (c.t.get y = none ∧ y ≠ ALL))

theorem copyKids_keeps (ws : TreeWF s) (leaf : ∀ x ix, s.get x = some ix → ix.kids ≠ [] → ix.fmt = ASSOC)
    {f : Cp → Nat → Option (Cp × Resp × Nat)} {p out : Nat} {N : Nat} {kp : Prop} (hf : CopyOk s D src B N kp f p)
    (hk : CopyKeeps s D src B N f p out)
    (ha : ∀ c k c' r z, f c k = some (c', r, z) → c.t.asked ≤ c'.t.asked) :
    ∀ (ks : List Nat) (c c' : Cp) (r : Resp) (pit : Item) (P : Path), N ≤ c.t.asked → Reads src s D B c →
      (∀ k ∈ ks, B k) → (src = none → ¬ B p) →
      TreeWF c.t → Issued c.t → c.t.get p = some pit → InDir s P ks →
      (∀ k ∈ ks, ∀ ki, s.get k = some ki → AMap.get c.t.paths (join pit.path ki.name) = none) →
      copyKids f ks c = some (c', r) → c'.t.asked < 0xFFFFFFFF → Keeps c c' p := by
  intro ks
  induction ks with
  | nil =>
    intro c c' r pit P _ _ _ _ w hi _ _ _ h _
    simp only [copyKids, Option.some.injEq, Prod.mk.injEq] at h
    obtain ⟨rfl, _⟩ := h
    exact Keeps.refl w hi p
  | cons k ks ih =>
    intro c c' r pit P hN rd hks hBp w hi hp hin hfree h hb
    obtain ⟨ki, hk1, kpath, kname⟩ := hin.2 k List.mem_cons_self
    unfold copyKids at h
    split at h
    · cases h
    · next c1 z e =>
      have hb1 : c1.t.asked < 0xFFFFFFFF := Nat.lt_of_le_of_lt (copyKids_asked ha _ _ _ _ h) hb
      obtain ⟨K, _⟩ := hk c c1 k z _ pit ki hN rd (hks k List.mem_cons_self) hBp w hi hp hk1 kname
        (hfree k List.mem_cons_self ki hk1) e hb1
      obtain ⟨m, g, d, _⟩ := hf c c1 k z pit ki hN rd (hks k List.mem_cons_self) hBp w hi hp hk1 kname
        (hfree k List.mem_cons_self ki hk1) e hb1
      have G := grafts_spec ws leaf g pit P w hi hp
        ⟨by simp, fun k' hk' => by rw [List.mem_singleton] at hk'; subst hk'; exact ⟨ki, hk1, kpath, kname⟩⟩
      obtain ⟨l, hp1⟩ := G.par
      have rd1 : Reads src s D B c1 := by
        refine rd.same (fun hs x hx => ?_)
        have hxp : x ≠ p := by rintro rfl; exact hBp hs hx
        obtain ⟨ix, ex⟩ := rd.dom x hx
        have hcx : c.t.get x = some ix := by
          have := rd.tree x hx; rw [ex] at this; rw [hs] at this; exact this
        refine ⟨by rw [hcx]; exact K.old x ix hcx hxp, K.data x (has_iff.mpr ⟨ix, hcx⟩)⟩
      refine K.trans (ih c1 c' r _ P (Nat.le_trans hN (ha _ _ _ _ _ e)) rd1
        (fun k hk => hks k (List.mem_cons_of_mem _ hk)) hBp K.wf K.issued hp1
        ⟨(List.nodup_cons.mp hin.1).2, fun k hk => hin.2 k (List.mem_cons_of_mem _ hk)⟩ (fun k' hk' ki' e' => ?_) h hb)
      obtain ⟨ki2, q1, q2, q3⟩ := hin.2 k' (List.mem_cons_of_mem _ hk')
      rw [e'] at q1; cases q1
      refine G.free ws w hp hk1 kpath kname q3 (fun hne => ?_) (hfree k' (List.mem_cons_of_mem _ hk') ki' e')
      have : k' = k := ws.inj e' hk1 (by rw [q2, kpath, hne])
      subst this
      exact (List.nodup_cons.mp hin.1).1 hk'
    · next c1 r1 z _ e =>
      cases h
      exact (hk c c' k z _ pit ki hN rd (hks k List.mem_cons_self) hBp w hi hp hk1 kname
        (hfree k List.mem_cons_self ki hk1) e hb).1

theorem made_not_all {t t1 : Tree} {p y fmt : Nat} {pit : Item} {name : Path} (mk : Made t p pit name fmt y t1)
    (hb : t1.asked < 0xFFFFFFFF) : y ≠ ALL := by
  obtain ⟨v, hg⟩ := mk.get
  have := mk.issued y _ (by rw [hg, if_pos rfl])
  unfold ALL
  omega

theorem copyTo_keeps (ws : TreeWF s) (leaf : ∀ x ix, s.get x = some ix → ix.kids ≠ [] → ix.fmt = ASSOC)
    (hfa : Faithful env) (n : Nat) : ∀ (p : Nat) (top : Bool) (out : Nat),
      CopyKeeps s D src B 0 (fun c h => copyTo env src n c h p top out) p out := by
  induction n with
  | zero => intro p top out c c' h y r pit it _ _ _ _ _ _ _ _ _ _ e; simp [copyTo] at e
  | succ n ih =>
    intro p top out c c' h y r pit it _ rd hB hBp w hi hp hs hn hfree e hb
    have hread := rd.tree h hB
    dsimp only at e
    unfold copyTo at e
    rw [hread, hs] at e
    dsimp only at e
    rw [hp] at e
    dsimp only at e
    split at e
    · cases e; exact ⟨(Keeps.refl w hi p).congr rfl (fun _ _ => rfl), Or.inl rfl⟩
    split at e
    · cases e; exact ⟨(Keeps.refl w hi p).congr rfl (fun _ _ => rfl), Or.inl rfl⟩
    generalize hc0 : ({ c with k := c.k + 1 } : Cp).removeWatch p = c0 at e
    have t0 : c0.t = c.t := by rw [← hc0]; rfl
    have d0 : c0.data = c.data := by rw [← hc0]; rfl
    generalize hcr : c0.create p pit it 0 ((src.data c) h).length = R at e
    obtain ⟨c1, oy, r1⟩ := R
    have hb1 : c1.t.asked < 0xFFFFFFFF := by
      refine Nat.lt_of_le_of_lt ?_ hb
      split at e
      · next c1' y' heq =>
        cases heq
        split at e
        · split at e
          · cases e
          · next c2 h2 =>
            cases e
            show _ ≤ c2.t.asked
            exact copyKids_asked (fun c k c' r z h => copyTo_asked _ _ _ _ _ _ _ _ _ _ _ h) _ _ _ _ h2
          · next c2 r2 hne h2 =>
            cases e
            exact copyKids_asked (fun c k c' r z h => copyTo_asked _ _ _ _ _ _ _ _ _ _ _ h) _ _ _ _ h2
        · have hf := copyFile_asked env c1 ((src.data c1) h) y'
          split at e <;> next c2 h2 => cases e; rw [h2] at hf; exact Nat.le_of_eq hf.symm
      · next c1' y' r' hne heq => cases heq; cases e; exact Nat.le_refl _
    obtain ⟨s1, s2, s3, _⟩ := create_spec (c := c0) (by rw [t0]; exact w) (by rw [t0]; exact hi) (by rw [t0]; exact hp) hn
      (fun h => absurd rfl h) (by rw [t0]; exact hfree) hcr hb1
    by_cases hr : r1 = .ok
    · subst hr
      obtain ⟨y1, rfl, mk, _, _, dd, dz, dw⟩ := s1 rfl
      rw [t0] at mk
      rw [d0] at dd
      dsimp only at e
      have hyA := made_not_all mk hb1
      have K : Keeps c c1 p := Keeps.made hp mk dd
      obtain ⟨rd1, hBy⟩ := made_reads (c := c) (c1 := c1) rd mk dd hBp
      by_cases hf : it.fmt = ASSOC
      · rw [if_pos hf] at e
        rw [rd1.tree h hB, hs] at e
        dsimp only [Option.map, Option.getD] at e
        obtain ⟨v, hg⟩ := mk.get
        have hy : c1.t.get y1 = some ⟨join pit.path it.name, it.name, it.fmt, p, some p, [], v⟩ := by
          rw [hg, if_pos rfl]
        have key : ∀ c2 r2, copyKids (fun c k => copyTo env src n c k y1 false y1) it.kids c1 = some (c2, r2) →
            c2.t.asked < 0xFFFFFFFF → Keeps c c2 p := by
          intro c2 r2 h2 hb2
          exact K.below (copyKids_keeps (p := y1) ws leaf (copyTo_ok ws leaf hfa n y1 false y1) (ih y1 false y1)
            (fun c k c' r z h => copyTo_asked _ _ _ _ _ _ _ _ _ _ _ h) it.kids c1 c2 r2 _ it.path (Nat.zero_le _) rd1
            (fun k hk => rd.closed h it k hB hs hk) hBy mk.wf mk.issued hy (InDir.kids ws hs)
            (fun k hk ki e1 => by
              obtain ⟨ki', f1, f2, f3⟩ := (InDir.kids ws hs).2 k hk
              rw [e1] at f1; cases f1
              exact made_free mk f3) h2 hb2) mk.fresh
        split at e
        · cases e
        · next c2 h2 =>
          cases e
          exact ⟨(key _ _ h2 hb).congr rfl (fun _ _ => rfl), Or.inr ⟨mk.fresh, hyA⟩⟩
        · next c2 r2 hne h2 => cases e; exact ⟨key _ _ h2 hb, Or.inr ⟨mk.fresh, hyA⟩⟩
      · rw [if_neg hf] at e
        split at e
        · next c2 h2 =>
          cases e
          exact ⟨(copyFile_keeps w K mk.fresh hyA h2).congr rfl (fun _ _ => rfl), Or.inr ⟨mk.fresh, hyA⟩⟩
        · next c2 r2 hne h2 =>
          cases e
          exact ⟨copyFile_keeps w K mk.fresh hyA h2, Or.inr ⟨mk.fresh, hyA⟩⟩
    · obtain ⟨rfl, e1, e2, e3, e4, e5⟩ := s2 hr
      have hm : some (c1.addWatch p, r1, (none : Option Nat).getD out) = some (c', r, y) := e
      cases hm
      have hw : TreeWF (c1.addWatch p).t := WF_congr (by rw [t0]; exact w) e1 e2 e3
      have hg : ∀ x, (c1.addWatch p).t.get x = c.t.get x := by
        intro x
        show AMap.get c1.t.items x = AMap.get c.t.items x
        rw [e1, t0]
      refine ⟨⟨hw, fun x ix ex => ?_, fun x ix ex _ => by rw [hg]; exact ex,
        fun pit ex => ⟨[], by rw [hg]; simpa using ex⟩, fun x _ => ?_⟩, Or.inl rfl⟩
      · rw [hg] at ex
        have := hi x ix ex
        rw [t0] at s3
        exact Nat.le_trans this s3
      · show c1.data x = c.data x
        rw [e4, d0]
end
end Cp
end Mtp
