import Verif.Lemmas.Copy
/-! Lemmas: what `copyTo` and `copyHandle` do when they answer OK. -/
namespace Mtp
open Spec

theorem Grafts.append {s : Tree} {t t1 t2 : Tree} {p : Nat} {ks ks' : List Nat} {m m' : List (Nat × Nat)}
    (g : Grafts s t p ks t1 m) (g' : Grafts s t1 p ks' t2 m') : Grafts s t p (ks ++ ks') t2 (m ++ m') := by
  induction g with
  | nil => exact g'
  | cons a b c d _ _ ih =>
    have := Grafts.cons a b c d (ih g')
    simpa [List.append_assoc] using this

namespace Cp

@[simp] theorem addWatch_t (c : Cp) (h : Nat) : (c.addWatch h).t = c.t := rfl
@[simp] theorem addWatch_data (c : Cp) (h : Nat) : (c.addWatch h).data = c.data := rfl
@[simp] theorem addWatch_k (c : Cp) (h : Nat) : (c.addWatch h).k = c.k := rfl
@[simp] theorem removeWatch_t (c : Cp) (h : Nat) : (c.removeWatch h).t = c.t := rfl
@[simp] theorem removeWatch_data (c : Cp) (h : Nat) : (c.removeWatch h).data = c.data := rfl
@[simp] theorem removeWatch_k (c : Cp) (h : Nat) : (c.removeWatch h).k = c.k := rfl
@[simp] theorem setData_t (c : Cp) (h : Nat) (d : List UInt8) : (c.setData h d).t = c.t := rfl
@[simp] theorem setData_watch (c : Cp) (h : Nat) (d : List UInt8) : (c.setData h d).watch = c.watch := rfl
@[simp] theorem setData_k (c : Cp) (h : Nat) (d : List UInt8) : (c.setData h d).k = c.k := rfl

theorem mem_addWatch (c : Cp) (h x : Nat) : x ∈ (c.addWatch h).watch ↔ x = h ∨ x ∈ c.watch := by
  unfold addWatch
  dsimp only
  split
  · next hm => constructor
               · exact Or.inr
               · rintro (rfl | h)
                 · exact hm
                 · exact h
  · exact List.mem_cons

theorem mem_removeWatch (c : Cp) (h x : Nat) : x ∈ (c.removeWatch h).watch ↔ x ∈ c.watch ∧ x ≠ h := by
  unfold removeWatch; simp

theorem data_setData (c : Cp) (h x : Nat) (d : List UInt8) :
    (c.setData h d).data x = if x = h then d else c.data x := rfl

/-- What `create` does at a free path. -/
theorem create_spec {c : Cp} (w : TreeWF c.t) (hi : Issued c.t) {p : Nat} {pit it : Item} {keep size : Nat}
    (hp : c.t.get p = some pit) (hn : '/' ∉ it.name) (hkeep : keep ≠ 0 → c.t.get keep = none ∧ keep ≤ c.t.asked)
    (hfree : AMap.get c.t.paths (join pit.path it.name) = none) {c1 : Cp} {oy : Option Nat} {r : Resp}
    (h : c.create p pit it keep size = (c1, oy, r)) (hb : c1.t.asked < 0xFFFFFFFF) :
    (r = .ok → ∃ y, oy = some y ∧ Made c.t p pit it.name it.fmt y c1.t ∧ (keep ≠ 0 → y = keep) ∧
      (keep = 0 → c.t.asked < y) ∧ (∀ x, x ≠ y → c1.data x = c.data x) ∧
      (it.fmt ≠ ASSOC → c1.data y = List.replicate size 0) ∧
      (∀ x, x ∈ c1.watch ↔ x ∈ c.watch ∨ (x = y ∧ it.fmt = ASSOC))) ∧
    (r ≠ .ok → oy = none ∧ c1.t.items = c.t.items ∧ c1.t.paths = c.t.paths ∧ c1.t.rootPath = c.t.rootPath ∧
      c1.data = c.data ∧ c1.watch = c.watch) ∧
    c.t.asked ≤ c1.t.asked ∧ c1.k = c.k ∧
    (join pit.path it.name ∉ c.t.excl → c.t.fs c.t.tick = true → r = .ok) := by
  unfold create at h
  generalize ha : c.t.add (join pit.path it.name) (.node none it.fmt []) (some ⟨it.name, it.fmt, p⟩) false true keep =
    R at h
  obtain ⟨t1, oy', r'⟩ := R
  have htt : c1.t = t1 := by
    revert h
    split
    · next t1' y heq =>
      cases heq
      intro h
      simp only [Prod.mk.injEq] at h
      rw [← h.1]
      split
      · rfl
      · split <;> rfl
    · next t1' y r heq => cases heq; intro h; cases h; rfl
  obtain ⟨m1, m2, m3, m4⟩ := add_made w hi hp hn hkeep hfree ha (by rw [← htt]; exact hb)
  by_cases hr : r' = .ok
  · obtain ⟨y, rfl, mk, k1, k2⟩ := m1 hr
    subst hr
    dsimp only at h
    rw [hfree] at h
    simp only [Option.isSome_none, if_neg, Bool.false_eq_true, not_false_eq_true] at h
    by_cases hf : it.fmt = ASSOC
    · rw [if_pos hf] at h
      cases h
      refine ⟨fun _ => ⟨y, rfl, mk, k1, k2, fun _ _ => rfl, fun h => absurd hf h, fun x => ?_⟩, fun h => absurd rfl h,
        m3, rfl, fun _ _ => rfl⟩
      rw [mem_addWatch]
      constructor
      · rintro (rfl | h)
        · exact Or.inr ⟨rfl, hf⟩
        · exact Or.inl h
      · rintro (h | ⟨rfl, _⟩)
        · exact Or.inr h
        · exact Or.inl rfl
    · rw [if_neg hf] at h
      cases h
      refine ⟨fun _ => ⟨y, rfl, mk, k1, k2, fun x hx => ?_, fun _ => ?_, fun x => ?_⟩, fun h => absurd rfl h,
        m3, rfl, fun _ _ => rfl⟩
      · rw [data_setData, if_neg hx]
      · rw [data_setData, if_pos rfl]
      · simp [hf]
  · obtain ⟨rfl, e1, e2, e3⟩ := m2 hr
    have : (c1, oy, r) = ({ c with t := t1 }, none, r') := by
      rw [← h]
    cases this
    exact ⟨fun h => absurd h hr, fun _ => ⟨rfl, e1, e2, e3, rfl, rfl⟩, m3, rfl, m4⟩

theorem deleteItem_asked (t : Tree) (h f : Nat) : (t.deleteItem h f).1.asked = t.asked := by
  unfold Tree.deleteItem
  split
  · exact delAll_asked _ _ _ _ _ _ _
  · exact (del_asked _ _ _ _ _).1

theorem copyFile_asked (env : CopyEnv) (c : Cp) (d : List UInt8) (y : Nat) :
    (copyFile env c d y).1.t.asked = c.t.asked := by
  unfold copyFile
  split
  · rfl
  · split
    · rfl
    · split
      · exact deleteItem_asked _ _ _
      · rfl

theorem create_asked (c : Cp) (p : Nat) (pit it : Item) (keep size : Nat) :
    c.t.asked ≤ (c.create p pit it keep size).1.t.asked := by
  have := add_asked c.t (join pit.path it.name) (.node none it.fmt []) (some ⟨it.name, it.fmt, p⟩) false true keep
  unfold create
  split
  · next heq =>
    rw [heq] at this
    dsimp only
    split
    · exact this
    · split <;> exact this
  · next heq => rw [heq] at this; exact this

theorem copyKids_asked {f : Cp → Nat → Option (Cp × Resp × Nat)}
    (hf : ∀ c k c' r z, f c k = some (c', r, z) → c.t.asked ≤ c'.t.asked) :
    ∀ (ks : List Nat) (c c' : Cp) (r : Resp), copyKids f ks c = some (c', r) → c.t.asked ≤ c'.t.asked := by
  intro ks
  induction ks with
  | nil => intro c c' r h; simp only [copyKids, Option.some.injEq, Prod.mk.injEq] at h; rw [h.1]; exact Nat.le_refl _
  | cons k ks ih =>
    intro c c' r h
    unfold copyKids at h
    split at h
    · cases h
    · next c1 z e => exact Nat.le_trans (hf _ _ _ _ _ e) (ih _ _ _ h)
    · next c1 r1 z e => cases h; exact hf _ _ _ _ _ e

theorem copyTo_asked (env : CopyEnv) (src : CopySrc) (n : Nat) : ∀ (c : Cp) (h p : Nat) (top : Bool) (out : Nat)
    (c' : Cp) (r : Resp) (z : Nat), copyTo env src n c h p top out = some (c', r, z) → c.t.asked ≤ c'.t.asked := by
  induction n with
  | zero => intro c h p top out c' r z e; simp [copyTo] at e
  | succ n ih =>
    intro c h p top out c' r z e
    unfold copyTo at e
    split at e
    · cases e; exact Nat.le_refl _
    · next it _ =>
      split at e
      · cases e; exact Nat.le_refl _
      · next pit _ =>
        split at e
        · cases e; exact Nat.le_refl _
        split at e
        · cases e; exact Nat.le_refl _
        have hc := create_asked ({ c with k := c.k + 1 }.removeWatch p) p pit it 0 ((src.data c) h).length
        split at e
        · next c1 y heq =>
          rw [heq] at hc
          split at e
          · split at e
            · cases e
            · next c2 h2 =>
              cases e
              show _ ≤ c2.t.asked
              exact Nat.le_trans hc (copyKids_asked (fun c k c' r z h => ih _ _ _ _ _ _ _ _ h) _ _ _ _ h2)
            · next c2 r2 h2 =>
              cases e
              exact Nat.le_trans hc (copyKids_asked (fun c k c' r z h => ih _ _ _ _ _ _ _ _ h) _ _ _ _ h2)
          · have hf := copyFile_asked env c1 ((src.data c1) h) y
            split at e <;> next c2 h2 => cases e; rw [h2] at hf; exact Nat.le_trans hc (Nat.le_of_eq hf.symm)
        · next c1 y r heq => cases e; rw [heq] at hc; exact hc

/-- The part `B` of the source, as it was at the start (tree `s`, contents `D`), is what the copy reads in state `c`. -/
structure Reads (src : CopySrc) (s : Tree) (D : Nat → List UInt8) (B : Nat → Prop) (c : Cp) : Prop where
  dom : ∀ x, B x → ∃ ix, s.get x = some ix
  closed : ∀ x ix k, B x → s.get x = some ix → k ∈ ix.kids → B k
  tree : ∀ x, B x → (src.tree c).get x = s.get x
  data : ∀ x, B x → src.data c x = D x

/-- File copies that are answered OK are exact (C30). -/
def Faithful (env : CopyEnv) : Prop :=
  ∀ k d, (env.file k).cancelled = false → (env.file k).resp = .ok → (env.file k).made d = d

/-- What a copy does to contents and watches, given the pairs of source object and copy. -/
structure Carried (s : Tree) (D : Nat → List UInt8) (p : Nat) (c c' : Cp) (m : List (Nat × Nat)) : Prop where
  files : ∀ x y xi, (x, y) ∈ m → s.get x = some xi → xi.fmt ≠ ASSOC → c'.data y = D x
  others : ∀ x, (∀ a, (a, x) ∉ m) → c'.data x = c.data x
  kept : ∀ x, x ∈ c.watch → x ∈ c'.watch
  folders : ∀ a x ai, (a, x) ∈ m → s.get a = some ai → ai.fmt = ASSOC → x ∈ c'.watch
  only : ∀ x, x ∈ c'.watch → x ∈ c.watch ∨ x = p ∨ ∃ a ai, (a, x) ∈ m ∧ s.get a = some ai ∧ ai.fmt = ASSOC

theorem Reads.same {src : CopySrc} {s : Tree} {D : Nat → List UInt8} {B : Nat → Prop} {c c' : Cp}
    (r : Reads src s D B c) (h : src = none → ∀ x, B x → c'.t.get x = c.t.get x ∧ c'.data x = c.data x) :
    Reads src s D B c' := by
  refine ⟨r.dom, r.closed, fun x hx => ?_, fun x hx => ?_⟩
  · cases src with
    | some q => exact r.tree x hx
    | none => exact (h rfl x hx).1.trans (r.tree x hx)
  · cases src with
    | some q => exact r.data x hx
    | none => exact (h rfl x hx).2.trans (r.data x hx)

theorem made_reads {src : CopySrc} {s : Tree} {D : Nat → List UInt8} {B : Nat → Prop} {c c1 : Cp}
    (r : Reads src s D B c) {p y fmt : Nat} {pit : Item} {name : Path} (mk : Made c.t p pit name fmt y c1.t)
    (hd : ∀ x, x ≠ y → c1.data x = c.data x) (hB : src = none → ¬ B p) :
    Reads src s D B c1 ∧ (src = none → ¬ B y) := by
  have hy : src = none → ¬ B y := by
    rintro rfl hb
    have h1 := r.tree y hb
    obtain ⟨iy, e⟩ := r.dom y hb
    rw [e] at h1
    cases mk.fresh.symm.trans h1
  refine ⟨r.same (fun hs x hx => ?_), hy⟩
  have hxy : x ≠ y := by rintro rfl; exact hy hs hx
  have hxp : x ≠ p := by rintro rfl; exact hB hs hx
  obtain ⟨v, hg⟩ := mk.get
  refine ⟨?_, hd x hxy⟩
  rw [hg, if_neg hxy, if_neg hxp]

/-- The next siblings' places stay free. -/
theorem _root_.Mtp.Grafted.free {s t t' : Tree} {p : Nat} {pit : Item} {P : Path} {k : Nat} {ki : Item} {m : List (Nat × Nat)}
    (ws : TreeWF s) (w : TreeWF t) (g : Grafted s t p pit P [k] t' m) (hp : t.get p = some pit)
    (hk : s.get k = some ki) (kpath : ki.path = join P ki.name) (kname : '/' ∉ ki.name) {n : Path} (hn : '/' ∉ n)
    (hne : n ≠ ki.name) (hfree : AMap.get t.paths (join pit.path n) = none) :
    AMap.get t'.paths (join pit.path n) = none := by
  cases e : AMap.get t'.paths (join pit.path n) with
  | none => rfl
  | some z =>
    exfalso
    obtain ⟨zi, z1, z2⟩ := g.wf.ofPath _ _ e
    cases ez : t.get z with
    | some zo =>
      have hzo : zo.path = zi.path := by
        by_cases hzp : z = p
        · subst hzp
          rw [hp] at ez; cases ez
          obtain ⟨l, e'⟩ := g.par
          rw [z1] at e'; cases e'; rfl
        · have := g.old z zo ez hzp
          rw [z1] at this; cases this; rfl
      have := w.pathOf z zo ez
      rw [hzo, z2, hfree] at this
      cases this
    | none =>
      obtain ⟨x, hm⟩ := (g.new z).mp ⟨has_iff.mpr ⟨zi, z1⟩, ez⟩
      obtain ⟨k', hk', hb, xi, zi', e1, e2, _, _, _, e6⟩ := g.pair x z hm
      rw [z1] at e2; cases e2
      rw [List.mem_singleton] at hk'; subst hk'
      have hu := (ws.below_iff hk e1).mp hb
      rw [kpath] at hu
      have : Under (join pit.path ki.name) zi.path := by
        rw [e6]
        rcases hu with h | ⟨q, h⟩
        · left; rw [h, reprefix_child]
        · right
          refine ⟨q, ?_⟩
          rw [h]; simp [reprefix, join]
      rw [z2] at this
      have hs := this.sibling (Spec.Under.refl _) kname hn
      exact hne hs.symm

section
variable {env : CopyEnv} {src : CopySrc} {s : Tree} {D : Nat → List UInt8} {B : Nat → Prop}

/-- The statement proved by induction on the recursion bound, for a function copying one object. -/
def CopyOk (s : Tree) (D : Nat → List UInt8) (src : CopySrc) (B : Nat → Prop)
    (N : Nat) (kp : Prop) (f : Cp → Nat → Option (Cp × Resp × Nat)) (p : Nat) : Prop :=
  ∀ (c c' : Cp) (h y : Nat) (pit it : Item), N ≤ c.t.asked → Reads src s D B c → B h → (src = none → ¬ B p) → TreeWF c.t → Issued c.t →
    c.t.get p = some pit → s.get h = some it → '/' ∉ it.name → AMap.get c.t.paths (join pit.path it.name) = none →
    f c h = some (c', .ok, y) → c'.t.asked < 0xFFFFFFFF →
    ∃ m, Grafts s c.t p [h] c'.t ((h, y) :: m) ∧ Carried s D p c c' ((h, y) :: m) ∧
      (kp → ∀ a b, (a, b) ∈ (h, y) :: m → a = b)

theorem copyKids_ok (ws : TreeWF s) (leaf : ∀ x ix, s.get x = some ix → ix.kids ≠ [] → ix.fmt = ASSOC)
    {f : Cp → Nat → Option (Cp × Resp × Nat)} {p : Nat} {N : Nat} {kp : Prop} (hf : CopyOk s D src B N kp f p)
    (ha : ∀ c k c' r z, f c k = some (c', r, z) → c.t.asked ≤ c'.t.asked) :
    ∀ (ks : List Nat) (c c' : Cp) (pit : Item) (P : Path), N ≤ c.t.asked → Reads src s D B c → (∀ k ∈ ks, B k) → (src = none → ¬ B p) →
      TreeWF c.t → Issued c.t → c.t.get p = some pit → InDir s P ks →
      (∀ k ∈ ks, ∀ ki, s.get k = some ki → AMap.get c.t.paths (join pit.path ki.name) = none) →
      copyKids f ks c = some (c', .ok) → c'.t.asked < 0xFFFFFFFF →
      ∃ m, Grafts s c.t p ks c'.t m ∧ Carried s D p c c' m ∧ (kp → ∀ a b, (a, b) ∈ m → a = b) := by
  intro ks
  induction ks with
  | nil =>
    intro c c' pit P _ _ _ _ _ _ _ _ _ h _
    simp only [copyKids, Option.some.injEq, Prod.mk.injEq] at h
    obtain ⟨rfl, _⟩ := h
    exact ⟨[], .nil _ _, ⟨fun x y xi hm => (nomatch hm), fun _ _ => rfl, fun _ h => h, fun _ _ _ hm => (nomatch hm),
      fun _ h => Or.inl h⟩, fun _ _ _ hm => (nomatch hm)⟩
  | cons k ks ih =>
    intro c c' pit P hN r hB hBp w hi hp hd hfree h hb
    unfold copyKids at h
    split at h
    · cases h
    · next c1 z e =>
      obtain ⟨ki, k1, k2, k3⟩ := hd.2 k List.mem_cons_self
      have hb1 : c1.t.asked < 0xFFFFFFFF := Nat.lt_of_le_of_lt (copyKids_asked ha _ _ _ _ h) hb
      obtain ⟨m1, g1, d1, q1⟩ := hf c c1 k z pit ki hN r (hB k List.mem_cons_self) hBp w hi hp k1 k3
        (hfree k List.mem_cons_self ki k1) e hb1
      have hd1 : InDir s P [k] := ⟨by simp, fun k' hk' => by
        rw [List.mem_singleton] at hk'; subst hk'; exact ⟨ki, k1, k2, k3⟩⟩
      have hd2 : InDir s P ks := ⟨(List.nodup_cons.mp hd.1).2, fun k' hk' => hd.2 k' (List.mem_cons_of_mem _ hk')⟩
      have G := grafts_spec ws leaf g1 pit P w hi hp hd1
      obtain ⟨l, hp1⟩ := G.par
      have r1 : Reads src s D B c1 := r.same (fun hs x hx => by
        subst hs
        obtain ⟨ix, ex⟩ := r.dom x hx
        have hcx : c.t.get x = some ix := (r.tree x hx).trans ex
        have hxp : x ≠ p := by rintro rfl; exact hBp rfl hx
        refine ⟨by rw [G.old x ix hcx hxp, hcx], d1.others x (fun a hm => ?_)⟩
        have := ((G.new x).mpr ⟨a, hm⟩).2
        rw [hcx] at this; cases this)
      obtain ⟨m2, g2, d2, q2⟩ := ih c1 c' _ P (Nat.le_trans hN G.asked) r1 (fun k' hk' => hB k' (List.mem_cons_of_mem _ hk')) hBp G.wf G.issued hp1 hd2
        (fun k' hk' ki' e' => by
          obtain ⟨ki'', f1, f2, f3⟩ := hd2.2 k' hk'
          rw [e'] at f1; cases f1
          refine G.free ws w hp k1 k2 k3 f3 ?_ (hfree k' (List.mem_cons_of_mem _ hk') ki' e')
          intro hn
          have : k' = k := ws.inj e' k1 (by rw [f2, k2, hn])
          subst this
          exact (List.nodup_cons.mp hd.1).1 hk') h hb
      have G2 := grafts_spec ws leaf g2 _ P G.wf G.issued hp1 hd2
      refine ⟨_, g1.append g2, ⟨fun x y xi hm e1 e2 => ?_, fun x hx => ?_, fun x hx => d2.kept x (d1.kept x hx),
        fun a x ai hm e1 e2 => ?_, fun x hx => ?_⟩, fun hk a b hm => ?_⟩
      · rcases List.mem_append.mp hm with hm | hm
        · have hyc : c1.t.has y = true := ((G.new y).mpr ⟨x, hm⟩).1
          rw [d2.others y (fun a hm2 => by
            have := ((G2.new y).mpr ⟨a, hm2⟩).2
            obtain ⟨i, e⟩ := has_iff.mp hyc
            rw [this] at e; cases e)]
          exact d1.files x y xi hm e1 e2
        · exact d2.files x y xi hm e1 e2
      · rw [d2.others x (fun a hm => hx a (List.mem_append_right _ hm)),
          d1.others x (fun a hm => hx a (List.mem_append_left _ hm))]
      · rcases List.mem_append.mp hm with hm | hm
        · exact d2.kept x (d1.folders a x ai hm e1 e2)
        · exact d2.folders a x ai hm e1 e2
      · rcases d2.only x hx with h | h | ⟨a, ai, h, h'⟩
        · rcases d1.only x h with h | h | ⟨a, ai, h, h'⟩
          · exact Or.inl h
          · exact Or.inr (Or.inl h)
          · exact Or.inr (Or.inr ⟨a, ai, List.mem_append_left _ h, h'⟩)
        · exact Or.inr (Or.inl h)
        · exact Or.inr (Or.inr ⟨a, ai, List.mem_append_right _ h, h'⟩)
      · rcases List.mem_append.mp hm with hm | hm
        · exact q1 hk a b hm
        · exact q2 hk a b hm
    · next c1 r z hne e =>
      simp only [Option.some.injEq, Prod.mk.injEq] at h
      exact absurd h.2 (by simpa using hne)

theorem copyFile_ok (hfa : Faithful env) {c c' : Cp} {d : List UInt8} {y : Nat}
    (h : copyFile env c d y = (c', .ok)) (hz : d = [] → c.data y = []) :
    c'.t = c.t ∧ c'.watch = c.watch ∧ c'.data y = d ∧ ∀ x, x ≠ y → c'.data x = c.data x := by
  unfold copyFile at h
  split at h
  · cases h
  split at h
  · next he => cases h; exact ⟨rfl, rfl, by rw [hz he, he], fun _ _ => rfl⟩
  split at h
  · cases h
  · next hc =>
    simp only [Prod.mk.injEq] at h
    obtain ⟨h1, h2⟩ := h
    subst h1
    refine ⟨rfl, rfl, ?_, fun x hx => ?_⟩
    · rw [data_setData, if_pos rfl]
      exact hfa _ _ (by simpa using hc) h2
    · rw [data_setData, if_neg hx]

/-- A made object with the copies of its children, as a graft of one. -/
theorem carried_folder {p h y : Nat} {it : Item} {c c1 c2 : Cp} {m : List (Nat × Nat)} (e : s.get h = some it)
    (hf : it.fmt = ASSOC) (hd : ∀ x, x ≠ y → c1.data x = c.data x)
    (hw : ∀ x, x ∈ c1.watch ↔ (x ∈ c.watch ∧ x ≠ p) ∨ x = y) (d : Carried s D y c1 c2 m) :
    Carried s D p c (c2.addWatch p) ((h, y) :: m) := by
  refine ⟨fun x z xi hm e1 e2 => ?_, fun x hx => ?_, fun x hx => ?_, fun a x ai hm e1 e2 => ?_, fun x hx => ?_⟩
  · rcases List.mem_cons.mp hm with hm | hm
    · cases hm; rw [e] at e1; cases e1; exact absurd hf e2
    · exact d.files x z xi hm e1 e2
  · rw [addWatch_data, d.others x (fun a hm => hx a (List.mem_cons_of_mem _ hm))]
    refine hd x ?_
    rintro rfl
    exact hx h List.mem_cons_self
  · rw [mem_addWatch]
    by_cases hp : x = p
    · exact Or.inl hp
    · exact Or.inr (d.kept x ((hw x).mpr (Or.inl ⟨hx, hp⟩)))
  · rw [mem_addWatch]
    rcases List.mem_cons.mp hm with hm | hm
    · cases hm; exact Or.inr (d.kept _ ((hw _).mpr (Or.inr rfl)))
    · exact Or.inr (d.folders a x ai hm e1 e2)
  · rcases (mem_addWatch _ _ _).mp hx with h1 | h1
    · exact Or.inr (Or.inl h1)
    · rcases d.only x h1 with h1 | rfl | ⟨a, ai, h1, h2⟩
      · rcases (hw x).mp h1 with h1 | rfl
        · exact Or.inl h1.1
        · exact Or.inr (Or.inr ⟨h, it, List.mem_cons_self, e, hf⟩)
      · exact Or.inr (Or.inr ⟨h, it, List.mem_cons_self, e, hf⟩)
      · exact Or.inr (Or.inr ⟨a, ai, List.mem_cons_of_mem _ h1, h2⟩)

theorem carried_file {p h y : Nat} {it : Item} {c c1 c2 : Cp} (e : s.get h = some it)
    (hf : it.fmt ≠ ASSOC) (hd : ∀ x, x ≠ y → c1.data x = c.data x)
    (hw : ∀ x, x ∈ c1.watch ↔ (x ∈ c.watch ∧ x ≠ p)) (w2 : c2.watch = c1.watch) (dy : c2.data y = D h)
    (dx : ∀ x, x ≠ y → c2.data x = c1.data x) : Carried s D p c (c2.addWatch p) [(h, y)] := by
  refine ⟨fun x z xi hm _ _ => ?_, fun x hx => ?_, fun x hx => ?_, fun a x ai hm e1 e2 => ?_, fun x hx => ?_⟩
  · rw [List.mem_singleton] at hm; cases hm; exact dy
  · have hxy : x ≠ y := by rintro rfl; exact hx h List.mem_cons_self
    rw [addWatch_data, dx x hxy, hd x hxy]
  · rw [mem_addWatch, w2, hw]
    by_cases hp : x = p
    · exact Or.inl hp
    · exact Or.inr ⟨hx, hp⟩
  · rw [List.mem_singleton] at hm; cases hm; rw [e] at e1; cases e1; exact absurd e2 hf
  · rw [mem_addWatch, w2, hw] at hx
    rcases hx with h1 | h1
    · exact Or.inr (Or.inl h1)
    · exact Or.inl h1.1

/-- The same without touching the watch of the destination folder. -/
theorem carried_folder' {p h y : Nat} {it : Item} {c c1 c2 : Cp} {m : List (Nat × Nat)} (e : s.get h = some it)
    (hf : it.fmt = ASSOC) (hd : ∀ x, x ≠ y → c1.data x = c.data x)
    (hw : ∀ x, x ∈ c1.watch ↔ x ∈ c.watch ∨ x = y) (d : Carried s D y c1 c2 m) :
    Carried s D p c c2 ((h, y) :: m) := by
  refine ⟨fun x z xi hm e1 e2 => ?_, fun x hx => ?_, fun x hx => d.kept x ((hw x).mpr (Or.inl hx)),
    fun a x ai hm e1 e2 => ?_, fun x hx => ?_⟩
  · rcases List.mem_cons.mp hm with hm | hm
    · cases hm; rw [e] at e1; cases e1; exact absurd hf e2
    · exact d.files x z xi hm e1 e2
  · rw [d.others x (fun a hm => hx a (List.mem_cons_of_mem _ hm))]
    refine hd x ?_
    rintro rfl
    exact hx h List.mem_cons_self
  · rcases List.mem_cons.mp hm with hm | hm
    · cases hm; exact d.kept _ ((hw _).mpr (Or.inr rfl))
    · exact d.folders a x ai hm e1 e2
  · rcases d.only x hx with h1 | rfl | ⟨a, ai, h1, h2⟩
    · rcases (hw x).mp h1 with h1 | rfl
      · exact Or.inl h1
      · exact Or.inr (Or.inr ⟨h, it, List.mem_cons_self, e, hf⟩)
    · exact Or.inr (Or.inr ⟨h, it, List.mem_cons_self, e, hf⟩)
    · exact Or.inr (Or.inr ⟨a, ai, List.mem_cons_of_mem _ h1, h2⟩)

/-- The places in a folder just made are free. -/
theorem made_free {t t1 : Tree} {p y fmt : Nat} {pit : Item} {name : Path} (mk : Made t p pit name fmt y t1)
    {n : Path} (hn : '/' ∉ n) : AMap.get t1.paths (join (join pit.path name) n) = none := by
  cases e : AMap.get t1.paths (join (join pit.path name) n) with
  | none => rfl
  | some z =>
    exfalso
    obtain ⟨v, hg⟩ := mk.get
    have hy : t1.get y = some ⟨join pit.path name, name, fmt, p, some p, [], v⟩ := by rw [hg, if_pos rfl]
    obtain ⟨zi, z1, z2⟩ := mk.wf.ofPath _ _ e
    have hz0 : z ≠ 0 := by
      rintro rfl
      obtain ⟨r, r1, r2, _⟩ := mk.wf.root
      rw [z1] at r1; cases r1
      have := (mk.wf.under_root hy).length
      rw [← r2, z2] at this
      simp only [join_length] at this
      omega
    obtain ⟨q, qi, q1, _, q3, q4, q5, q6⟩ := mk.wf.parent z zi z1 hz0
    rw [z2] at q5
    obtain ⟨e1, _⟩ := join_inj q5 hn q6
    have : y = q := mk.wf.inj hy q3 e1
    subst this
    rw [hy] at q3; cases q3
    simp at q4

theorem copyTo_ok (ws : TreeWF s) (leaf : ∀ x ix, s.get x = some ix → ix.kids ≠ [] → ix.fmt = ASSOC)
    (hfa : Faithful env) (n : Nat) : ∀ (p : Nat) (top : Bool) (out : Nat),
      CopyOk s D src B 0 False (fun c h => copyTo env src n c h p top out) p := by
  induction n with
  | zero => intro p top out c c' h y pit it _ _ _ _ _ _ _ _ _ _ e; simp [copyTo] at e
  | succ n ih =>
    intro p top out c c' h y pit it _ r hB hBp w hi hp hs hn hfree e hb
    have hread := r.tree h hB
    dsimp only at e
    unfold copyTo at e
    rw [hread, hs] at e
    dsimp only at e
    rw [hp] at e
    dsimp only at e
    split at e
    · cases e
    split at e
    · cases e
    generalize hc0 : ({ c with k := c.k + 1 } : Cp).removeWatch p = c0 at e
    have t0 : c0.t = c.t := by rw [← hc0]; rfl
    have d0 : c0.data = c.data := by rw [← hc0]; rfl
    have w0 : ∀ x, x ∈ c0.watch ↔ x ∈ c.watch ∧ x ≠ p := by rw [← hc0]; exact fun x => mem_removeWatch _ p x
    generalize hcr : c0.create p pit it 0 ((src.data c) h).length = R at e
    obtain ⟨c1, oy, r1⟩ := R
    have hb1 : c1.t.asked < 0xFFFFFFFF := by
      refine Nat.lt_of_le_of_lt ?_ hb
      split at e
      · next c1' y' heq =>
        cases heq
        split at e
        · split at e
          · cases e
          · next c2 h2 =>
            cases e
            show _ ≤ c2.t.asked
            exact copyKids_asked (fun c k c' r z h => copyTo_asked _ _ _ _ _ _ _ _ _ _ _ h) _ _ _ _ h2
          · next c2 r2 hne h2 =>
            simp only [Option.some.injEq, Prod.mk.injEq] at e
            exact absurd e.2.1 (by simpa using hne)
        · have hf := copyFile_asked env c1 ((src.data c1) h) y'
          split at e
          · next c2 h2 => cases e; rw [h2] at hf; exact Nat.le_of_eq hf.symm
          · next c2 r2 hne h2 =>
            simp only [Option.some.injEq, Prod.mk.injEq] at e
            exact absurd e.2.1 (by simpa using hne)
      · next c1' y' r' hne heq => cases heq; cases e; exact Nat.le_refl _
    obtain ⟨s1, s2, _⟩ := create_spec (c := c0) (by rw [t0]; exact w) (by rw [t0]; exact hi) (by rw [t0]; exact hp) hn
      (fun h => absurd rfl h) (by rw [t0]; exact hfree) hcr hb1
    by_cases hr : r1 = .ok
    · subst hr
      obtain ⟨y1, rfl, mk, _, _, dd, dz, dw⟩ := s1 rfl
      rw [t0] at mk
      rw [d0] at dd
      dsimp only at e
      obtain ⟨rd1, hBy⟩ := made_reads (c := c) (c1 := c1) r mk dd hBp
      by_cases hf : it.fmt = ASSOC
      · rw [if_pos hf] at e
        rw [rd1.tree h hB, hs] at e
        dsimp only [Option.map, Option.getD] at e
        obtain ⟨v, hg⟩ := mk.get
        have hy : c1.t.get y1 = some ⟨join pit.path it.name, it.name, it.fmt, p, some p, [], v⟩ := by
          rw [hg, if_pos rfl]
        split at e
        · cases e
        · next c2 h2 =>
          simp only [Option.some.injEq, Prod.mk.injEq, true_and] at e
          obtain ⟨e1, e2⟩ := e
          subst e1 e2
          have hb2 : c2.t.asked < 0xFFFFFFFF := hb
          obtain ⟨m, g, d, _⟩ := copyKids_ok (p := y1) ws leaf (ih y1 false y1)
            (fun c k c' r z h => copyTo_asked _ _ _ _ _ _ _ _ _ _ _ h) it.kids c1 c2 _ it.path (Nat.zero_le _) rd1
            (fun k hk => r.closed h it k hB hs hk) hBy mk.wf mk.issued hy (InDir.kids ws hs)
            (fun k hk ki e1 => by
              obtain ⟨ki', f1, f2, f3⟩ := (InDir.kids ws hs).2 k hk
              rw [e1] at f1; cases f1
              exact made_free mk f3) h2 hb2
          refine ⟨m, ?_, ?_, fun hk => hk.elim⟩
          · have := Grafts.cons hs hp mk (by rw [if_pos hf]; exact g) (Grafts.nil c2.t p)
            simpa using this
          · refine carried_folder hs hf dd (fun x => ?_) d
            rw [dw, w0]
            simp [hf]
        · next c2 r2 hne h2 =>
          simp only [Option.some.injEq, Prod.mk.injEq] at e
          exact absurd e.2.1 (by simpa using hne)
      · rw [if_neg hf] at e
        split at e
        · next c2 h2 =>
          cases e
          rw [rd1.data h hB] at h2
          obtain ⟨f1, f2, f3, f4⟩ := copyFile_ok hfa h2 (fun he => by
            rw [dz hf, r.data h hB, he]; rfl)
          refine ⟨[], ?_, carried_file hs hf dd (fun x => ?_) f2 f3 f4, fun hk => hk.elim⟩
          · have := Grafts.cons (m1 := []) (m2 := []) hs hp mk (by rw [if_neg hf]; exact Grafts.nil c1.t _)
              (Grafts.nil c1.t p)
            show Grafts s c.t p [h] c2.t [(h, y)]
            rw [f1]
            simpa using this
          · rw [dw, w0]; simp [hf]
        · next c2 r2 hne h2 =>
          simp only [Option.some.injEq, Prod.mk.injEq] at e
          exact absurd e.2.1 (by simpa using hne)
    · obtain ⟨rfl, _⟩ := s2 hr
      dsimp only at e
      simp only [Option.some.injEq, Prod.mk.injEq] at e
      exact absurd e.2.1 hr

theorem handles_kids {s : Tree} (ws : TreeWF s) {h : Nat} {it : Item} (e : s.get h = some it) (h0 : h ≠ 0)
    (hA : h ≠ ALL) (hf : it.fmt = ASSOC) : (s.handles 0 h).2 = it.kids := by
  unfold Tree.handles
  dsimp only
  rw [if_neg h0, if_neg hA, e]
  dsimp only
  rw [if_neg (fun h => h hf)]
  rw [List.filter_eq_self]
  intro k hk
  obtain ⟨ki, k1, _⟩ := ws.kid e hk
  rw [k1]
  simp [Tree.fmtKids]

theorem copyHandle_asked (env : CopyEnv) (s : Tree) (sd : Nat → List UInt8) (n : Nat) : ∀ (c : Cp) (h p : Nat)
    (c' : Cp) (r : Resp) (z : Nat), copyHandle env s sd n c h p = some (c', r, z) → c.t.asked ≤ c'.t.asked := by
  induction n with
  | zero => intro c h p c' r z e; simp [copyHandle] at e
  | succ n ih =>
    intro c h p c' r z e
    unfold copyHandle at e
    split at e
    · cases e; exact Nat.le_refl _
    dsimp only at e
    generalize (if p = ALL then 0 else p) = p' at e
    split at e
    · cases e; exact Nat.le_refl _
    · next pit _ =>
      split at e
      · cases e; exact Nat.le_refl _
      · next it _ =>
        have hc := create_asked c p' pit it h (sd h).length
        split at e
        · next c1 y heq =>
          rw [heq] at hc
          split at e
          · split at e
            · cases e
            · next c2 r2 h2 =>
              cases e
              exact Nat.le_trans hc (copyKids_asked (fun c k c' r z h => ih _ _ _ _ _ _ h) _ _ _ _ h2)
          · have hf := copyFile_asked env c1 (sd h) h
            generalize copyFile env c1 (sd h) h = R at e hf
            obtain ⟨c2, r2⟩ := R
            cases e
            exact Nat.le_trans hc (Nat.le_of_eq hf.symm)
        · next c1 y r heq => cases e; rw [heq] at hc; exact hc

theorem copyHandle_ok (ws : TreeWF s) (leaf : ∀ x ix, s.get x = some ix → ix.kids ≠ [] → ix.fmt = ASSOC)
    (hfa : Faithful env) {N : Nat} (hN : N < ALL) (hB : ∀ x, B x → x ≠ 0 ∧ x ≤ N) (n : Nat) : ∀ (p : Nat), p ≠ ALL →
      CopyOk s D (some (s, D)) B N True (fun c h => copyHandle env s D n c h p) p := by
  induction n with
  | zero => intro p _ c c' h y pit it _ _ _ _ _ _ _ _ _ _ e; simp [copyHandle] at e
  | succ n ih =>
    intro p hpA c c' h y pit it hNc r hBh hBp w hi hp hs hn hfree e hb
    obtain ⟨h0, hhN⟩ := hB h hBh
    have hhA : h ≠ ALL := by omega
    dsimp only at e
    unfold copyHandle at e
    split at e
    · cases e
    next hhas =>
    have hnone : c.t.get h = none := by
      cases ex : c.t.get h with
      | none => rfl
      | some i => exact absurd (has_iff.mpr ⟨i, ex⟩) hhas
    simp only [if_neg hpA, hp, hs] at e
    generalize hcr : c.create p pit it h (D h).length = R at e
    obtain ⟨c1, oy, r1⟩ := R
    have hb1 : c1.t.asked < 0xFFFFFFFF := by
      refine Nat.lt_of_le_of_lt ?_ hb
      split at e
      · next c1' y' heq =>
        cases heq
        split at e
        · split at e
          · cases e
          · next c2 r2 h2 =>
            cases e
            exact copyKids_asked (fun c k c' r z h => copyHandle_asked _ _ _ _ _ _ _ _ _ _ h) _ _ _ _ h2
        · have hf := copyFile_asked env c1 (D h) h
          generalize copyFile env c1 (D h) h = R at e hf
          obtain ⟨c2, r2⟩ := R
          cases e
          exact Nat.le_of_eq hf.symm
      · next c1' y' r' hne heq => cases heq; cases e; exact Nat.le_refl _
    obtain ⟨s1, s2, _⟩ := create_spec (c := c) w hi hp hn (fun _ => ⟨hnone, by omega⟩) hfree hcr hb1
    by_cases hr : r1 = .ok
    · subst hr
      obtain ⟨y1, rfl, mk, hy1, _, dd, dz, dw⟩ := s1 rfl
      have := hy1 h0
      subst this
      dsimp only at e
      by_cases hf : it.fmt = ASSOC
      · rw [if_pos hf, handles_kids ws hs h0 hhA hf] at e
        obtain ⟨v, hg⟩ := mk.get
        have hy : c1.t.get y1 = some ⟨join pit.path it.name, it.name, it.fmt, p, some p, [], v⟩ := by
          rw [hg, if_pos rfl]
        split at e
        · cases e
        · next c2 r2 h2 =>
          simp only [Option.some.injEq, Prod.mk.injEq] at e
          obtain ⟨e1, e2, e3⟩ := e
          subst e1 e2 e3
          obtain ⟨m, g, d, q⟩ := copyKids_ok (src := some (s, D)) (p := y1) ws leaf (ih y1 hhA)
            (fun c k c' r z h => copyHandle_asked _ _ _ _ _ _ _ _ _ _ h) it.kids c1 c2 _ it.path
            (Nat.le_trans hNc mk.asked) (r.same (fun h => by cases h))
            (fun k hk => r.closed y1 it k hBh hs hk) (fun h => by cases h) mk.wf mk.issued hy (InDir.kids ws hs)
            (fun k hk ki e1 => by
              obtain ⟨ki', f1, f2, f3⟩ := (InDir.kids ws hs).2 k hk
              rw [e1] at f1; cases f1
              exact made_free mk f3) h2 hb
          refine ⟨m, ?_, ?_, fun _ a b hm => ?_⟩
          · have := Grafts.cons hs hp mk (by rw [if_pos hf]; exact g) (Grafts.nil c2.t p)
            simpa using this
          · refine carried_folder' hs hf dd (fun x => ?_) d
            rw [dw]
            simp [hf]
          · rcases List.mem_cons.mp hm with hm | hm
            · cases hm; rfl
            · exact q trivial a b hm
      · rw [if_neg hf] at e
        generalize h2 : copyFile env c1 (D y1) y1 = R at e
        obtain ⟨c2, r2⟩ := R
        simp only [Option.some.injEq, Prod.mk.injEq] at e
        obtain ⟨e1, e2, e3⟩ := e
        subst e1 e2 e3
        obtain ⟨f1, f2, f3, f4⟩ := copyFile_ok hfa h2 (fun he => by rw [dz hf, he]; rfl)
        refine ⟨[], ?_, ⟨fun x z xi hm _ _ => ?_, fun x hx => ?_, fun x hx => ?_, fun a x ai hm e1 e2 => ?_,
          fun x hx => ?_⟩, fun _ a b hm => ?_⟩
        · have := Grafts.cons (m1 := []) (m2 := []) hs hp mk (by rw [if_neg hf]; exact Grafts.nil c1.t _)
            (Grafts.nil c1.t p)
          rw [f1]
          simpa using this
        · rw [List.mem_singleton] at hm; cases hm; exact f3
        · have hxy : x ≠ y1 := by rintro rfl; exact hx x List.mem_cons_self
          rw [f4 x hxy, dd x hxy]
        · rw [f2, dw]; exact Or.inl hx
        · rw [List.mem_singleton] at hm; cases hm; rw [hs] at e1; cases e1; exact absurd e2 hf
        · rw [f2, dw] at hx
          rcases hx with h1 | h1
          · exact Or.inl h1
          · exact absurd h1.2 hf
        · rw [List.mem_singleton] at hm; cases hm; rfl
    · obtain ⟨rfl, _⟩ := s2 hr
      dsimp only at e
      simp only [Option.some.injEq, Prod.mk.injEq] at e
      exact absurd e.2.1 hr

end
end Cp
end Mtp
