import Verif.Model.StoragesStart
import Verif.Spec.Storages
import Verif.Spec.Startup
import Verif.Lemmas.Startup
import Verif.Lemmas.StoragesRun
/-!
Several storages after the start.
-/
namespace Mtp
open Spec
namespace Storages

/-- Handles are given out in the order of the storages. -/
theorem enumerate_new (rp : Path) (excl : List Path) (pol : SymPolicy) (pu : AMap Path Nat) (fs : Nat → Bool) (asked ids : Nat)
    (link : Option (Option Path)) (fmt : Nat) (es : List (Path × Disk)) (hd : DisksOk es)
    (hr : (Tree.empty rp excl pol pu fs asked ids).refused rp link = false)
    (hb : ((Tree.empty rp excl pol pu fs asked ids).enumerate (.node link fmt es)).asked < 0xFFFFFFFF) :
    asked ≤ ((Tree.empty rp excl pol pu fs asked ids).enumerate (.node link fmt es)).asked ∧
    ∀ x, ((Tree.empty rp excl pol pu fs asked ids).enumerate (.node link fmt es)).has x = true → x = 0 ∨ asked < x := by
  obtain ⟨t1, v, w1, i1, hv, h0, _, _, _, ha, e⟩ := enumerate_root rp excl pol pu fs asked ids link fmt es hr
  rw [e] at hb ⊢
  by_cases hf : fmt = ASSOC
  · rw [if_pos hf] at hb ⊢
    obtain ⟨_, _, g⟩ := addAll_spec w1 i1 hv false false es hd hb
    refine ⟨ha ▸ g.asked, fun x hx => ?_⟩
    rcases g.new x hx with h | ⟨h, _⟩ | ⟨h, h'⟩
    · obtain ⟨it, e⟩ := has_iff.mp h
      exact Or.inl (h0 x it e)
    · exact Or.inr (ha ▸ h)
    · exact absurd h h'
  · rw [if_neg hf] at hb ⊢
    refine ⟨Nat.le_of_eq ha.symm, fun x hx => ?_⟩
    obtain ⟨it, e⟩ := has_iff.mp hx
    exact Or.inl (h0 x it e)

/-- A configured storage can be one. -/
def Sound (c : Place) : Prop := Directory c.rootPath c.excl c.policy c.disk

theorem startOne_ok {fmts : List Nat} {n asked ids : Nat} {c : Place} (hc : Sound c)
    (hb : (startOne fmts n asked ids c).tree.asked < 0xFFFFFFFF) :
    ServerOk (startOne fmts n asked ids c) ∧ asked ≤ (startOne fmts n asked ids c).tree.asked ∧
      ∀ x, (startOne fmts n asked ids c).tree.has x = true → x = 0 ∨ asked < x := by
  obtain ⟨⟨l, es, e, hm⟩, hn, hu⟩ := hc
  unfold startOne at hb ⊢
  rw [e] at hb hn hu ⊢
  refine ⟨Server.start_ok _ _ _ _ _ _ _ _ hn hu hm hb, ?_⟩
  exact enumerate_new _ _ _ _ _ _ _ _ _ _ (by rw [DiskOk] at hn; exact hn) ((mayShow_iff _ _ l).mpr hm) hb

theorem startOne_asked {fmts : List Nat} {n asked ids : Nat} {c : Place} (hc : Sound c) :
    asked ≤ (startOne fmts n asked ids c).tree.asked := by
  obtain ⟨⟨l, es, e, hm⟩, hn, hu⟩ := hc
  unfold startOne
  rw [e]
  obtain ⟨t1, v, w1, i1, hv, h0, _, _, _, ha, e⟩ := enumerate_root c.rootPath c.excl c.policy c.puoids c.fs asked ids l ASSOC es
    ((mayShow_iff _ _ l).mpr hm)
  show asked ≤ (Tree.enumerate _ _).asked
  rw [e, if_pos rfl, ← ha]
  exact addAll_asked _ _ _ _ es

/-- The storages one after the other, from `asked` handles on. -/
theorem startList_spec (fmts : List Nat) (cs : List Place) : ∀ (n asked ids : Nat), (∀ c ∈ cs, Sound c) →
    (startList fmts n asked ids cs).length = cs.length ∧
    (∀ (j : Nat) (s : Server), (startList fmts n asked ids cs)[j]? = some s → s.sid = 0x00010001 + (n + j) ∧ s.fmts = fmts ∧ asked ≤ s.tree.asked) ∧
    ∀ z, (startList fmts n asked ids cs).getLast? = some z →
      (∀ (j : Nat) (s : Server), (startList fmts n asked ids cs)[j]? = some s → s.tree.asked ≤ z.tree.asked) ∧
      (z.tree.asked < 0xFFFFFFFF →
        (∀ (j : Nat) (s : Server), (startList fmts n asked ids cs)[j]? = some s → ServerOk s ∧ ∀ x, s.tree.has x = true → x = 0 ∨ asked < x) ∧
        ∀ (i j : Nat) (s t : Server), i < j → (startList fmts n asked ids cs)[i]? = some s → (startList fmts n asked ids cs)[j]? = some t →
          ∀ x, s.tree.has x = true → t.tree.has x = true → x = 0) := by
  induction cs with
  | nil =>
    intro n asked ids _
    refine ⟨rfl, fun j s e => by simp [startList] at e, fun z e => by simp [startList] at e⟩
  | cons c cs ih =>
    intro n asked ids hc
    have hc1 := hc c (by simp)
    have h1 := startOne_asked (fmts := fmts) (n := n) (asked := asked) (ids := ids) hc1
    have h2 : (startOne fmts n asked ids c).tree.asked < 0xFFFFFFFF → _ := startOne_ok (fmts := fmts) (n := n) (asked := asked) (ids := ids) hc1
    have h3 : (startOne fmts n asked ids c).sid = 0x00010001 + n ∧ (startOne fmts n asked ids c).fmts = fmts := ⟨rfl, rfl⟩
    rw [startList]
    generalize startOne fmts n asked ids c = a at *
    obtain ⟨i1, i2, i3⟩ := ih (n + 1) a.tree.asked a.tree.idsAsked fun x hx => hc x (by simp [hx])
    generalize startList fmts (n + 1) a.tree.asked a.tree.idsAsked cs = l at *
    refine ⟨by simp [i1], fun j s e => ?_, fun z e => ?_⟩
    · cases j with
      | zero => simp only [List.getElem?_cons_zero, Option.some.injEq] at e; subst e; exact ⟨h3.1, h3.2, h1⟩
      | succ j =>
        simp only [List.getElem?_cons_succ] at e
        obtain ⟨a1, a2, a3⟩ := i2 j s e
        exact ⟨by rw [a1]; omega, a2, Nat.le_trans h1 a3⟩
    · cases l with
      | nil =>
        simp only [List.getLast?_singleton, Option.some.injEq] at e
        subst e
        refine ⟨fun j s e => ?_, fun hb => ⟨fun j s e => ?_, fun i j s t hij e1 e2 => ?_⟩⟩
        · cases j with
          | zero => simp only [List.getElem?_cons_zero, Option.some.injEq] at e; subst e; exact Nat.le_refl _
          | succ j => simp at e
        · cases j with
          | zero =>
            simp only [List.getElem?_cons_zero, Option.some.injEq] at e; subst e
            exact ⟨(h2 hb).1, (h2 hb).2.2⟩
          | succ j => simp at e
        · cases j with
          | zero => omega
          | succ j => simp at e2
      | cons b l =>
        rw [List.getLast?_cons_cons] at e
        obtain ⟨k1, k2⟩ := i3 z e
        have hab : a.tree.asked ≤ z.tree.asked := Nat.le_trans (i2 0 b rfl).2.2 (k1 0 b rfl)
        refine ⟨fun j s e => ?_, fun hb => ?_⟩
        · cases j with
          | zero => simp only [List.getElem?_cons_zero, Option.some.injEq] at e; subst e; exact hab
          | succ j => exact k1 j s e
        · obtain ⟨m1, m2⟩ := k2 hb
          have ha := h2 (Nat.lt_of_le_of_lt hab hb)
          refine ⟨fun j s e => ?_, fun i j s t hij e1 e2 => ?_⟩
          · cases j with
            | zero => simp only [List.getElem?_cons_zero, Option.some.injEq] at e; subst e; exact ⟨ha.1, ha.2.2⟩
            | succ j =>
              obtain ⟨n1, n2⟩ := m1 j s e
              exact ⟨n1, fun x hx => (n2 x hx).imp id fun h => by omega⟩
          · cases j with
            | zero => omega
            | succ j =>
              cases i with
              | zero =>
                simp only [List.getElem?_cons_zero, Option.some.injEq] at e1; subst e1
                intro x hx1 hx2
                obtain ⟨it, e⟩ := has_iff.mp hx1
                have := ha.1.issued x it e
                rcases (m1 j t e2).2 x hx2 with h | h
                · exact h
                · omega
              | succ i => exact m2 i j s t (by omega) e1 e2

/-- After the start, the storages are in order. -/
theorem start_ok {fmts : List Nat} {ids : Nat} {cs : List Place} (hc : ∀ c ∈ cs, Sound c) (hn : cs.length < 256) {m : Storages}
    (e : start fmts ids cs = some m) (hb : HandlesLeft m) : StoragesOk m := by
  obtain ⟨i1, i2, i3⟩ := startList_spec fmts cs 0 0 ids hc
  unfold start at e
  generalize startList fmts 0 0 ids cs = l at *
  cases hz : l.getLast? with
  | none => rw [hz] at e; cases e
  | some z =>
    rw [hz] at e
    simp only [Option.some.injEq] at e
    obtain ⟨k1, k2⟩ := i3 z hz
    have hb' : z.tree.asked < 0xFFFFFFFF := by rw [← e] at hb; exact hb
    obtain ⟨m1, m2⟩ := k2 hb'
    have get : ∀ j, j < cs.length → ∃ s, l[j]? = some s ∧ m.at j =
        { s with calls := 0, tree := { s.tree with asked := z.tree.asked, idsAsked := z.tree.idsAsked } } := by
      intro j hj
      rw [← i1] at hj
      refine ⟨l[j], List.getElem?_eq_getElem hj, ?_⟩
      rw [← e]
      unfold Storages.at
      simp only [List.getD_eq_getElem?_getD, List.getElem?_eq_getElem hj, Option.getD_some]
    have cnt : m.count = cs.length := by rw [← e]
    have pos : 0 < cs.length := by
      rw [← i1]
      cases l with
      | nil => cases hz
      | cons a l => simp
    have sid : ∀ j, j < cs.length → (m.at j).sid = 0x00010001 + j := by
      intro j hj
      obtain ⟨s, e1, e2⟩ := get j hj
      rw [e2]
      have := (i2 j s e1).1
      simpa using this
    have wlog : ∀ i j h, i < j → j < cs.length → h ≠ 0 → (m.at i).tree.has h = true → (m.at j).tree.has h = true → False := by
      intro i j h hij hj h0 a b
      obtain ⟨s, e1, e2⟩ := get i (by omega)
      obtain ⟨t, e3, e4⟩ := get j hj
      rw [e2] at a
      rw [e4] at b
      exact h0 (m2 i j s t hij e1 e3 h a b)
    refine ⟨by rw [cnt]; exact pos, fun j hj => ?_, fun j hj => ?_, fun i j hi hj e => ?_, fun i j h hi hj h0 a b => ?_, fun j hj => ?_⟩
    · rw [cnt] at hj
      obtain ⟨s, e1, e2⟩ := get j hj
      rw [e2]
      exact ok_more (m1 j s e1).1 (k1 j s e1)
    · rw [cnt] at hj
      rw [sid j hj]
      unfold ALL
      constructor <;> omega
    · rw [cnt] at hi hj
      rw [sid i hi, sid j hj] at e
      omega
    · rw [cnt] at hi hj
      rcases Nat.lt_trichotomy i j with g | g | g
      · exact (wlog i j h g hj h0 a b).elim
      · exact g
      · exact (wlog j i h g hi h0 b a).elim
    · rw [cnt] at hj
      obtain ⟨s, e1, e2⟩ := get j hj
      rw [e2]
      have h1 := (i2 j s e1).2.1
      rw [← e]
      exact h1

end Storages
end Mtp
