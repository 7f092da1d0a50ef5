import Verif.Lemmas.ServerProps
import Verif.Lemmas.ServerTold
import Verif.Lemmas.ServerEdit
import Verif.Props.PropSetList
/-! Setting object properties (SetObjectPropValue, SetObjectPropList) on the whole device. -/
namespace Mtp
open Spec
namespace Server

/-- The name of an object, not the root, is refused by the storage, or not. -/
theorem rename_answer_iff {s : Server} (w : ServerOk s) {h : Nat} (h0 : h ≠ 0) (hh : s.tree.has h = true) (n : QStr) :
    ∃ it p pit, s.tree.get h = some it ∧ it.parent = some p ∧ s.tree.get p = some pit ∧
      (s.tree.nameValid (toPath n) pit = true → (s.rename h n).2 = .ok) ∧
      (s.tree.nameValid (toPath n) pit = false → s.rename h n = (s, .invalidObjectPropValue)) := by
  obtain ⟨it, e⟩ := has_iff.mp hh
  obtain ⟨p, pit, q1, _, q3, _⟩ := w.wf.parent h it e h0
  have g1 : (grant s.tree (plain n)).get h = some it := e
  have g2 : it.parent.bind (grant s.tree (plain n)).get = some pit := by rw [q1]; exact q3
  have g3 : (grant s.tree (plain n)).nameValid (toPath n) pit = s.tree.nameValid (toPath n) pit := rfl
  refine ⟨it, p, pit, e, q1, q3, fun hv => ?_, fun hv => ?_⟩
  · have key : ((grant s.tree (plain n)).rename h (toPath n)).2 = .ok := by
      unfold Tree.rename
      simp only [g1, g2, g3, hv, Bool.not_true, Bool.false_eq_true, if_false]
      cases ((grant s.tree (plain n)).ask).1 <;> rfl
    unfold rename
    rw [e]
    simp only
    split <;> exact key
  · have key : (grant s.tree (plain n)).rename h (toPath n) = (grant s.tree (plain n), .invalidObjectPropValue) := by
      unfold Tree.rename
      simp only [g1, g2, g3, hv, Bool.not_false, if_true]
    unfold rename
    rw [e]
    simp only [key, ne_eq, not_true_eq_false, decide_false, Bool.and_false, Bool.false_eq_true, if_false]
    rfl

theorem rename_prop {s : Server} (w : ServerOk s) (h : Nat) (n : QStr) (x c : Nat) (hne : (x, c) ≠ (h, 0xDC07)) :
    (s.rename h n).1.prop x c = s.prop x c := by
  rcases rename_cases' w h n with q | ⟨hok, it, p, pit, e1, e2, e3, m, it', e4, e5, e6, e7, e8⟩
  · exact (q.alike x).prop c
  · by_cases hxh : x = h
    · subst hxh
      refine m.prop w ⟨it', e4, e6⟩ c (fun e => absurd (by rw [e]) hne) (fun _ => ?_)
      have hk := w.known x
      rw [has_iff.mpr ⟨_, e1⟩] at hk
      obtain ⟨o, ho⟩ := Option.isSome_iff_exists.mp hk
      obtain ⟨p', pit', q1, q2, _⟩ := w.wf.parent x it e1 m.notRoot
      rw [e2] at q1
      cases q1
      unfold infoOf
      rw [e1, ho]
      exact q2.symm
    · exact (m.alike w hxh).prop c

theorem rename_outcome {s : Server} (w : ServerOk s) (h : Nat) (n : QStr) :
    Unchanged s (s.rename h n).1 ∧ ¬ Renamable s h n ∨
    (s.rename h n).2 = .ok ∧ Placed s (s.rename h n).1 h (s.infoOf h).2.parent n := by
  rcases rename_cases' w h n with hq | ⟨hok, it, p, pit, e1, e2, e3, sh, it', e4, e5, e6, e7, hpl⟩
  · exact Or.inl ⟨⟨hq.sid, hq.ok w, hq.has, hq.contents, hq.infoOf⟩, fun m => (rename_done w m).2 hq⟩
  · refine Or.inr ⟨hok, ?_⟩
    have hp1 := sh.placed w e1 ⟨it', e4, e6⟩
    rw [fromPath_toPath hpl] at hp1
    have : (s.infoOf h).2.parent = p := by
      obtain ⟨o, ho⟩ := info_at w e1
      unfold infoOf
      rw [e1, ho]
      show it.par = p
      obtain ⟨p', pit', q1, q2, _⟩ := w.wf.parent _ it e1 sh.notRoot
      rw [e2] at q1; cases q1
      exact q2
    rw [this]
    exact hp1

end Server
end Mtp
