import Verif.Lemmas.ServerInfo
/-! Announcements that are accepted. -/
namespace Mtp
open Spec
namespace Server

theorem add_node_asked (t : Tree) (path : Path) (f : Nat) (i : Option Tree.Info) :
    (t.add path (.node none f []) i false true 0).1.asked ≤ t.asked + 1 := by
  have h1 : (t.addOne path none f i true 0).1.asked ≤ t.asked + 1 := by
    cases hr : t.refused path none with
    | true => unfold Tree.addOne; rw [hr]; simp
    | false =>
      cases hk : AMap.get t.paths path with
      | some k => unfold Tree.addOne; rw [hr, hk]; simp
      | none =>
        rw [(addOne_asked t path none f i true 0).2 hr hk]
        unfold Tree.pickHandle
        split
        · exact Nat.le_succ _
        · split
          · exact Nat.le_succ _
          · exact Nat.le_refl _
  rw [Tree.add.eq_def]
  dsimp only
  split
  · next e =>
    rw [e] at h1
    show (Tree.emit _ _ _).asked ≤ _
    rw [(Tree.emit_eq _ _ _).2.2.2.1]
    split
    · rw [Tree.addAll]; exact h1
    · exact h1
  · next e => rw [e] at h1; exact h1

/-- Response and handle requests of `addItem` are those of the tree. -/
theorem addItem_tree (s : Server) (o : ObjInfo) (par : Nat) (b : Bool)
    (hb : b = match s.tree.get (if par = ALL then 0 else par) with | some pit => decide (pit.fmt = ASSOC) | none => false) :
    (s.addItem o par).2.1 = ((grant s.tree b).addItem ⟨toPath o.fileName, o.format, par⟩ (.node none o.format [])).2.2 ∧
    (s.addItem o par).1.tree.asked =
      ((grant s.tree b).addItem ⟨toPath o.fileName, o.format, par⟩ (.node none o.format [])).1.asked ∧
    (s.addItem o par).1.ios = s.ios ∧ (s.addItem o par).1.fmts = s.fmts ∧ (s.addItem o par).1.sid = s.sid ∧
    (s.addItem o par).1.alloc = s.alloc := by
  subst hb
  unfold addItem
  simp only
  generalize (grant s.tree _).addItem ⟨toPath o.fileName, o.format, par⟩ (.node none o.format []) = a
  obtain ⟨t, oh, r⟩ := a
  split
  · next ht =>
    simp only [Prod.mk.injEq] at ht
    obtain ⟨rfl, rfl, rfl⟩ := ht
    split
    · exact ⟨rfl, rfl, rfl, rfl, rfl, rfl⟩
    · split <;> exact ⟨rfl, rfl, rfl, rfl, rfl, rfl⟩
  · next ht =>
    simp only [Prod.mk.injEq] at ht
    obtain ⟨rfl, rfl, rfl⟩ := ht
    exact ⟨rfl, rfl, rfl, rfl, rfl, rfl⟩

/-- One handle is used up at most. -/
theorem addItem_left (s : Server) (o : ObjInfo) (par : Nat) {pit : Item}
    (hp : s.tree.get (if par = ALL then 0 else par) = some pit) (hpf : pit.fmt = ASSOC) :
    (s.addItem o par).1.tree.asked ≤ s.tree.asked + 1 := by
  obtain ⟨e1, e2, e3, _⟩ := addItem_tree s o par true (by rw [hp]; simp [hpf])
  have ha : ((grant s.tree true).addItem ⟨toPath o.fileName, o.format, par⟩ (.node none o.format [])).1.asked ≤
      s.tree.asked + 1 := by
    rw [addItem_eq']
    simp only
    rw [show (grant s.tree true).get (if par = ALL then 0 else par) = some pit from hp]
    exact add_node_asked (grant s.tree true) ..
  omega

/-- An object that can be created is. -/
theorem addItem_granted {s : Server} (w : ServerOk s) (o : ObjInfo) (par : Nat) (hn : '/' ∉ toPath o.fileName) {pit : Item}
    (hp : s.tree.get (if par = ALL then 0 else par) = some pit) (hpf : pit.fmt = ASSOC)
    (hfree : AMap.get s.tree.paths (join pit.path (toPath o.fileName)) = none)
    (hx : join pit.path (toPath o.fileName) ∉ s.tree.excl) (hfs : s.tree.fs s.tree.tick = true)
    (hb : s.tree.asked + 1 < 0xFFFFFFFF) :
    ∃ s' h, s.addItem o par = (s', .ok, h) ∧ New s s' (if par = ALL then 0 else par) o h ∧ s'.ios = s.ios := by
  obtain ⟨e1, e2, e3, _⟩ := addItem_tree s o par true (by rw [hp]; simp [hpf])
  have ha : ((grant s.tree true).addItem ⟨toPath o.fileName, o.format, par⟩ (.node none o.format [])).1.asked ≤
      s.tree.asked + 1 := by
    rw [addItem_eq']
    simp only
    rw [show (grant s.tree true).get (if par = ALL then 0 else par) = some pit from hp]
    exact add_node_asked (grant s.tree true) ..
  have hok := (Props.C75_created (grant_wf w.wf true) (show Issued (grant s.tree true) from w.issued)
    ⟨toPath o.fileName, o.format, par⟩ hn (pit := pit) hp hfree (Nat.lt_of_le_of_lt ha hb)).2.2 hx
      (show (s.tree.fs s.tree.tick && true) = true by rw [hfs]; rfl)
  generalize hA : s.addItem o par = A at *
  obtain ⟨s', r, h⟩ := A
  simp only at e1 e2 e3
  have hr : r = .ok := e1.trans hok
  subst hr
  rcases addItem_cases w o par hn hA (by omega) with ⟨_, h2⟩ | ⟨_, h2⟩
  · obtain ⟨_, pit', hp', hk⟩ := h2 rfl
    rw [hp] at hp'
    cases hp'
    rw [hfree] at hk
    cases hk
  · exact ⟨s', h, rfl, h2, e3⟩

end Server
end Mtp
