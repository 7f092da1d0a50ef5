import Verif.Lemmas.ServerMove
import Verif.Lemmas.ServerCopy
import Verif.Lemmas.Closed
/-! Every history keeps objects and disk in agreement. -/
namespace Mtp
open Spec
namespace Server

theorem plain_slash {n : QStr} (h : plain n = true) : '/' ∉ toPath n := by
  unfold plain at h
  simp only [Bool.and_eq_true, List.all_eq_true] at h
  intro hm
  unfold toPath at hm
  rw [List.mem_map] at hm
  obtain ⟨u, hu, e⟩ := hm
  have := h.2 u hu
  simp only [Bool.and_eq_true, decide_eq_true_eq] at this
  have h2 : u.toNat ≠ 0x2F := this.1.2
  have := congrArg Char.toNat e
  rw [Char.ofNat] at this
  split at this
  · exact h2 this
  · exact absurd this (by decide)

theorem addItem_asked (s : Server) (o : ObjInfo) (par : Nat) : s.tree.asked ≤ (s.addItem o par).1.tree.asked := by
  have key : ∀ b i d, s.tree.asked ≤ ((grant s.tree b).addItem i d).1.asked := by
    intro b i d
    rw [addItem_eq']
    split
    · exact Nat.le_refl _
    · exact add_asked (grant s.tree b) ..
  have fin : ∀ b, s.tree.asked ≤ (match (grant s.tree b).addItem ⟨toPath o.fileName, o.format, par⟩ (.node none o.format []) with
      | (t, some h, .ok) =>
        if s.tree.has h then (({ s with tree := { t with fs := s.tree.fs } }.tickCall, .ok, h) : Server × Resp × Nat)
        else
          match Tree.get { t with fs := s.tree.fs } h with
          | none => ({ s with tree := { t with fs := s.tree.fs } }.tickCall, .ok, h)
          | some it =>
            ({ s with
               tree := { t with fs := s.tree.fs }
               infos := AMap.insert s.infos h (s.kept o)
               files := if it.fmt = ASSOC then s.files
                 else AMap.insert s.files (String.ofList it.path) (s.newFile o.size) }.tickCall, .ok, h)
      | (t, _, r) => ({ s with tree := { t with fs := s.tree.fs } }.tickCall, r, 0)).1.tree.asked := by
    intro b
    have := key b ⟨toPath o.fileName, o.format, par⟩ (.node none o.format [])
    generalize (grant s.tree b).addItem ⟨toPath o.fileName, o.format, par⟩ (.node none o.format []) = a at this ⊢
    obtain ⟨t, oh, r⟩ := a
    simp only at this
    split
    · next ht =>
      simp only [Prod.mk.injEq] at ht
      obtain ⟨ht, _⟩ := ht; subst ht
      split
      · exact this
      · split <;> exact this
    · next ht =>
      simp only [Prod.mk.injEq] at ht
      obtain ⟨ht, _⟩ := ht; subst ht
      exact this
  exact fin _

theorem addItem_ok {s : Server} (w : ServerOk s) (o : ObjInfo) (par : Nat) (hn : '/' ∉ toPath o.fileName)
    (hb : (s.addItem o par).1.tree.asked < 0xFFFFFFFF) : ServerOk (s.addItem o par).1 := by
  rcases addItem_cases w o par hn (s' := (s.addItem o par).1) (r := (s.addItem o par).2.1) (h := (s.addItem o par).2.2) rfl hb with
    ⟨q, _⟩ | ⟨_, n⟩
  · exact q.ok w
  · exact n.ok w

/-- From one state to a later one. -/
def Later (s s' : Server) : Prop :=
  s.tree.asked ≤ s'.tree.asked ∧ (ServerOk s → s'.tree.asked < 0xFFFFFFFF → ServerOk s')

theorem Later.refl (s : Server) : Later s s := ⟨Nat.le_refl _, fun w _ => w⟩

theorem Later.of {s s' : Server} (h : s'.tree.asked = s.tree.asked) (w : ServerOk s → ServerOk s') : Later s s' :=
  ⟨Nat.le_of_eq h.symm, fun x _ => w x⟩

theorem announce_later (s : Server) (i par : Nat) (o : ObjInfo) : Later s (s.announce i par o).1 := by
  unfold announce
  simp only
  generalize (if i = 0 then 0x00010001 else i) = sid
  split
  · exact Later.refl s
  · next hc =>
    have hpl : plain o.fileName = true := by
      cases hp : plain o.fileName with
      | true => rfl
      | false => exact absurd (Or.inr hp) hc
    have ha := addItem_asked s { o with parent := par } par
    have hk := fun w hb => addItem_ok (s := s) w { o with parent := par } par (plain_slash hpl) hb
    split
    · next e => rw [e] at ha hk; exact ⟨ha, hk⟩
    · next e => rw [e] at ha hk; exact ⟨ha, hk⟩

theorem addInfo_later (s : Server) (ps : List Nat) (b : List UInt8) : Later s (s.addInfo ps b).1 := by
  unfold addInfo
  split
  · exact Later.refl s
  · exact announce_later ..

/-- Nothing, or an announcement. -/
theorem addList_split (s : Server) (ps : List Nat) (b : List UInt8) :
    (∃ c qs, c ≠ .ok ∧ s.addList ps b = (s, c, qs, 0)) ∨
    ∃ name i, name ≠ [] ∧ (∃ ks, decodeList s.caps (u16 (ps.getD 2 0)) b = some (.inr (ks, some (name, i)))) ∧
      (s.addList ps b).1 = (s.announce (ps.getD 0 0) (ps.getD 1 0) (listInfo ps name)).1 ∧
      (s.addList ps b).2.1 = (s.announce (ps.getD 0 0) (ps.getD 1 0) (listInfo ps name)).2.1 ∧
      (if (s.announce (ps.getD 0 0) (ps.getD 1 0) (listInfo ps name)).2.1 = .ok then
        (s.addList ps b).2.2 = (s.announce (ps.getD 0 0) (ps.getD 1 0) (listInfo ps name)).2.2
      else (s.addList ps b).2.2 = ([0, 0, 0, i], 0)) := by
  unfold addList
  cases e : decodeList s.caps (u16 (ps.getD 2 0)) b with
  | none => exact Or.inl ⟨_, _, by decide, rfl⟩
  | some w =>
    cases w with
    | inl i => exact Or.inl ⟨_, _, by decide, rfl⟩
    | inr k =>
      obtain ⟨ks, n⟩ := k
      cases n with
      | none => exact Or.inl ⟨_, _, by decide, rfl⟩
      | some n =>
        obtain ⟨name, i⟩ := n
        simp only
        by_cases hn : name = []
        · rw [if_pos hn]; exact Or.inl ⟨_, _, by decide, rfl⟩
        · rw [if_neg hn]
          refine Or.inr ⟨name, i, hn, ⟨ks, rfl⟩, ?_⟩
          generalize s.announce (ps.getD 0 0) (ps.getD 1 0) (listInfo ps name) = A
          obtain ⟨s', c, qs, h⟩ := A
          by_cases hc : c = .ok
          · subst hc; exact ⟨rfl, rfl, rfl⟩
          · rw [if_neg hc]
            split
            · next h1 => cases h1; exact absurd rfl hc
            · next h1 => cases h1; exact ⟨rfl, rfl, rfl⟩

theorem addList_later (s : Server) (ps : List Nat) (b : List UInt8) : Later s (s.addList ps b).1 := by
  rcases addList_split s ps b with ⟨c, qs, _, e⟩ | ⟨name, i, _, _, e, _⟩
  · rw [e]; exact Later.refl s
  · rw [e]; exact announce_later ..

theorem write_tree (s : Server) (h : Nat) (b : Option (List UInt8)) (f l : Bool) : (s.write h b f l).1.tree = s.tree := by
  unfold write; split
  · rfl
  · exact redate_tree ..

theorem truncate_tree (s : Server) (h n : Nat) : (s.truncate h n).1.tree = s.tree := by
  unfold truncate; split <;> rfl

theorem writePartial_tree (s : Server) (h off : Nat) (d : List UInt8) (f l : Bool) :
    (s.writePartial h off d f l).1.tree = s.tree := by
  unfold writePartial
  split
  · rfl
  · split
    · exact redate_tree ..
    · rfl

theorem grant_asked (t : Tree) (b : Bool) : (grant t b).asked = t.asked := rfl

theorem move_asked (s : Server) (h sid p : Nat) : s.tree.asked ≤ (s.move h sid p).1.tree.asked := by
  unfold move
  split
  · exact Nat.le_refl _
  · split
    · exact Nat.le_refl _
    · split
      · exact Nat.le_refl _
      · next it _ _ _ pit _ =>
        simp only
        generalize (decide (pit.fmt = ASSOC) && (AMap.get s.tree.paths (join pit.path it.name)).isNone &&
          !(it.path ++ ['/']).isPrefixOf (join pit.path it.name)) = b
        have : s.tree.asked ≤ ((grant s.tree b).move h p true).1.asked := step_asked (grant s.tree b) (.move h p)
        split
        · next e => rw [e] at this; exact this
        · next e => rw [e] at this; exact this

theorem rename_asked (s : Server) (h : Nat) (n : QStr) : s.tree.asked ≤ (s.rename h n).1.tree.asked := by
  unfold rename
  split
  · exact Nat.le_refl _
  · simp only
    have : s.tree.asked ≤ ((grant s.tree (plain n)).rename h (toPath n)).1.asked :=
      step_asked (grant s.tree (plain n)) (.rename h (toPath n))
    split <;> exact this

theorem move_later (s : Server) (h sid p : Nat) : Later s (s.move h sid p).1 := by
  refine ⟨move_asked s h sid p, fun w _ => ?_⟩
  rcases move_cases' w h sid p with ⟨q, _⟩ | ⟨_, _, it, pit, _, _, m, _⟩
  · exact q.ok w
  · exact m.ok w

theorem rename_later (s : Server) (h : Nat) (n : QStr) : Later s (s.rename h n).1 := by
  refine ⟨rename_asked s h n, fun w _ => ?_⟩
  rcases rename_cases' w h n with q | ⟨_, it, p, pit, _, _, _, m, _⟩
  · exact q.ok w
  · exact m.ok w

theorem tick_later (s : Server) : Later s s.tickCall :=
  Later.of rfl fun w => Quiet.ok (s := s) ⟨rfl, rfl, rfl, rfl, Nat.le_refl _, rfl, rfl, rfl, rfl⟩ w

theorem Later.trans {a b c : Server} (h1 : Later a b) (h2 : Later b c) : Later a c :=
  ⟨Nat.le_trans h1.1 h2.1, fun w hb => h2.2 (h1.2 w (Nat.lt_of_le_of_lt h2.1 hb)) hb⟩

theorem addItem_later (s : Server) (o : ObjInfo) (p : Nat) (hn : plain o.fileName = true) : Later s (s.addItem o p).1 :=
  ⟨addItem_asked s o p, fun w hb => addItem_ok w o p (plain_slash hn) hb⟩

theorem write_later (s : Server) (h : Nat) (b : Option (List UInt8)) (f l : Bool) : Later s (s.write h b f l).1 :=
  Later.of (congrArg Tree.asked (write_tree s h b f l)) fun w => write_ok w _ _ _ _

theorem delete_later (s : Server) (h fmt : Nat) : Later s (s.delete h fmt).1 := Later.of (delete_asked ..) fun w => delete_ok w _ _

theorem steps_later : Steps Later where
  refl := Later.refl
  trans _ _ _ := Later.trans
  tick := tick_later
  add := addItem_later
  write := write_later
  delete s y := delete_later s y _

theorem closed_later (ok : Nat → Prop) : Rsp.Closed dev ok Later where
  refl := Later.refl
  trans a b c h1 h2 := ⟨Nat.le_trans h1.1 h2.1, fun w hb => h2.2 (h1.2 w (Nat.lt_of_le_of_lt h2.1 hb)) hb⟩
  query s c ps _ := by
    show Later s (query s c ps).1
    unfold query
    simp only
    repeat' split
    all_goals first
      | exact Later.refl s
      | exact tick_later s
      | exact Later.of (delete_asked ..) fun w => delete_ok w _ _
      | exact move_later ..
  copy _ s ps c := steps_later.whole s ps c
  store s c ps b _ := by
    show Later s (store s c ps b).1
    unfold store
    split
    · split
      · exact Later.refl s
      · exact rename_later ..
    · exact Later.refl s
  addInfo _ s ps b := addInfo_later s ps b
  addList _ s ps b := addList_later s ps b
  write _ s h b f l := Later.of (congrArg Tree.asked (write_tree s h b f l)) fun w => write_ok w _ _ _ _
  cut _ s h n := Later.of (congrArg Tree.asked (truncate_tree s h n)) fun w => truncate_ok w _ _
  setProps _ _ s _ _ := Later.refl s
  writePartial _ s h o b f l := Later.of (congrArg Tree.asked (writePartial_tree s h o b f l)) fun w => writePartial_ok w _ _ _ _ _
  delete _ s h := Later.of (delete_asked ..) fun w => delete_ok w _ _
  flush _ s _ := Later.refl s
  setEvents _ s _ _ := Later.refl s
  eventsOff _ s := Later.refl s

/-- From one state to a later one, when nothing is written, created or deleted. -/
def Undisturbed (s s' : Server) : Prop :=
  s'.sid = s.sid ∧ s'.fmts = s.fmts ∧ s'.ios = s.ios ∧ s'.alloc = s.alloc ∧ (ServerOk s → ServerOk s' ∧
    ∀ x, s'.tree.has x = s.tree.has x ∧ contents s' x = contents s x ∧ s'.sizeOf x = s.sizeOf x)

theorem Undisturbed.refl (s : Server) : Undisturbed s s := ⟨rfl, rfl, rfl, rfl, fun w => ⟨w, fun _ => ⟨rfl, rfl, rfl⟩⟩⟩

theorem Quiet.sizes {s s' : Server} (q : Quiet s s') (x : Nat) : s'.sizeOf x = s.sizeOf x := by
  unfold sizeOf; rw [q.infos]

theorem Shifted.has {s s' : Server} {h p : Nat} {P Q : Path} (m : Shifted s s' h p P Q) (x : Nat) :
    s'.tree.has x = s.tree.has x := by
  cases e : s.tree.has x with
  | true =>
    obtain ⟨ix, hx⟩ := has_iff.mp e
    obtain ⟨iy, hy, _⟩ := m.new hx
    exact has_iff.mpr ⟨iy, hy⟩
  | false =>
    cases e' : s'.tree.has x with
    | false => rfl
    | true =>
      obtain ⟨iy, hy⟩ := has_iff.mp e'
      obtain ⟨ix, hx⟩ := m.old hy
      rw [has_iff.mpr ⟨ix, hx⟩] at e; cases e

theorem Quiet.undisturbed {s s' : Server} (h1 : s'.sid = s.sid) (h2 : s'.fmts = s.fmts) (h3 : s'.ios = s.ios)
    (h4 : s'.alloc = s.alloc) (q : ServerOk s → Quiet s s') : Undisturbed s s' :=
  ⟨h1, h2, h3, h4, fun w => ⟨(q w).ok w, fun x => ⟨(q w).has x, (q w).contents x, (q w).sizes x⟩⟩⟩

theorem Shifted.undisturbed {s s' : Server} {h p : Nat} {P Q : Path} (m : Shifted s s' h p P Q) (w : ServerOk s) :
    ServerOk s' ∧ ∀ x, s'.tree.has x = s.tree.has x ∧ Spec.contents s' x = Spec.contents s x ∧ s'.sizeOf x = s.sizeOf x :=
  ⟨m.ok w, fun x => ⟨m.has x, m.contents w x⟩⟩

theorem move_same (s : Server) (h sid p : Nat) : (s.move h sid p).1.sid = s.sid ∧ (s.move h sid p).1.fmts = s.fmts ∧
    (s.move h sid p).1.ios = s.ios ∧ (s.move h sid p).1.alloc = s.alloc := by
  unfold move
  split
  · exact ⟨rfl, rfl, rfl, rfl⟩
  · split
    · exact ⟨rfl, rfl, rfl, rfl⟩
    · split
      · exact ⟨rfl, rfl, rfl, rfl⟩
      · simp only
        split <;> exact ⟨rfl, rfl, rfl, rfl⟩

theorem rename_same (s : Server) (h : Nat) (n : QStr) : (s.rename h n).1.sid = s.sid ∧ (s.rename h n).1.fmts = s.fmts ∧
    (s.rename h n).1.ios = s.ios ∧ (s.rename h n).1.alloc = s.alloc := by
  unfold rename
  split
  · exact ⟨rfl, rfl, rfl, rfl⟩
  · simp only
    split <;> exact ⟨rfl, rfl, rfl, rfl⟩

theorem move_undisturbed (s : Server) (h sid p : Nat) : Undisturbed s (s.move h sid p).1 := by
  obtain ⟨a, b, c, d⟩ := move_same s h sid p
  refine ⟨a, b, c, d, fun w => ?_⟩
  rcases move_cases' w h sid p with ⟨q, _⟩ | ⟨_, _, it, pit, _, _, m, _⟩
  · exact (Quiet.undisturbed a b c d fun _ => q).2.2.2.2 w
  · exact m.undisturbed w

theorem rename_undisturbed (s : Server) (h : Nat) (n : QStr) : Undisturbed s (s.rename h n).1 := by
  obtain ⟨a, b, c, d⟩ := rename_same s h n
  refine ⟨a, b, c, d, fun w => ?_⟩
  rcases rename_cases' w h n with q | ⟨_, it, p, pit, _, _, _, m, _⟩
  · exact (Quiet.undisturbed a b c d fun _ => q).2.2.2.2 w
  · exact m.undisturbed w

theorem tick_undisturbed (s : Server) : Undisturbed s s.tickCall :=
  Quiet.undisturbed rfl rfl rfl rfl fun _ => ⟨rfl, rfl, rfl, rfl, Nat.le_refl _, rfl, rfl, rfl, rfl⟩

theorem closed_undisturbed : Rsp.Closed dev (· ∉ changing) Undisturbed where
  refl := Undisturbed.refl
  trans a b c h1 h2 := ⟨h2.1.trans h1.1, h2.2.1.trans h1.2.1, h2.2.2.1.trans h1.2.2.1, h2.2.2.2.1.trans h1.2.2.2.1,
    fun w => ⟨(h2.2.2.2.2 (h1.2.2.2.2 w).1).1, fun x =>
      ⟨((h2.2.2.2.2 (h1.2.2.2.2 w).1).2 x).1.trans ((h1.2.2.2.2 w).2 x).1,
       ((h2.2.2.2.2 (h1.2.2.2.2 w).1).2 x).2.1.trans ((h1.2.2.2.2 w).2 x).2.1,
       ((h2.2.2.2.2 (h1.2.2.2.2 w).1).2 x).2.2.trans ((h1.2.2.2.2 w).2 x).2.2⟩⟩⟩
  query s c ps hc := by
    show Undisturbed s (query s c ps).1
    unfold query
    simp only
    repeat' split
    all_goals first
      | exact Undisturbed.refl s
      | exact tick_undisturbed s
      | exact move_undisturbed ..
      | (exfalso; subst_vars; exact hc (by decide))
  copy h := absurd (by decide) h
  store s c ps b _ := by
    show Undisturbed s (store s c ps b).1
    unfold store
    split
    · split
      · exact Undisturbed.refl s
      · exact rename_undisturbed ..
    · exact Undisturbed.refl s
  addInfo h := absurd (by decide) h
  addList h := absurd (by decide) h
  write h := absurd (by decide) h
  cut h := h.elim (absurd (by decide)) (absurd (by decide))
  setProps h := absurd (by decide) h
  writePartial h := absurd (by decide) h
  delete h := h.elim (absurd (by decide)) fun h => h.elim (absurd (by decide)) (absurd (by decide))
  flush _ s _ := Undisturbed.refl s
  setEvents _ s _ _ := Undisturbed.refl s
  eventsOff _ s := Undisturbed.refl s

end Server
end Mtp
