import Verif.Lemmas.Sim
import Verif.Lemmas.ServerProps
import Verif.Lemmas.ServerSpare
import Verif.Lemmas.ServerAnswers
import Verif.Spec.Storages
/-!
Several storages: requests find the storage they concern, and leave the others alone.
-/
namespace Mtp
open Spec
namespace Server

/-- From one state of a storage to a later one. -/
def Ages (s s' : Server) : Prop := (s'.sid = s.sid ∧ s'.fmts = s.fmts) ∧ Steady (fun _ _ => False) s s'

theorem Ages.refl (s : Server) : Ages s s := ⟨⟨rfl, rfl⟩, Steady.refl _ s⟩

theorem Ages.trans {a b c : Server} (h1 : Ages a b) (h2 : Ages b c) : Ages a c :=
  ⟨⟨h2.1.1.trans h1.1.1, h2.1.2.trans h1.1.2⟩, h1.2.trans h2.2⟩

theorem tick_ages (s : Server) : Ages s s.tickCall :=
  ⟨⟨rfl, rfl⟩, Steady.of (tick_later s) fun _ _ _ hx => Or.inr ⟨hx, fun _ h => h.elim⟩⟩

theorem addItem_conf (s : Server) (o : ObjInfo) (p : Nat) : (s.addItem o p).1.sid = s.sid ∧ (s.addItem o p).1.fmts = s.fmts := by
  unfold addItem
  simp only
  split
  · split
    · exact ⟨rfl, rfl⟩
    · split <;> exact ⟨rfl, rfl⟩
  · exact ⟨rfl, rfl⟩

theorem announce_conf (s : Server) (i p : Nat) (o : ObjInfo) :
    (s.announce i p o).1.sid = s.sid ∧ (s.announce i p o).1.fmts = s.fmts := by
  have h := addItem_conf s { o with parent := p } p
  unfold announce
  simp only
  generalize (if i = 0 then 0x00010001 else i) = j
  by_cases hc : j ≠ s.sid ∨ plain o.fileName = false
  · rw [if_pos hc]; exact ⟨rfl, rfl⟩
  · rw [if_neg hc]
    split
    · next e => rw [e] at h; exact h
    · next e => rw [e] at h; exact h

theorem addInfo_ages (s : Server) (ps : List Nat) (b : List UInt8) : Ages s (s.addInfo ps b).1 := by
  refine ⟨?_, addInfo_steady _ s ps b⟩
  unfold addInfo
  split
  · exact ⟨rfl, rfl⟩
  · exact announce_conf ..

theorem addList_ages (s : Server) (ps : List Nat) (b : List UInt8) : Ages s (s.addList ps b).1 := by
  refine ⟨?_, addList_steady _ s ps b⟩
  unfold addList
  split
  · exact ⟨rfl, rfl⟩
  · exact ⟨rfl, rfl⟩
  · exact ⟨rfl, rfl⟩
  · next name _ _ =>
    have h := announce_conf s (ps.getD 0 0) (ps.getD 1 0) (listInfo ps name)
    split
    · exact ⟨rfl, rfl⟩
    · split
      · next e => rw [e] at h; exact h
      · next e => rw [e] at h; exact h

theorem write_ages (s : Server) (h : Nat) (b : Option (List UInt8)) (f l : Bool) : Ages s (s.write h b f l).1 := by
  refine ⟨?_, ((write_touched s h b f l).steady (write_later s h b f l)).mono fun _ _ h => h.elim⟩
  unfold write
  split
  · exact ⟨rfl, rfl⟩
  · generalize hS : (s.absorb (s.view.writeData (s.ioFor h) h b f l).1 h).tickCall = S
    obtain ⟨i, e, _⟩ := redate_spec S h (l && b.isNone && s.dataFile.isSome)
    rw [e, ← hS]
    exact ⟨rfl, rfl⟩

theorem truncate_ages (s : Server) (h n : Nat) : Ages s (s.truncate h n).1 := by
  refine ⟨?_, ((truncate_touched s h n).steady (Later.of (congrArg Tree.asked (truncate_tree s h n)) fun w => truncate_ok w _ _)).mono
    fun _ _ h => h.elim⟩
  unfold truncate
  split <;> exact ⟨rfl, rfl⟩

theorem writePartial_ages (s : Server) (h o : Nat) (b : List UInt8) (f l : Bool) : Ages s (s.writePartial h o b f l).1 := by
  refine ⟨?_, ((writePartial_touched s h o b f l).steady
    (Later.of (congrArg Tree.asked (writePartial_tree s h o b f l)) fun w => writePartial_ok w _ _ _ _ _)).mono fun _ _ h => h.elim⟩
  unfold writePartial
  split
  · exact ⟨rfl, rfl⟩
  · split
    · next F r' e =>
      generalize hS : (s.absorb F h).tickCall = S
      obtain ⟨i, e, _⟩ := redate_spec S h (F.dataFile.isNone && (if f then (s.ioFor h).openOk else s.dataFile.isSome))
      rw [e, ← hS]
      exact ⟨rfl, rfl⟩
    · exact ⟨rfl, rfl⟩

theorem delete_ages (s : Server) (h fmt : Nat) : Ages s (s.delete h fmt).1 :=
  ⟨by unfold delete; split <;> exact ⟨rfl, rfl⟩, delete_steady _ s h fmt⟩

theorem move_ages (s : Server) (h sid p : Nat) : Ages s (s.move h sid p).1 :=
  ⟨⟨(move_same s h sid p).1, (move_same s h sid p).2.1⟩, (move_steady s h sid p).mono fun _ _ h => h.elim⟩

theorem rename_ages (s : Server) (h : Nat) (n : QStr) : Ages s (s.rename h n).1 :=
  ⟨⟨(rename_same s h n).1, (rename_same s h n).2.1⟩, (rename_steady s h n).mono fun _ _ h => h.elim⟩

theorem steps_ages : Steps Ages where
  refl := Ages.refl
  trans _ _ _ := Ages.trans
  tick := tick_ages
  add s o p hn := ⟨addItem_conf s o p, addItem_steady _ s o p hn⟩
  write := write_ages
  delete s y := delete_ages s y _

theorem query_ages (s : Server) (c : Nat) (ps : List Nat) : Ages s (s.query c ps).1 := by
  unfold query
  simp only
  repeat' split
  all_goals first
    | exact Ages.refl s
    | exact tick_ages s
    | exact delete_ages ..
    | exact move_ages ..

theorem store_ages (s : Server) (c : Nat) (ps : List Nat) (b : List UInt8) : Ages s (s.store c ps b).1 := by
  unfold store
  split
  · split
    · exact Ages.refl s
    · exact rename_ages ..
  · exact Ages.refl s

/-- What a storage does about an object it does not have. -/
def Blank (h : Nat) {A : Type} (op : Server → Server × A) : Prop :=
  ∃ (a : A) (t : Bool), ∀ s : Server, s.tree.has h = false → op s = (if t then s.tickCall else s, a)

theorem blank_write (h : Nat) (b : Option (List UInt8)) (f l : Bool) : Blank h fun s => s.write h b f l :=
  ⟨.invalidObjectHandle, false, fun s e => by simp [write, e]⟩

theorem blank_truncate (h n : Nat) : Blank h fun s => s.truncate h n :=
  ⟨.invalidObjectHandle, false, fun s e => by simp [truncate, e]⟩

theorem blank_writePartial (h o : Nat) (b : List UInt8) (f l : Bool) : Blank h fun s => s.writePartial h o b f l :=
  ⟨.invalidObjectHandle, false, fun s e => by simp [writePartial, e]⟩

theorem blank_delete (h fmt : Nat) (ha : h ≠ ALL) : Blank h fun s => s.delete h fmt :=
  ⟨.generalError, false, fun s e => by simp [delete, e, ha]⟩

theorem blank_copy (ps : List Nat) (c : Bool) : Blank (ps.getD 0 0) fun s => s.copy ps c :=
  ⟨(.invalidObjectHandle, 0), false, fun s e => by
    show s.copy ps c = _
    unfold copy; rw [if_pos e]; rfl⟩

theorem blank_store (c : Nat) (ps : List Nat) (b : List UInt8) : Blank (ps.getD 0 0) fun s => s.store c ps b := by
  by_cases hc : c = 0x9804 ∧ ps.getD 1 0 = 0xDC07
  · cases hd : decodeName b with
    | none => exact ⟨(.generalError, []), false, fun s e => by
        show s.store c ps b = _
        unfold store; rw [if_pos hc, hd]; rfl⟩
    | some n => exact ⟨(.generalError, []), false, fun s e => by
        show s.store c ps b = _
        unfold store; rw [if_pos hc, hd]
        have : s.rename (ps.getD 0 0) n = (s, .generalError) := by unfold rename; rw [has_false.mp e]
        simp only [this]; rfl⟩
  · exact ⟨(.operationNotSupported, []), false, fun s e => by
        show s.store c ps b = _
        unfold store; rw [if_neg hc]; rfl⟩

theorem blank_query (c : Nat) (ps : List Nat) (hc : c = 0x1008 ∨ c = 0x1009 ∨ c = 0x101B ∨ c = 0x95C1 ∨ c = 0x1019) :
    Blank (ps.getD 0 0) fun s => s.query c ps := by
  have hv : ∀ s : Server, s.tree.has (ps.getD 0 0) = false → AMap.get s.view.items (ps.getD 0 0) = none := fun s e => by
    have := view_item s (ps.getD 0 0)
    rw [has_false.mp e] at this
    exact this
  have hd : ∀ (s : Server) a b, s.tree.has (ps.getD 0 0) = false →
      getObjectCommon s.view (s.ios s.calls) (fun _ => true) (ps.getD 0 0) a b = ⟨[], some (.invalidObjectHandle, 0)⟩ := fun s a b e => by
    unfold getObjectCommon
    rw [hv s e]
  rcases hc with hc | hc | hc | hc | hc <;> subst hc
  · exact ⟨oneFrame (getObjectInfo (.invalidObjectHandle, ⟨0, 0, 0, 0, 0, 0, 0, 0, 0, 0, 0, 0, 0, 0, 0, [], [], [], []⟩) 96 0), false,
      fun s e => by
        have : s.infoOf (ps.getD 0 0) = (.invalidObjectHandle, ⟨0, 0, 0, 0, 0, 0, 0, 0, 0, 0, 0, 0, 0, 0, 0, [], [], [], []⟩) := by
          unfold infoOf; rw [has_false.mp e]
        show (s, oneFrame (getObjectInfo (s.infoOf (ps.getD 0 0)) 96 0)) = _
        rw [this]; rfl⟩
  · exact ⟨downloadReply ⟨[], some (.invalidObjectHandle, 0)⟩ false, true, fun s e => by
      show (s.tickCall, downloadReply (getObjectCommon s.view (s.ios s.calls) (fun _ => true) (ps.getD 0 0) _ _) false) = _
      rw [hd s _ _ e]; rfl⟩
  · exact ⟨downloadReply ⟨[], some (.invalidObjectHandle, 0)⟩ true, true, fun s e => by
      show (s.tickCall, downloadReply (getObjectCommon s.view (s.ios s.calls) (fun _ => true) (ps.getD 0 0) _ _) true) = _
      rw [hd s _ _ e]; rfl⟩
  · exact ⟨downloadReply ⟨[], some (.invalidObjectHandle, 0)⟩ false, true, fun s e => by
      show (s.tickCall, downloadReply (getObjectCommon s.view (s.ios s.calls) (fun _ => true) (ps.getD 0 0) _ _) false) = _
      rw [hd s _ _ e]; rfl⟩
  · exact ⟨⟨[], some (.invalidObjectHandle, [])⟩, false, fun s e => by
      have : ∀ a b, s.move (ps.getD 0 0) a b = (s, .invalidObjectHandle) := fun a b => by
        unfold move; rw [has_false.mp e]
      show ((s.move (ps.getD 0 0) (ps.getD 1 0) (ps.getD 2 0)).1, (⟨[], some ((s.move (ps.getD 0 0) (ps.getD 1 0) (ps.getD 2 0)).2, [])⟩ : Reply)) = _
      rw [this]; rfl⟩

end Server

namespace Storages

theorem at_sid (m : Storages) (j : Nat) : (m.at j).sid = (m.part j).sid := rfl
theorem at_fmts (m : Storages) (j : Nat) : (m.at j).fmts = (m.part j).fmts := rfl
theorem at_asked (m : Storages) (j : Nat) : (m.at j).tree.asked = m.asked := rfl

theorem at_has (m : Storages) (j h : Nat) : (m.at j).tree.has h = (m.part j).tree.has h := rfl

theorem put_at (m : Storages) (j : Nat) (s : Server) : (m.put j s).at j = s := by
  simp [«at», put]

theorem put_apart (m : Storages) (j k : Nat) (s : Server) (h : k ≠ j) : (m.put j s).part k = m.part k := by
  simp [put, h]

/-- A storage is known from what is its own and the common numbers. -/
theorem at_eq {m m' : Storages} {j : Nat} (h : apart (m.part j) = apart (m'.part j)) (h1 : m.asked = m'.asked) (h2 : m.ids = m'.ids)
    (h3 : m.calls = m'.calls) : m.at j = m'.at j := by
  have k : ∀ n : Storages, n.at j = { apart (n.part j) with calls := n.calls, tree := { (apart (n.part j)).tree with asked := n.asked, idsAsked := n.ids } } :=
    fun _ => rfl
  rw [k m, k m', h, h1, h2, h3]

theorem apart_has {s s' : Server} (h : apart s = apart s') (x : Nat) : s.tree.has x = s'.tree.has x := by
  have : ∀ t : Server, t.tree.has x = (apart t).tree.has x := fun _ => rfl
  rw [this s, this s', h]

theorem apart_sid {s s' : Server} (h : apart s = apart s') : s.sid = s'.sid := by
  have : ∀ t : Server, t.sid = (apart t).sid := fun _ => rfl
  rw [this s, this s', h]

theorem apart_fmts {s s' : Server} (h : apart s = apart s') : s.fmts = s'.fmts := by
  have : ∀ t : Server, t.fmts = (apart t).fmts := fun _ => rfl
  rw [this s, this s', h]

theorem find_unique {p : Nat → Bool} : ∀ {l : List Nat} {i : Nat}, i ∈ l → p i = true → (∀ j ∈ l, p j = true → j = i) →
    l.find? p = some i
  | [], i, h, _, _ => by simp at h
  | a :: l, i, h, hp, hu => by
    by_cases ha : p a = true
    · rw [List.find?_cons_of_pos ha, hu a (by simp) ha]
    · rw [List.find?_cons_of_neg ha]
      refine find_unique ?_ hp fun j hj => hu j (List.mem_cons_of_mem _ hj)
      rcases List.mem_cons.mp h with e | e
      · rw [← e] at ha; exact absurd hp ha
      · exact e

theorem first_unique {m : Storages} {p : Server → Bool} {i : Nat} (hi : i < m.count) (hp : p (m.at i) = true)
    (hu : ∀ j, j < m.count → p (m.at j) = true → j = i) : m.first p = some i :=
  find_unique (List.mem_range.mpr hi) hp fun j hj => hu j (List.mem_range.mp hj)

theorem first_none {m : Storages} {p : Server → Bool} (hu : ∀ j, j < m.count → p (m.at j) = false) : m.first p = none := by
  unfold first
  rw [List.find?_eq_none]
  intro j hj
  rw [hu j (List.mem_range.mp hj)]
  exact Bool.false_ne_true

theorem first_spec {m : Storages} {p : Server → Bool} {i : Nat} (h : m.first p = some i) : i < m.count ∧ p (m.at i) = true :=
  ⟨List.mem_range.mp (List.mem_of_find?_eq_some h), List.find?_some (p := fun j => p (m.at j)) h⟩

/-- While storage `i` is used: the others are as they were. -/
structure Focus (m0 : Storages) (i : Nat) (m : Storages) : Prop where
  count : m.count = m0.count
  fmts : m.fmts = m0.fmts
  others : ∀ j, j ≠ i → apart (m.part j) = apart (m0.part j)
  ok : ServerOk (m.at i)
  sid : (m.part i).sid = (m0.part i).sid
  pf : (m.part i).fmts = (m0.part i).fmts
  mono : m0.asked ≤ m.asked
  bound : m.asked < 0xFFFFFFFF
  mine : ∀ h, (m.part i).tree.has h = true → (m0.part i).tree.has h = true ∨ m0.asked < h

/-- Objects a request about storage `i` may be about. -/
def Own (m0 : Storages) (i h : Nat) : Prop := h ≠ 0 ∧ h ≠ ALL ∧ ¬ OnOthers m0 i h

variable {m0 m : Storages} {i : Nat}

theorem focus_start (w : StoragesOk m0) (hi : i < m0.count) (hb : m0.asked < 0xFFFFFFFF) : Focus m0 i m0 :=
  ⟨rfl, rfl, fun _ _ => rfl, w.each i hi, rfl, rfl, Nat.le_refl _, hb, fun _ h => Or.inl h⟩

/-- A call on the storage. -/
theorem Focus.on (g : Focus m0 i m) {s : Server} (a : Server.Ages (m.at i) s) (hb : s.tree.asked < 0xFFFFFFFF) :
    Focus m0 i (m.put i s) := by
  obtain ⟨⟨a1, a2⟩, a3, a4⟩ := a
  obtain ⟨b1, b2⟩ := a4 g.ok hb
  refine ⟨g.count, g.fmts, fun j hj => ?_, ?_, ?_, ?_, Nat.le_trans g.mono a3, hb, fun h hh => ?_⟩
  · rw [put_apart _ _ _ _ hj]; exact g.others j hj
  · rw [put_at]; exact b1
  · have : ((m.put i s).part i).sid = s.sid := by simp [put]
    rw [this, a1]; exact g.sid
  · have : ((m.put i s).part i).fmts = s.fmts := by simp [put]
    rw [this, a2]; exact g.pf
  · have e : ((m.put i s).part i) = s := by simp [put]
    rw [e] at hh
    rcases b2 h hh with k | ⟨k, _⟩
    · exact Or.inr (Nat.lt_of_le_of_lt g.mono k)
    · exact g.mine h k

/-- An object of the storage is on no other one. -/
theorem Focus.own (g : Focus m0 i m) (w : StoragesOk m0) (hi : i < m0.count) {h : Nat} (hh : (m.part i).tree.has h = true) :
    ¬ OnOthers m0 i h := by
  rintro ⟨h0, j, hj, hne, hhas⟩
  rcases g.mine h hh with k | k
  · exact hne (w.handles j i h hj hi h0 hhas k)
  · obtain ⟨it, e⟩ := has_iff.mp hhas
    have := (w.each j hj).issued h it e
    simp only [at_asked] at this
    omega

theorem Focus.ofHandle (g : Focus m0 i m) (hi : i < m0.count) {h : Nat} (h0 : h ≠ 0) (ho : ¬ OnOthers m0 i h) :
    m.ofHandle h = if (m.at i).tree.has h then some i else none := by
  have no : ∀ j, j < m.count → j ≠ i → (m.at j).tree.has h = false := fun j hj hne => by
    cases e : (m.at j).tree.has h with
    | false => rfl
    | true =>
      rw [at_has, apart_has (g.others j hne)] at e
      exact absurd ⟨h0, j, g.count ▸ hj, hne, e⟩ ho
  cases e : (m.at i).tree.has h with
  | true =>
    refine first_unique (g.count ▸ hi) e fun j hj hp => ?_
    by_cases hne : j = i
    · exact hne
    · rw [no j hj hne] at hp; cases hp
  | false =>
    refine first_none fun j hj => ?_
    by_cases hne : j = i
    · subst hne; exact e
    · exact no j hj hne

theorem Focus.has (g : Focus m0 i m) (hi : i < m0.count) {h : Nat} (h0 : h ≠ 0) (ho : ¬ OnOthers m0 i h) :
    m.has h = (m.at i).tree.has h := by
  unfold Storages.has
  rw [g.ofHandle hi h0 ho]
  cases (m.at i).tree.has h <;> rfl

theorem Focus.ofSid (g : Focus m0 i m) (w : StoragesOk m0) (hi : i < m0.count) : m.ofSid (m0.at i).sid = some i := by
  refine first_unique (g.count ▸ hi) (decide_eq_true g.sid) fun j hj hp => ?_
  by_cases hne : j = i
  · exact hne
  · have e := of_decide_eq_true hp
    refine w.ids j i (g.count ▸ hj) hi ?_
    rw [at_sid, apart_sid (g.others j hne)] at e
    exact e

/-- Requests about an object. -/
theorem Focus.byHandle (g : Focus m0 i m) (w : StoragesOk m0) (hi : i < m0.count) {A : Type} {op : Server → Server × A} {h : Nat} (h0 : h ≠ 0)
    (ho : ¬ OnOthers m0 i h) (bl : Server.Blank h op) (ha : ∀ s, Server.Ages s (op s).1) :
    op (m.at i) = ((m.byHandle h op).1.at i, (m.byHandle h op).2) ∧
      ((m.byHandle h op).1.asked < 0xFFFFFFFF → Focus m0 i (m.byHandle h op).1) := by
  unfold Storages.byHandle
  rw [g.ofHandle hi h0 ho]
  cases e : (m.at i).tree.has h with
  | true =>
    show op (m.at i) = ((m.put i (op (m.at i)).1).at i, (op (m.at i)).2) ∧ _
    rw [put_at]
    exact ⟨rfl, fun hb => g.on (ha _) hb⟩
  | false =>
    obtain ⟨a, t, hop⟩ := bl
    have hz : (m.at 0).tree.has h = false := by
      by_cases hne : 0 = i
      · rw [hne]; exact e
      · cases e' : (m.at 0).tree.has h with
        | false => rfl
        | true =>
          rw [at_has, apart_has (g.others 0 hne)] at e'
          exact absurd ⟨h0, 0, w.some, hne, e'⟩ ho
    show op (m.at i) = ((m.put 0 (op (m.at 0)).1).at i, (op (m.at 0)).2) ∧ ((m.put 0 (op (m.at 0)).1).asked < 0xFFFFFFFF → Focus m0 i (m.put 0 (op (m.at 0)).1))
    rw [hop _ e, hop _ hz]
    have key : ∀ t : Bool, ((m.put 0 (if t then (m.at 0).tickCall else m.at 0)).at i) = (if t then (m.at i).tickCall else m.at i) := by
      intro t
      by_cases hne : i = 0
      · subst hne; rw [put_at]
      · unfold Storages.at
        rw [put_apart _ _ _ _ hne]
        cases t <;> rfl
    refine ⟨by rw [key], fun _ => ?_⟩
    have has' : Server.Ages (m.at i) (if t then (m.at i).tickCall else m.at i) := by
      cases t
      · exact Server.Ages.refl _
      · exact Server.tick_ages _
    by_cases hne : i = 0
    · subst hne
      exact g.on has' (by cases t <;> exact g.bound)
    · have ps : ∀ j, j ≠ 0 → (m.put 0 (if t then (m.at 0).tickCall else m.at 0)).part j = m.part j := fun j hj => put_apart _ _ _ _ hj
      refine ⟨g.count, g.fmts, fun j hj => ?_, ?_, ?_, ?_, ?_, ?_, fun h hh => ?_⟩
      · by_cases hz : j = 0
        · subst hz
          rw [← g.others 0 hj]
          cases t <;> simp [put, apart, «at», Server.tickCall]
        · rw [ps j hz]; exact g.others j hj
      · rw [key]
        exact (has'.2.2 g.ok (by cases t <;> exact g.bound)).1
      · rw [ps i hne]; exact g.sid
      · rw [ps i hne]; exact g.pf
      · cases t <;> exact g.mono
      · cases t <;> exact g.bound
      · rw [ps i hne] at hh; exact g.mine h hh

end Storages
end Mtp
