import Verif.Lemmas.Storages
/-!
A storage among others behaves as it would alone.
-/
namespace Mtp
open Spec
namespace Server

/-- An announced object is there, and is not the root. -/
theorem announce_there {s : Server} (w : ServerOk s) (sid par : Nat) (o : ObjInfo) (hb : (s.announce sid par o).1.tree.asked < 0xFFFFFFFF)
    (h : (s.announce sid par o).2.1 = .ok) :
    (s.announce sid par o).1.tree.has (s.announce sid par o).2.2.2 = true ∧ (s.announce sid par o).2.2.2 ≠ 0 := by
  rcases announce_split s sid par o with e | ⟨o', s', r, x, i, hs, ha, ⟨_, p, e⟩ | ⟨hr, e⟩⟩
  · rw [e] at h; cases h
  · rw [e] at hb ⊢
    simp only at hb ⊢
    rcases addItem_cases w o' par hs ha hb with ⟨q, k⟩ | ⟨_, n⟩
    · obtain ⟨k1, pit, k2, k3⟩ := k (by assumption)
      refine ⟨by rw [q.has']; exact k1, fun e0 => ?_⟩
      rw [e0] at k3
      obtain ⟨it, g1, g2⟩ := w.wf.ofPath _ _ k3
      obtain ⟨r0, g3, g4, _⟩ := w.wf.root
      rw [g1] at g3
      cases g3
      have := (w.wf.under_root k2).length
      rw [← g4, g2, join_length] at this
      omega
    · obtain ⟨pit, _, _, _, ⟨v, hget⟩, _⟩ := n.parent
      exact ⟨has_iff.mpr ⟨_, by rw [hget, if_pos rfl]⟩, fun e0 => by have := n.later; omega⟩
  · rw [e] at h; exact absurd h hr

theorem addInfo_there {s : Server} (w : ServerOk s) (ps : List Nat) (b : List UInt8) (hb : (s.addInfo ps b).1.tree.asked < 0xFFFFFFFF)
    (h : (s.addInfo ps b).2.1 = .ok) :
    (s.addInfo ps b).1.tree.has (s.addInfo ps b).2.2.2 = true ∧ (s.addInfo ps b).2.2.2 ≠ 0 := by
  unfold addInfo at h hb ⊢
  split
  · next e => rw [e] at h; cases h
  · next e => rw [e] at h hb; exact announce_there w _ _ _ hb h

theorem addList_there {s : Server} (w : ServerOk s) (ps : List Nat) (b : List UInt8) (hb : (s.addList ps b).1.tree.asked < 0xFFFFFFFF) :
    ((s.addList ps b).1.tree.has (s.addList ps b).2.2.2 = true ∧ (s.addList ps b).2.2.2 ≠ 0) ∨ (s.addList ps b).2.2.2 = 0 := by
  rcases addList_split s ps b with ⟨c, qs, _, e⟩ | ⟨name, i, _, _, e1, _, e⟩
  · rw [e]; exact Or.inr rfl
  · split at e
    · next hc =>
      left
      rw [e1] at hb
      rw [e, e1]
      exact announce_there w _ _ _ hb hc
    · right; rw [e]

end Server

namespace Storages
variable {m0 m : Storages} {i : Nat}

/-- Announcements. -/
theorem Focus.bySid (g : Focus m0 i m) (w : StoragesOk m0) (hi : i < m0.count) {A : Type} {op : Server → Server × A} {p : Nat}
    (hp : p = (m0.at i).sid ∨ (p = 0 ∧ (m0.at i).sid = 0x00010001)) (ha : ∀ s, Server.Ages s (op s).1) :
    op (m.at i) = ((m.bySid p op).1.at i, (m.bySid p op).2) ∧ (m.bySid p op).1 = m.put i (op (m.at i)).1 ∧
      ((m.bySid p op).1.asked < 0xFFFFFFFF → Focus m0 i (m.bySid p op).1) := by
  have e : (if p = 0 then 0x00010001 else p) = (m0.at i).sid := by
    rcases hp with hp | ⟨hp, hs⟩
    · have := (w.real i hi).1
      rw [if_neg (by rw [hp]; exact this), hp]
    · rw [if_pos hp, hs]
  unfold Storages.bySid
  rw [e, g.ofSid w hi]
  show op (m.at i) = ((m.put i (op (m.at i)).1).at i, (op (m.at i)).2) ∧ _
  rw [put_at]
  exact ⟨rfl, rfl, fun hb => g.on (ha _) hb⟩

/-- Objects of the storage. -/
theorem Focus.ownOf (g : Focus m0 i m) (w : StoragesOk m0) (hi : i < m0.count) {h : Nat} (h0 : h ≠ 0)
    (hh : (m.at i).tree.has h = true) : Own m0 i h := by
  refine ⟨h0, fun e => ?_, g.own w hi hh⟩
  obtain ⟨it, e'⟩ := has_iff.mp hh
  have h1 := g.ok.issued h it e'
  have h2 := g.bound
  rw [at_asked] at h1
  have : ALL = 0xFFFFFFFF := rfl
  omega

theorem get_trees (m : Storages) (p : Nat) : AMap.get m.trees p = (m.ofSid p).map fun j => (m.at j).tree := by
  unfold trees ofSid first
  generalize List.range m.count = l
  induction l with
  | nil => rfl
  | cons a l ih =>
    rw [List.map_cons]
    by_cases h : (m.at a).sid = p
    · rw [List.find?_cons_of_pos (by simpa using h)]
      simp [AMap.get, h]
    · rw [List.find?_cons_of_neg (by simpa using h), ← ih]
      simp [AMap.get, Ne.symm h]

theorem Focus.trees (g : Focus m0 i m) (w : StoragesOk m0) (hi : i < m0.count) :
    AMap.get m.trees (m0.at i).sid = some (m.at i).tree := by
  rw [get_trees, g.ofSid w hi]; rfl

theorem all_trees (m : Storages) (h : Nat) : m.trees.all (fun s => ! s.2.has h) = ! m.has h := by
  unfold trees Storages.has ofHandle first
  generalize List.range m.count = l
  induction l with
  | nil => rfl
  | cons a l ih =>
    rw [List.map_cons, List.all_cons]
    cases e : (m.at a).tree.has h with
    | true => rw [List.find?_cons_of_pos (by simpa using e)]; simp [e]
    | false => rw [List.find?_cons_of_neg (by simpa using e), ← ih]; simp [e]

/-- Lists of objects. -/
theorem Focus.check (g : Focus m0 i m) (w : StoragesOk m0) (hi : i < m0.count) (f a : Nat) (ha : ¬ OnOthers m0 i a) :
    handlesCheck m.trees m.fmts (m0.at i).sid f a = handlesCheck [((m.at i).sid, (m.at i).tree)] (m.at i).fmts (m.at i).sid f a := by
  have e1 := g.trees w hi
  have e2 : AMap.get [((m.at i).sid, (m.at i).tree)] (m0.at i).sid = some (m.at i).tree := by
    have : (m.at i).sid = (m0.at i).sid := g.sid
    simp [AMap.get, this]
  have e3 : (m.at i).fmts = m.fmts := by rw [at_fmts, g.pf, g.fmts]; exact w.fmts i hi
  have e4 : (m.at i).sid = (m0.at i).sid := g.sid
  unfold handlesCheck
  rw [e1, e3, e4]
  rw [e4] at e2
  rw [e2]
  by_cases h : a ≠ 0 ∧ a ≠ ALL
  · have : m.trees.all (fun s => ! s.2.has a) = [((m0.at i).sid, (m.at i).tree)].all fun s => ! s.2.has a := by
      rw [all_trees, g.has hi h.1 ha]; simp
    rw [this]
  · by_cases h0 : a = 0
    · simp [h0]
    · have : a = ALL := by
        by_cases h1 : a = ALL
        · exact h1
        · exact absurd ⟨h0, h1⟩ h
      simp [this]

theorem Focus.factory (g : Focus m0 i m) (w : StoragesOk m0) (hi : i < m0.count) (f a : Nat) :
    factoryHandles m.trees (m0.at i).sid f a = factoryHandles [((m.at i).sid, (m.at i).tree)] (m.at i).sid f a := by
  have e4 : (m.at i).sid = (m0.at i).sid := g.sid
  unfold factoryHandles
  rw [e4, g.trees w hi]
  have := (w.real i hi).2
  rw [if_neg this, if_neg this]
  simp [AMap.get]

theorem Focus.across (g : Focus m0 i m) (w : StoragesOk m0) (hi : i < m0.count) {h p : Nat} (h0 : h ≠ 0) (ho : ¬ OnOthers m0 i h)
    (hp : p = (m0.at i).sid) : m.across h p = false := by
  unfold Storages.across
  rw [hp, g.ofSid w hi, g.ofHandle hi h0 ho]
  cases (m.at i).tree.has h <;> simp

/-- Calls that give out no handles. -/
theorem Focus.quietly (g : Focus m0 i m) (w : StoragesOk m0) (hi : i < m0.count) {A : Type} {op : Server → Server × A} {h : Nat}
    (hh : Own m0 i h) (bl : Server.Blank h op) (ha : ∀ s, Server.Ages s (op s).1) (hq : ∀ s, (op s).1.tree.asked = s.tree.asked) :
    op (m.at i) = ((m.byHandle h op).1.at i, (m.byHandle h op).2) ∧ Focus m0 i (m.byHandle h op).1 := by
  obtain ⟨a, b⟩ := g.byHandle w hi hh.1 hh.2.2 bl ha
  refine ⟨a, b ?_⟩
  have e : (op (m.at i)).1 = (m.byHandle h op).1.at i := congrArg Prod.fst a
  have : (m.byHandle h op).1.asked = ((m.byHandle h op).1.at i).tree.asked := rfl
  rw [this, ← e, hq]
  exact g.bound

theorem Focus.delete (g : Focus m0 i m) (w : StoragesOk m0) (hi : i < m0.count) {h : Nat} (fmt : Nat) (hh : Own m0 i h) :
    (m.at i).delete h fmt = ((m.delete h fmt).1.at i, (m.delete h fmt).2) ∧ Focus m0 i (m.delete h fmt).1 := by
  unfold Storages.delete
  rw [if_neg hh.2.1]
  exact g.quietly w hi hh (Server.blank_delete h fmt hh.2.1) (fun s => Server.delete_ages s h fmt) fun s => Server.delete_asked ..

theorem own_of {m0 : Storages} {i c : Nat} {ps : List Nat} (k : Concerns m0 i c ps) (hc : c ∈ objectOps) : Own m0 i (ps.getD 0 0) :=
  k.object hc

/-- The requests without data. -/
theorem sim_query (w : StoragesOk m0) (hi : i < m0.count) (g : Focus m0 i m) (c : Nat) (ps : List Nat) (k : Concerns m0 i c ps) :
    (m.at i).query c ps = ((m.query c ps).1.at i, (m.query c ps).2) ∧ ((m.query c ps).1.asked < 0xFFFFFFFF → Focus m0 i (m.query c ps).1) := by
  have still : ∀ x y : Reply, x = y → (m.at i, x) = (m.at i, y) ∧ (m.asked < 0xFFFFFFFF → Focus m0 i m) := fun x y e => ⟨by rw [e], fun _ => g⟩
  by_cases h1 : c = 0x1004
  · exact absurd h1 k.ids
  by_cases h2 : c = 0x1006
  · subst h2
    obtain ⟨k1, k2⟩ := k.list (Or.inl rfl)
    refine still _ _ ?_
    show (⟨[], some ((countReply [((m.at i).sid, (m.at i).tree)] (m.at i).fmts (ps.getD 0 0) (ps.getD 1 0) (ps.getD 2 0)).1,
      [(countReply [((m.at i).sid, (m.at i).tree)] (m.at i).fmts (ps.getD 0 0) (ps.getD 1 0) (ps.getD 2 0)).2])⟩ : Reply) =
      ⟨[], some ((countReply m.trees m.fmts (ps.getD 0 0) (ps.getD 1 0) (ps.getD 2 0)).1,
        [(countReply m.trees m.fmts (ps.getD 0 0) (ps.getD 1 0) (ps.getD 2 0)).2])⟩
    have : countReply [((m.at i).sid, (m.at i).tree)] (m.at i).fmts (ps.getD 0 0) (ps.getD 1 0) (ps.getD 2 0) =
        countReply m.trees m.fmts (ps.getD 0 0) (ps.getD 1 0) (ps.getD 2 0) := by
      unfold countReply
      rw [k1, g.check w hi _ _ k2, g.factory w hi, show (m.at i).sid = (m0.at i).sid from g.sid]
    rw [this]
  by_cases h3 : c = 0x1007
  · subst h3
    obtain ⟨k1, k2⟩ := k.list (Or.inr rfl)
    refine still _ _ ?_
    show Server.oneFrame (getObjectHandles [((m.at i).sid, (m.at i).tree)] (m.at i).fmts 0 (ps.getD 0 0) (ps.getD 1 0) (ps.getD 2 0)) =
      Server.oneFrame (getObjectHandles m.trees m.fmts 0 (ps.getD 0 0) (ps.getD 1 0) (ps.getD 2 0))
    have : handlesReply [((m.at i).sid, (m.at i).tree)] (m.at i).fmts (ps.getD 0 0) (ps.getD 1 0) (ps.getD 2 0) =
        handlesReply m.trees m.fmts (ps.getD 0 0) (ps.getD 1 0) (ps.getD 2 0) := by
      unfold handlesReply
      rw [k1, g.check w hi _ _ k2, g.factory w hi, show (m.at i).sid = (m0.at i).sid from g.sid]
    unfold getObjectHandles
    rw [this]
  by_cases h4 : c = 0x1008 ∨ c = 0x1009 ∨ c = 0x101B ∨ c = 0x95C1
  · have ow := own_of k (by rcases h4 with h | h | h | h <;> subst h <;> decide)
    have e : m.query c ps = m.byHandle (ps.getD 0 0) fun s => s.query c ps := by
      unfold Storages.query
      simp only
      rw [if_neg h1, if_neg h2, if_neg h3, if_pos h4]
    rw [e]
    exact g.byHandle w hi ow.1 ow.2.2 (Server.blank_query c ps (by rcases h4 with h | h | h | h <;> simp [h])) fun s => Server.query_ages s c ps
  by_cases h5 : c = 0x100B
  · subst h5
    have ow := own_of k (by decide)
    obtain ⟨a, b⟩ := g.delete w hi (ps.getD 1 0 % 65536) ow
    refine ⟨?_, fun _ => b⟩
    show (((m.at i).delete (ps.getD 0 0) (ps.getD 1 0 % 65536)).1, (⟨[], some (((m.at i).delete (ps.getD 0 0) (ps.getD 1 0 % 65536)).2, [])⟩ : Reply)) =
      ((m.delete (ps.getD 0 0) (ps.getD 1 0 % 65536)).1.at i, ⟨[], some ((m.delete (ps.getD 0 0) (ps.getD 1 0 % 65536)).2, [])⟩)
    rw [a]
  by_cases h6 : c = 0x1019
  · have ow := own_of k (by subst h6; decide)
    have e : m.query c ps = m.byHandle (ps.getD 0 0) fun s => s.query c ps := by
      unfold Storages.query
      simp only
      rw [if_neg h1, if_neg h2, if_neg h3, if_neg h4, if_neg h5, if_pos h6, g.across w hi ow.1 ow.2.2 (k.to (Or.inl h6))]
      rfl
    rw [e]
    exact g.byHandle w hi ow.1 ow.2.2 (Server.blank_query c ps (by simp [h6])) fun s => Server.query_ages s c ps
  · have e : m.query c ps = (m, ⟨[], some (.operationNotSupported, [])⟩) := by
      unfold Storages.query
      simp only
      rw [if_neg h1, if_neg h2, if_neg h3, if_neg h4, if_neg h5, if_neg h6]
    have e' : (m.at i).query c ps = (m.at i, ⟨[], some (.operationNotSupported, [])⟩) := by
      unfold Server.query
      simp only
      simp only [not_or] at h4
      rw [if_neg h1, if_neg h2, if_neg h3, if_neg h4.1, if_neg h4.2.1, if_neg h4.2.2.1, if_neg h4.2.2.2, if_neg h5, if_neg h6]
    rw [e, e']
    exact ⟨rfl, fun _ => g⟩

/-- A storage among others. -/
theorem sim (w : StoragesOk m0) (hi : i < m0.count) :
    Rsp.Sim dev Server.dev (·.at i) (Focus m0 i) HandlesLeft (Concerns m0 i) (Own m0 i) where
  query m c ps g k := sim_query w hi g c ps k
  copy m ps x g k := by
    have ow := own_of k (by decide)
    have e : m.copy ps x = m.byHandle (ps.getD 0 0) fun s => s.copy ps x := by
      unfold Storages.copy
      rw [g.across w hi ow.1 ow.2.2 (k.to (Or.inr rfl))]
      rfl
    show (m.at i).copy ps x = ((m.copy ps x).1.at i, (m.copy ps x).2) ∧ (HandlesLeft (m.copy ps x).1 → Focus m0 i (m.copy ps x).1)
    rw [e]
    exact g.byHandle w hi ow.1 ow.2.2 (Server.blank_copy ps x) fun s => Server.steps_ages.whole s ps x
  check m c ps g k := by
    show (if c = 0x9804 then if (m.at i).tree.has (ps.getD 0 0) then Resp.ok else .invalidObjectHandle else .operationNotSupported) =
      if c = 0x9804 then if m.has (ps.getD 0 0) then Resp.ok else .invalidObjectHandle else .operationNotSupported
    by_cases h : c = 0x9804
    · have ow := own_of k (by subst h; decide)
      rw [g.has hi ow.1 ow.2.2]
    · rw [if_neg h, if_neg h]
  store m c ps b g k := by
    show (m.at i).store c ps b =
      ((if c = 0x9804 then m.byHandle (ps.getD 0 0) fun s => s.store c ps b else (m, .operationNotSupported, [])).1.at i,
        (if c = 0x9804 then m.byHandle (ps.getD 0 0) fun s => s.store c ps b else (m, .operationNotSupported, [])).2) ∧
      (HandlesLeft (if c = 0x9804 then m.byHandle (ps.getD 0 0) fun s => s.store c ps b else (m, .operationNotSupported, [])).1 →
        Focus m0 i (if c = 0x9804 then m.byHandle (ps.getD 0 0) fun s => s.store c ps b else (m, .operationNotSupported, [])).1)
    by_cases h : c = 0x9804
    · have ow := own_of k (by subst h; decide)
      simp only [if_pos h]
      exact g.byHandle w hi ow.1 ow.2.2 (Server.blank_store c ps b) fun s => Server.store_ages s c ps b
    · simp only [if_neg h]
      refine ⟨?_, fun _ => g⟩
      unfold Server.store
      rw [if_neg (fun x => h x.1)]
  listCheck m ps g k := by
    have hn := k.new (Or.inr rfl)
    have hp := k.parent rfl
    show (sendObjectPropListReq _ _ _ _ _ _ _).1 = (sendObjectPropListReq _ _ _ _ _ _ _).1
    unfold sendObjectPropListReq
    have e1 : (if ps.getD 0 0 ≠ 0 then (if ps.getD 0 0 = (m.at i).sid then Resp.ok else .invalidStorageID) else .ok) =
        (if ps.getD 0 0 ≠ 0 then (if (m.ofSid (ps.getD 0 0)).isSome then Resp.ok else .invalidStorageID) else .ok) := by
      rcases hn with hn | ⟨hn, _⟩
      · rw [hn, g.ofSid w hi, if_pos (show (m0.at i).sid = (m.at i).sid from g.sid.symm)]
        rfl
      · rw [hn]; rfl
    have e2 : (if ps.getD 1 0 ≠ 0 ∧ ps.getD 1 0 ≠ 0xFFFFFFFF then (if (m.at i).tree.has (ps.getD 1 0) then Resp.ok else .invalidObjectHandle) else .ok) =
        (if ps.getD 1 0 ≠ 0 ∧ ps.getD 1 0 ≠ 0xFFFFFFFF then (if m.has (ps.getD 1 0) then Resp.ok else .invalidObjectHandle) else .ok) := by
      by_cases h : ps.getD 1 0 ≠ 0 ∧ ps.getD 1 0 ≠ 0xFFFFFFFF
      · rw [if_pos h, if_pos h, g.has hi h.1 hp]
      · rw [if_neg h, if_neg h]
    simp only
    rw [e1, e2]
  addInfo m ps b g k := by
    obtain ⟨a, e, f⟩ := g.bySid w hi (op := fun s => s.addInfo ps b) (k.new (Or.inl rfl)) fun s => Server.addInfo_ages s ps b
    refine ⟨a, fun hb => ⟨f hb, fun ho => ?_⟩⟩
    have hb' : ((m.at i).addInfo ps b).1.tree.asked < 0xFFFFFFFF := by
      have : ((m.at i).addInfo ps b).1 = (m.bySid (ps.getD 0 0) fun s => s.addInfo ps b).1.at i := congrArg Prod.fst a
      rw [this]; exact hb
    have a2 : ((m.at i).addInfo ps b).2 = (m.bySid (ps.getD 0 0) fun s => s.addInfo ps b).2 := congrArg (fun z => z.2) a
    have a1 : ((m.at i).addInfo ps b).1 = (m.bySid (ps.getD 0 0) fun s => s.addInfo ps b).1.at i := congrArg Prod.fst a
    have th := Server.addInfo_there g.ok ps b hb' (by rw [a2]; exact ho)
    rw [a1, a2] at th
    exact (f hb).ownOf w hi th.2 th.1
  addList m ps b g k := by
    obtain ⟨a, e, f⟩ := g.bySid w hi (op := fun s => s.addList ps b) (k.new (Or.inr rfl)) fun s => Server.addList_ages s ps b
    refine ⟨a, fun hb => ⟨f hb, ?_⟩⟩
    have hb' : ((m.at i).addList ps b).1.tree.asked < 0xFFFFFFFF := by
      have : ((m.at i).addList ps b).1 = (m.bySid (ps.getD 0 0) fun s => s.addList ps b).1.at i := congrArg Prod.fst a
      rw [this]; exact hb
    have a2 : ((m.at i).addList ps b).2 = (m.bySid (ps.getD 0 0) fun s => s.addList ps b).2 := congrArg (fun z => z.2) a
    have a1 : ((m.at i).addList ps b).1 = (m.bySid (ps.getD 0 0) fun s => s.addList ps b).1.at i := congrArg Prod.fst a
    have th := Server.addList_there g.ok ps b hb'
    rw [a1, a2] at th
    exact th.imp (fun th => (f hb).ownOf w hi th.2 th.1) id
  write m h b x l g ow := g.quietly w hi ow (Server.blank_write h b x l) (fun s => Server.write_ages s h b x l)
    fun s => congrArg Tree.asked (Server.write_tree s h b x l)
  cut m h n g ow := g.quietly w hi ow (Server.blank_truncate h n) (fun s => Server.truncate_ages s h n)
    fun s => congrArg Tree.asked (Server.truncate_tree s h n)
  setProps m h b g _ := ⟨rfl, g⟩
  writePartial m h o b x l g ow := g.quietly w hi ow (Server.blank_writePartial h o b x l) (fun s => Server.writePartial_ages s h o b x l)
    fun s => congrArg Tree.asked (Server.writePartial_tree s h o b x l)
  delete m h g ow := g.delete w hi 0 ow
  handleOk m ps g k := by
    have ow := own_of k (by decide)
    refine ⟨?_, ow⟩
    show (if (m.at i).tree.has (ps.getD 0 0) then Resp.ok else .invalidObjectHandle) = if m.has (ps.getD 0 0) then Resp.ok else .invalidObjectHandle
    rw [g.has hi ow.1 ow.2.2]
  flush m h g _ := ⟨rfl, g⟩
  setEvents m h b g _ := ⟨rfl, g⟩
  eventsOff m g := ⟨rfl, g⟩
  eventsOn m h g := rfl

end Storages
end Mtp
