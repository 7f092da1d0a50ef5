import Verif.Lemmas.StoragesSim
import Verif.Lemmas.ServerAcross
/-!
Several storages stay in order, whatever a host does.
-/
namespace Mtp
open Spec
namespace Storages

/-- From one state to a later one. -/
def Older (m m' : Storages) : Prop := m.asked ≤ m'.asked ∧ m'.count = m.count ∧ (∀ j, (m'.at j).sid = (m.at j).sid) ∧
  (StoragesOk m → m'.asked < 0xFFFFFFFF → StoragesOk m')

theorem Older.refl (m : Storages) : Older m m := ⟨Nat.le_refl _, rfl, fun _ => rfl, fun w _ => w⟩

theorem Older.trans {a b c : Storages} (h1 : Older a b) (h2 : Older b c) : Older a c :=
  ⟨Nat.le_trans h1.1 h2.1, h2.2.1.trans h1.2.1, fun j => (h2.2.2.1 j).trans (h1.2.2.1 j),
    fun w hb => h2.2.2.2 (h1.2.2.2 w (Nat.lt_of_le_of_lt h2.1 hb)) hb⟩

/-- More handles given out do no harm. -/
theorem ok_more {s : Server} (w : ServerOk s) {n k c : Nat} (h : s.tree.asked ≤ n) :
    ServerOk { s with calls := c, tree := { s.tree with asked := n, idsAsked := k } } :=
  ⟨WF_congr w.wf rfl rfl rfl, fun x it e => Nat.le_trans (w.issued x it e) h, w.root, w.folders, w.files, w.known, w.openFile⟩

theorem put_older (m : Storages) {j : Nat} (hj : 0 < m.count → j < m.count) {s : Server} (a : Server.Ages (m.at j) s) : Older m (m.put j s) := by
  obtain ⟨⟨a1, a2⟩, a3, a4⟩ := a
  have other : ∀ k, k ≠ j → (m.put j s).at k = { m.at k with calls := s.calls, tree := { (m.at k).tree with asked := s.tree.asked, idsAsked := s.tree.idsAsked } } := by
    intro k hk
    unfold Storages.at
    rw [put_apart _ _ _ _ hk]
    rfl
  have same : ∀ k, ((m.put j s).at k).sid = (m.at k).sid ∧ ((m.put j s).at k).fmts = (m.at k).fmts := by
    intro k
    by_cases hk : k = j
    · rw [hk, put_at]; exact ⟨a1, a2⟩
    · rw [other k hk]; exact ⟨rfl, rfl⟩
  refine ⟨a3, rfl, fun k => (same k).1, fun w hb => ?_⟩
  have hj := hj w.some
  obtain ⟨b1, b2⟩ := a4 (w.each j hj) hb
  have has' : ∀ k h, k ≠ j → ((m.put j s).at k).tree.has h = (m.at k).tree.has h := fun k h hk => by rw [other k hk]; rfl
  have new : ∀ k h, k < m.count → k ≠ j → h ≠ 0 → s.tree.has h = true → (m.at k).tree.has h = true → False := by
    intro k h hk hne h0 hs hh
    rcases b2 h hs with g | ⟨g, _⟩
    · obtain ⟨it, e⟩ := has_iff.mp hh
      have := (w.each k hk).issued h it e
      rw [at_asked] at this g
      omega
    · exact hne (w.handles k j h hk hj h0 hh g)
  refine ⟨w.some, fun k hk => ?_, fun k hk => ?_, fun a b ha hb e => ?_, fun a b h ha hb h0 e1 e2 => ?_, fun k hk => ?_⟩
  · by_cases hk' : k = j
    · rw [hk', put_at]; exact b1
    · rw [other k hk']
      exact ok_more (w.each k hk) a3
  · rw [(same k).1]; exact w.real k hk
  · rw [(same a).1, (same b).1] at e; exact w.ids a b ha hb e
  · by_cases ha' : a = j <;> by_cases hb' : b = j
    · rw [ha', hb']
    · rw [ha', put_at] at e1
      rw [has' b h hb'] at e2
      exact (new b h hb hb' h0 e1 e2).elim
    · rw [hb', put_at] at e2
      rw [has' a h ha'] at e1
      exact (new a h ha ha' h0 e2 e1).elim
    · rw [has' a h ha'] at e1
      rw [has' b h hb'] at e2
      exact w.handles a b h ha hb h0 e1 e2
  · rw [(same k).2]; exact w.fmts k hk

theorem first_lt (m : Storages) (p : Server → Bool) (h : 0 < m.count) : (m.first p).getD 0 < m.count := by
  cases e : m.first p with
  | none => exact h
  | some j => exact (first_spec e).1

theorem byHandle_older (m : Storages) {A : Type} {op : Server → Server × A} (h : Nat) (ha : ∀ s, Server.Ages s (op s).1) :
    Older m (m.byHandle h op).1 := put_older m (first_lt m _) (ha _)

theorem bySid_older (m : Storages) {A : Type} {op : Server → Server × A} (p : Nat) (ha : ∀ s, Server.Ages s (op s).1) :
    Older m (m.bySid p op).1 := put_older m (first_lt m _) (ha _)

theorem deleteAll_older (fmt : Nat) : ∀ (l : List Nat) (m : Storages) (r : Resp), (∀ j ∈ l, j < m.count) → Older m (deleteAll fmt l m r).1
  | [], m, _, _ => Older.refl m
  | j :: js, m, r, h => by
    unfold deleteAll
    have h1 : Older m (m.on j fun s => s.delete ALL fmt).1 :=
      put_older m (fun _ => h j (by simp)) (Server.delete_ages (m.at j) ALL fmt)
    refine h1.trans (deleteAll_older fmt js _ _ fun k hk => ?_)
    rw [h1.2.1]
    exact h k (List.mem_cons_of_mem _ hk)

theorem delete_older (m : Storages) (h fmt : Nat) : Older m (m.delete h fmt).1 := by
  unfold Storages.delete
  split
  · exact deleteAll_older fmt _ m _ fun j hj => List.mem_range.mp hj
  · exact byHandle_older m h fun s => Server.delete_ages s h fmt

theorem closed_older (ok : Nat → Prop) : Rsp.Closed dev ok Older where
  refl := Older.refl
  trans _ _ _ := Older.trans
  query m c ps _ := by
    show Older m (m.query c ps).1
    unfold Storages.query
    simp only
    repeat' split
    all_goals first
      | exact Older.refl m
      | exact delete_older ..
      | exact byHandle_older m _ fun s => Server.query_ages s c ps
  copy _ m ps x := by
    show Older m (m.copy ps x).1
    unfold Storages.copy
    split
    · exact put_older m (first_lt m _) (Server.steps_ages.whole_from _ _ ps x)
    · exact byHandle_older m _ fun s => Server.steps_ages.whole s ps x
  store m c ps b _ := by
    show Older m (if c = 0x9804 then m.byHandle (ps.getD 0 0) fun s => s.store c ps b else (m, .operationNotSupported, [])).1
    split
    · exact byHandle_older m _ fun s => Server.store_ages s c ps b
    · exact Older.refl m
  addInfo _ m ps b := bySid_older m _ fun s => Server.addInfo_ages s ps b
  addList _ m ps b := bySid_older m _ fun s => Server.addList_ages s ps b
  write _ m h b f l := byHandle_older m _ fun s => Server.write_ages s h b f l
  cut _ m h n := byHandle_older m _ fun s => Server.truncate_ages s h n
  setProps _ _ m _ _ := Older.refl m
  writePartial _ m h o b f l := byHandle_older m _ fun s => Server.writePartial_ages s h o b f l
  delete _ m h := delete_older m h 0
  flush _ m _ := Older.refl m
  setEvents _ m _ _ := Older.refl m
  eventsOff _ m := Older.refl m

/-- Steps and histories. -/
theorem run_older {is : List (Rsp.In Storages)} {r r' : Rsp Storages} (hin : ∀ d, Rsp.In.env d ∉ is)
    (hr : r.run dev is = .ok r') : Older r.dev r'.dev := by
  refine Rsp.run_closed (closed_older fun _ => True) (fun _ _ => trivial) (fun _ _ => trivial) (fun i hi => ?_) hr
  cases i with
  | packet => exact fun _ _ => trivial
  | ready => exact fun _ => trivial
  | ev => trivial
  | notify => trivial
  | env d => exact absurd hi (hin d)

theorem handles_back {okq : Nat → List Nat → Prop} {r r' : Rsp Storages} {i : Rsp.In Storages} (hf : Rsp.Fits okq r i)
    (hs : r.step dev i = .ok r') (hb : HandlesLeft r'.dev) : HandlesLeft r.dev := by
  have hr : r.run dev [i] = .ok r' := by simp only [Rsp.run, hs, Res.bind_ok]
  have := (run_older (fun d hd => by
    simp only [List.mem_singleton] at hd
    subst hd
    exact hf) hr).1
  exact Nat.lt_of_le_of_lt this hb

theorem good_start {r : Rsp Storages} {i : Nat} (w : StoragesOk r.dev) (hi : i < r.dev.count) (np : NothingPending r)
    (hb : HandlesLeft r.dev) : Rsp.Good (Focus r.dev i) (Concerns r.dev i) (Own r.dev i) r :=
  ⟨focus_start w hi hb, (fun q e => by rw [np.req] at e; cases e), (fun q e => by rw [np.seq] at e; cases e),
    (fun q e => by rw [np.list] at e; cases e), (fun q e => by rw [np.edit] at e; cases e)⟩

/-- A history of requests to one storage. -/
theorem alone {r r' : Rsp Storages} {i : Nat} (w : StoragesOk r.dev) (hi : i < r.dev.count) (np : NothingPending r)
    {is : List (Rsp.In Storages)} (hu : UsesOnly i r is) (hr : r.run dev is = .ok r') (hb : HandlesLeft r'.dev) :
    (onlyStorage i r).run Server.dev (is.map (Rsp.In.via (·.at i))) = .ok (onlyStorage i r') ∧
      Rsp.Good (Focus r.dev i) (Concerns r.dev i) (Own r.dev i) r' := by
  have hb0 := Rsp.fitting_back handles_back is hu hr hb
  exact Rsp.sim_run (sim w hi) handles_back is (good_start w hi np hb0) hu hr hb

/-- What one storage does alone, it does among others. -/
theorem among {m0 : Storages} {i : Nat} (w : StoragesOk m0) (hi : i < m0.count) (is : List (Rsp.In Storages)) :
    ∀ {r : Rsp Storages} {s : Rsp Server}, Rsp.Good (Focus m0 i) (Concerns m0 i) (Own m0 i) r → Rsp.Fitting dev (Concerns m0 i) r is →
      (∀ d, Rsp.In.env d ∉ is) → (onlyStorage i r).run Server.dev (is.map (Rsp.In.via (·.at i))) = .ok s →
      s.dev.tree.asked < 0xFFFFFFFF →
      ∃ r', r.run dev is = .ok r' ∧ onlyStorage i r' = s ∧ Rsp.Good (Focus m0 i) (Concerns m0 i) (Own m0 i) r' := by
  induction is with
  | nil => intro r s g _ _ e _; cases e; exact ⟨r, rfl, rfl, g⟩
  | cons x is ih =>
    intro r s g hf hin hr hb
    cases hf with
    | cons h1 h2 =>
      obtain ⟨a, b⟩ := Rsp.sim_step (sim w hi) g x h1
      rw [List.map_cons, Rsp.run] at hr
      unfold onlyStorage at hr
      rw [a] at hr
      rw [Rsp.run]
      cases hs : r.step dev x with
      | ub e => rw [hs] at hr; cases hr
      | ok r1 =>
        rw [hs] at hr
        simp only [Rsp.viaRes_ok, Res.bind_ok] at hr ⊢
        have hle : (r1.dev.at i).tree.asked ≤ s.dev.tree.asked := by
          refine (Rsp.run_closed (Server.closed_later fun _ => True) (fun _ _ => trivial) (fun _ _ => trivial) (fun y hy => ?_) hr).1
          obtain ⟨z, hz, rfl⟩ := List.mem_map.mp hy
          cases z with
          | packet => exact fun _ _ => trivial
          | ready => exact fun _ => trivial
          | ev => trivial
          | notify => trivial
          | env d => exact absurd (List.mem_cons_of_mem _ hz) (hin d)
        have hb1 : HandlesLeft r1.dev := Nat.lt_of_le_of_lt hle hb
        exact ih (b r1 hs hb1) (h2 r1 hs) (fun d hd => hin d (List.mem_cons_of_mem _ hd)) hr hb

end Storages
end Mtp
