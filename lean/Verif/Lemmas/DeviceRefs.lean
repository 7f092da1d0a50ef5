import Verif.Lemmas.DeviceStart
/-! The references of the device: what they can be, and what is left of them after a restart. -/
namespace Mtp
open Spec
namespace Device

/-- One list for each object, of handles given out. -/
def RefsGood (d : Device) : Prop :=
  (d.refs.map (·.1)).Nodup ∧ ∀ e ∈ d.refs, ∀ x ∈ e.2, x ≤ d.ps.srv.tree.asked

theorem insert_good {refs : AMap Nat (List Nat)} {P : Nat → Prop} (hn : (refs.map (·.1)).Nodup) (hv : ∀ e ∈ refs, ∀ x ∈ e.2, P x) (h : Nat)
    (l : List Nat) (hl : ∀ x ∈ l, P x) :
    ((AMap.insert refs h l).map (·.1)).Nodup ∧ ∀ e ∈ AMap.insert refs h l, ∀ x ∈ e.2, P x := by
  refine ⟨AMap.nodup_insert hn _ _, fun e he => ?_⟩
  unfold AMap.insert at he
  rcases List.mem_cons.mp he with rfl | he
  · exact hl
  · exact hv e (by unfold AMap.erase at he; exact (List.mem_filter.mp he).1)

theorem RefsGood.refs {d d' : Device} (g : RefsGood d) (e : d'.refs = d.refs) (ha : d.ps.srv.tree.asked ≤ d'.ps.srv.tree.asked) : RefsGood d' :=
  ⟨by rw [e]; exact g.1, fun x hx y hy => Nat.le_trans (g.2 x (by rw [← e]; exact hx) y hy) ha⟩

/-- Some steps later. -/
def RefsLater (d d' : Device) : Prop :=
  d.ps.srv.tree.asked ≤ d'.ps.srv.tree.asked ∧
    (ServerOk d.ps.srv → d'.ps.srv.tree.asked < 0xFFFFFFFF → ServerOk d'.ps.srv ∧ (RefsGood d → RefsGood d'))

theorem RefsLater.refl (d : Device) : RefsLater d d := ⟨Nat.le_refl _, fun w _ => ⟨w, id⟩⟩

theorem RefsLater.of {T : Nat → Nat → Prop} {d d' : Device} (st : Server.Steady T d.ps.srv d'.ps.srv) (e : d'.refs = d.refs) : RefsLater d d' :=
  ⟨st.1, fun w hb => ⟨(st.2 w hb).1, fun g => g.refs e st.1⟩⟩

theorem answerRefs_later (d : Device) (x : Nat) : RefsLater d (d.answerRefs x).1 := by
  have hs : (d.answerRefs x).1.ps = d.ps := by unfold answerRefs; split <;> rfl
  refine ⟨by rw [hs]; exact Nat.le_refl _, fun w _ => ⟨by rw [hs]; exact w, fun g => ?_⟩⟩
  unfold answerRefs getObjReferences
  by_cases hh : d.refTree.t.has x = false
  · simp only [if_pos hh]
    exact g
  · rw [if_neg hh]
    unfold RefTree.getRefs
    rw [if_neg hh]
    cases e : AMap.get d.refTree.refs x with
    | none =>
      simp only
      cases transmit 2 0x9810 0 (u32 (([] : List Nat).length * 4 + 4)) [.arr 4 []] with
      | ub u => exact g
      | ok b => exact g
    | some l =>
      simp only
      generalize transmit 2 0x9810 0 _ _ = tr
      cases tr with
      | ub u => exact g
      | ok b =>
        exact insert_good g.1 g.2 x _ fun y hy => g.2 (x, l) (AMap.mem_of_get e) y (List.mem_filter.mp hy).1

theorem setReferences_later (d : Device) (h : Nat) (b : List UInt8) : RefsLater d (d.setReferences h b).1 := by
  have hs : (d.setReferences h b).1.ps = d.ps := by unfold setReferences; split <;> rfl
  refine ⟨by rw [hs]; exact Nat.le_refl _, fun w _ => ⟨by rw [hs]; exact w, fun g => ?_⟩⟩
  unfold setReferences
  split
  · next s r e =>
    cases e1 : collect b [] with
    | ub u => rw [e1] at e; cases e
    | ok rx =>
      rw [e1, Res.bind_ok] at e
      unfold setObjReferencesData at e
      cases e2 : rx.getArr 4 with
      | ub u => rw [e2] at e; cases e
      | ok y =>
        obtain ⟨l, rx'⟩ := y
        rw [e2] at e
        simp only [Res.bind_ok, Res.pure_eq, Res.ok.injEq] at e
        unfold RefTree.setRefs at e
        split at e
        · cases e; exact g
        · split at e
          · next hall =>
            cases e
            exact insert_good g.1 g.2 h l fun y hy => PServer.has_issued w (List.all_eq_true.mp hall y hy)
          · cases e; exact g
  · exact g

theorem closed_good {ok : Nat → Prop} : Rsp.Closed dev ok RefsLater := by
  have cl : Rsp.Closed dev ok _ := closed_server (ok := ok) PServer.closed_fixed
  exact
  { refl := RefsLater.refl
    trans := fun _ _ _ h1 h2 => ⟨Nat.le_trans h1.1 h2.1, fun w hb =>
      ⟨(h2.2 (h1.2 w (Nat.lt_of_le_of_lt h2.1 hb)).1 hb).1, fun g =>
        (h2.2 (h1.2 w (Nat.lt_of_le_of_lt h2.1 hb)).1 hb).2 ((h1.2 w (Nat.lt_of_le_of_lt h2.1 hb)).2 g)⟩⟩
    query := fun d c ps hc => by
      have hs : Server.Steady _ d.ps.srv (d.query c ps).1.ps.srv := cl.query d c ps hc
      show RefsLater d (d.query c ps).1
      by_cases he : c = 0x9810
      · subst he
        show RefsLater d (d.answerRefs (ps.getD 0 0)).1
        exact answerRefs_later d _
      · refine RefsLater.of hs ?_
        unfold query
        simp only [if_neg he]
        repeat' split
        all_goals rfl
    copy := fun ho d ps b => RefsLater.of (cl.copy ho d ps b) rfl
    store := fun d c ps b hc => by
      have hs : Server.Steady _ d.ps.srv (d.storeData c ps b).1.ps.srv := cl.store d c ps b hc
      show RefsLater d (d.storeData c ps b).1
      by_cases he : c = 0x9811
      · subst he
        have := setReferences_later d (ps.getD 0 0) b
        unfold storeData
        rw [if_neg (by decide), if_pos rfl]
        exact this
      · refine RefsLater.of hs ?_
        unfold storeData
        rw [if_neg he]
        split
        · unfold setDevProp; split <;> rfl
        · rfl
    addInfo := fun ho d ps b => RefsLater.of (cl.addInfo ho d ps b) rfl
    addList := fun ho d ps b => RefsLater.of (cl.addList ho d ps b) rfl
    write := fun ho d x b f l => RefsLater.of (cl.write ho d x b f l) rfl
    cut := fun ho d x n => RefsLater.of (cl.cut ho d x n) rfl
    setProps := fun h1 h2 d x b => RefsLater.of (cl.setProps h1 h2 d x b) rfl
    writePartial := fun ho d x o b f l => RefsLater.of (cl.writePartial ho d x o b f l) rfl
    delete := fun ho d x => RefsLater.of (cl.delete ho d x) rfl
    flush := fun ho d x => RefsLater.of (cl.flush ho d x) rfl
    setEvents := fun ho d x b => RefsLater.of (cl.setEvents ho d x b) rfl
    eventsOff := fun ho d => RefsLater.of (cl.eventsOff ho d) rfl }

theorem elapsed_good {r r' : Rsp Device} (hr : r.req = none) (t : Elapsed [] r r') : RefsLater r.dev r'.dev := by
  have cl : Rsp.Closed dev (· ∉ []) RefsLater := closed_good
  exact (lived_along cl (fun d c v => RefsLater.of (T := fun _ _ => True) (Server.Steady.refl _ _) rfl)
    (fun d n => RefsLater.of (T := fun _ _ => True) (Server.Steady.refl _ _) rfl) (along_open cl (by simp) hr) t).dev

/-! ### The file -/

theorem loadRefList_range (look : Nat → Option Nat) {P : Nat → Prop} (hl : ∀ v h, look v = some h → P h) :
    ∀ (k : Nat) (pu f : List UInt8) (acc : List Nat), (∀ x ∈ acc, P x) → ∀ rs pu' f', loadRefList look k pu f acc = some (rs, pu', f') → ∀ x ∈ rs, P x := by
  intro k
  induction k with
  | zero => intro pu f acc ha rs pu' f' e; cases e; exact ha
  | succ k ih =>
    intro pu f acc ha rs pu' f' e
    unfold loadRefList at e
    split at e
    · cases e
    · refine ih _ _ _ ?_ rs pu' f' e
      split
      · next h eh =>
        intro x hx
        rcases List.mem_append.mp hx with hx | hx
        · exact ha x hx
        · rw [List.mem_singleton.mp hx]; exact hl _ _ eh
      · exact ha

theorem loadRefs_range (look : Nat → Option Nat) {P : Nat → Prop} (hl : ∀ v h, look v = some h → P h) :
    ∀ (k : Nat) (op n rp f : List UInt8) (m : AMap Nat (List Nat)), (m.map (·.1)).Nodup → (∀ e ∈ m, ∀ x ∈ e.2, P x) →
      ((loadRefs look k op n rp f m).map (·.1)).Nodup ∧ ∀ e ∈ loadRefs look k op n rp f m, ∀ x ∈ e.2, P x := by
  intro k
  induction k with
  | zero => intro op n rp f m h1 h2; exact ⟨h1, h2⟩
  | succ k ih =>
    intro op n rp f m h1 h2
    unfold loadRefs
    split
    · exact ⟨h1, h2⟩
    · split
      · exact ⟨h1, h2⟩
      · split
        · exact ⟨h1, h2⟩
        · next rs rp' f' e =>
          split
          · have := insert_good h1 h2 (P := P) ‹Nat› rs (loadRefList_range look hl _ _ _ [] (fun _ h => by cases h) _ _ _ e)
            exact ih _ _ _ _ _ this.1 this.2
          · exact ih _ _ _ _ _ h1 h2

theorem boots_good {e : Setting} {f : Saved} {r : Rsp Device} (b : Boots e f r) : RefsGood r.dev := by
  have w := boots_ok b
  have key : ∀ v h, p2h r.dev.ps.srv.tree v = some h → h ≤ r.dev.ps.srv.tree.asked := by
    intro v h e
    unfold p2h at e
    have hm := AMap.mem_of_get e
    rw [List.mem_filterMap] at hm
    obtain ⟨x, hx, hy⟩ := hm
    split at hy
    · cases hy
    · cases hy
      exact w.issued _ _ (Server.get_of_mem w.wf hx)
  have hr : r.dev.refs = readRefs (p2h r.dev.ps.srv.tree) f.refs := by rw [b.dev]; rfl
  unfold RefsGood
  rw [hr]
  unfold readRefs
  split
  · exact ⟨List.nodup_nil, fun _ h => by cases h⟩
  · exact loadRefs_range _ key _ _ _ _ _ _ List.nodup_nil (fun _ h => by cases h)

theorem booted_good {r : Rsp Device} (b : Booted r) : RefsGood r.dev := by
  cases b with
  | first b => exact boots_good b
  | again _ _ _ _ b => exact boots_good b

end Device
end Mtp
