import Verif.Spec.Device
import Verif.Lemmas.ServerTold
import Verif.Props.Datasets
import Verif.Props.DevProps
/-! The whole device: what a history does to its parts, and what it tells. -/
namespace Mtp
open Spec
namespace Device

/-- Whatever the server's part respects. -/
theorem closed_server {ok : Nat → Prop} {R : PServer → PServer → Prop} (cl : Rsp.Closed PServer.dev ok R) :
    Rsp.Closed dev ok (fun d d' => R d.ps d'.ps) where
  refl d := cl.refl d.ps
  trans _ _ _ := cl.trans _ _ _
  query d c ps h := by
    show R d.ps (d.query c ps).1.ps
    unfold query
    simp only
    repeat' split
    all_goals first
      | exact cl.refl _
      | exact cl.query d.ps c ps h
      | (unfold answerRefs; split <;> exact cl.refl _)
  copy h d ps b := cl.copy h d.ps ps b
  store d c ps b h := by
    show R d.ps (d.storeData c ps b).1.ps
    unfold storeData
    split
    · unfold setDevProp; split <;> exact cl.refl _
    split
    · unfold setReferences; split <;> exact cl.refl _
    · exact cl.store d.ps c ps b h
  addInfo h d ps b := cl.addInfo h d.ps ps b
  addList h d ps b := cl.addList h d.ps ps b
  write h d x b f l := cl.write h d.ps x b f l
  cut h d x n := cl.cut h d.ps x n
  setProps h1 h2 d x b := cl.setProps h1 h2 d.ps x b
  writePartial h d x o b f l := cl.writePartial h d.ps x o b f l
  delete h d x := cl.delete h d.ps x
  flush h d x := cl.flush h d.ps x
  setEvents h d x b := cl.setEvents h d.ps x b
  eventsOff h d := cl.eventsOff h d.ps

/-- The parts that only their own operations change. -/
theorem closed_rest {ok : Nat → Prop} :
    Rsp.Closed dev ok (fun d d' => d'.info = d.info ∧ d'.store = d.store ∧ (¬ ok 0x1016 → d'.props = d.props) ∧
      (d'.stat = d.stat)) where
  refl d := ⟨rfl, rfl, fun _ => rfl, rfl⟩
  trans a b c h1 h2 := ⟨h2.1.trans h1.1, h2.2.1.trans h1.2.1, fun h => (h2.2.2.1 h).trans (h1.2.2.1 h), h2.2.2.2.trans h1.2.2.2⟩
  query d c ps h := by
    show (d.query c ps).1.info = _ ∧ (d.query c ps).1.store = _ ∧ (_ → (d.query c ps).1.props = _) ∧ (d.query c ps).1.stat = _
    unfold query
    simp only
    repeat' split
    all_goals first
      | exact ⟨rfl, rfl, fun _ => rfl, rfl⟩
      | (unfold answerRefs; split <;> exact ⟨rfl, rfl, fun _ => rfl, rfl⟩)
  copy h d ps b := ⟨rfl, rfl, fun _ => rfl, rfl⟩
  store d c ps b h := by
    show (d.storeData c ps b).1.info = _ ∧ (d.storeData c ps b).1.store = _ ∧ (_ → (d.storeData c ps b).1.props = _) ∧
      (d.storeData c ps b).1.stat = _
    unfold storeData
    split
    · next e =>
      unfold setDevProp
      split
      · exact ⟨rfl, rfl, fun hn => absurd (e ▸ h) hn, rfl⟩
      · exact ⟨rfl, rfl, fun _ => rfl, rfl⟩
    split
    · unfold setReferences; split <;> exact ⟨rfl, rfl, fun _ => rfl, rfl⟩
    · exact ⟨rfl, rfl, fun _ => rfl, rfl⟩
  addInfo _ _ _ _ := ⟨rfl, rfl, fun _ => rfl, rfl⟩
  addList _ _ _ _ := ⟨rfl, rfl, fun _ => rfl, rfl⟩
  write _ _ _ _ _ _ := ⟨rfl, rfl, fun _ => rfl, rfl⟩
  cut _ _ _ _ := ⟨rfl, rfl, fun _ => rfl, rfl⟩
  setProps _ _ _ _ _ := ⟨rfl, rfl, fun _ => rfl, rfl⟩
  writePartial _ _ _ _ _ _ _ := ⟨rfl, rfl, fun _ => rfl, rfl⟩
  delete _ _ _ := ⟨rfl, rfl, fun _ => rfl, rfl⟩
  flush _ _ _ := ⟨rfl, rfl, fun _ => rfl, rfl⟩
  setEvents _ _ _ _ := ⟨rfl, rfl, fun _ => rfl, rfl⟩
  eventsOff _ _ := ⟨rfl, rfl, fun _ => rfl, rfl⟩

/-- What is recorded about object `h` says the same about objects that still exist. -/
def SameRefs (h : Nat) (d d' : Device) : Prop :=
  (AMap.get d.refs h = none → AMap.get d'.refs h = none) ∧
  ∀ l, AMap.get d.refs h = some l → (∀ x ∈ l, x ≤ d.ps.srv.tree.asked) →
    ∃ l', AMap.get d'.refs h = some l' ∧ (∀ x ∈ l', x ∈ l) ∧
      l'.filter d'.ps.srv.tree.has = l.filter d'.ps.srv.tree.has

/-- Some steps later: no handle was given out twice, and the references of `h` are the same. -/
def RefsKept (h : Nat) (d d' : Device) : Prop :=
  d.ps.srv.tree.asked ≤ d'.ps.srv.tree.asked ∧ (ServerOk d.ps.srv → d'.ps.srv.tree.asked < 0xFFFFFFFF →
    ServerOk d'.ps.srv ∧ (∀ x, d'.ps.srv.tree.has x = true → d.ps.srv.tree.asked < x ∨ d.ps.srv.tree.has x = true) ∧
    SameRefs h d d')

theorem SameRefs.same {h : Nat} {d d' : Device} (e : AMap.get d'.refs h = AMap.get d.refs h) : SameRefs h d d' := by
  refine ⟨fun hn => by rw [e]; exact hn, fun l hl _ => ⟨l, by rw [e]; exact hl, fun _ h => h, rfl⟩⟩

theorem RefsKept.refl (h : Nat) (d : Device) : RefsKept h d d :=
  ⟨Nat.le_refl _, fun w _ => ⟨w, fun _ h => Or.inr h, SameRefs.same rfl⟩⟩

theorem RefsKept.trans {h : Nat} {a b c : Device} (h1 : RefsKept h a b) (h2 : RefsKept h b c) : RefsKept h a c := by
  refine ⟨Nat.le_trans h1.1 h2.1, fun w hb => ?_⟩
  obtain ⟨w1, k1, n1, s1⟩ := h1.2 w (Nat.lt_of_le_of_lt h2.1 hb)
  obtain ⟨w2, k2, n2, s2⟩ := h2.2 w1 hb
  have hx : ∀ x, c.ps.srv.tree.has x = true → a.ps.srv.tree.asked < x ∨ a.ps.srv.tree.has x = true := fun x hx => by
    rcases k2 x hx with g | g
    · exact Or.inl (Nat.lt_of_le_of_lt h1.1 g)
    · exact k1 x g
  refine ⟨w2, hx, fun hn => n2 (n1 hn), fun l hl hi => ?_⟩
  obtain ⟨l1, e1, m1, f1⟩ := s1 l hl hi
  obtain ⟨l2, e2, m2, f2⟩ := s2 l1 e1 (fun x hx => Nat.le_trans (hi x (m1 x hx)) h1.1)
  refine ⟨l2, e2, fun x hx => m1 x (m2 x hx), f2.trans ?_⟩
  have key : ∀ m : List Nat, (∀ x ∈ m, x ≤ b.ps.srv.tree.asked) →
      m.filter c.ps.srv.tree.has = (m.filter b.ps.srv.tree.has).filter c.ps.srv.tree.has := by
    intro m hm
    rw [List.filter_filter]
    refine List.filter_congr fun x hx => ?_
    cases e : c.ps.srv.tree.has x with
    | false => rfl
    | true =>
      rcases k2 x e with g | g
      · exact absurd (hm x hx) (by omega)
      · rw [g]; rfl
  rw [key l1 (fun x hx => Nat.le_trans (hi x (m1 x hx)) h1.1), f1, ← key l (fun x hx => Nat.le_trans (hi x hx) h1.1)]

theorem RefsKept.of {h : Nat} {T : Nat → Nat → Prop} {d d' : Device} (st : Server.Steady T d.ps.srv d'.ps.srv) (e : d'.refs = d.refs) :
    RefsKept h d d' :=
  ⟨st.1, fun w hb => ⟨(st.2 w hb).1, fun x hx => ((st.2 w hb).2 x hx).imp id fun g => g.1, SameRefs.same (by rw [e])⟩⟩

theorem get_refs_kept (h : Nat) (d : Device) (x : Nat) : RefsKept h d (d.answerRefs x).1 := by
  have hs : (d.answerRefs x).1.ps = d.ps := by unfold answerRefs; split <;> rfl
  refine ⟨by rw [hs]; exact Nat.le_refl _, fun w _ => ⟨by rw [hs]; exact w, fun y hy => Or.inr (by rw [hs] at hy; exact hy), ?_⟩⟩
  unfold answerRefs
  unfold getObjReferences
  by_cases hh : d.refTree.t.has x = false
  · simp only [if_pos hh]
    exact SameRefs.same rfl
  · rw [if_neg hh]
    unfold RefTree.getRefs
    rw [if_neg hh]
    cases e : AMap.get d.refTree.refs x with
    | none =>
      simp only
      cases transmit 2 0x9810 0 (u32 (([] : List Nat).length * 4 + 4)) [.arr 4 []] with
      | ub u => exact SameRefs.same rfl
      | ok b => exact SameRefs.same rfl
    | some l =>
      simp only
      generalize transmit 2 0x9810 0 _ _ = tr
      cases tr with
      | ub u => exact SameRefs.same rfl
      | ok b =>
        show SameRefs h d { d with refs := AMap.insert d.refs x (l.filter d.ps.srv.tree.has) }
        by_cases hx : h = x
        · subst hx
          have e : AMap.get d.refs h = some l := e
          refine ⟨fun hn => (by rw [hn] at e; cases e), fun l0 hl0 _ => ?_⟩
          rw [hl0] at e
          cases e
          refine ⟨l.filter d.ps.srv.tree.has, by simp only [AMap.get_insert, if_pos], fun y hy => (List.mem_filter.mp hy).1, ?_⟩
          simp [List.filter_filter]
        · refine ⟨fun hn => ?_, fun l0 hl0 _ => ⟨l0, ?_, fun _ h => h, rfl⟩⟩
          · simp only [AMap.get_insert, if_neg hx]; exact hn
          · simp only [AMap.get_insert, if_neg hx]; exact hl0

/-- No step but SetObjectReferences changes what an object refers to. -/
theorem closed_refs {ok : Nat → Prop} (hok : ¬ ok 0x9811) (h : Nat) : Rsp.Closed dev ok (RefsKept h) := by
  have cl : Rsp.Closed dev ok _ := closed_server (ok := ok) PServer.closed_fixed
  exact
  { refl := RefsKept.refl h
    trans := fun _ _ _ => RefsKept.trans
    query := fun d c ps hc => by
      have hs := cl.query d c ps hc
      show RefsKept h d (d.query c ps).1
      have hs : Server.Steady _ d.ps.srv (d.query c ps).1.ps.srv := hs
      by_cases he : c = 0x9810
      · subst he
        show RefsKept h d (d.answerRefs (ps.getD 0 0)).1
        exact get_refs_kept h d _
      · refine RefsKept.of hs ?_
        unfold query
        simp only [if_neg he]
        repeat' split
        all_goals rfl
    copy := fun ho d ps b => RefsKept.of (cl.copy ho d ps b) rfl
    store := fun d c ps b hc => by
      have hs : Server.Steady _ d.ps.srv (d.storeData c ps b).1.ps.srv := cl.store d c ps b hc
      show RefsKept h d (d.storeData c ps b).1
      refine RefsKept.of hs ?_
      unfold storeData
      split
      · unfold setDevProp; split <;> rfl
      split
      · next e => exact absurd (e ▸ hc) hok
      · rfl
    addInfo := fun ho d ps b => RefsKept.of (cl.addInfo ho d ps b) rfl
    addList := fun ho d ps b => RefsKept.of (cl.addList ho d ps b) rfl
    write := fun ho d x b f l => RefsKept.of (cl.write ho d x b f l) rfl
    cut := fun ho d x n => RefsKept.of (cl.cut ho d x n) rfl
    setProps := fun h1 h2 d x b => RefsKept.of (cl.setProps h1 h2 d x b) rfl
    writePartial := fun ho d x o b f l => RefsKept.of (cl.writePartial ho d x o b f l) rfl
    delete := fun ho d x => RefsKept.of (cl.delete ho d x) rfl
    flush := fun ho d x => RefsKept.of (cl.flush ho d x) rfl
    setEvents := fun ho d x b => RefsKept.of (cl.setEvents ho d x b) rfl
    eventsOff := fun ho d => RefsKept.of (cl.eventsOff ho d) rfl }

/-! ### Histories -/

theorem avoiding_using {avoid : List Nat} {i : Rsp.In Device} (h : Avoiding avoid i) : Rsp.Using (· ∉ avoid) i := by
  cases i <;> first | exact h | exact h.elim

/-- What every step of a history respects. -/
theorem lived_along {R : Device → Device → Prop} {avoid : List Nat} (cl : Rsp.Closed dev (· ∉ avoid) R)
    (hw : ∀ (d : Device) (c : Cache (Option Val)) (v : Option StatVfs), R d { d with ps := { d.ps with cache := c }, stat := v })
    (hb : ∀ (d : Device) (n : Int), R d { d with props := d.props.batteryChanged n })
    {d0 : Device} {r r' : Rsp Device} (ha : Rsp.Along (· ∉ avoid) R d0 r) (ht : Elapsed avoid r r') :
    Rsp.Along (· ∉ avoid) R d0 r' := by
  induction ht with
  | start => exact ha
  | step _ hi hs ih => exact Rsp.Along.input cl ih _ (avoiding_using hi) hs
  | @drop r1 h p _ ih => exact ih.step cl (hw r1.dev (r1.dev.ps.cache.remove h p) r1.dev.stat)
  | @battery r1 n _ ih => exact ih.step cl (hb r1.dev n)
  | @space r1 v _ ih => exact ih.step cl (hw r1.dev r1.dev.ps.cache v)

/-- The same for what dropping cached values respects. -/
theorem lived_along' {R : Device → Device → Prop} {avoid : List Nat} (cl : Rsp.Closed dev (· ∉ avoid) R)
    (hd : ∀ (d : Device) (h p : Nat), R d { d with ps := { d.ps with cache := d.ps.cache.remove h p } })
    (hw : ∀ (d : Device) (v : Option StatVfs), R d { d with stat := v })
    (hb : ∀ (d : Device) (n : Int), R d { d with props := d.props.batteryChanged n })
    {d0 : Device} {r r' : Rsp Device} (ha : Rsp.Along (· ∉ avoid) R d0 r) (ht : Elapsed avoid r r') :
    Rsp.Along (· ∉ avoid) R d0 r' := by
  induction ht with
  | start => exact ha
  | step _ hi hs ih => exact Rsp.Along.input cl ih _ (avoiding_using hi) hs
  | @drop r1 h p _ ih => exact ih.step cl (hd r1.dev h p)
  | @battery r1 n _ ih => exact ih.step cl (hb r1.dev n)
  | @space r1 v _ ih => exact ih.step cl (hw r1.dev v)

theorem along_open {R : Device → Device → Prop} {avoid : List Nat} (cl : Rsp.Closed dev (· ∉ avoid) R) (hl : 0x9808 ∉ avoid)
    {r : Rsp Device} (ho : r.req = none) : Rsp.Along (· ∉ avoid) R r.dev r :=
  ⟨cl.refl _, (fun q e => by rw [ho] at e; cases e), fun _ _ => hl⟩

/-! ### Transactions -/

/-- A request answered with one dataset. -/
theorem told (r : Rsp Device) (ho : Open r) (q : List UInt8) (code : Nat) (hq : Asking q code) (l : List Nat)
    (hk : opKind code = some (.query l)) (hd : hasDataPhase code = false) (d' : Device) (bytes p : List UInt8)
    (he : dev.query r.dev code (cParams q) = (d', Server.oneFrame (.ok (some bytes, .ok)))) (hp : payload code 0 bytes = some p) :
    ∃ r', AnsweredBy dev r r' (ask q) q .ok [] ∧ dataOf r'.out = dataOf r.out ++ p ∧ r'.dev = d' ∧ bytes = dataContainer code 0 p := by
  obtain ⟨p1, p2⟩ := Server.payload_container hp
  obtain ⟨r', a1, a2, a3⟩ := Server.query_answer_by dev r ho q code hq l hk hd .ok [] (by rw [he]; rfl)
  refine ⟨r', a1, ?_, by rw [a2, he], p1⟩
  rw [a3, he]
  simp [Server.oneFrame, p2]

/-- A request refused. -/
theorem untold (r : Rsp Device) (ho : Open r) (q : List UInt8) (code : Nat) (hq : Asking q code) (l : List Nat)
    (hk : opKind code = some (.query l)) (hd : hasDataPhase code = false) (c : Resp) (d' : Device)
    (he : dev.query r.dev code (cParams q) = (d', Server.oneFrame (.ok (none, c)))) :
    ∃ r', AnsweredBy dev r r' (ask q) q c [] ∧ dataOf r'.out = dataOf r.out ∧ r'.dev = d' := by
  obtain ⟨r', a1, a2, a3⟩ := Server.query_answer_by dev r ho q code hq l hk hd c [] (by rw [he]; rfl)
  refine ⟨r', a1, ?_, by rw [a2, he]⟩
  rw [a3, he]
  simp [Server.oneFrame]

/-- What arrives of a dataset. -/
theorem collected (code tid : Nat) (pay : List UInt8) (hl : pay.length ≤ 2 ^ 30) :
    ∃ rx, collect (dataContainer code tid pay) [] = .ok rx ∧ Props.Arrives (dataContainer code tid pay) rx := by
  generalize hc : dataContainer code tid pay = c
  have hcl : c.length = 12 + pay.length := by rw [← hc]; unfold dataContainer; rw [List.length_append, header_length]
  obtain ⟨r, e, -⟩ := Props.framed_collect (c := c) (p := c) (ps := [])
    (by rw [← hc]; exact Props.container_framed _ _ _ hl) (by simp) (by omega)
  exact ⟨r, e, c, [], by simp, by omega, e⟩

theorem arr_length (l : List Nat) : (enc (.arr 4 l)).length = 4 + 4 * l.length := by
  have key : ∀ l : List Nat, (l.flatMap (intBytes 4)).length = 4 * l.length := by
    intro l
    induction l with
    | nil => rfl
    | cons a l ih => simp only [List.flatMap_cons, List.length_append, ih, intBytes_length, List.length_cons]; omega
  simp only [enc, List.length_append, intBytes_length, key]

theorem store_refs (d : Device) (ps : List Nat) (b : List UInt8) : dev.store d 0x9811 ps b = d.setReferences (ps.getD 0 0) b := by
  unfold dev
  simp only [storeData]
  rw [if_neg (by decide), if_pos trivial]

theorem store_prop (d : Device) (ps : List Nat) (b : List UInt8) : dev.store d 0x1016 ps b = d.setDevProp (ps.getD 0 0) b := by
  unfold dev
  simp only [storeData]
  rw [if_pos trivial]

/-- SetObjectReferences. -/
theorem set_refs (r : Rsp Device) (ho : Open r) {q : List UInt8} {bs : List (List UInt8)} {h : Nat} {l : List Nat}
    (hs : SettingRefs q bs h l) :
    ∃ r', AnsweredBy dev r r' (sendObject q bs) q (r.dev.refTree.setRefs h l).2 [] ∧ dataOf r'.out = dataOf r.out ∧
      r'.dev = { r.dev with refs := (r.dev.refTree.setRefs h l).1.refs } := by
  have hlen : (enc (.arr 4 l)).length ≤ 2 ^ 30 := by rw [arr_length]; have := hs.short; omega
  obtain ⟨rx, e, ha⟩ := collected 0x9811 (cTid q) _ hlen
  have hg := Rx.getArr_at (post := []) (by rw [List.append_nil]; exact Props.arrives_at ha hlen) (by have := hs.short; omega) hs.handles
  have hst : dev.store r.dev 0x9811 (cParams q) (dataContainer 0x9811 (cTid q) (enc (.arr 4 l))) =
      ({ r.dev with refs := (r.dev.refTree.setRefs h l).1.refs }, (r.dev.refTree.setRefs h l).2, []) := by
    rw [store_refs, show (cParams q).getD 0 0 = cParam q 0 from rfl, hs.object]
    unfold setReferences setObjReferencesData
    rw [e, Res.bind_ok, hg]
    rfl
  obtain ⟨r', a1, a2, a3⟩ := Server.set_answer_by dev r ho q 0x9811 hs.ask false rfl rfl _ bs hs.data hlen (fun h => by cases h)
  rw [hst] at a1 a2
  exact ⟨r', a1, a3, a2⟩

/-- GetObjectReferences. -/
theorem get_refs (r : Rsp Device) (ho : Open r) {q : List UInt8} (hq : Asking q 0x9810)
    (hh : r.dev.ps.srv.tree.has (cParam q 0) = true) (l : List Nat)
    (hl : (((AMap.get r.dev.refs (cParam q 0)).getD []).filter r.dev.ps.srv.tree.has) = l) (hn : l.length ≤ 2 ^ 27)
    (hv : ∀ x ∈ l, x < 2 ^ 32) :
    ∃ r' b, AnsweredBy dev r r' (ask q) q .ok [] ∧ dataOf r'.out = dataOf r.out ++ b ∧
      readHandles 0x9810 0 (dataContainer 0x9810 0 b) = some l := by
  obtain ⟨bytes, e, hread⟩ := Props.handles_read 0x9810 0 (u32 (l.length * 4 + 4)) l hn hv
    (by unfold u32; exact Nat.le_trans (Nat.mod_le _ _) (by omega))
  obtain ⟨d', hqu⟩ : ∃ d', dev.query r.dev 0x9810 (cParams q) = (d', Server.oneFrame (.ok (some bytes, .ok))) := by
    show ∃ d', r.dev.answerRefs (cParam q 0) = _
    unfold answerRefs getObjReferences
    rw [if_neg (by show ¬ r.dev.ps.srv.tree.has (cParam q 0) = false; rw [hh]; decide)]
    unfold RefTree.getRefs
    rw [if_neg (by show ¬ r.dev.ps.srv.tree.has (cParam q 0) = false; rw [hh]; decide)]
    cases eg : AMap.get r.dev.refs (cParam q 0) with
    | none =>
      rw [eg] at hl
      have hl : [] = l := hl
      subst hl
      rw [show AMap.get r.dev.refTree.refs (cParam q 0) = none from eg]
      simp only [e]
      exact ⟨_, rfl⟩
    | some l0 =>
      rw [eg] at hl
      have hl : l0.filter r.dev.ps.srv.tree.has = l := hl
      rw [show AMap.get r.dev.refTree.refs (cParam q 0) = some l0 from eg]
      simp only [show r.dev.refTree.t.has = r.dev.ps.srv.tree.has from rfl, hl, e]
      exact ⟨_, rfl⟩
  obtain ⟨p, hp⟩ : ∃ p, payload 0x9810 0 bytes = some p := by
    cases hp : payload 0x9810 0 bytes with
    | some p => exact ⟨p, rfl⟩
    | none =>
      unfold readHandles readDataset at hread
      rw [hp] at hread
      cases hread
  obtain ⟨r', a1, a2, _, a4⟩ := told r ho q 0x9810 hq [] rfl rfl d' bytes p hqu hp
  exact ⟨r', p, a1, a2, by rw [← a4]; exact hread⟩

theorem setRefs_done (d : Device) {h : Nat} {l : List Nat} (hh : d.ps.srv.tree.has h = true) (hl : ∀ x ∈ l, d.ps.srv.tree.has x = true) :
    (d.refTree.setRefs h l).2 = .ok ∧ (d.refTree.setRefs h l).1.refs = AMap.insert d.refs h l := by
  have h1 : ¬ d.refTree.t.has h = false := by show ¬ d.ps.srv.tree.has h = false; rw [hh]; decide
  have h2 : l.all d.refTree.t.has = true := List.all_eq_true.mpr hl
  unfold RefTree.setRefs
  rw [if_neg h1, if_pos h2]
  exact ⟨rfl, rfl⟩

theorem setRefs_none (d : Device) {h : Nat} {l : List Nat} (hh : d.ps.srv.tree.has h = false) :
    (d.refTree.setRefs h l).2 = .invalidObjectHandle ∧ (d.refTree.setRefs h l).1.refs = d.refs := by
  have h1 : d.refTree.t.has h = false := hh
  unfold RefTree.setRefs
  rw [if_pos h1]
  exact ⟨rfl, rfl⟩

theorem setRefs_bad (d : Device) {h : Nat} {l : List Nat} (hh : d.ps.srv.tree.has h = true) (hl : ∃ x ∈ l, d.ps.srv.tree.has x = false) :
    (d.refTree.setRefs h l).2 = .invalidObjRef ∧ (d.refTree.setRefs h l).1.refs = d.refs := by
  have h1 : ¬ d.refTree.t.has h = false := by show ¬ d.ps.srv.tree.has h = false; rw [hh]; decide
  have h2 : ¬ l.all d.refTree.t.has = true := by
    intro hall
    obtain ⟨x, hx, hn⟩ := hl
    have : d.ps.srv.tree.has x = true := List.all_eq_true.mp hall x hx
    rw [hn] at this
    cases this
  unfold RefTree.setRefs
  rw [if_neg h1, if_neg h2]
  exact ⟨rfl, rfl⟩

theorem answer_unique' {r r1 r2 : Rsp Device} {is : List (Rsp.In Device)} {q : List UInt8} {c : Resp} {ps : List Nat}
    (a : AnsweredBy dev r r1 is q c ps) (e : r.run dev is = .ok r2) : r2 = r1 := by
  have := a.run.symm.trans e
  cases this
  rfl

/-- The references of `h` through a history that sets none. -/
theorem refs_history {h : Nat} {r r' : Rsp Device} (hr : r.req = none) (t : Referring h r r') :
    Rsp.Along (· ∉ [0x9811]) (RefsKept h) r.dev r' := by
  have cl : Rsp.Closed dev (· ∉ [0x9811]) (RefsKept h) := closed_refs (by simp) h
  induction t with
  | start => exact along_open cl (by decide) hr
  | lived _ l ih =>
    exact lived_along cl (fun d c v => RefsKept.of (T := fun _ _ => True) (Server.Steady.refl _ _) rfl)
      (fun d n => RefsKept.of (T := fun _ _ => True) (Server.Steady.refl _ _) rfl) ih l
  | @other r1 r2 q bs x l _ ho hs hx hrun ih =>
    obtain ⟨r3, a1, _, a3⟩ := set_refs r1 ho hs
    have e := answer_unique' a1 hrun
    subst e
    refine ⟨ih.dev.trans ?_, (fun q e => by rw [a1.again.none] at e; cases e), fun _ _ => by decide⟩
    rw [a3]
    refine ⟨Nat.le_refl _, fun w _ => ⟨w, fun _ h => Or.inr h, SameRefs.same ?_⟩⟩
    show AMap.get (r1.dev.refTree.setRefs x l).1.refs h = AMap.get r1.dev.refs h
    unfold RefTree.setRefs
    split
    · rfl
    · split
      · next h2 =>
        rcases hx with hx | ⟨y, hy, hn⟩
        · show AMap.get (AMap.insert r1.dev.refs x l) h = _
          rw [AMap.get_insert, if_neg (fun e => hx e.symm)]
        · have := List.all_eq_true.mp h2 y hy
          rw [show r1.dev.refTree.t.has y = r1.dev.ps.srv.tree.has y from rfl, hn] at this
          cases this
      · rfl

/-- Objects and disk agree at any time. -/
theorem lived_ok {r r' : Rsp Device} (hr : r.req = none) (w : ServerOk r.dev.ps.srv) (t : Elapsed [] r r')
    (hb : r'.dev.ps.srv.tree.asked < 0xFFFFFFFF) : ServerOk r'.dev.ps.srv := by
  have cl : Rsp.Closed dev (· ∉ []) _ := closed_server PServer.closed_fixed
  have := lived_along cl (fun d c v => Server.Steady.refl _ _) (fun d n => Server.Steady.refl _ _) (along_open cl (by simp) hr) t
  exact (this.dev.2 w hb).1

/-! ### Device properties -/

/-- The device's properties went through steps that do not touch `p`. -/
def PropSteps (P : DevOp → Prop) (d d' : Device) : Prop :=
  ∃ ops : List DevOp, (∀ op ∈ ops, P op) ∧ d'.props = ops.foldl DevState.step d.props

theorem PropSteps.refl (P : DevOp → Prop) (d : Device) : PropSteps P d d := ⟨[], by simp, rfl⟩

theorem PropSteps.trans {P : DevOp → Prop} {a b c : Device} (h1 : PropSteps P a b) (h2 : PropSteps P b c) : PropSteps P a c := by
  obtain ⟨o1, p1, e1⟩ := h1
  obtain ⟨o2, p2, e2⟩ := h2
  refine ⟨o1 ++ o2, fun op ho => ?_, by rw [e2, e1, List.foldl_append]⟩
  rcases List.mem_append.mp ho with h | h
  · exact p1 op h
  · exact p2 op h

theorem PropSteps.same {P : DevOp → Prop} {d d' : Device} (e : d'.props = d.props) : PropSteps P d d' := ⟨[], by simp, e⟩

theorem PropSteps.one {P : DevOp → Prop} {d d' : Device} (op : DevOp) (ho : P op) (e : d'.props = d.props.step op) : PropSteps P d d' :=
  ⟨[op], by simpa using ho, e⟩

/-- What SetDevicePropValue does to them. -/
theorem setDevProp_props (d : Device) (p : Nat) (b : List UInt8) :
    ((d.setDevProp p b).1.props = d.props ∨ ∃ rx, (d.setDevProp p b).1.props = d.props.step (.set p rx)) ∧
    (d.setDevProp p b).2.2 = [] := by
  unfold setDevProp
  cases collect b [] with
  | ub u => exact ⟨Or.inl rfl, rfl⟩
  | ok rx =>
    rw [Res.bind_ok]
    by_cases hq : setDevicePropValueReq d.props p = .ok
    · have hst : d.props.step (.set p rx) = match setDevicePropValueData d.props .ok p rx with
          | .ok (s', _) => s'
          | .ub _ => d.props := by
        show (match setDevicePropValueData d.props (setDevicePropValueReq d.props p) p rx with
          | .ok (s', _) => s'
          | .ub _ => d.props) = _
        rw [hq]
      cases e : setDevicePropValueData d.props .ok p rx with
      | ub u => exact ⟨Or.inl rfl, rfl⟩
      | ok x => exact ⟨Or.inr ⟨rx, by rw [hst, e]⟩, rfl⟩
    · have h1 : u16 p ≠ 0xD402 ∧ u16 p ≠ 0xD401 := by
        constructor
        · intro e
          exact hq (by unfold setDevicePropValueReq; rw [e]; rfl)
        · intro e
          exact hq (by unfold setDevicePropValueReq; rw [e]; rfl)
      unfold setDevicePropValueData
      rw [if_pos rfl, if_neg h1.1, if_neg h1.2]
      exact ⟨Or.inl rfl, rfl⟩

theorem closed_props {ok : Nat → Prop} {P : DevOp → Prop} (hs : ok 0x1016 → ∀ p rx, P (.set p rx)) :
    Rsp.Closed dev ok (PropSteps P) where
  refl := PropSteps.refl P
  trans _ _ _ := PropSteps.trans
  query d c ps h := by
    refine PropSteps.same ?_
    show (d.query c ps).1.props = _
    unfold query
    simp only
    repeat' split
    all_goals first
      | rfl
      | (unfold answerRefs; split <;> rfl)
  copy h d ps b := PropSteps.same rfl
  store d c ps b h := by
    show PropSteps P d (d.storeData c ps b).1
    unfold storeData
    split
    · next e =>
      rcases (setDevProp_props d (ps.getD 0 0) b).1 with e1 | ⟨rx, e1⟩
      · exact PropSteps.same e1
      · exact PropSteps.one _ (hs (e ▸ h) _ rx) e1
    split
    · refine PropSteps.same ?_
      unfold setReferences
      split <;> rfl
    · exact PropSteps.same rfl
  addInfo _ _ _ _ := PropSteps.same rfl
  addList _ _ _ _ := PropSteps.same rfl
  write _ _ _ _ _ _ := PropSteps.same rfl
  cut _ _ _ _ := PropSteps.same rfl
  setProps _ _ _ _ _ := PropSteps.same rfl
  writePartial _ _ _ _ _ _ _ := PropSteps.same rfl
  delete _ _ _ := PropSteps.same rfl
  flush _ _ _ := PropSteps.same rfl
  setEvents _ _ _ _ := PropSteps.same rfl
  eventsOff _ _ := PropSteps.same rfl

/-- SetDevicePropValue. -/
theorem set_prop (r : Rsp Device) (ho : Open r) {q : List UInt8} {bs : List (List UInt8)} {p : Nat} {pay : List UInt8}
    (hs : SettingProp q bs p pay) (hc : setDevicePropValueReq r.dev.props p = .ok) :
    ∃ r', AnsweredBy dev r r' (sendObject q bs) q (r.dev.setDevProp p (dataContainer 0x1016 (cTid q) pay)).2.1 [] ∧
      r'.dev = (r.dev.setDevProp p (dataContainer 0x1016 (cTid q) pay)).1 := by
  obtain ⟨r', a1, a2, _⟩ := Server.set_answer_by dev r ho q 0x1016 hs.ask true rfl rfl pay bs hs.data hs.short (fun _ => by
    show setDevicePropValueReq r.dev.props (cParam q 0) = _
    rw [hs.prop]; exact hc)
  rw [store_prop, show (cParams q).getD 0 0 = cParam q 0 from rfl, hs.prop] at a1 a2
  rw [(setDevProp_props r.dev p _).2] at a1
  exact ⟨r', a1, a2⟩

theorem set_prop_refused (r : Rsp Device) (ho : Open r) {q : List UInt8} {bs : List (List UInt8)} {p : Nat} {pay : List UInt8}
    (hs : SettingProp q bs p pay) (c : Resp) (hc : setDevicePropValueReq r.dev.props p = c) (hn : c ≠ .ok) :
    ∃ r', AnsweredBy dev r r' (sendObject q bs) q c [] ∧ r'.dev = r.dev := by
  refine Server.set_refused_by dev r ho q 0x1016 hs.ask rfl rfl bs ?_ c ?_ hn
  · rintro rfl
    obtain ⟨⟨b, hb, _⟩, _⟩ := hs.data
    cases hb
  · show setDevicePropValueReq r.dev.props (cParam q 0) = _
    rw [hs.prop]; exact hc

/-- Any history. -/
theorem lived_props {r r' : Rsp Device} (hr : r.req = none) (t : Elapsed [] r r') : PropSteps (fun _ => True) r.dev r'.dev := by
  have cl : Rsp.Closed dev (· ∉ []) (PropSteps fun _ => True) := closed_props fun _ _ _ => trivial
  exact (lived_along cl (fun _ _ _ => PropSteps.same rfl) (fun _ n => PropSteps.one (.battery n) trivial rfl) (along_open cl (by simp) hr) t).dev

/-- A history that does not set `p`. -/
theorem leaving_props {p : Nat} (hp : p ≠ 0x5001) {r r' : Rsp Device} (hr : r.req = none) (t : Leaving p r r') :
    Rsp.Along (· ∉ [0x1016]) (PropSteps fun op => ¬ Props.DevOp.Touches p op) r.dev r' := by
  have cl : Rsp.Closed dev (· ∉ [0x1016]) (PropSteps fun op => ¬ Props.DevOp.Touches p op) := closed_props fun h => absurd h (by simp)
  induction t with
  | start => exact along_open cl (by decide) hr
  | lived _ l ih =>
    exact lived_along cl (fun _ _ _ => PropSteps.same rfl) (fun _ n => PropSteps.one (.battery n) (fun h => hp h) rfl) ih l
  | @other r1 r2 q bs x pay _ ho hs hx hrun ih =>
    have fin : ∀ {c : Resp} {r3 : Rsp Device}, AnsweredBy dev r1 r3 (sendObject q bs) q c [] →
        PropSteps (fun op => ¬ Props.DevOp.Touches p op) r1.dev r3.dev →
        Rsp.Along (· ∉ [0x1016]) (PropSteps fun op => ¬ Props.DevOp.Touches p op) r.dev r2 := by
      intro c r3 a h
      have e := answer_unique' a hrun
      subst e
      exact ⟨ih.dev.trans h, (fun q e => by rw [a.again.none] at e; cases e), fun _ _ => by decide⟩
    by_cases hc : setDevicePropValueReq r1.dev.props x = .ok
    · obtain ⟨r3, a1, a2⟩ := set_prop r1 ho hs hc
      refine fin a1 ?_
      rw [a2]
      rcases (setDevProp_props r1.dev x (dataContainer 0x1016 (cTid q) pay)).1 with e | ⟨rx, e⟩
      · exact PropSteps.same e
      · exact PropSteps.one _ (fun h => hx (by first | exact h | (unfold Props.DevOp.Touches at h; exact h))) e
    · obtain ⟨r3, a1, a2⟩ := set_prop_refused r1 ho hs _ rfl hc
      exact fin a1 (PropSteps.same (by rw [a2]))

theorem ops_ok (ops : List DevOp) : ∀ s : DevState, Props.DevOk s → Props.DevOk (ops.foldl DevState.step s) := by
  intro s h
  obtain ⟨_, _, _, e1, e2, _⟩ := Props.C66_value_lasts s ops
  refine ⟨?_, by rw [e2]; exact h.devType, by rw [e1]; exact h.icon⟩
  clear e1 e2
  have key : ∀ (ops : List DevOp) (s : DevState), s.battery < 256 → (ops.foldl DevState.step s).battery < 256 := by
    intro ops
    induction ops with
    | nil => exact fun _ h => h
    | cons op ops ih =>
      intro s h
      refine ih _ ?_
      cases op with
      | describe => exact h
      | value => exact h
      | set p rx =>
        show (s.step (.set p rx)).battery < 256
        unfold DevState.step setDevicePropValueData
        simp only
        by_cases h1 : setDevicePropValueReq s p = .ok
        · rw [if_pos h1]
          by_cases h2 : u16 p = 0xD402
          · rw [if_pos h2]
            cases rx.getStr with
            | ub w => exact h
            | ok q => exact h
          · rw [if_neg h2]
            by_cases h3 : u16 p = 0xD401
            · rw [if_pos h3]
              cases rx.getStr with
              | ub w => exact h
              | ok q => exact h
            · rw [if_neg h3]; exact h
        · rw [if_neg h1]; exact h
      | battery n =>
        unfold DevState.step DevState.batteryChanged
        simp only
        split
        · split
          · show u8 _ < 256
            unfold u8; omega
          · exact h
        · exact h
  exact key ops s h.battery

/-- GetDevicePropValue. -/
theorem get_prop (r : Rsp Device) (ho : Open r) {p dt : Nat} {v : Val} (h : toldDevValue r.dev.props p dt v) : TellsProp r p dt v := by
  intro q hq hp
  obtain ⟨bytes, e, hr⟩ := h 0
  obtain ⟨x, hx⟩ : ∃ x, payload 0x1015 0 bytes = some x := by
    cases hx : payload 0x1015 0 bytes with
    | some x => exact ⟨x, rfl⟩
    | none =>
      unfold readValue at hr
      rw [hx] at hr
      cases hr
  have hqu : dev.query r.dev 0x1015 (cParams q) = (r.dev, Server.oneFrame (.ok (some bytes, .ok))) := by
    rw [← e, ← hp]; rfl
  obtain ⟨r', a1, a2, a3, a4⟩ := told r ho q 0x1015 hq [] rfl rfl r.dev bytes x hqu hx
  exact ⟨r', x, a1, a2, a3, by rw [← a4]; exact hr⟩

/-- GetDevicePropDesc. -/
theorem get_desc (r : Rsp Device) (ho : Open r) {p : Nat} {d : DevPropDesc} (h : toldDesc r.dev.props p d) : Describes r p d := by
  intro q hq hp
  obtain ⟨bytes, e, hr⟩ := h 0
  obtain ⟨x, hx⟩ : ∃ x, payload 0x1014 0 bytes = some x := by
    cases hx : payload 0x1014 0 bytes with
    | some x => exact ⟨x, rfl⟩
    | none =>
      unfold readDevDesc at hr
      rw [hx] at hr
      cases hr
  have hqu : dev.query r.dev 0x1014 (cParams q) = (r.dev, Server.oneFrame (.ok (some bytes, .ok))) := by
    rw [← e, ← hp]; rfl
  obtain ⟨r', a1, a2, a3, a4⟩ := told r ho q 0x1014 hq [] rfl rfl r.dev bytes x hqu hx
  exact ⟨r', x, a1, a2, a3, by rw [← a4]; exact hr⟩

end Device
end Mtp
