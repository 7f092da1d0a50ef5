import Verif.Lemmas.DeviceRefs
import Verif.Props.DeviceStart
/-! Property theorems C114: the references of the device, across restarts. -/
namespace Props
open Mtp Spec
open Mtp.Device (naming_order naming_elapsed naming_weaken lived_along along_open closed_server booted_ids)

/-- The command that asks for the references of `h`. -/
theorem refs_cmd {h : Nat} (hh : h < 2 ^ 32) : Asking (Toy.cmd 0x9810 1 [h]) 0x9810 ∧ cParam (Toy.cmd 0x9810 1 [h]) 0 = h := by
  have e : Toy.cmd 0x9810 1 [h] = [16, 0, 0, 0, 1, 0, 0x10, 0x98, 1, 0, 0, 0] ++ leBytes 4 h := by
    unfold Toy.cmd
    simp only [List.flatMap_cons, List.flatMap_nil, List.append_nil]
    rw [show 12 + 4 * [h].length = 16 from rfl]
    congr 1
  rw [e]
  have hl : ([16, 0, 0, 0, 1, 0, 0x10, 0x98, 1, 0, 0, 0] ++ leBytes 4 h : List UInt8).length = 16 := by
    rw [List.length_append, leBytes_length]; rfl
  refine ⟨⟨?_, ?_⟩, ?_⟩
  · unfold cCode
    rw [Server.rd_append _ _ _ _ (by decide)]
    decide
  · unfold cTid
    rw [Server.rd_append _ _ _ _ (by decide)]
    decide
  · unfold cParam cParams
    rw [show List.range 5 = [0, 1, 2, 3, 4] from rfl]
    simp only [List.map_cons, List.getD_cons_zero, Nat.mul_zero, Nat.add_zero]
    rw [if_pos (by rw [hl]; decide)]
    unfold rd
    rw [List.drop_left' (by rfl), List.take_of_length_le (Nat.le_of_eq (leBytes_length 4 h)), leVal_leBytes]
    exact Nat.mod_eq_of_lt hh

/-- What the device tells about the references of `h` is what it knows. -/
theorem told_refs (r : Rsp Device) (ho : Open r) (w : ServerOk r.dev.ps.srv) (hb : r.dev.ps.srv.tree.asked < 0xFFFFFFFF) {h : Nat}
    (hh : r.dev.ps.srv.tree.has h = true) (hw : WritableRefs r.dev) {l : List Nat} (ht : TellsRefs r h l) :
    l = ((AMap.get r.dev.refs h).getD []).filter r.dev.ps.srv.tree.has := by
  have h32 : ∀ x, r.dev.ps.srv.tree.has x = true → x < 2 ^ 32 := fun x hx => by
    have := PServer.has_issued w hx; omega
  obtain ⟨c1, c2⟩ := refs_cmd (h32 h hh)
  obtain ⟨r1, b1, a1, a2, a3⟩ := ht _ c1 c2
  have hn : (((AMap.get r.dev.refs (cParam (Toy.cmd 0x9810 1 [h]) 0)).getD []).filter r.dev.ps.srv.tree.has).length ≤ 2 ^ 27 := by
    refine Nat.le_trans (List.length_filter_le _ _) ?_
    rw [c2]
    cases e : AMap.get r.dev.refs h with
    | none => simp
    | some l0 => exact hw.lists _ (AMap.mem_of_get e)
  obtain ⟨r2, b2, e1, e2, e3⟩ := Device.get_refs r ho c1 (by rw [c2]; exact hh) _ rfl hn fun x hx => h32 x (List.mem_filter.mp hx).2
  rw [c2] at e3
  have := Device.answer_unique' e1 a1.run
  subst this
  rw [a2] at e2
  have := List.append_cancel_left e2
  subst this
  rw [a3] at e3
  exact Option.some.inj e3

/-- C114. The file found at a path: there is at most one. -/
theorem C114_found (r : Rsp Device) (w : ServerOk r.dev.ps.srv) (p : Path) (y : Nat) :
    fileFound r.dev.ps.srv p = some y ↔ Lies r y p ∧ IsFile r.dev.ps.srv y := by
  unfold fileFound
  constructor
  · intro h
    cases e : r.dev.ps.srv.tree.items.find? (fun e => decide (e.2.path = p ∧ e.2.fmt ≠ ASSOC)) with
    | none => rw [e] at h; cases h
    | some x =>
      rw [e] at h
      cases h
      have hm := List.mem_of_find?_eq_some e
      have hp := List.find?_some e
      simp only [decide_eq_true_eq] at hp
      have g := Server.get_of_mem w.wf (h := x.1) (it := x.2) hm
      exact ⟨⟨_, g, hp.1⟩, ⟨_, g, hp.2⟩⟩
  · rintro ⟨⟨it, g, hp⟩, ⟨it', g', hf⟩⟩
    rw [g] at g'; cases g'
    cases e : r.dev.ps.srv.tree.items.find? (fun e => decide (e.2.path = p ∧ e.2.fmt ≠ ASSOC)) with
    | none =>
      have := List.find?_eq_none.mp e (y, it) (AMap.mem_of_get g)
      simp [hp, hf] at this
    | some x =>
      have hm := List.mem_of_find?_eq_some e
      have hx := List.find?_some e
      simp only [decide_eq_true_eq] at hx
      have g2 := Server.get_of_mem w.wf (h := x.1) (it := x.2) hm
      have := w.wf.inj g2 g (hx.1.trans hp.symm)
      rw [Option.map_some, this]

theorem fileAt_found (r : Rsp Device) (w : ServerOk r.dev.ps.srv) (p : Path) : fileAt r.dev.ps.srv.tree p = fileFound r.dev.ps.srv p := by
  have key : ∀ y, fileAt r.dev.ps.srv.tree p = some y ↔ Lies r y p ∧ IsFile r.dev.ps.srv y := by
    intro y
    unfold fileAt Tree.findByPath
    cases hq : AMap.get r.dev.ps.srv.tree.paths p with
    | none =>
      refine ⟨fun h => (by cases h), fun ⟨⟨it, g, hp⟩, _⟩ => ?_⟩
      have := w.wf.pathOf y it g
      rw [hp, hq] at this
      cases this
    | some h =>
      obtain ⟨it, g, hpath⟩ := w.wf.ofPath p h hq
      simp only [Tree.has, g, Option.isSome_some, if_true, Option.bind_some]
      by_cases hf : it.fmt = ASSOC
      · rw [if_pos hf]
        refine ⟨fun h => (by cases h), fun ⟨⟨it1, g1, hp⟩, ⟨it2, g2, hf2⟩⟩ => ?_⟩
        rw [g1] at g2; cases g2
        have := w.wf.inj g1 g (hp.trans hpath.symm)
        subst this
        rw [g] at g1; cases g1
        exact absurd hf hf2
      · rw [if_neg hf]
        constructor
        · intro e
          cases e
          exact ⟨⟨it, g, hpath⟩, ⟨it, g, hf⟩⟩
        · rintro ⟨⟨it1, g1, hp⟩, _⟩
          rw [w.wf.inj g1 g (hp.trans hpath.symm)]
  cases h : fileFound r.dev.ps.srv p with
  | some y => exact (key y).mpr ((C114_found r w p y).mp h)
  | none =>
    cases h2 : fileAt r.dev.ps.srv.tree p with
    | none => rfl
    | some y =>
      have := (C114_found r w p y).mpr ((key y).mp h2)
      rw [h] at this; cases this

theorem found_exists {re s0 : Rsp Device} (ws : ServerOk s0.dev.ps.srv) (m : List Nat) :
    ∀ x ∈ foundAgain re s0 m, s0.dev.ps.srv.tree.has x = true := by
  intro x hx
  unfold foundAgain at hx
  rw [List.mem_filterMap] at hx
  obtain ⟨y, _, hy⟩ := hx
  cases gy : re.dev.ps.srv.tree.get y with
  | none => rw [gy] at hy; cases hy
  | some iy =>
    rw [gy] at hy
    obtain ⟨⟨ix, g, _⟩, _⟩ := (C114_found s0 ws iy.path x).mp hy
    exact has_iff.mpr ⟨ix, g⟩

theorem found_congr {α β : Type} {f g : α → Option β} : ∀ (m : List α), (∀ x ∈ m, f x = g x) → m.filterMap f = m.filterMap g
  | [], _ => rfl
  | a :: m, h => by
    have e := found_congr m fun x hx => h x (List.mem_cons_of_mem _ hx)
    rw [List.filterMap_cons, List.filterMap_cons, h a List.mem_cons_self, e]

/-- Only what exists counts. -/
theorem found_known (re s0 : Rsp Device) {m : List Nat} {f : Nat → Bool}
    (hf : ∀ x ∈ m, re.dev.ps.srv.tree.has x = true → f x = true) : foundAgain re s0 (m.filter f) = foundAgain re s0 m := by
  unfold foundAgain
  rw [List.filterMap_filter]
  refine found_congr _ fun x hx => ?_
  cases gx : re.dev.ps.srv.tree.get x with
  | none => simp
  | some ix => rw [if_pos (hf x hx (has_iff.mpr ⟨ix, gx⟩))]

theorem found_filter (re s0 : Rsp Device) (m : List Nat) :
    foundAgain re s0 (m.filter re.dev.ps.srv.tree.has) = foundAgain re s0 m := found_known re s0 fun _ _ => id

/-- C114. Over a restart: a file (no playlist) that is found again has references to exactly those objects it referred to that are
found again as files. Missing: folders and playlists (`C57_folder_violated`, `C57_playlist_violated`), several storages
(`C57_shared_file_violated`), and as in C113. -/
theorem C114_references_partial (r0 r re s0 s : Rsp Device) (e : Setting) (hb0 : Booted r0) (ht : Naming [] r0 r) (ho : Open r)
    (hwr : WritableRefs r.dev) (h : Nat) (l : List Nat) (hh : r.dev.ps.srv.tree.has h = true) (htell : TellsRefs r h l)
    (hte : Naming [] r re) (hre : Referring h r re) (hbe : re.dev.ps.srv.tree.asked < 0xFFFFFFFF) (hw : Writable re.dev) (hwe : WritableRefs re.dev)
    (hs : Boots e re.dev.save s0) (h' : Nat) (p : Path) (hpe : Lies re h p)
    (hpl : ∀ it, re.dev.ps.srv.tree.get h = some it → it.fmt ≠ 0xBA05) (hps : Lies s0 h' p) (hfs : IsFile s0.dev.ps.srv h')
    (hrs : Referring h' s0 s) (hos : Open s) (hbs : s.dev.ps.srv.tree.asked < 0xFFFFFFFF) (hh' : s.dev.ps.srv.tree.has h' = true) :
    TellsRefs s h' ((foundAgain re s0 l).filter s.dev.ps.srv.tree.has) := by
  obtain ⟨q0, l0, w0, i0⟩ := booted_ids hb0
  have o1 := naming_order q0 ht
  have o2 := naming_order ho.none hte
  have hb : r.dev.ps.srv.tree.asked < 0xFFFFFFFF := Nat.lt_of_le_of_lt o2.1.1 hbe
  have i := o1.2 w0 hb i0
  have wr : ServerOk r.dev.ps.srv := o1.1.2 w0 hb
  have ie := o2.2 wr hbe i
  have we : ServerOk re.dev.ps.srv := o2.1.2 wr hbe
  have ws := Device.boots_ok hs
  have good : Device.RefsGood r.dev := ((Device.elapsed_good q0 (naming_elapsed (by simp) ht)).2 w0 hb).2 (Device.booted_good hb0)
  have goode : Device.RefsGood re.dev := ((Device.elapsed_good ho.none (naming_elapsed (by simp) hte)).2 wr hbe).2 good
  have hl := told_refs r ho wr hb hh hwr htell
  obtain ⟨_, _, kn, ks⟩ := (Device.refs_history ho.none hre).dev.2 wr hbe
  obtain ⟨lk, es, hd, so⟩ := Device.boots_start hs
  have hlg : (readIds e.junk re.dev.save.ids).1 = re.dev.ps.srv.tree.idsAsked := Device.readIds_largest _ _ _ hw.ids hw.number
  have heq : s0.dev.refTree = restart e.junk (storeIds re.dev.refTree.t.idsAsked re.dev.refTree.t.puoids) (storeRefs re.dev.refTree) e.root
      e.excl e.policy e.fs e.asked (readIds e.junk re.dev.save.ids).1 (.node lk ASSOC es) := by
    rw [hs.dev, Device.start_restart, hd]
    rfl
  obtain ⟨ite, ge, hp1⟩ := hpe
  obtain ⟨its, gs, hp2⟩ := hps
  obtain ⟨its', gs', hfs⟩ := hfs
  rw [gs] at gs'; cases gs'
  have hr := restart_refs (s := re.dev.refTree) ie we.wf ⟨hw.number, hw.entries⟩ e.junk hw.ids (Nat.le_of_eq hlg.symm) so goode.1 hwe.number
    (fun x hx => Nat.lt_of_le_of_lt (hwe.lists x hx) (by decide)) heq ge (hpl ite ge) gs (hp2.trans hp1.symm) hfs
  have hr : AMap.get s0.dev.refs h' = (AMap.get re.dev.refs h).map fun rs =>
      rs.filterMap fun x => (re.dev.ps.srv.tree.get x).bind fun ix => fileFound s0.dev.ps.srv ix.path := by
    have h3 : AMap.get s0.dev.refs h' = (AMap.get re.dev.refs h).map fun rs =>
      rs.filterMap fun x => (re.dev.ps.srv.tree.get x).bind fun ix => fileAt s0.dev.ps.srv.tree ix.path := hr
    simp only [fileAt_found s0 ws] at h3
    exact h3
  -- what is known at the start of `s0`
  have hlist : ((AMap.get s0.dev.refs h').getD []).filter s0.dev.ps.srv.tree.has = foundAgain re s0 l ∧
      (∀ l2, AMap.get s0.dev.refs h' = some l2 → l2 = foundAgain re s0 l ∧ l2.length ≤ 2 ^ 27) ∧
      (AMap.get s0.dev.refs h' = none → foundAgain re s0 l = []) := by
    have hfil : (foundAgain re s0 l).filter s0.dev.ps.srv.tree.has = foundAgain re s0 l := List.filter_eq_self.mpr (found_exists ws l)
    cases eg : AMap.get r.dev.refs h with
    | none =>
      rw [eg] at hl
      have hl : l = [] := hl
      rw [kn eg] at hr
      have hr : AMap.get s0.dev.refs h' = none := hr
      rw [hr, hl]
      exact ⟨rfl, (fun _ h => by cases h), fun _ => rfl⟩
    | some l1 =>
      rw [eg] at hl
      have hl : l = l1.filter r.dev.ps.srv.tree.has := hl
      obtain ⟨l2, k1, k2, k3⟩ := ks l1 eg (fun x hx => good.2 _ (AMap.mem_of_get eg) x hx)
      rw [k1, Option.map_some] at hr
      have h4 : foundAgain re s0 l2 = foundAgain re s0 l := by
        rw [← found_filter re s0 l2, k3, found_filter re s0 l1, hl]
        refine (found_known re s0 fun x hx he => ?_).symm
        rcases ((Device.refs_history ho.none hre).dev.2 wr hbe).2.1 x he with g | g
        · have := good.2 _ (AMap.mem_of_get eg) x hx; omega
        · exact g
      have hr : AMap.get s0.dev.refs h' = some (foundAgain re s0 l2) := hr
      rw [hr]
      refine ⟨by rw [Option.getD_some, h4, hfil], fun l3 e3 => ?_, fun h => by cases h⟩
      cases e3
      exact ⟨h4, Nat.le_trans (List.length_filterMap_le _ _) (hwe.lists _ (AMap.mem_of_get k1))⟩
  -- and later
  obtain ⟨_, j2, j3, j4⟩ := (Device.refs_history hs.req hrs).dev.2 ws hbs
  have wfin : ServerOk s.dev.ps.srv := ((Device.refs_history hs.req hrs).dev.2 ws hbs).1
  intro q hq hp
  subst hp
  have h32 : ∀ x, s.dev.ps.srv.tree.has x = true → x < 2 ^ 32 := fun x hx => by
    have := PServer.has_issued wfin hx; omega
  cases eg : AMap.get s0.dev.refs (cParam q 0) with
  | none =>
    refine Device.get_refs s hos hq hh' _ ?_ ?_ fun x hx => h32 x (List.mem_filter.mp hx).2
    · rw [j3 eg, hlist.2.2 eg]; rfl
    · rw [hlist.2.2 eg]; simp
  | some l2 =>
    obtain ⟨e1, e2⟩ := hlist.2.1 l2 eg
    obtain ⟨l3, m1, m2, m3⟩ := j4 l2 eg (fun x hx => (Device.boots_good hs).2 _ (AMap.mem_of_get eg) x hx)
    refine Device.get_refs s hos hq hh' _ ?_ ?_ fun x hx => h32 x (List.mem_filter.mp hx).2
    · rw [m1, Option.getD_some, m3, e1]
    · refine Nat.le_trans (List.length_filter_le _ _) ?_
      rw [← e1]; exact e2

/-! ### Witness -/

/-- What device `d` remembers about references can be written, checked. -/
def canWriteRefs (d : Device) : Bool := decide (d.refs.length < 2 ^ 32) && d.refs.all fun e => decide (e.2.length ≤ 2 ^ 27)

theorem canWriteRefs_ok {d : Device} (h : canWriteRefs d = true) : WritableRefs d := by
  simp only [canWriteRefs, Bool.and_eq_true, decide_eq_true_eq] at h
  exact ⟨h.1, fun e he => by simpa using List.all_eq_true.mp h.2 e he⟩

/-- As C113_witness; the host sets the references of "/s/a" to "/s/m", "/s/f" and "/s/f/b". When the device is started again, "/s/a"
(object 4 now) refers to "/s/f/b" (object 3): the folder "/s/f" is lost, as folders are not found again. -/
theorem C114_witness : ∃ r re s : Rsp Device, Booted (demoBoot demoFound ⟨[], []⟩) ∧ Naming [] (demoBoot demoFound ⟨[], []⟩) r ∧ Open r ∧
    WritableRefs r.dev ∧ r.dev.ps.srv.tree.has 1 = true ∧ TellsRefs r 1 [4, 2, 3] ∧ Naming [] r re ∧ Referring 1 r re ∧
    re.dev.ps.srv.tree.asked < 0xFFFFFFFF ∧ Writable re.dev ∧ WritableRefs re.dev ∧
    Boots (demoSetting demoLater) re.dev.save (demoBoot demoLater re.dev.save) ∧ Lies re 1 ['/', 's', '/', 'a'] ∧
    (∀ it, re.dev.ps.srv.tree.get 1 = some it → it.fmt ≠ 0xBA05) ∧
    Lies (demoBoot demoLater re.dev.save) 4 ['/', 's', '/', 'a'] ∧ IsFile (demoBoot demoLater re.dev.save).dev.ps.srv 4 ∧
    Referring 4 (demoBoot demoLater re.dev.save) s ∧ Open s ∧ s.dev.ps.srv.tree.asked < 0xFFFFFFFF ∧
    s.dev.ps.srv.tree.has 4 = true ∧
    (foundAgain re (demoBoot demoLater re.dev.save) [4, 2, 3]).filter s.dev.ps.srv.tree.has = [3] := by
  have hk : (match (demoBoot demoFound ⟨[], []⟩).run Device.dev (demoSession ++ demoRefs 1 [4, 2, 3]) with
      | .ok r => decide (r.st = .idle) && r.req.isNone && r.ready && decide (r.session ≠ 0) && canWriteRefs r.dev &&
          r.dev.ps.srv.tree.has 1 &&
          decide (((AMap.get r.dev.refs 1).getD []).filter r.dev.ps.srv.tree.has = [4, 2, 3]) &&
          (match r.run Device.dev (ask (Toy.cmd 0x100B 11 [4])) with
            | .ok re => decide (re.dev.ps.srv.tree.asked < 0xFFFFFFFF) && canWrite re.dev && canWriteRefs re.dev &&
                decide ((re.dev.ps.srv.tree.get 1).map (fun it => (it.path, it.fmt)) = some (['/', 's', '/', 'a'], 0x3004)) &&
                decide ((demoBoot demoLater re.dev.save).dev.ps.srv.tree.asked < 0xFFFFFFFF) &&
                decide (((demoBoot demoLater re.dev.save).dev.ps.srv.tree.get 4).map (fun it => (it.path, it.fmt)) =
                  some (['/', 's', '/', 'a'], 0x3004)) &&
                (match (demoBoot demoLater re.dev.save).run Device.dev demoSession with
                  | .ok s => decide (s.st = .idle) && s.req.isNone && s.ready && decide (s.session ≠ 0) &&
                      decide (s.dev.ps.srv.tree.asked < 0xFFFFFFFF) && s.dev.ps.srv.tree.has 4 &&
                      decide ((foundAgain re (demoBoot demoLater re.dev.save) [4, 2, 3]).filter s.dev.ps.srv.tree.has = [3])
                  | .ub _ => false)
            | .ub _ => false)
      | .ub _ => false) = true := by decide +kernel
  have lies : ∀ (r : Rsp Device) (h : Nat) (p : Path) (f : Nat),
      (r.dev.ps.srv.tree.get h).map (fun it => (it.path, it.fmt)) = some (p, f) → ∃ it, r.dev.ps.srv.tree.get h = some it ∧ it.path = p ∧ it.fmt = f := by
    intro r h p f k
    cases e : r.dev.ps.srv.tree.get h with
    | none => rw [e] at k; cases k
    | some it => rw [e] at k; cases k; exact ⟨it, rfl, rfl, rfl⟩
  cases e : (demoBoot demoFound ⟨[], []⟩).run Device.dev (demoSession ++ demoRefs 1 [4, 2, 3]) with
  | ub k => rw [e] at hk; cases hk
  | ok r =>
    rw [e] at hk
    cases e1 : r.run Device.dev (ask (Toy.cmd 0x100B 11 [4])) with
    | ub k => simp only [e1, Bool.and_false] at hk; cases hk
    | ok re =>
      cases e2 : (demoBoot demoLater re.dev.save).run Device.dev demoSession with
      | ub k => simp only [e1, e2, Bool.and_false] at hk; cases hk
      | ok s =>
        simp only [e1, e2, Bool.and_eq_true, decide_eq_true_eq, Option.isNone_iff_eq_none] at hk
        obtain ⟨⟨⟨⟨⟨⟨⟨a1, a2⟩, a3⟩, a4⟩, a5⟩, a6⟩, a7⟩, ⟨⟨⟨⟨⟨b1, b2⟩, b3⟩, b4⟩, b5⟩, b6⟩, ⟨⟨⟨⟨⟨c1, c2⟩, c3⟩, c4⟩, c5⟩, c6⟩, c7⟩ := hk
        have t1 : Elapsed (0x1019 :: 0x9804 :: 0x9806 :: []) (demoBoot demoFound ⟨[], []⟩) r :=
          lived_run _ _ _ (.start _) (avoidsAll_ok (by decide +kernel)) e
        have t2 : Elapsed (0x1019 :: 0x9804 :: 0x9806 :: []) r re := lived_run _ _ _ (.start _) (avoidsAll_ok (by decide +kernel)) e1
        have t2' : Elapsed [0x9811] r re := lived_run _ _ _ (.start _) (avoidsAll_ok (by decide +kernel)) e1
        have t3 : Elapsed [0x9811] (demoBoot demoLater re.dev.save) s :=
          lived_run _ _ _ (.start _) (avoidsAll_ok (by decide +kernel)) e2
        obtain ⟨i1, g1, p1, f1⟩ := lies _ _ _ _ b4
        obtain ⟨i2, g2, p2, f2⟩ := lies _ _ _ _ b6
        have told : TellsRefs r 1 [4, 2, 3] := by
          intro q hq hp
          have ho : Open r := ⟨a1, a2, a3, a4⟩
          have hh : r.dev.ps.srv.tree.has (cParam q 0) = true := by rw [hp]; exact a6
          exact Device.get_refs r ho hq hh _ (by rw [hp]; exact a7) (by decide) (by decide)
        refine ⟨r, re, s, .first (e := demoSetting demoFound) ⟨rfl, rfl, rfl, C93_witness.2.1, by decide +kernel⟩, .lived (.start _) t1,
          ⟨a1, a2, a3, a4⟩, canWriteRefs_ok a5, a6, told, .lived (.start _) t2, .lived (.start _) t2', b1, canWrite_ok b2, canWriteRefs_ok b3,
          ⟨rfl, rfl, rfl, demoLater_dir, b5⟩, ⟨i1, g1, p1⟩, ?_, ⟨i2, g2, p2⟩, ⟨i2, g2, ?_⟩, .lived (.start _) t3, ⟨c1, c2, c3, c4⟩, c5, c6, c7⟩
        · intro it g
          rw [g1] at g; cases g
          rw [f1]; decide
        · rw [f2]; decide

end Props
