import Verif.Lemmas.DeviceStart
import Verif.Props.ServerProps
import Verif.Props.Startup
import Verif.Props.DeviceRefs
/-! Property theorems C113: the persistent ids of the device, across restarts. -/
namespace Props
open Mtp Spec
open Mtp.Device (naming_order naming_elapsed naming_weaken lived_along along_open closed_server booted_ids)

/-- The device tells the id of an object that exists, if what is cached about ids is true. -/
theorem tells_id (r : Rsp Device) (ho : Open r) (hc : PServer.Coh (fun _ c => c = 0xDC41) r.dev.ps) (hcaps : r.dev.ps.srv.caps.WF)
    {h : Nat} {it : Item} (g : r.dev.ps.srv.tree.get h = some it) (hfit : it.puoid < 2 ^ 128) : TellsId r h it.puoid := by
  intro q hq hp1 hp2
  have hh : r.dev.ps.srv.tree.has h = true := has_iff.mpr ⟨_, g⟩
  obtain ⟨it', o, g1, g2, g3, _⟩ := PServer.infoOf_has hc.ok hh
  rw [g] at g1; cases g1
  have hv : r.dev.ps.srv.prop h 0xDC41 = some (.int 16 it.puoid) := by
    unfold Server.prop
    rw [g2, g]
    rfl
  have hpar : r.dev.ps.fac.store.has (r.dev.ps.fac.store.parent h) = true ∨ h = 0 := by
    by_cases h0 : h = 0
    · exact Or.inr h0
    · left
      obtain ⟨p, pit, f1, f2, f3, _⟩ := hc.ok.wf.parent _ it g h0
      show r.dev.ps.srv.tree.has (r.dev.ps.srv.infoOf h).2.parent = true
      rw [g2]
      show r.dev.ps.srv.tree.has o.parent = true
      rw [g3, f2]
      exact has_iff.mpr ⟨pit, f3⟩
  obtain ⟨f, hr⟩ := r.dev.ps.fac.read_true h 0xDC41 hh hpar (fun x hx => (hc.told h 0xDC41 x rfl hh hx))
  have he' : r.dev.ps.fac.store.val h 0xDC41 = some (.int 16 it.puoid) := hv
  rw [he'] at hr
  obtain ⟨d, d1, d2⟩ := PServer.told_described (p := 0xDC41) (by decide) r.dev.ps.srv.caps hcaps (r.dev.ps.srv.infoOf h).2.format
  obtain ⟨k1, k2⟩ := int_typed (dt := stdType 0xDC41) (w := 16) (n := it.puoid) (by decide) (by decide) hfit
  obtain ⟨bytes, e, hb⟩ := Props.get_cached r.dev.ps.view hcaps h 0xDC41 (by decide) d d1 hh _ (by rw [d2]; exact k1) k2 f hr 0
  obtain ⟨p, hpay⟩ : ∃ p, payload 0x9803 0 bytes = some p := by
    cases hpay : payload 0x9803 0 bytes with
    | some p => exact ⟨p, rfl⟩
    | none =>
      unfold readValue at hb
      rw [hpay] at hb
      cases hb
  have hqu : Device.dev.query r.dev 0x9803 (cParams q) =
      ({ r.dev with ps := (r.dev.ps.answer (getObjPropValue r.dev.ps.view 0 (cParam q 0) (cParam q 1))).1 },
        (r.dev.ps.answer (getObjPropValue r.dev.ps.view 0 (cParam q 0) (cParam q 1))).2) := rfl
  rw [hp1, hp2, e] at hqu
  obtain ⟨r', a1, a2, _, a4⟩ := Device.told r ho q 0x9803 hq _ rfl rfl _ bytes p hqu hpay
  exact ⟨r', p, a1, a2, by rw [← a4, ← d2]; exact hb⟩

/-- What is cached about ids stays true. -/
theorem ids_coh {r r' : Rsp Device} (hr : r.req = none) (hl : r.propList = none) (t : Elapsed [0x9808] r r')
    (hb : r'.dev.ps.srv.tree.asked < 0xFFFFFFFF) (hc : PServer.Coh (fun _ c => c = 0xDC41) r.dev.ps) :
    PServer.Coh (fun _ c => c = 0xDC41) r'.dev.ps := by
  have cl : Rsp.Closed Device.dev (· ∉ [0x9808]) _ :=
    closed_server (PServer.closed_next (ok := (· ∉ [0x9808])) (P := fun _ c => True ∧ c = 0xDC41) (PServer.fair_told (p := 0xDC41) (by decide) fun _ => True))
  have := Device.lived_along' cl (fun d h p => PServer.remove_next ..) (fun d v => PServer.Next.refl _) (fun d n => PServer.Next.refl _)
    ⟨cl.refl _, (fun q e => by rw [hr] at e; cases e), (fun _ e => by rw [hl] at e; cases e)⟩ t
  have c := this.dev.2 hb ⟨hc.ok, fun h p v hp => hc.told h p v hp.2, hc.known⟩
  exact ⟨c.ok, fun h p v hp => c.told h p v ⟨trivial, hp⟩, c.known⟩

/-- After a start. -/
theorem started_coh {r : Rsp Device} (b : Booted r) : PServer.Coh (fun _ c => c = 0xDC41) r.dev.ps := by
  obtain ⟨_, _, w, _⟩ := booted_ids b
  have hc : r.dev.ps.cache = [] := by
    cases b with
    | first b => rw [b.dev]; rfl
    | again _ _ _ _ b => rw [b.dev]; rfl
  exact ⟨w, (fun h p v _ _ e => by rw [hc] at e; cases e), (fun h p v e => by rw [hc] at e; cases e)⟩

/-- An object that still exists has the id it had. -/
theorem id_kept {r r' : Rsp Device} (hr : r.req = none) (w : ServerOk r.dev.ps.srv) (t : Elapsed [] r r')
    (hb : r'.dev.ps.srv.tree.asked < 0xFFFFFFFF) {h : Nat} {it it' : Item} (g : r.dev.ps.srv.tree.get h = some it)
    (g' : r'.dev.ps.srv.tree.get h = some it') : it'.puoid = it.puoid := by
  have cl : Rsp.Closed Device.dev (· ∉ []) _ := closed_server PServer.closed_fixed
  have := (lived_along cl (fun d c v => Server.Steady.refl _ _) (fun d n => Server.Steady.refl _ _)
    (along_open cl (by simp) hr) t).dev.2 w hb
  rcases this.2 h (has_iff.mpr ⟨_, g'⟩) with k | ⟨_, k⟩
  · have := PServer.has_issued w (has_iff.mpr ⟨_, g⟩); omega
  · have e := k 0xDC41 (show PServer.fixed 0xDC41 by unfold PServer.fixed; decide)
    obtain ⟨x, o, a1, a2, _⟩ := PServer.infoOf_has w (has_iff.mpr ⟨_, g⟩)
    obtain ⟨x', o', b1, b2, _⟩ := PServer.infoOf_has this.1 (has_iff.mpr ⟨_, g'⟩)
    rw [g] at a1; cases a1
    rw [g'] at b1; cases b1
    unfold Server.prop at e
    rw [a2, b2, g, g'] at e
    have e' : (some (Val.int 16 it'.puoid)) = some (Val.int 16 it.puoid) := e
    simpa using e'

/-- C113. At any time two objects have different persistent unique identifiers, whatever was restored at the start.
Missing: several storages; histories with moves, renamed folders (`C14_move_violated`, `C14_rename_folder_violated`) or SendObjectPropList
(which can set what is told for the new object); paths not in ASCII (`C56_non_ascii_violated`). -/
theorem C113_distinct_partial (r0 r : Rsp Device) (hb0 : Booted r0) (ht : Naming [0x9808] r0 r) (hb : r.dev.ps.srv.tree.asked < 0xFFFFFFFF)
    (hn : r.dev.ps.srv.tree.idsAsked < 2 ^ 128) (hcaps : r.dev.ps.srv.caps.WF) (ho : Open r) (h1 h2 : Nat) (hne : h1 ≠ h2)
    (hh1 : r.dev.ps.srv.tree.has h1 = true) (hh2 : r.dev.ps.srv.tree.has h2 = true) :
    ∃ v1 v2, TellsId r h1 v1 ∧ TellsId r h2 v2 ∧ v1 ≠ v2 := by
  obtain ⟨q0, l0, w0, i0⟩ := booted_ids hb0
  have i := (naming_order q0 (naming_weaken ht)).2 w0 hb i0
  have c := ids_coh q0 l0 (naming_elapsed (by decide) ht) hb (started_coh hb0)
  obtain ⟨it1, g1⟩ := has_iff.mp hh1
  obtain ⟨it2, g2⟩ := has_iff.mp hh2
  have k1 := i.own h1 it1 g1
  have k2 := i.own h2 it2 g2
  refine ⟨it1.puoid, it2.puoid, tells_id r ho c hcaps g1 (Nat.lt_of_le_of_lt (i.bound _ _ k1) hn),
    tells_id r ho c hcaps g2 (Nat.lt_of_le_of_lt (i.bound _ _ k2) hn), fun e => hne ?_⟩
  rw [e] at k1
  have hp := i.inj _ _ _ k1 k2
  have a := c.ok.wf.pathOf h1 it1 g1
  have b := c.ok.wf.pathOf h2 it2 g2
  rw [hp, b] at a
  exact (Option.some.inj a).symm

/-- C113. Over a restart: the object at a path has the identifier told before for the object at that path, and no other object
has it. Missing: as above. -/
theorem C113_identifier_partial (r0 r re s0 s : Rsp Device) (e : Setting) (hb0 : Booted r0) (ht : Naming [0x9808] r0 r) (ho : Open r)
    (hcaps : r.dev.ps.srv.caps.WF) (hte : Naming [] r re) (hbe : re.dev.ps.srv.tree.asked < 0xFFFFFFFF) (hw : Writable re.dev)
    (hs : Boots e re.dev.save s0) (hts : Elapsed [0x9808] s0 s) (hos : Open s) (hbs : s.dev.ps.srv.tree.asked < 0xFFFFFFFF)
    (hns : s0.dev.ps.srv.tree.idsAsked < 2 ^ 128) (hcs : s.dev.ps.srv.caps.WF) (h h' : Nat) (p p' : Path)
    (hh : r.dev.ps.srv.tree.has h = true) (hpe : Lies re h p) (hps : Lies s0 h' p') (hh' : s.dev.ps.srv.tree.has h' = true) :
    ∃ v v', TellsId r h v ∧ TellsId s h' v' ∧ (v' = v ↔ p' = p) := by
  obtain ⟨q0, l0, w0, i0⟩ := booted_ids hb0
  have o1 := naming_order q0 (naming_weaken ht)
  have o2 := naming_order ho.none hte
  have hb : r.dev.ps.srv.tree.asked < 0xFFFFFFFF := Nat.lt_of_le_of_lt o2.1.1 hbe
  have i := o1.2 w0 hb i0
  have c := ids_coh q0 l0 (naming_elapsed (by decide) ht) hb (started_coh hb0)
  have ie := o2.2 c.ok hbe i
  obtain ⟨is, rel⟩ := Device.boots_again ie hw hs
  obtain ⟨it, g⟩ := has_iff.mp hh
  obtain ⟨ite, ge, rfl⟩ := hpe
  obtain ⟨its, gs, rfl⟩ := hps
  obtain ⟨it', g'⟩ := has_iff.mp hh'
  have k := id_kept ho.none c.ok (naming_elapsed (by simp) hte) hbe g ge
  have hsb : Booted s0 := .again hb0 (Naming.trans (naming_weaken ht) hte) hbe hw hs
  have ks := id_kept hs.req (booted_ids hsb).2.2.1 (Device.elapsed_weaken (fun c hc => by cases hc) hts) hbs gs g'
  have own := ie.own h ite ge
  have hv : ite.puoid < 2 ^ 128 := Nat.lt_of_le_of_lt (ie.bound _ _ own) hw.ids
  have hv' : its.puoid < 2 ^ 128 := Nat.lt_of_le_of_lt (is.bound _ _ (is.own h' its gs)) hns
  refine ⟨it.puoid, it'.puoid, tells_id r ho c hcaps g (k ▸ hv),
    tells_id s hos (ids_coh hs.req hs.list hts hbs (started_coh hsb)) hcs g' (ks.symm ▸ hv'), ?_⟩
  rw [ks, ← k]
  exact rel h' its gs ite.path ite.puoid own

/-! ### Witness -/

/-- No command among `avoid` in `is`, checked. -/
def avoidsAll (avoid : List Nat) (is : List (Rsp.In Device)) : Bool := is.all fun
  | .packet b f l _ => !(f && l && avoid.contains (cCode b))
  | .ev _ => true
  | .notify .. => true
  | _ => false

theorem avoidsAll_ok {avoid : List Nat} {is : List (Rsp.In Device)} (h : avoidsAll avoid is = true) : ∀ i ∈ is, Avoiding avoid i := by
  intro i hi
  have k := List.all_eq_true.mp h i hi
  cases i with
  | packet b f l x =>
    intro hf hl hm
    subst hf hl
    simp only [Bool.and_self, Bool.true_and, Bool.not_eq_true', List.contains_eq_mem, decide_eq_false_iff_not] at k
    exact k hm
  | ready _ => cases k
  | ev _ => trivial
  | notify _ _ => trivial
  | env _ => cases k

/-- The device of the examples finds directory `d`. -/
def demoSetting (d : Disk) : Setting :=
  ⟨fun _ => 7, 0x00010001, [0x3000, 0x3001], demoCaps, ['/', 's'], [['/', 's', '/', 'x']], .allowWithinStorage, fun _ => true, 0, d,
    ⟨fun p => p.map fun c => UInt8.ofNat c.toNat, fun _ => [], fun _ => 0⟩, fun _ _ => {}, fun _ => true, fun _ => 2 ^ 40,
    ⟨fixedZone 0, fun _ => 1700000000, fun _ => true⟩, demoDevState, loadInfo shippedConf true, ⟨3, 2, 0, 0, 0, 0xFFFFFFFF, [], []⟩, none⟩

def demoBoot (d : Disk) (f : Saved) : Rsp Device := { ready := true, dev := Device.start (demoSetting d) f }

/-- The directory of the examples, when the device is started again: there is a new file "0", and the link "m" is gone. -/
def demoLater : Disk :=
  .node none ASSOC [(['0'], .node none 0x3004 []), (['f'], .node none ASSOC [(['b'], .node none 0x3801 [])]),
    (['a'], .node none 0x3004 [])]

theorem demoLater_dir : Directory ['/', 's'] [['/', 's', '/', 'x']] .allowWithinStorage demoLater := by
  refine ⟨⟨_, _, rfl, by decide, trivial⟩, ?_, ?_⟩
  · simp [demoLater, DiskOk, DisksOk]
  · simp [demoLater, DiskNames, DisksNames]

/-- The host opens a session. -/
def demoSession : List (Rsp.In Device) := [.packet (Toy.cmd 0x1002 0 [1]) true true []]

/-- What device `d` remembers can be written, checked. -/
def canWrite (d : Device) : Bool :=
  decide (d.ps.srv.tree.puoids.length < 2 ^ 32) &&
    d.ps.srv.tree.puoids.all (fun e => e.1.all (fun c => decide (0 < c.toNat ∧ c.toNat < 128)) && decide (e.1 ≠ []) &&
      decide (e.1.length < 2 ^ 32) && decide (e.2 < 2 ^ 128)) &&
    decide (d.ps.srv.tree.idsAsked < 2 ^ 128)

theorem canWrite_ok {d : Device} (h : canWrite d = true) : Writable d := by
  simp only [canWrite, Bool.and_eq_true, decide_eq_true_eq] at h
  refine ⟨h.1.1, fun e he => ?_, h.2⟩
  have k := List.all_eq_true.mp h.1.2 e he
  simp only [Bool.and_eq_true, decide_eq_true_eq] at k
  exact ⟨fun c hc => by simpa using List.all_eq_true.mp k.1.1.1 c hc, k.1.1.2, k.1.2, k.2⟩

/-- The device's lists of formats are short enough, checked. -/
def capsShort (c : DevCaps) : Bool := decide (c.audioChannels.length < 2 ^ 16 ∧ ∀ x ∈ c.audioChannels, x < 2 ^ 16) &&
  decide (c.videoChannels.length < 2 ^ 16 ∧ ∀ x ∈ c.videoChannels, x < 2 ^ 16) &&
  decide (c.codecs.length < 2 ^ 16 ∧ ∀ x ∈ c.codecs, x < 2 ^ 32) &&
  decide (∀ r ∈ [c.audioBit, c.videoBit, c.fps, c.imageWidth, c.imageHeight, c.videoWidth, c.videoHeight], r.1 < 2 ^ 32 ∧ r.2 < 2 ^ 32)

theorem capsShort_ok {c : DevCaps} (h : capsShort c = true) : c.WF := by
  simp only [capsShort, Bool.and_eq_true, decide_eq_true_eq] at h
  exact ⟨h.1.1.1, h.1.1.2, h.1.2, h.2⟩

/-- A device finds "/s/a" (object 1), "/s/f", "/s/f/b" and "/s/m", and the host deletes "/s/m"; when it is started again, "/s/a" is
object 4, and object 1 is another file: the hypotheses of C113 are met. -/
theorem C113_witness : ∃ r re s : Rsp Device, Booted (demoBoot demoFound ⟨[], []⟩) ∧ Naming [0x9808] (demoBoot demoFound ⟨[], []⟩) r ∧
    Open r ∧ r.dev.ps.srv.caps.WF ∧ Naming [] r re ∧ re.dev.ps.srv.tree.asked < 0xFFFFFFFF ∧ Writable re.dev ∧
    Boots (demoSetting demoLater) re.dev.save (demoBoot demoLater re.dev.save) ∧
    Elapsed [0x9808] (demoBoot demoLater re.dev.save) s ∧ Open s ∧ s.dev.ps.srv.tree.asked < 0xFFFFFFFF ∧
    (demoBoot demoLater re.dev.save).dev.ps.srv.tree.idsAsked < 2 ^ 128 ∧ s.dev.ps.srv.caps.WF ∧
    r.dev.ps.srv.tree.has 1 = true ∧ Lies re 1 ['/', 's', '/', 'a'] ∧
    Lies (demoBoot demoLater re.dev.save) 4 ['/', 's', '/', 'a'] ∧ Lies (demoBoot demoLater re.dev.save) 1 ['/', 's', '/', '0'] ∧
    s.dev.ps.srv.tree.has 4 = true ∧ s.dev.ps.srv.tree.has 1 = true := by
  have hk : (match (demoBoot demoFound ⟨[], []⟩).run Device.dev demoSession with
      | .ok r => decide (r.st = .idle) && r.req.isNone && r.ready && decide (r.session ≠ 0) && r.dev.ps.srv.tree.has 1 && capsShort r.dev.ps.srv.caps &&
          (match r.run Device.dev (ask (Toy.cmd 0x100B 11 [4])) with
            | .ok re => decide (re.dev.ps.srv.tree.asked < 0xFFFFFFFF) && canWrite re.dev &&
                decide ((re.dev.ps.srv.tree.get 1).map (·.path) = some ['/', 's', '/', 'a']) &&
                decide ((demoBoot demoLater re.dev.save).dev.ps.srv.tree.asked < 0xFFFFFFFF) &&
                decide ((demoBoot demoLater re.dev.save).dev.ps.srv.tree.idsAsked < 2 ^ 128) &&
                decide (((demoBoot demoLater re.dev.save).dev.ps.srv.tree.get 4).map (·.path) = some ['/', 's', '/', 'a']) &&
                decide (((demoBoot demoLater re.dev.save).dev.ps.srv.tree.get 1).map (·.path) = some ['/', 's', '/', '0']) &&
                (match (demoBoot demoLater re.dev.save).run Device.dev demoSession with
                  | .ok s => decide (s.st = .idle) && s.req.isNone && s.ready && decide (s.session ≠ 0) &&
                      decide (s.dev.ps.srv.tree.asked < 0xFFFFFFFF) && s.dev.ps.srv.tree.has 4 && s.dev.ps.srv.tree.has 1 && capsShort s.dev.ps.srv.caps
                  | .ub _ => false)
            | .ub _ => false)
      | .ub _ => false) = true := by decide +kernel
  have lies : ∀ (r : Rsp Device) (h : Nat) (p : Path), (r.dev.ps.srv.tree.get h).map (·.path) = some p → Lies r h p := by
    intro r h p k
    cases e : r.dev.ps.srv.tree.get h with
    | none => rw [e] at k; cases k
    | some it => rw [e] at k; exact ⟨it, e, Option.some.inj k⟩
  cases e : (demoBoot demoFound ⟨[], []⟩).run Device.dev demoSession with
  | ub k => rw [e] at hk; cases hk
  | ok r =>
    rw [e] at hk
    cases e1 : r.run Device.dev (ask (Toy.cmd 0x100B 11 [4])) with
    | ub k => simp only [e1, Bool.and_false] at hk; cases hk
    | ok re =>
      cases e2 : (demoBoot demoLater re.dev.save).run Device.dev demoSession with
      | ub k => simp only [e1, e2, Bool.and_false] at hk; cases hk
      | ok s =>
        simp only [e1, e2, Bool.and_eq_true, decide_eq_true_eq, Option.isNone_iff_eq_none] at hk
        obtain ⟨⟨⟨⟨⟨⟨a1, a2⟩, a3⟩, a4⟩, a5⟩, a6⟩, ⟨⟨⟨⟨⟨⟨b1, b2⟩, b3⟩, b4⟩, b5⟩, b6⟩, b7⟩, ⟨⟨⟨⟨⟨⟨c1, c2⟩, c3⟩, c4⟩, c5⟩, c6⟩, c7⟩, c8⟩ := hk
        have t1 : Elapsed (0x1019 :: 0x9804 :: 0x9806 :: [0x9808]) (demoBoot demoFound ⟨[], []⟩) r :=
          lived_run _ _ _ (.start _) (avoidsAll_ok (by decide +kernel)) e
        have t2 : Elapsed (0x1019 :: 0x9804 :: 0x9806 :: []) r re := lived_run _ _ _ (.start _) (avoidsAll_ok (by decide +kernel)) e1
        have t3 : Elapsed [0x9808] (demoBoot demoLater re.dev.save) s :=
          lived_run _ _ _ (.start _) (avoidsAll_ok (by decide +kernel)) e2
        exact ⟨r, re, s, .first (e := demoSetting demoFound) ⟨rfl, rfl, rfl, C93_witness.2.1, by decide +kernel⟩, .lived (.start _) t1,
          ⟨a1, a2, a3, a4⟩, capsShort_ok a6, .lived (.start _) t2, b1, canWrite_ok b2, ⟨rfl, rfl, rfl, demoLater_dir, b4⟩, t3, ⟨c1, c2, c3, c4⟩, c5, b5, capsShort_ok c8,
          a5, lies _ _ _ b3, lies _ _ _ b6, lies _ _ _ b7, c6, c7⟩

end Props
