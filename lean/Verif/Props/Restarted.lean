import Verif.Props.WholeStart
/-! Property theorems C117: a restart changes nothing but the handles. -/
namespace Props
open Mtp Spec

private theorem path_inj {s : Server} (w : ServerOk s) {a b : Nat} {ia ib : Item} (ea : s.tree.get a = some ia)
    (eb : s.tree.get b = some ib) (e : ia.path = ib.path) : a = b := by
  have h1 := w.wf.pathOf a ia ea
  have h2 := w.wf.pathOf b ib eb
  rw [e, h2] at h1
  exact (Option.some.inj h1).symm

private theorem kind_there {s : Server} {e : Setting} (h : SameThere s e) {x : Nat} {it : Item} (g : s.tree.get x = some it) :
    ∃ f, Shown e.excl e.policy e.root e.root e.disk it.path f ∧ (f = ASSOC ↔ it.fmt = ASSOC) := by
  by_cases hk : it.fmt = ASSOC
  · exact ⟨ASSOC, (h.folders _).mpr ⟨x, it, g, rfl, hk⟩, by simp [hk]⟩
  · obtain ⟨f, h1, h2⟩ := (h.files _).mpr ⟨x, it, g, rfl, hk⟩
    exact ⟨f, h1, by simp [h2, hk]⟩

variable {e : Setting} {f : Saved} {r s : Rsp Device}

private theorem again_items (w : ServerOk r.dev.ps.srv) (hb : Boots e f s) (h : SameThere r.dev.ps.srv e) {x y : Nat}
    (a : Again r s x y) : ∃ ix iy, r.dev.ps.srv.tree.get x = some ix ∧ s.dev.ps.srv.tree.get y = some iy ∧ ix.path = iy.path ∧
      (ix.fmt = ASSOC ↔ iy.fmt = ASSOC) ∧ Shown e.excl e.policy e.root e.root e.disk iy.path iy.fmt := by
  obtain ⟨p, ⟨ix, gx, hx⟩, ⟨iy, gy, hy⟩⟩ := a
  obtain ⟨fm, h1, h2⟩ := kind_there h gx
  rw [hx] at h1
  obtain ⟨it, k1, _, k3⟩ := started_item (boots_started hb) hb.dir h1 ⟨iy, gy, hy⟩
  rw [gy] at k1
  cases k1
  exact ⟨ix, iy, gx, gy, hx.trans hy.symm, by rw [← h2, ← k3], by rw [hy, k3]; exact h1⟩

private theorem again_unique (w : ServerOk r.dev.ps.srv) (ws : ServerOk s.dev.ps.srv) {x y x' y' : Nat} (a : Again r s x y)
    (a' : Again r s x' y') : x = x' ↔ y = y' := by
  obtain ⟨p, ⟨ix, gx, hx⟩, ⟨iy, gy, hy⟩⟩ := a
  obtain ⟨p', ⟨ix', gx', hx'⟩, ⟨iy', gy', hy'⟩⟩ := a'
  constructor
  · rintro rfl
    rw [gx] at gx'; cases gx'
    exact path_inj ws gy gy' (by rw [hy, hy', ← hx, ← hx'])
  · rintro rfl
    rw [gy] at gy'; cases gy'
    exact path_inj w gx gx' (by rw [hx, hx', ← hy, ← hy'])

/-- The server of a device just started is in order, and its root is the storage directory. -/
private theorem boots_ok (hb : Boots e f s) : ServerOk s.dev.ps.srv ∧ s.dev.ps.srv.tree.rootPath = e.root := by
  refine ⟨C93_consistent (boots_started hb) hb.dir, ?_⟩
  rw [hb.dev, Device.start_tree]
  show (Tree.enumerate _ _).rootPath = e.root
  unfold Tree.enumerate
  exact (add_at _ _ _ _ _ _ _).1.2.2

/-- C117. If a device is ended and started again, and the directory holds what it had, then each object is one object again and each
object was one before; files are files, with the same bytes, folders are folders; they have the same names and are in the same
folders. -/
theorem C117_same (w : ServerOk r.dev.ps.srv) (hb : Boots e f s) (h : SameThere r.dev.ps.srv e) :
    (∀ x, r.dev.ps.srv.tree.has x = true → ∃ y, ∀ z, Again r s x z ↔ z = y) ∧
    (∀ y, s.dev.ps.srv.tree.has y = true → ∃ x, ∀ z, Again r s z y ↔ z = x) ∧
    ∀ x y, Again r s x y → (x = 0 ↔ y = 0) ∧ (IsFile r.dev.ps.srv x ↔ IsFile s.dev.ps.srv y) ∧
      contents s.dev.ps.srv y = contents r.dev.ps.srv x ∧
      (x ≠ 0 → (s.dev.ps.srv.infoOf y).2.fileName = (r.dev.ps.srv.infoOf x).2.fileName) ∧
      ∀ px py, Again r s px py → (InFolder r.dev.ps.srv x px ↔ InFolder s.dev.ps.srv y py) := by
  obtain ⟨ws, hroot⟩ := boots_ok hb
  have hs := boots_started hb
  have ex : ∀ x, r.dev.ps.srv.tree.has x = true → ∃ y, Again r s x y := by
    intro x hx
    obtain ⟨ix, gx⟩ := has_iff.mp hx
    obtain ⟨fm, h1, _⟩ := kind_there h gx
    obtain ⟨y, k1, _⟩ := (C93_objects hs hb.dir).1 _ _ h1
    exact ⟨y, ix.path, ⟨ix, gx, rfl⟩, (k1 y).mpr rfl⟩
  have root : Again r s 0 0 := by
    obtain ⟨ri, e0, e1, _⟩ := w.wf.root
    obtain ⟨si, f0, f1, _⟩ := ws.wf.root
    exact ⟨e.root, ⟨ri, e0, by rw [e1, h.root]⟩, ⟨si, f0, by rw [f1, hroot]⟩⟩
  -- the way up
  have up : ∀ x y, Again r s x y → x ≠ 0 → ∃ ix iy px py, r.dev.ps.srv.tree.get x = some ix ∧ s.dev.ps.srv.tree.get y = some iy ∧
      ix.name = iy.name ∧ ix.parent = some px ∧ iy.parent = some py ∧ Again r s px py := by
    intro x y a x0
    have y0 : y ≠ 0 := fun e => x0 ((again_unique w ws a root).mpr e)
    obtain ⟨ix, iy, gx, gy, hp, _, _⟩ := again_items w hb h a
    obtain ⟨px, pix, a1, _, a3, _, a5, a6⟩ := w.wf.parent x ix gx x0
    obtain ⟨py, piy, b1, _, b3, _, b5, b6⟩ := ws.wf.parent y iy gy y0
    rw [a5, b5] at hp
    obtain ⟨j1, j2⟩ := join_inj hp a6 b6
    exact ⟨ix, iy, px, py, gx, gy, j2, a1, b1, pix.path, ⟨pix, a3, rfl⟩, ⟨piy, b3, j1.symm⟩⟩
  refine ⟨fun x hx => ?_, fun y hy => ?_, fun x y a => ?_⟩
  · obtain ⟨y, a⟩ := ex x hx
    exact ⟨y, fun z => ⟨fun b => (again_unique w ws b a).mp rfl, by rintro rfl; exact a⟩⟩
  · obtain ⟨iy, gy⟩ := has_iff.mp hy
    obtain ⟨q, fm, h1, h2⟩ := (C93_objects hs hb.dir).2 y hy
    have : ∃ x it, r.dev.ps.srv.tree.get x = some it ∧ it.path = q := by
      by_cases hk : fm = ASSOC
      · subst hk
        obtain ⟨x, it, g, hp, _⟩ := (h.folders q).mp h1
        exact ⟨x, it, g, hp⟩
      · obtain ⟨x, it, g, hp, _⟩ := (h.files q).mp ⟨fm, h1, hk⟩
        exact ⟨x, it, g, hp⟩
    obtain ⟨x, it, g, hp⟩ := this
    have a : Again r s x y := ⟨q, ⟨it, g, hp⟩, h2⟩
    exact ⟨x, fun z => ⟨fun b => (again_unique w ws b a).mpr rfl, by rintro rfl; exact a⟩⟩
  · obtain ⟨ix, iy, gx, gy, hp, hk, hsh⟩ := again_items w hb h a
    refine ⟨again_unique w ws a root, ?_, ?_, ?_, ?_⟩
    · constructor
      · rintro ⟨it, g, n⟩
        rw [gx] at g; cases g
        exact ⟨iy, gy, fun c => n (hk.mpr c)⟩
      · rintro ⟨it, g, n⟩
        rw [gy] at g; cases g
        exact ⟨ix, gx, fun c => n (hk.mp c)⟩
    · by_cases c : iy.fmt = ASSOC
      · unfold contents
        rw [gx, gy]
        simp only
        rw [if_pos c, if_pos (hk.mpr c)]
      · rw [(started_contents hs hb.dir hsh c ⟨iy, gy, rfl⟩).1]
        have hfile := (w.files (String.ofList ix.path)).mpr ⟨x, ix, gx, fun k => c (hk.mp k), rfl⟩
        obtain ⟨b, hb'⟩ := Option.isSome_iff_exists.mp hfile
        have hc : contents r.dev.ps.srv x = some b := by
          unfold contents
          rw [gx]
          simp only
          rw [if_neg (fun k => c (hk.mp k))]
          exact hb'
        rw [hc, ← hp, h.bytes x ix.path b ⟨ix, gx, rfl⟩ hc]
    · intro x0
      obtain ⟨ix', iy', px, py, g1, g2, hn, _⟩ := up x y a x0
      have hr := w.known x
      have hs' := ws.known y
      rw [has_iff.mpr ⟨ix', g1⟩, Option.isSome_iff_exists] at hr
      rw [has_iff.mpr ⟨iy', g2⟩, Option.isSome_iff_exists] at hs'
      obtain ⟨o1, e1⟩ := hr
      obtain ⟨o2, e2⟩ := hs'
      unfold Server.infoOf
      rw [g1, g2, e1, e2]
      simp only [hn]
    · intro px py ap
      by_cases x0 : x = 0
      · subst x0
        have y0 := (again_unique w ws a root).mp rfl
        subst y0
        obtain ⟨ri, e0, _, e2⟩ := w.wf.root
        obtain ⟨si, f0, _, f2⟩ := ws.wf.root
        constructor
        · rintro ⟨it, g, n⟩
          rw [e0] at g; cases g
          rw [e2] at n; cases n
        · rintro ⟨it, g, n⟩
          rw [f0] at g; cases g
          rw [f2] at n; cases n
      · obtain ⟨ix', iy', qx, qy, g1, g2, _, n1, n2, aq⟩ := up x y a x0
        constructor
        · rintro ⟨it, g, n⟩
          rw [g1] at g; cases g
          rw [n1] at n; cases n
          have := (again_unique w ws aq ap).mp rfl
          subst this
          exact ⟨iy', g2, n2⟩
        · rintro ⟨it, g, n⟩
          rw [g2] at g; cases g
          rw [n2] at n; cases n
          have := (again_unique w ws aq ap).mpr rfl
          subst this
          exact ⟨ix', g1, n1⟩

/-- C117. A host that lists a folder after the restart (with the handle 0xFFFFFFFF: the storage itself) is told the objects that were in
that folder before, by their new handles, each once. -/
theorem C117_listed (w : ServerOk r.dev.ps.srv) (hb : Boots e f s) (h : SameThere r.dev.ps.srv e) (ho : Open s)
    (x y : Nat) (a : Again r s x y) (hx : ¬ IsFile r.dev.ps.srv x) (c : List UInt8) (hc : Asking c 0x1007)
    (h0 : cParam c 0 = s.dev.ps.srv.sid) (hall : s.dev.ps.srv.sid ≠ ALL) (h1 : cParam c 1 = 0)
    (h2 : cParam c 2 = if x = 0 then ALL else y) (hn : s.dev.ps.srv.tree.asked < 2 ^ 26) :
    ∃ (s' : Rsp Device) (p : List UInt8) (l : List Nat), AnsweredBy Device.dev s s' (ask c) c .ok [] ∧ dataOf s'.out = dataOf s.out ++ p ∧
      readHandles 0x1007 0 (dataContainer 0x1007 0 p) = some l ∧ l.Pairwise (· < ·) ∧
      ∀ v, v ∈ l ↔ ∃ u, InFolder r.dev.ps.srv u x ∧ Again r s u v := by
  obtain ⟨b1, b2, b3⟩ := C117_same w hb h
  obtain ⟨ws, _⟩ := boots_ok hb
  obtain ⟨ix, iy, gx, gy, _, hk, _⟩ := again_items w hb h a
  obtain ⟨hz, hfile, _, _, _⟩ := b3 x y a
  have hfold : iy.fmt = ASSOC := by
    by_cases c : ix.fmt = ASSOC
    · exact hk.mp c
    · exact absurd ⟨ix, gx, c⟩ hx
  have hy : y ≠ ALL := by
    have := ws.issued y iy gy
    unfold ALL; omega
  obtain ⟨t, p, l, a1, a2, _, a4, a5, a6⟩ := Server.get_handles (stored s) (open_via.mpr ho) ws c hc h0 hall hn h1 (by
    rw [h2]
    split
    · exact Or.inr (Or.inl rfl)
    · exact Or.inr (Or.inr ⟨iy, gy, hfold⟩))
  obtain ⟨s', e', v, _⟩ := Rsp.sim_lift Device.sim (ask c) (Device.good ho.none)
    (Rsp.fitting_ask ho (by rw [hc.code]; decide)) a1.run
  subst v
  have asks : ∀ v, v ∈ l ↔ InFolder s.dev.ps.srv v y := by
    intro v
    rw [a6 v, h2]
    constructor
    · rintro ⟨it, g, hv, _, hq⟩
      refine ⟨it, g, ?_⟩
      by_cases x0 : x = 0
      · rw [if_pos x0] at hq
        rw [hz.mp x0]
        rcases hq with hq | ⟨_, hq⟩ | ⟨_, hq, _⟩
        · cases hq
        · exact hq
        · exact absurd rfl hq
      · rw [if_neg x0] at hq
        rcases hq with hq | ⟨hq, _⟩ | ⟨_, _, hq⟩
        · exact absurd (hz.mpr hq) x0
        · exact absurd hq hy
        · exact hq
    · rintro ⟨it, g, hq⟩
      have hv : v ≠ 0 := by
        rintro rfl
        obtain ⟨si, f0, _, f2⟩ := ws.wf.root
        rw [f0] at g; cases g
        rw [f2] at hq; cases hq
      refine ⟨it, g, hv, Or.inl rfl, ?_⟩
      by_cases x0 : x = 0
      · rw [if_pos x0]
        exact Or.inr (Or.inl ⟨rfl, by rw [hq, hz.mp x0]⟩)
      · rw [if_neg x0]
        exact Or.inr (Or.inr ⟨fun c => x0 (hz.mpr c), hy, hq⟩)
  refine ⟨s', p, l, ⟨e', a1.out, open_via.mp a1.again⟩, a2, a4, a5, fun v => ?_⟩
  rw [asks v]
  constructor
  · intro hv
    obtain ⟨it, g, _⟩ := id hv
    obtain ⟨u, hu⟩ := b2 v (has_iff.mpr ⟨it, g⟩)
    have au := (hu u).mpr rfl
    exact ⟨u, ((b3 u v au).2.2.2.2 x y a).mpr hv, au⟩
  · rintro ⟨u, hu, au⟩
    exact ((b3 u v au).2.2.2.2 x y a).mp hu

/-- C113. The object that lies, after the restart, where an object did when the device ended has the identifier told for that before.
Missing: as for C113_distinct_partial. (The hypotheses are met: `C113_witness`, objects 1 and 4.) -/
theorem C113_again_partial (r0 r re s0 s : Rsp Device) (e : Setting) (hb0 : Booted r0) (ht : Naming [0x9808] r0 r) (ho : Open r)
    (hcaps : r.dev.ps.srv.caps.WF) (hte : Naming [] r re) (hbe : re.dev.ps.srv.tree.asked < 0xFFFFFFFF) (hw : Writable re.dev)
    (hs : Boots e re.dev.save s0) (hts : Elapsed [0x9808] s0 s) (hos : Open s) (hbs : s.dev.ps.srv.tree.asked < 0xFFFFFFFF)
    (hns : s0.dev.ps.srv.tree.idsAsked < 2 ^ 128) (hcs : s.dev.ps.srv.caps.WF) (x y : Nat) (a : Again re s0 x y)
    (hx : r.dev.ps.srv.tree.has x = true) (hy : s.dev.ps.srv.tree.has y = true) :
    ∃ v, TellsId r x v ∧ TellsId s y v := by
  obtain ⟨p, h1, h2⟩ := a
  obtain ⟨v, v', t1, t2, t3⟩ := C113_identifier_partial r0 r re s0 s e hb0 ht ho hcaps hte hbe hw hs hts hos hbs hns hcs x y p p hx h1 h2 hy
  rw [t3.mpr rfl] at t2
  exact ⟨v, t1, t2⟩

/-! ### A concrete case -/

/-- What was in the directory of `r` and what a device shows that was started in setting `e`, compared. -/
private theorem same_there (w : ServerOk r.dev.ps.srv) (hb : Boots e f s) (hroot : r.dev.ps.srv.tree.rootPath = e.root)
    (h1 : ∀ x ∈ r.dev.ps.srv.tree.items, ∃ y ∈ s.dev.ps.srv.tree.items, y.2.path = x.2.path ∧ (y.2.fmt = ASSOC ↔ x.2.fmt = ASSOC))
    (h2 : ∀ y ∈ s.dev.ps.srv.tree.items, ∃ x ∈ r.dev.ps.srv.tree.items, x.2.path = y.2.path ∧ (x.2.fmt = ASSOC ↔ y.2.fmt = ASSOC))
    (h3 : ∀ x ∈ r.dev.ps.srv.tree.items, contents r.dev.ps.srv x.1 = none ∨ contents r.dev.ps.srv x.1 = some (e.facts.bytes x.2.path)) :
    SameThere r.dev.ps.srv e := by
  have hs := boots_started hb
  obtain ⟨ws, _⟩ := boots_ok hb
  refine ⟨hroot, fun q => ?_, fun q => ?_, ?_⟩
  · rw [← started_shows hs hb.dir]
    constructor
    · rintro ⟨y, iy, g, rfl, k⟩
      obtain ⟨x, hx, hp, hk⟩ := h2 _ (AMap.mem_of_get g)
      exact ⟨x.1, x.2, Server.get_of_mem w.wf hx, hp, hk.mpr k⟩
    · rintro ⟨x, ix, g, rfl, k⟩
      obtain ⟨y, hy, hp, hk⟩ := h1 _ (AMap.mem_of_get g)
      exact ⟨y.1, y.2, Server.get_of_mem ws.wf hy, hp, hk.mpr k⟩
  · constructor
    · rintro ⟨fm, hf, n⟩
      obtain ⟨y, iy, g, rfl, rfl⟩ := (started_shows hs hb.dir q fm).mpr hf
      obtain ⟨x, hx, hp, hk⟩ := h2 _ (AMap.mem_of_get g)
      exact ⟨x.1, x.2, Server.get_of_mem w.wf hx, hp, fun k => n (hk.mp k)⟩
    · rintro ⟨x, ix, g, rfl, n⟩
      obtain ⟨y, hy, hp, hk⟩ := h1 _ (AMap.mem_of_get g)
      exact ⟨y.2.fmt, (started_shows hs hb.dir _ _).mp ⟨y.1, y.2, Server.get_of_mem ws.wf hy, hp, rfl⟩, fun k => n (hk.mp k)⟩
  · rintro x q b ⟨ix, g, rfl⟩ hc
    rcases h3 _ (AMap.mem_of_get g) with h | h
    · rw [h] at hc; cases hc
    · rw [h] at hc
      exact Option.some.inj hc

/-- A folder "d" is made, a file "ab" uploaded into it, a file uploaded next to it and deleted. -/
def madeFolder : List (Rsp.In Device) :=
  sendObject demoAnn [dataContainer 0x100C 5 (encs (objInfoVals demoFolder))] ++
  sendObject (Toy.cmd 0x100C 7 [0x00010001, 1]) [dataContainer 0x100C 7 (encs (objInfoVals demoFile))] ++ sendObject demoPut demoPutData ++
  sendObject (Toy.cmd 0x100C 8 [0x00010001, 0xFFFFFFFF]) [dataContainer 0x100C 8 (encs (objInfoVals demoFile))] ++
  sendObject (Toy.cmd 0x100D 9 []) [Toy.dat 0x100D 9 [1, 2, 3]] ++ ask (Toy.cmd 0x100B 10 [3])

/-- What is on disk then. -/
def demoStill : Disk := .node none ASSOC [(['d'], .node none ASSOC [(['a', 'b'], .node none 0x3004 [])])]

theorem demoStill_dir : Directory ['/', 's'] [['/', 's', '/', 'x']] .allowWithinStorage demoStill := by
  refine ⟨⟨_, _, rfl, by decide, trivial⟩, ?_, ?_⟩
  · simp [demoStill, DiskOk, DisksOk]
  · simp [demoStill, DiskNames, DisksNames]

/-- See `demoStill`; five handles were given out before (to another storage). -/
def sameSetting : Setting :=
  { demoSetting demoStill with
    asked := 5, facts := ⟨fun p => if p = ['/', 's', '/', 'd', '/', 'a', 'b'] then [7, 8, 9] else [], fun _ => [], fun _ => 0⟩ }

/-- The device started there; a session is open. -/
def sameBoot (f : Saved) : Rsp Device := { ready := true, session := 1, dev := Device.start sameSetting f }

private theorem same_boots (f : Saved) (h : (sameBoot f).dev.ps.srv.tree.asked < 0xFFFFFFFF) : Boots sameSetting f (sameBoot f) :=
  ⟨rfl, rfl, rfl, demoStill_dir, h⟩

/-- The hypotheses of C117 are met: folder 1 and file 2 are 6 and 7 after the restart. -/
theorem C117_witness : ∃ r : Rsp Device, demoGRsp.run Device.dev madeFolder = .ok r ∧ ServerOk r.dev.ps.srv ∧
    Boots sameSetting r.dev.save (sameBoot r.dev.save) ∧ SameThere r.dev.ps.srv sameSetting ∧ Open (sameBoot r.dev.save) ∧
    Again r (sameBoot r.dev.save) 1 6 ∧ Again r (sameBoot r.dev.save) 2 7 ∧ InFolder r.dev.ps.srv 2 1 ∧
    (sameBoot r.dev.save).dev.ps.srv.tree.asked < 2 ^ 26 := by
  have hk : (match demoGRsp.run Device.dev madeFolder with
      | .ok r => decide (r.dev.ps.srv.tree.asked < 0xFFFFFFFF) && decide ((sameBoot r.dev.save).dev.ps.srv.tree.asked < 2 ^ 26) &&
          decide (r.dev.ps.srv.tree.rootPath = ['/', 's']) &&
          r.dev.ps.srv.tree.items.all (fun x => (sameBoot r.dev.save).dev.ps.srv.tree.items.any fun y =>
            decide (y.2.path = x.2.path) && decide (y.2.fmt = ASSOC ↔ x.2.fmt = ASSOC)) &&
          (sameBoot r.dev.save).dev.ps.srv.tree.items.all (fun y => r.dev.ps.srv.tree.items.any fun x =>
            decide (x.2.path = y.2.path) && decide (x.2.fmt = ASSOC ↔ y.2.fmt = ASSOC)) &&
          r.dev.ps.srv.tree.items.all (fun x => decide (contents r.dev.ps.srv x.1 = none ∨
            contents r.dev.ps.srv x.1 = some (sameSetting.facts.bytes x.2.path))) &&
          decide ((r.dev.ps.srv.tree.get 1).map (·.path) = some ['/', 's', '/', 'd']) &&
          decide ((r.dev.ps.srv.tree.get 2).map (fun i => (i.path, i.parent)) = some (['/', 's', '/', 'd', '/', 'a', 'b'], some 1)) &&
          decide (((sameBoot r.dev.save).dev.ps.srv.tree.get 6).map (·.path) = some ['/', 's', '/', 'd']) &&
          decide (((sameBoot r.dev.save).dev.ps.srv.tree.get 7).map (·.path) = some ['/', 's', '/', 'd', '/', 'a', 'b'])
      | .ub _ => false) = true := by decide +kernel
  have lies : ∀ (r : Rsp Device) (h : Nat) (p : Path), (r.dev.ps.srv.tree.get h).map (·.path) = some p → Lies r h p := by
    intro r h p k
    cases e : r.dev.ps.srv.tree.get h with
    | none => rw [e] at k; cases k
    | some it => rw [e] at k; exact ⟨it, e, Option.some.inj k⟩
  cases e : demoGRsp.run Device.dev madeFolder with
  | ub k => rw [e] at hk; cases hk
  | ok r =>
    rw [e] at hk
    simp only [Bool.and_eq_true, List.all_eq_true, List.any_eq_true, decide_eq_true_eq] at hk
    obtain ⟨⟨⟨⟨⟨⟨⟨⟨⟨a1, a2⟩, a3⟩, a4⟩, a5⟩, a6⟩, a7⟩, a8⟩, a9⟩, a10⟩ := hk
    have t : Elapsed [0x9811] demoGRsp r := lived_run _ _ _ (.start _) (avoidsAll_ok (by decide +kernel)) e
    have w : ServerOk r.dev.ps.srv := ((Device.refs_history (h := 0) rfl (.lived (.start _) t)).dev.2 demoEmpty_ok a1).1
    have hb := same_boots r.dev.save (Nat.lt_trans a2 (by decide))
    have h2 : ∃ it, r.dev.ps.srv.tree.get 2 = some it ∧ it.path = ['/', 's', '/', 'd', '/', 'a', 'b'] ∧ it.parent = some 1 := by
      cases e : r.dev.ps.srv.tree.get 2 with
      | none => rw [e] at a8; cases a8
      | some it =>
        rw [e] at a8
        have := Option.some.inj a8
        exact ⟨it, rfl, congrArg (·.1) this, congrArg (·.2) this⟩
    obtain ⟨it, g, hp, hq⟩ := h2
    exact ⟨r, rfl, w, hb, same_there w hb a3 a4 a5 a6, ⟨rfl, rfl, rfl, Nat.one_ne_zero⟩, ⟨_, lies _ _ _ a7, lies _ _ _ a9⟩,
      ⟨_, ⟨it, g, hp⟩, lies _ _ _ a10⟩, ⟨it, g, hq⟩, a2⟩

end Props
