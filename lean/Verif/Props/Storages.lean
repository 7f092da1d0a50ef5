import Verif.Lemmas.StoragesStart
import Verif.Lemmas.Fitting
import Verif.Props.Server
import Verif.Props.Startup
import Verif.Props.Edit
/-! Property theorems C103: several storages. -/
namespace Props
open Mtp Spec

/-! ### One storage among others -/

/-- C103. A storage among others is as good as alone: as long as a host's requests concern one storage, in whatever order and with
whatever interruptions, the device answers, byte for byte, and changes the objects and files of that storage exactly as if that
storage were the only one. Missing: requests before the storages are ready; and data sent although the announcement
(SendObjectPropList) was refused, which go to handle 0 (see `Rsp.Fits`). -/
theorem C103_alone_partial (r r' : Rsp Storages) (i : Nat) (w : StoragesOk r.dev) (hi : i < r.dev.count) (np : NothingPending r)
    (is : List (Rsp.In Storages)) (hu : UsesOnly i r is) (hr : r.run Storages.dev is = .ok r') (hb : HandlesLeft r'.dev) :
    ∃ s, (onlyStorage i r).run Server.dev (is.map (Rsp.In.via (·.at i))) = .ok s ∧ s.out = r'.out ∧ s.dev = r'.dev.at i :=
  ⟨onlyStorage i r', (Storages.alone w hi np hu hr hb).1, rfl, rfl⟩

/-- C103. … and the other storages are not touched. -/
theorem C103_others (r r' : Rsp Storages) (i : Nat) (w : StoragesOk r.dev) (hi : i < r.dev.count) (np : NothingPending r)
    (is : List (Rsp.In Storages)) (hu : UsesOnly i r is) (hr : r.run Storages.dev is = .ok r') (hb : HandlesLeft r'.dev) :
    ∀ j, j ≠ i → apart (r'.dev.at j) = apart (r.dev.at j) :=
  (Storages.alone w hi np hu hr hb).2.dev.others

/-- C103. Whatever a host does, with however many storages at once: each stays in order, no two have an object in common, and
their ids stay what they were. -/
theorem C103_consistent (r r' : Rsp Storages) (w : StoragesOk r.dev) (is : List (Rsp.In Storages)) (hin : ∀ d, Rsp.In.env d ∉ is)
    (hr : r.run Storages.dev is = .ok r') (hb : HandlesLeft r'.dev) :
    StoragesOk r'.dev ∧ r'.dev.count = r.dev.count ∧ ∀ j, (r'.dev.at j).sid = (r.dev.at j).sid := by
  have h := Storages.run_older hin hr
  exact ⟨h.2.2.2 w hb, h.2.1, h.2.2.1⟩

/-! ### Objects of one storage, requests to another -/

theorem apart_get {s t : Server} (e : apart s = apart t) (h : Nat) :
    s.tree.get h = t.tree.get h ∧ contents s h = contents t h ∧ s.sizeOf h = t.sizeOf h ∧ s.infoOf h = t.infoOf h ∧ s.ios = t.ios := by
  obtain ⟨a1, a2, a3, a4, a5, a6, a7, a8, a9, a10, a11, a12, a13⟩ := s
  obtain ⟨b1, b2, b3, b4, b5, b6, b7, b8, b9, b10, b11, b12, b13⟩ := t
  obtain ⟨t1, t2, t3, t4, t5, t6, t7, t8, t9, t10, t11⟩ := a4
  obtain ⟨u1, u2, u3, u4, u5, u6, u7, u8, u9, u10, u11⟩ := b4
  simp only [apart, Server.mk.injEq, Tree.mk.injEq, and_true, true_and] at e
  obtain ⟨rfl, rfl, rfl, ⟨rfl, rfl, rfl, rfl, rfl, rfl, rfl, rfl, rfl⟩, rfl, rfl, rfl, rfl, rfl, rfl, rfl, rfl⟩ := e
  exact ⟨rfl, rfl, rfl, rfl, rfl⟩

/-- A download from one of several storages. -/
theorem download_among (r : Rsp Storages) (ho : Open r) (w : StoragesOk r.dev) (i : Nat) (hi : i < r.dev.count)
    (hw : Willing (r.dev.at i)) (q : List UInt8) (hq : Asking q 0x1009) (h : Nat) (hh : cParam q 0 = h) (h0 : h ≠ 0)
    (c : List UInt8) (hc : contents (r.dev.at i) h = some c) (hs : (r.dev.at i).sizeOf h = c.length)
    (hm : c.length ≤ 0xFFFFFFFF - 12) :
    ∃ r', AnsweredBy Storages.dev r r' (ask q) q .ok [] ∧ dataOf r'.out = dataOf r.out ++ c := by
  have hhas : (r.dev.at i).tree.has h = true := by
    unfold contents at hc
    cases e : (r.dev.at i).tree.get h with
    | none => rw [e] at hc; cases hc
    | some it => exact has_iff.mpr ⟨it, e⟩
  have hof : r.dev.ofHandle h = some i :=
    Storages.first_unique hi hhas fun j hj e => w.handles j i h hj hi h0 e hhas
  obtain ⟨e1, e2, e3⟩ := Server.object_reply (r.dev.at i) hw q h hh c hc hs hm
  have hqu : Storages.dev.query r.dev 0x1009 (cParams q) = (r.dev.put i ((r.dev.at i).query 0x1009 (cParams q)).1,
      ((r.dev.at i).query 0x1009 (cParams q)).2) := by
    show r.dev.query 0x1009 (cParams q) = _
    have e0 : r.dev.query 0x1009 (cParams q) = r.dev.byHandle ((cParams q).getD 0 0) fun s => s.query 0x1009 (cParams q) := rfl
    rw [e0, show (cParams q).getD 0 0 = h from hh]
    unfold Storages.byHandle
    rw [hof]
    rfl
  obtain ⟨r', a1, a2, a3⟩ := Server.query_answer_by Storages.dev r ho q 0x1009 hq _ rfl rfl .ok [] (by rw [hqu]; exact e2)
  refine ⟨r', a1, ?_⟩
  rw [a3, hqu, e3]

/-- C103. What one storage holds, it still holds after any requests that concern another: GetObject is answered with the same
bytes. -/
theorem C103_download (r r' : Rsp Storages) (i j : Nat) (w : StoragesOk r.dev) (hi : i < r.dev.count) (hj : j < r.dev.count)
    (hij : i ≠ j) (np : NothingPending r) (hw : Willing (r.dev.at i)) (is : List (Rsp.In Storages)) (hin : ∀ d, Rsp.In.env d ∉ is)
    (hu : UsesOnly j r is) (hr : r.run Storages.dev is = .ok r') (hb : HandlesLeft r'.dev) (ho : Open r')
    (h : Nat) (h0 : h ≠ 0) (c : List UInt8) (hc : contents (r.dev.at i) h = some c) (hs : (r.dev.at i).sizeOf h = c.length)
    (hm : c.length ≤ 0xFFFFFFFF - 12) (q : List UInt8) (hq : Asking q 0x1009) (hh : cParam q 0 = h) :
    ∃ r2, AnsweredBy Storages.dev r' r2 (ask q) q .ok [] ∧ dataOf r2.out = dataOf r'.out ++ c := by
  obtain ⟨w', hc', _⟩ := C103_consistent r r' w is hin hr hb
  have ha := C103_others r r' j w hj np is hu hr hb i hij
  obtain ⟨_, g2, g3, _, g5⟩ := apart_get ha h
  exact download_among r' ho w' i (hc' ▸ hi) (fun a b => by rw [g5]; exact hw a b) q hq h hh h0 c (g2.trans hc) (g3.trans hs) hm

/-! ### Uploads -/

theorem via_transfer {D E : Type} (f : D → E) (q : List UInt8) (bs : List (List UInt8)) :
    (sendObject q bs : List (Rsp.In D)).map (Rsp.In.via f) = sendObject q bs := by
  have h : ∀ (bs : List (List UInt8)) b, (dataPhase b bs : List (Rsp.In D)).map (Rsp.In.via f) = dataPhase b bs := by
    intro bs
    induction bs with
    | nil => intro b; rfl
    | cons x bs ih => intro b; simp only [dataPhase, List.map_cons, ih]; rfl
  simp only [sendObject, List.map_cons, h]
  rfl

theorem no_env {D : Type} (q : List UInt8) (bs : List (List UInt8)) (d : D) : Rsp.In.env d ∉ sendObject q bs := by
  have h : ∀ (bs : List (List UInt8)) b, Rsp.In.env d ∉ dataPhase b bs := by
    intro bs
    induction bs with
    | nil => intro b; simp [dataPhase]
    | cons x bs ih => intro b; simp [dataPhase, ih]
  simp [sendObject, h]

theorem editing_none {D : Type} {r r' : Rsp D} (h : editing r' = editing r) (e : r.edit = none) : r'.edit = none := by
  unfold editing at h
  rw [e] at h
  simpa using h

theorem rest_edit {D : Type} (dv : Dev D) (bs : List (List UInt8)) : ∀ {r r' : Rsp D}, r.run dv (dataPhase false bs) = .ok r' →
    editing r' = editing r := by
  induction bs with
  | nil => intro r r' h; cases h; rfl
  | cons b bs ih =>
    intro r r' h
    simp only [dataPhase, Rsp.run] at h
    cases hs : r.step dv (.packet b false bs.isEmpty []) with
    | ub w => rw [hs] at h; cases h
    | ok r1 =>
      rw [hs] at h
      exact (ih h).trans (receive_edit dv b false bs.isEmpty [] (fun _ e => by cases e) hs)

/-- A transfer leaves alone what is being edited. -/
theorem transfer_edit {D : Type} (dv : Dev D) {r r' : Rsp D} (q : List UInt8) (hc : cCode q ≠ 0x95C4 ∧ cCode q ≠ 0x95C5)
    (hst : ∀ r1, r.receive dv q true true [] = .ok r1 → r1.st = .waitData) (bs : List (List UInt8))
    (h : r.run dv (sendObject q bs) = .ok r') : editing r' = editing r := by
  simp only [sendObject, Rsp.run] at h
  cases hs : r.step dv (.packet q true true []) with
  | ub w => rw [hs] at h; cases h
  | ok r1 =>
    rw [hs] at h
    have e1 := receive_edit dv q true true [] (fun _ _ _ => hc) hs
    have st1 := hst r1 hs
    cases bs with
    | nil => cases h; exact e1
    | cons b bs =>
      simp only [dataPhase, Rsp.run, Res.bind_ok] at h
      cases hs2 : r1.step dv (.packet b true bs.isEmpty []) with
      | ub w => rw [hs2] at h; cases h
      | ok r2 =>
        rw [hs2] at h
        exact ((rest_edit dv bs h).trans (receive_edit dv b true bs.isEmpty [] (fun e => absurd st1 e) hs2)).trans e1

theorem open_via {D E : Type} {f : D → E} {r : Rsp D} : Open (r.via f) ↔ Open r :=
  ⟨fun h => ⟨h.idle, h.none, h.ready, h.session⟩, fun h => ⟨h.idle, h.none, h.ready, h.session⟩⟩

theorem run_two {D : Type} {dv : Dev D} {is js : List (Rsp.In D)} : ∀ {r r1 r2 : Rsp D}, r.run dv is = .ok r1 → r1.run dv js = .ok r2 →
    r.run dv (is ++ js) = .ok r2 := by
  induction is with
  | nil => intro r r1 r2 h k; cases h; exact k
  | cons i is ih =>
    intro r r1 r2 h k
    rw [Rsp.run] at h
    rw [List.cons_append, Rsp.run]
    cases hs : r.step dv i with
    | ub w => rw [hs] at h; cases h
    | ok r0 =>
      rw [hs] at h
      exact ih h k

/-- C103. Several storages, each with its own uploads: what is uploaded to one storage is what is downloaded from it later, whatever the host
did to another storage meanwhile (uploads, deletions, and so on). -/
theorem C103_upload_download (r : Rsp Storages) (ho : Open r) (w : StoragesOk r.dev) (np : NothingPending r) (i j : Nat)
    (hi : i < r.dev.count) (hj : j < r.dev.count) (hij : i ≠ j) (hw : Willing (r.dev.at i)) (o : ObjInfo) (data q1 : List UInt8)
    (bs : List (List UInt8)) (q2 : List UInt8) (ds : List (List UInt8)) (hu : Uploading (r.dev.at i) o data q1 bs q2 ds) :
    ∃ r1 h r2, AnsweredBy Storages.dev r r1 (sendObject q1 bs) q1 .ok [(r.dev.at i).sid, folderOf q1, h] ∧
      (∀ k, k < r.dev.count → (r.dev.at k).tree.has h = false) ∧ AnsweredBy Storages.dev r1 r2 (sendObject q2 ds) q2 .ok [] ∧
      StoragesOk r2.dev ∧ NothingPending r2 ∧ (∀ k, k ≠ i → apart (r2.dev.at k) = apart (r.dev.at k)) ∧
      ∀ (is : List (Rsp.In Storages)) (r3 : Rsp Storages), (∀ d, Rsp.In.env d ∉ is) → UsesOnly j r2 is →
        r2.run Storages.dev is = .ok r3 → HandlesLeft r3.dev → Open r3 → ∀ q3, Asking q3 0x1009 → cParam q3 0 = h →
        ∃ r4, AnsweredBy Storages.dev r3 r4 (ask q3) q3 .ok [] ∧ dataOf r4.out = dataOf r3.out ++ data := by
  have hsz := hu.size
  have hsm := hu.small
  have hmod : o.size % 2 ^ 32 = data.length := by omega
  have hb0 : HandlesLeft r.dev := Nat.lt_of_succ_lt hu.offer.handles
  have g0 := Storages.good_start w hi np hb0
  obtain ⟨s1, h, a1, an, hios, nw, hl1⟩ := Server.offer_taken_left (onlyStorage i r) (open_via.mpr ho) (w.each i hi) q1 hu.announce o
    hu.fits bs hu.dataset (by omega) hu.offer
  rw [hmod] at an
  obtain ⟨s2, hl2, a2, b1, b2, b3, b4, b5, ⟨b6, b7, b8⟩, b9, b10⟩ := sent_left (onlyStorage i r) s1 (w.each i hi) a1.again
    (fun a b => by rw [hios]; exact hw a b) nw hu.file data an hsm q2 hu.send ds hu.packets
  have k1 : Concerns r.dev i (cCode q1) (cParams q1) := by
    rw [hu.announce.code]
    refine ⟨fun e => absurd e (by decide), fun e => by omega, fun e => by omega, fun _ => ?_, fun e => by omega, by omega⟩
    have := hu.offer.storage
    rw [show cParam q1 0 = (cParams q1).getD 0 0 from rfl] at this
    split at this
    · next e => exact Or.inr ⟨e, this.symm⟩
    · exact Or.inl this
  obtain ⟨r1, e1, v1, g1⟩ := Storages.among w hi (sendObject q1 bs) g0 (Rsp.fitting_announce ho hu.announce k1) (no_env q1 bs)
    (by rw [via_transfer]; exact a1.run) hl1
  subst v1
  have ho1 : Open r1 := open_via.mp a1.again
  have h0 : h ≠ 0 := by
    rintro rfl
    obtain ⟨it, e, _⟩ := (w.each i hi).wf.root
    have := nw.fresh
    rw [show (onlyStorage i r).dev = r.dev.at i from rfl, e] at this
    cases this
  have k2 : Concerns r.dev i (cCode q2) (cParams q2) := by
    rw [hu.send.code]
    exact ⟨fun e => absurd e (by decide), fun e => by omega, fun e => by omega, fun e => by omega, fun e => by omega, by omega⟩
  obtain ⟨r2, e2, v2, g2⟩ := Storages.among w hi (sendObject q2 ds) g1
    (Rsp.fitting_upload ho1 hu.send k2 h0 (show Spec.Announced r1 h data.length from an) hu.packets.2.1) (no_env q2 ds)
    (by rw [via_transfer]; exact a2.run) (by rw [hl2]; exact hl1)
  subst v2
  have hbr2 : HandlesLeft r2.dev := by
    show (onlyStorage i r2).dev.tree.asked < _
    rw [hl2]; exact hl1
  have hed : r2.edit = none := by
    refine editing_none (transfer_edit Storages.dev q2 (by rw [hu.send.code]; decide) (fun rx ex => ?_) ds e2)
      (editing_none (transfer_edit Storages.dev q1 (by rw [hu.announce.code]; decide) (fun rx ex => ?_) bs e1) np.edit)
    · obtain ⟨r', e', g, -, -⟩ := Rsp.accept_going Storages.dev r1 q2 h data.length ho1.idle ho1.ready ho1.session hu.send.tid hu.send.code an
      rw [e'] at ex
      cases ex
      exact g.st
    · have hk : opKind (cCode q1) = some .sendInfo := by rw [hu.announce.code]; decide
      rw [Rsp.receive_idle Storages.dev r q1 [] ho.idle, Rsp.command_accept Storages.dev r q1 [] (Or.inl ho.ready), hk] at ex
      cases ex
      show (r.accept q1).st = .waitData
      rw [Rsp.accept_st, hu.announce.code]; rfl
  have ho2 : Open r2 := open_via.mp a2.again
  have np2 : NothingPending r2 := ⟨ho2.none, b6, b7, hed⟩
  have hrun : r.run Storages.dev (sendObject q1 bs ++ sendObject q2 ds) = .ok r2 := by
    exact run_two e1 e2
  obtain ⟨w2, c2, _⟩ := C103_consistent r r2 w (sendObject q1 bs ++ sendObject q2 ds)
    (fun d hd => by
      rcases List.mem_append.mp hd with hd | hd
      · exact no_env q1 bs d hd
      · exact no_env q2 ds d hd) hrun hbr2
  refine ⟨r1, h, r2, ⟨e1, a1.out, ho1⟩, fun k hk => ?_, ⟨e2, a2.out, ho2⟩, w2, np2, g2.dev.others, ?_⟩
  · by_cases e : k = i
    · rw [e]; exact has_false.mpr nw.fresh
    · cases hh : (r.dev.at k).tree.has h with
      | false => rfl
      | true =>
        obtain ⟨it, e⟩ := has_iff.mp hh
        have l1 := (w.each k hk).issued h it e
        have l2 : (r.dev.at i).tree.asked < h := nw.later
        rw [Storages.at_asked] at l1 l2
        omega
  · intro is r3 hin hu3 hr3 hb3 ho3 q3 hq3 hp3
    have hsize : (r2.dev.at i).sizeOf h = data.length := by
      obtain ⟨m, b5⟩ := b5
      have := Server.size_info (h := h) (s := r2.dev.at i) b5
      rw [this]
      have hinfo := info_new nw hu.offer.name
      rw [hinfo]
      simp only [toldOf, objInfoReceived]
      exact hmod
    exact C103_download r2 r3 i j w2 (c2 ▸ hi) (c2 ▸ hj) hij np2 b1 is hin hu3 hr3 hb3 ho3 h h0 data b3 hsize hsm q3 hq3 hp3

/-! ### The start -/

/-- C103. After the start, with up to 255 storages, each in a directory that can be one, the storages are in order: everything proved
about such states holds from the start on. -/
theorem C103_start (fmts : List Nat) (ids : Nat) (cs : List Place) (hc : ∀ c ∈ cs, Directory c.rootPath c.excl c.policy c.disk)
    (hn : cs.length < 256) (m : Storages) (e : Storages.start fmts ids cs = some m) (hb : HandlesLeft m) : StoragesOk m :=
  Storages.start_ok hc hn e hb

/-! ### Witnesses -/

/-- A storage at path `p` with the files `l` in its directory, and `fs` the file system's answers. -/
def demoPlace (p : Path) (fs : Bool) (l : List Path) : Place :=
  { caps := demoCaps, rootPath := p, excl := [], policy := .denyAll, puoids := [], fs := fun _ => fs
    disk := .node none ASSOC (l.map fun n => (n, .node none 0x3000 []))
    facts := ⟨fun p => p.map fun c => UInt8.ofNat c.toNat, fun _ => [], fun _ => 0⟩
    ios := fun _ _ => {}, alloc := fun _ => true, room := fun _ => 2 ^ 40
    times := ⟨fixedZone 0, fun _ => 1700000000, fun _ => true⟩ }

def demoPlaces (fs : Bool) : List Place := [demoPlace ['/', 's'] true [['x']], demoPlace ['/', 't'] fs [['b'], ['c']]]

/-- Two storages: one with one file, one with two. -/
def demoPair (fs : Bool) : Storages := (Storages.start [0x3000, 0x3001] 0 (demoPlaces fs)).getD ⟨0, fun _ => demoEmpty, [], 0, 0, 0⟩

/-- A responder with two storages, in a session. -/
def demoBoth (m : Storages) : Rsp Storages := { ready := true, session := 1, dev := m }

theorem demoPair_ok (fs : Bool) : StoragesOk (demoPair fs) := by
  cases fs <;>
  exact C103_start [0x3000, 0x3001] 0 (demoPlaces _) (by
    intro c hc
    simp only [demoPlaces, List.mem_cons, List.not_mem_nil, or_false] at hc
    rcases hc with rfl | rfl <;>
      exact ⟨⟨_, _, rfl, by decide, trivial⟩, by simp [demoPlace, DiskOk, DisksOk], by simp [demoPlace, DiskNames, DisksNames]⟩)
    (by decide) _ rfl (by unfold HandlesLeft; decide +kernel)

/-- The host deletes the only file of the first storage. -/
theorem C103_witness : ∃ r', StoragesOk (demoBoth (demoPair true)).dev ∧ 0 < (demoBoth (demoPair true)).dev.count ∧
    NothingPending (demoBoth (demoPair true)) ∧ UsesOnly 0 (demoBoth (demoPair true)) (ask (Toy.cmd 0x100B 4 [1, 0])) ∧
    (demoBoth (demoPair true)).run Storages.dev (ask (Toy.cmd 0x100B 4 [1, 0])) = .ok r' ∧ HandlesLeft r'.dev ∧
    (r'.dev.at 0).tree.has 1 = false ∧ (r'.dev.at 1).tree.has 2 = true ∧
    contents ((demoBoth (demoPair true)).dev.at 1) 2 = some [47, 116, 47, 98] ∧ Open r' ∧ Willing ((demoBoth (demoPair true)).dev.at 1) := by
  have key : ∃ r', (demoBoth (demoPair true)).run Storages.dev (ask (Toy.cmd 0x100B 4 [1, 0])) = .ok r' ∧ r'.dev.asked = 3 ∧
      (r'.dev.at 0).tree.has 1 = false ∧ (r'.dev.at 1).tree.has 2 = true ∧ r'.st = .idle ∧ r'.req = none ∧ r'.ready = true ∧ r'.session = 1 :=
    ⟨_, rfl, by decide +kernel, by decide +kernel, by decide +kernel, by decide +kernel, by decide +kernel, by decide +kernel, by decide +kernel⟩
  obtain ⟨r', a, b, c, d, e1, e2, e3, e4⟩ := key
  refine ⟨r', demoPair_ok true, by decide, ⟨rfl, rfl, rfl, rfl⟩, ?_, a, by unfold HandlesLeft; omega, c, d, by decide +kernel,
    ⟨e1, e2, e3, by omega⟩, fun n i => ⟨rfl, by simp [demoBoth, demoPair, Storages.start, Storages.startList, Storages.startOne, demoPlaces, demoPlace, Storages.at, Server.start], by simp [demoBoth, demoPair, Storages.start, Storages.startList, Storages.startOne, demoPlaces, demoPlace, Storages.at, Server.start], rfl⟩⟩
  refine Rsp.fitting_ask ⟨rfl, rfl, rfl, by decide⟩ ?_
  rw [show cCode (Toy.cmd 0x100B 4 [1, 0]) = 0x100B by decide +kernel,
    show cParams (Toy.cmd 0x100B 4 [1, 0]) = [1, 0, 0, 0, 0] by decide +kernel]
  refine ⟨fun _ => ⟨by decide, by decide, ?_⟩, fun e => by omega, fun e => by omega, fun e => by omega, fun e => by omega, by omega⟩
  rintro ⟨_, j, hj, h0, h⟩
  have hj : j < 2 := hj
  obtain rfl : j = 1 := by omega
  exact absurd h (by decide +kernel)

/-- … and uploads a file to it. -/
theorem C103_upload_witness : Open (demoBoth (demoPair true)) ∧ StoragesOk (demoBoth (demoPair true)).dev ∧
    NothingPending (demoBoth (demoPair true)) ∧ Willing ((demoBoth (demoPair true)).dev.at 0) ∧
    Uploading ((demoBoth (demoPair true)).dev.at 0) demoFile [7, 8, 9] demoAnn demoAnnData demoPut demoPutData := by
  refine ⟨⟨rfl, rfl, rfl, by decide⟩, demoPair_ok true, ⟨rfl, rfl, rfl, rfl⟩, fun n i => ⟨rfl, by simp [demoBoth, demoPair, Storages.start, Storages.startList, Storages.startOne, demoPlaces, demoPlace, Storages.at, Server.start], by simp [demoBoth, demoPair, Storages.start, Storages.startList, Storages.startOne, demoPlaces, demoPlace, Storages.at, Server.start], rfl⟩, ?_⟩
  refine ⟨by unfold ObjInfoFits demoFile sampleInfo; decide, by decide, rfl, by decide, ⟨by decide +kernel, by decide +kernel⟩, ?_, ?_,
    ⟨by decide +kernel, by decide +kernel⟩, ?_⟩
  · refine ⟨by decide +kernel, by decide +kernel, ⟨⟨['/', 's'], ['s'], ASSOC, 0, none, [1], 1⟩, by decide +kernel, rfl, by decide +kernel,
      by decide +kernel⟩, rfl, by decide +kernel⟩
  · exact ⟨⟨_, rfl, by decide +kernel⟩, by decide +kernel⟩
  · exact ⟨by decide, by decide +kernel, by decide +kernel, by decide +kernel⟩

/-- C103 does not hold of requests to all storages: deleting all objects of a format is answered with the answer of the storage that was
asked last. If that one refuses, the answer is GeneralError, as if nothing had been deleted, although another storage deleted its file. -/
theorem C103_delete_all_violated : ∃ r', StoragesOk (demoPair false) ∧ ((demoPair false).at 0).tree.has 1 = true ∧
    AnsweredBy Storages.dev (demoBoth (demoPair false)) r' (ask (Toy.cmd 0x100B 4 [0xFFFFFFFF, 0x3000])) (Toy.cmd 0x100B 4 [0xFFFFFFFF, 0x3000])
      .generalError [] ∧ (r'.dev.at 0).tree.has 1 = false := by
  have key : ∃ r', (demoBoth (demoPair false)).run Storages.dev (ask (Toy.cmd 0x100B 4 [0xFFFFFFFF, 0x3000])) = .ok r' ∧
      (r'.dev.at 0).tree.has 1 = false ∧ responses r'.out = [.response .generalError 4 []] ∧ r'.st = .idle ∧ r'.req = none ∧ r'.ready = true ∧
      r'.session = 1 :=
    ⟨_, rfl, by decide +kernel, by decide +kernel, by decide +kernel, by decide +kernel, by decide +kernel, by decide +kernel⟩
  obtain ⟨r', a, b, c, e1, e2, e3, e4⟩ := key
  exact ⟨r', demoPair_ok false, by decide +kernel, ⟨a, ⟨4, by decide +kernel, by rw [c]; rfl⟩, ⟨e1, e2, e3, by omega⟩⟩, b⟩

/-- C103 does not hold either of a folder asked for in all storages: the objects in the folder (handle 1) are listed if the storage it is
on is named; but if all storages are asked for them, another storage, which does not know the folder, spoils the answer. -/
theorem C103_list_all_violated : ∃ m, StoragesOk m ∧ (m.at 0).tree.handles 0 1 = (.ok, [2]) ∧
    (m.query 0x1007 [(m.at 0).sid, 0, 1]).2.response = some (.ok, []) ∧
    (m.query 0x1007 [0xFFFFFFFF, 0, 1]).2.response = some (.invalidParentObject, []) := by
  refine ⟨(Storages.start [0x3000, 0x3001] 0 [{ demoPlace ['/', 's'] true [] with disk := .node none ASSOC [(['f'], .node none ASSOC [(['a'], .node none 0x3000 [])])] },
      demoPlace ['/', 't'] true []]).getD ⟨0, fun _ => demoEmpty, [], 0, 0, 0⟩, ?_, by decide +kernel, by decide +kernel, by decide +kernel⟩
  exact C103_start [0x3000, 0x3001] 0 [{ demoPlace ['/', 's'] true [] with disk := .node none ASSOC [(['f'], .node none ASSOC [(['a'], .node none 0x3000 [])])] },
      demoPlace ['/', 't'] true []] (by
    intro c hc
    simp only [List.mem_cons, List.not_mem_nil, or_false] at hc
    rcases hc with rfl | rfl <;>
      exact ⟨⟨_, _, rfl, by decide, trivial⟩, by simp [demoPlace, DiskOk, DisksOk], by simp [demoPlace, DiskNames, DisksNames]⟩)
    (by decide) _ rfl (by unfold HandlesLeft; decide +kernel)

end Props
