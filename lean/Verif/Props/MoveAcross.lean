import Verif.Lemmas.StoragesMove
import Verif.Props.Full
/-! Property theorems C106: MoveObject to another storage as the host sees it. -/
namespace Props
open Mtp Spec

/-- What is done for a move to another storage. -/
theorem full_move {m : Storages} (w : StoragesOk m) {i j : Nat} (hi : i < m.count) (hj : j < m.count) (hij : i ≠ j) (ps : List Nat)
    (h0 : ps.getD 0 0 ≠ 0) (hh : (m.at i).tree.has (ps.getD 0 0) = true) (hs : ps.getD 1 0 = (m.at j).sid) :
    Storages.fullDev.query m 0x1019 ps =
      if ps.getD 2 0 ≠ 0 ∧ m.has (ps.getD 2 0) = false then (m, ⟨[], some (.invalidParentObject, [])⟩)
      else ((m.carry i j (ps.getD 0 0) (ps.getD 2 0)).1, ⟨[], some ((m.carry i j (ps.getD 0 0) (ps.getD 2 0)).2, [])⟩) := by
  have e1 := of_object w hi h0 hh
  have e2 := of_sid w hj
  rw [← hs] at e2
  have e3 : m.across (ps.getD 0 0) (ps.getD 1 0) = true := by
    unfold Storages.across
    rw [e1, e2]
    simpa using hij
  have e4 : m.moveTo (ps.getD 0 0) (ps.getD 1 0) (ps.getD 2 0) = if ps.getD 2 0 ≠ 0 ∧ m.has (ps.getD 2 0) = false then (m, .invalidParentObject)
      else m.carry i j (ps.getD 0 0) (ps.getD 2 0) := by
    unfold Storages.moveTo
    rw [e1, e2]
  show (if _ then _ else _) = _
  rw [if_pos ⟨rfl, e3⟩, e4]
  split <;> rfl

/-- Requests other than MoveObject are answered as before. -/
theorem ask_same (r : Rsp Storages) (ho : Open r) (q : List UInt8) (code : Nat) (hq : Asking q code) (hc : code ≠ 0x1019) :
    r.run Storages.fullDev (ask q) = r.run Storages.dev (ask q) := by
  have key : ∀ dv : Dev Storages, r.run dv (ask q) = match opKind (cCode q) with
      | some k => (r.accept q).handle dv q [] k
      | none => .ok ((r.accept q).reply .operationNotSupported) := by
    intro dv
    unfold ask
    simp only [Rsp.run, Rsp.step]
    rw [Rsp.receive_idle dv r q [] ho.idle, Rsp.command_accept dv r q [] (Or.inl ho.ready)]
    cases opKind (cCode q) with
    | none => rfl
    | some k =>
      simp only
      cases (r.accept q).handle dv q [] k <;> rfl
  have hqu : ∀ m ps, Storages.fullDev.query m (cCode q) ps = Storages.dev.query m (cCode q) ps := by
    intro m ps
    show (if _ then _ else _) = _
    rw [if_neg (by rw [hq.code]; exact fun h => hc h.1)]
    rfl
  rw [key, key]
  cases opKind (cCode q) with
  | none => rfl
  | some k =>
    simp only
    cases k <;> first | rfl | (simp only [Rsp.handle, hqu])

theorem answered_same {r r' : Rsp Storages} (ho : Open r) {q : List UInt8} {code : Nat} (hq : Asking q code) (hc : code ≠ 0x1019) {c : Resp}
    {ps : List Nat} (h : AnsweredBy Storages.dev r r' (ask q) q c ps) : AnsweredBy Storages.fullDev r r' (ask q) q c ps :=
  ⟨(ask_same r ho q code hq hc).trans h.run, h.out, h.again⟩

/-- C106. Without MoveObject, the device is that of C103 – C105: what those say of a history of other requests holds here too. -/
theorem C106_otherwise_same (r r' : Rsp Storages) (ho : Open r) (is : List (Rsp.In Storages))
    (hf : Rsp.Fitting Storages.dev (fun code _ => code ≠ 0x1019) r is) (hr : r.run Storages.dev is = .ok r') :
    r.run Storages.fullDev is = .ok r' := by
  have S : Rsp.Sim Storages.dev Storages.fullDev id (fun _ => True) (fun _ => True) (fun code _ => code ≠ 0x1019) (fun _ => True) :=
    { query := fun m c ps _ hc => ⟨by
        show (if c = 0x1019 ∧ _ then _ else _) = (_ : Storages × Reply)
        rw [if_neg fun h => hc h.1]; rfl, fun _ => trivial⟩
      copy := fun _ _ _ _ _ => ⟨rfl, fun _ => trivial⟩
      check := fun _ _ _ _ _ => rfl
      store := fun _ _ _ _ _ _ => ⟨rfl, fun _ => trivial⟩
      listCheck := fun _ _ _ _ => rfl
      addInfo := fun _ _ _ _ _ => ⟨rfl, fun _ => ⟨trivial, fun _ => trivial⟩⟩
      addList := fun _ _ _ _ _ => ⟨rfl, fun _ => ⟨trivial, Or.inl trivial⟩⟩
      write := fun _ _ _ _ _ _ _ => ⟨rfl, trivial⟩
      cut := fun _ _ _ _ _ => ⟨rfl, trivial⟩
      setProps := fun _ _ _ _ _ => ⟨rfl, trivial⟩
      writePartial := fun _ _ _ _ _ _ _ _ => ⟨rfl, trivial⟩
      delete := fun _ _ _ _ => ⟨rfl, trivial⟩
      handleOk := fun _ _ _ _ => ⟨rfl, trivial⟩
      flush := fun _ _ _ _ => ⟨rfl, trivial⟩
      setEvents := fun _ _ _ _ _ => ⟨rfl, trivial⟩
      eventsOff := fun _ _ => ⟨rfl, trivial⟩
      eventsOn := fun _ _ _ => rfl }
  obtain ⟨h, _⟩ := Rsp.sim_run S (fun _ _ _ => trivial) is ⟨trivial, (fun q e => by rw [ho.none] at e; cases e), fun _ _ => trivial,
    (fun _ _ => ⟨Or.inl trivial, by decide⟩), fun _ _ => trivial⟩ hf hr trivial
  have e : is.map (Rsp.In.via id) = is := by
    conv => rhs; rw [← List.map_id is]
    refine List.map_congr_left fun i _ => ?_
    cases i <;> rfl
  rw [e] at h
  exact h

/-- C106. MoveObject of a file or folder to a free place of another storage, where nothing is refused: answered OK. The object and
everything in it are on the destination then, under the same handles, in the same arrangement, with the same bytes and the same
information but for storage, folder and dates, and no longer where they were; everything else on both storages is as before, the other
storages are not touched, and all storages are in order. -/
theorem C106_moved (r : Rsp Storages) (ho : Open r) (w : StoragesOk r.dev) (i j : Nat) (hi : i < r.dev.count) (hj : j < r.dev.count)
    (hij : i ≠ j) (q : List UInt8) (hq : Asking q 0x1019) (hs : cParam q 1 = (r.dev.at j).sid)
    (hc : MovableAcross (r.dev.at i) (r.dev.at j) (cParam q 0) (cParam q 2)) :
    ∃ (r' : Rsp Storages) (b : Server) (M : List (Nat × Nat)), AnsweredBy Storages.fullDev r r' (ask q) q .ok [] ∧
      dataOf r'.out = dataOf r.out ∧ WentFrom (r.dev.at i) (r'.dev.at i) (cParam q 0) ∧
      (∀ x y, (x, y) ∈ M → y = x) ∧ CopiedAcross (r.dev.at i) (r.dev.at j) b (cParam q 0) (cParam q 2) M ∧
      apart (r'.dev.at j) = apart b ∧ (∀ k, k ≠ i → k ≠ j → apart (r'.dev.at k) = apart (r.dev.at k)) ∧
      r'.dev.count = r.dev.count ∧ HandlesLeft r'.dev ∧ StoragesOk r'.dev := by
  obtain ⟨c1, c2, c3, c4, c5, c6, b, M, c7, _, c8, c9⟩ := Storages.carry_done w hi hj hij hc
  obtain ⟨it, pit, e1, e2, _⟩ := hc.place
  have hpar : ¬ (cParam q 2 ≠ 0 ∧ r.dev.has (cParam q 2) = false) := by
    rintro ⟨p0, p1⟩
    have := of_object w hj p0 (has_iff.mpr ⟨pit, e2⟩)
    unfold Storages.has at p1
    rw [this] at p1
    cases p1
  have hqu : Storages.fullDev.query r.dev 0x1019 (cParams q) = _ := full_move w hi hj hij (cParams q) hc.notRoot (has_iff.mpr ⟨it, e1⟩) hs
  rw [if_neg (by exact hpar)] at hqu
  have hqu' : Storages.fullDev.query r.dev 0x1019 (cParams q) = ((r.dev.carry i j (cParam q 0) (cParam q 2)).1, ⟨[], some (.ok, [])⟩) := by
    rw [hqu]
    show (_, (⟨[], some ((r.dev.carry i j (cParam q 0) (cParam q 2)).2, [])⟩ : Reply)) = _
    rw [c1]
    rfl
  obtain ⟨r', a1, a2, a3⟩ := Server.query_answer_by Storages.fullDev r ho q 0x1019 hq _ rfl rfl .ok [] (by rw [hqu'])
  rw [hqu'] at a2 a3
  simp only at a2
  rw [← a2] at c2 c3 c4 c5 c6 c9
  exact ⟨r', b, M, a1, by simpa using a3, c6, c7, c8, c9, c5, c2, c3, c4⟩

/-- C106. After the move every moved file can be downloaded, under the handle it had, byte for byte. -/
theorem C106_downloaded (r : Rsp Storages) (ho : Open r) (w : StoragesOk r.dev) (i j : Nat) (hi : i < r.dev.count) (hj : j < r.dev.count)
    (hij : i ≠ j) (q : List UInt8) (hq : Asking q 0x1019) (hs : cParam q 1 = (r.dev.at j).sid)
    (hc : MovableAcross (r.dev.at i) (r.dev.at j) (cParam q 0) (cParam q 2)) :
    ∃ r', AnsweredBy Storages.fullDev r r' (ask q) q .ok [] ∧
      ∀ x c, Below (r.dev.at i).tree (cParam q 0) x → Holds (r.dev.at i) x c → c.length ≤ 0xFFFFFFFF - 12 →
        ∀ q2, Asking q2 0x1009 → cParam q2 0 = x →
          ∃ r2, AnsweredBy Storages.fullDev r' r2 (ask q2) q2 .ok [] ∧ dataOf r2.out = dataOf r'.out ++ c := by
  obtain ⟨r', b, M, a1, _, _, hid, cp, ej, _, hcount, _, w'⟩ := C106_moved r ho w i j hi hj hij q hq hs hc
  refine ⟨r', a1, fun x c hx hh hl q2 hq2 hx2 => ?_⟩
  obtain ⟨y, hy⟩ := (cp.source x).mp hx
  have := hid _ _ hy
  subst this
  obtain ⟨o, o1, o2⟩ := hh.told
  obtain ⟨_, _, p, d, _, _, _, _, t⟩ := cp.told _ _ hy
  obtain ⟨_, g2, g3, _, g5⟩ := apart_get ej y
  obtain ⟨r2, b1, b2⟩ := download_among r' a1.again w' j (hcount ▸ hj) (fun n k => by rw [g5, cp.ios]; exact hc.willing.2 n k) q2 hq2 y hx2
    (Storages.below_ne (w.each i hi) hc.notRoot hx) c (g2.trans ((cp.contents _ _ hy).trans hh.contents))
    (by rw [g3, Server.size_info t]; simp only; rw [o1]; exact o2) hl
  exact ⟨r2, answered_same a1.again hq2 (by decide) b1, b2⟩

/-- C106. MoveObject to another storage loses nothing while the device reads and writes what it is asked to, whatever it is answered and
whatever else stands in the way (taken or unknown names, refused creations or deletions, folders that cannot be made): what else is on the
storages is as before, and every file that is moved is on one of the two, all its bytes. If it is answered OK, they are all on the
destination. -/
theorem C106_nothing_lost (r r' : Rsp Storages) (ho : Open r) (w : StoragesOk r.dev) (hb : HandlesLeft r.dev) (i j : Nat)
    (hi : i < r.dev.count) (hj : j < r.dev.count) (hij : i ≠ j) (q : List UInt8) (hq : Asking q 0x1019) (h0 : cParam q 0 ≠ 0)
    (hh : (r.dev.at i).tree.has (cParam q 0) = true) (hs : cParam q 1 = (r.dev.at j).sid)
    (hw : Willing (r.dev.at i) ∧ Willing (r.dev.at j)) (c : Resp) (ps : List Nat) (ha : AnsweredBy Storages.fullDev r r' (ask q) q c ps) :
    NothingLost r.dev r'.dev i j (cParam q 0) ∧
      (c = .ok → ∀ x bs, Below (r.dev.at i).tree (cParam q 0) x → Holds (r.dev.at i) x bs → bs.length < 2 ^ 32 →
        contents (r'.dev.at j) x = some bs) := by
  have hqu : Storages.fullDev.query r.dev 0x1019 (cParams q) = _ := full_move w hi hj hij (cParams q) h0 hh hs
  by_cases hp : (cParams q).getD 2 0 ≠ 0 ∧ r.dev.has ((cParams q).getD 2 0) = false
  · rw [if_pos hp] at hqu
    obtain ⟨r1, a1, a2, _⟩ := Server.query_answer_by Storages.fullDev r ho q 0x1019 hq _ rfl rfl .invalidParentObject [] (by rw [hqu])
    obtain ⟨rfl, rfl, _⟩ := answer_unique ha a1
    rw [hqu] at a2
    rw [a2]
    exact ⟨⟨rfl, w.each, fun _ _ _ => rfl, fun x hx => ⟨hx, rfl, rfl⟩, fun x hx _ => ⟨hx, rfl, rfl⟩, fun x c _ hc _ => Or.inl hc.contents⟩,
      fun h => by cases h⟩
  · rw [if_neg hp] at hqu
    obtain ⟨r1, a1, a2, _⟩ := Server.query_answer_by Storages.fullDev r ho q 0x1019 hq _ rfl rfl
      (r.dev.carry i j ((cParams q).getD 0 0) ((cParams q).getD 2 0)).2 [] (by rw [hqu])
    obtain ⟨rfl, rfl, _⟩ := answer_unique ha a1
    rw [hqu] at a2
    rw [a2]
    exact Storages.carry_safe w hi hj hij h0 hh hb _ hw

/-- C106. A destination folder no storage has: InvalidParentObject, and no storage is touched. -/
theorem C106_no_folder (r : Rsp Storages) (ho : Open r) (w : StoragesOk r.dev) (i j : Nat) (hi : i < r.dev.count) (hj : j < r.dev.count)
    (hij : i ≠ j) (q : List UInt8) (hq : Asking q 0x1019) (h0 : cParam q 0 ≠ 0) (hh : (r.dev.at i).tree.has (cParam q 0) = true)
    (hs : cParam q 1 = (r.dev.at j).sid) (hp : ∀ k, k < r.dev.count → (r.dev.at k).tree.has (cParam q 2) = false) :
    ∃ r', AnsweredBy Storages.fullDev r r' (ask q) q .invalidParentObject [] ∧ r'.dev = r.dev := by
  have hqu : Storages.fullDev.query r.dev 0x1019 (cParams q) = _ := full_move w hi hj hij (cParams q) h0 hh hs
  have h2 : cParam q 2 ≠ 0 := by
    intro e
    obtain ⟨r0, h, _⟩ := (w.each i hi).wf.root
    have := hp i hi
    rw [e, has_iff.mpr ⟨r0, h⟩] at this
    cases this
  have h3 : r.dev.has (cParam q 2) = false := by
    unfold Storages.has Storages.ofHandle
    rw [Storages.first_none hp]
    rfl
  rw [if_pos ⟨h2, h3⟩] at hqu
  obtain ⟨r', a1, a2, _⟩ := Server.query_answer_by Storages.fullDev r ho q 0x1019 hq _ rfl rfl .invalidParentObject [] (by rw [hqu])
  rw [hqu] at a2
  exact ⟨r', a1, a2⟩

/-- The folder "f" can be moved to the other storage. -/
theorem C106_witness : Open (demoBoth (demoAcross (2 ^ 40))) ∧ StoragesOk (demoAcross (2 ^ 40)) ∧ HandlesLeft (demoAcross (2 ^ 40)) ∧
    Asking (Toy.cmd 0x1019 8 [1, 0x00010002, 0]) 0x1019 ∧ (demoAcross (2 ^ 40)).count = 2 ∧
    cParam (Toy.cmd 0x1019 8 [1, 0x00010002, 0]) 0 = 1 ∧
    cParam (Toy.cmd 0x1019 8 [1, 0x00010002, 0]) 1 = ((demoAcross (2 ^ 40)).at 1).sid ∧
    cParam (Toy.cmd 0x1019 8 [1, 0x00010002, 0]) 2 = 0 ∧
    MovableAcross ((demoAcross (2 ^ 40)).at 0) ((demoAcross (2 ^ 40)).at 1) 1 0 := by
  obtain ⟨a1, a2, _, a4, _, a6, _, c⟩ := C105_witness
  exact ⟨a1, a2, by unfold HandlesLeft; decide +kernel, ⟨by decide +kernel, by decide +kernel⟩, a4, by decide +kernel, a6, by decide +kernel,
    ⟨c.notRoot, c.place, c.names, c.files, ⟨fun _ => rfl, c.granted⟩, c.willing, by decide +kernel⟩⟩

/-- … and the moved file is downloaded then. -/
example : (match Rsp.run Storages.fullDev (demoBoth (demoAcross (2 ^ 40))) (ask (Toy.cmd 0x1019 8 [1, 0x00010002, 0]) ++ ask (Toy.cmd 0x1009 9 [2])) with
    | .ok r => (dataOf r.out, responses r.out, (r.dev.at 0).tree.has 2, (r.dev.at 1).tree.has 2)
    | .ub _ => ([], [], true, true)) = ([47, 115, 47, 102, 47, 97], [.response .ok 8 [], .response .ok 9 []], false, true) := by
  decide +kernel

/-- Two storages, the first with the file "x" or the folder "f", with the file "f/x" in it or empty; the second is empty or has an empty
folder "f"; `io` and `fs` are the answers of the operating system there. -/
def demoMove (l l' : List (Path × Disk)) (io : FileIO) (fs : Nat → Bool) : List Place :=
  [{ demoPlace ['/', 's'] true [] with disk := .node none ASSOC l },
    { demoPlace ['/', 't'] true [] with disk := .node none ASSOC l', ios := fun _ _ => io, fs := fs }]

def demoMoved (l : List Place) : Storages := (Storages.start [0x3000, 0x3001] 0 l).getD ⟨0, fun _ => demoEmpty, [], 0, 0, 0⟩

/-- C106 is violated when the destination runs out of space, or cannot be written for another reason: the free space is not looked at
before a move, and whether the last piece of a file was written is not looked at either. MoveObject is answered OK, the original is deleted,
and the file on the destination is empty: its bytes are lost. -/
theorem C106_full_violated : ∃ (m : Storages) (r' : Rsp Storages), StoragesOk m ∧ contents (m.at 0) 1 = some [47, 115, 47, 120] ∧
    AnsweredBy Storages.fullDev (demoBoth m) r' (ask (Toy.cmd 0x1019 8 [1, 0x00010002, 0])) (Toy.cmd 0x1019 8 [1, 0x00010002, 0]) .ok [] ∧
    (r'.dev.at 0).tree.has 1 = false ∧ (r'.dev.at 0).files = [] ∧ contents (r'.dev.at 1) 1 = some [] := by
  let l := demoMove [(['x'], .node none 0x3000 [])] [] { writes := [none] } fun _ => true
  have key : ∃ r', (demoBoth (demoMoved l)).run Storages.fullDev (ask (Toy.cmd 0x1019 8 [1, 0x00010002, 0])) = .ok r' ∧
      responses r'.out = [.response .ok 8 []] ∧ ((r'.dev.at 0).tree.has 1 = false ∧ (r'.dev.at 0).files = [] ∧ contents (r'.dev.at 1) 1 = some []) ∧
      r'.st = .idle ∧ r'.req = none ∧ r'.ready = true ∧ r'.session = 1 :=
    ⟨_, rfl, by decide +kernel, by decide +kernel, by decide +kernel, by decide +kernel, by decide +kernel, by decide +kernel⟩
  obtain ⟨r', a, b, c, e1, e2, e3, e4⟩ := key
  refine ⟨demoMoved l, r', ?_, by decide +kernel, ⟨a, ⟨8, by decide +kernel, by rw [b]; rfl⟩, ⟨e1, e2, e3, by omega⟩⟩, c⟩
  exact C103_start [0x3000, 0x3001] 0 l (by
    intro c hc
    simp only [l, demoMove, List.mem_cons, List.not_mem_nil, or_false] at hc
    rcases hc with rfl | rfl <;>
      exact ⟨⟨_, _, rfl, by decide, trivial⟩, by simp [demoPlace, DiskOk, DisksOk], by simp [demoPlace, DiskNames, DisksNames]⟩)
    (by decide) _ rfl (by unfold HandlesLeft; decide +kernel)

/-- C106 is violated when a move fails half-way: what came to the destination stays there, so that two storages have an object of the
same handle, and the host, seeing the half-moved folder on the destination and deleting it, deletes the original with everything in it. -/
theorem C106_half_moved_violated : ∃ (m : Storages) (r' r2 : Rsp Storages), StoragesOk m ∧ Willing (m.at 0) ∧ Willing (m.at 1) ∧
    contents (m.at 0) 2 = some [47, 115, 47, 102, 47, 120] ∧
    AnsweredBy Storages.fullDev (demoBoth m) r' (ask (Toy.cmd 0x1019 8 [1, 0x00010002, 0])) (Toy.cmd 0x1019 8 [1, 0x00010002, 0]) .accessDenied [] ∧
    (r'.dev.at 0).tree.has 1 = true ∧ (r'.dev.at 1).tree.has 1 = true ∧
    AnsweredBy Storages.fullDev r' r2 (ask (Toy.cmd 0x100B 9 [1, 0])) (Toy.cmd 0x100B 9 [1, 0]) .ok [] ∧
    (r2.dev.at 1).tree.has 1 = true ∧ (r2.dev.at 0).files = [] ∧ (r2.dev.at 1).files = [] := by
  let l := demoMove [(['f'], .node none ASSOC [(['x'], .node none 0x3000 [])])] [] {} fun k => k == 0
  have key : ∃ r', (demoBoth (demoMoved l)).run Storages.fullDev (ask (Toy.cmd 0x1019 8 [1, 0x00010002, 0])) = .ok r' ∧
      responses r'.out = [.response .accessDenied 8 []] ∧ ((r'.dev.at 0).tree.has 1 = true ∧ (r'.dev.at 1).tree.has 1 = true) ∧
      (r'.st = .idle ∧ r'.req = none ∧ r'.ready = true ∧ r'.session = 1) ∧
      ∃ r2, r'.run Storages.fullDev (ask (Toy.cmd 0x100B 9 [1, 0])) = .ok r2 ∧
        responses r2.out = [.response .accessDenied 8 [], .response .ok 9 []] ∧
        ((r2.dev.at 1).tree.has 1 = true ∧ (r2.dev.at 0).files = [] ∧ (r2.dev.at 1).files = []) ∧
        r2.st = .idle ∧ r2.req = none ∧ r2.ready = true ∧ r2.session = 1 :=
    ⟨_, rfl, by decide +kernel, by decide +kernel, by decide +kernel, _, rfl, by decide +kernel, by decide +kernel, by decide +kernel⟩
  obtain ⟨r', a, b, ⟨c1, c2⟩, ⟨e1, e2, e3, e4⟩, r2, a', b', c', f1, f2, f3, f4⟩ := key
  refine ⟨demoMoved l, r', r2, ?_, ?_, ?_, by decide +kernel, ⟨a, ⟨8, by decide +kernel, by rw [b]; rfl⟩, ⟨e1, e2, e3, by omega⟩⟩, c1, c2,
    ⟨a', ⟨9, by decide +kernel, by rw [b', b]; rfl⟩, ⟨f1, f2, f3, by omega⟩⟩, c'⟩
  · exact C103_start [0x3000, 0x3001] 0 l (by
      intro c hc
      simp only [l, demoMove, List.mem_cons, List.not_mem_nil, or_false] at hc
      rcases hc with rfl | rfl <;>
        exact ⟨⟨_, _, rfl, by decide, trivial⟩, by simp [demoPlace, DiskOk, DisksOk], by simp [demoPlace, DiskNames, DisksNames]⟩)
      (by decide) _ rfl (by unfold HandlesLeft; decide +kernel)
  · exact fun n i => ⟨rfl, by simp [l, demoMoved, demoMove, Storages.start, Storages.startList, Storages.startOne, demoPlace, Storages.at, Server.start], by simp [l, demoMoved, demoMove, Storages.start, Storages.startList, Storages.startOne, demoPlace, Storages.at, Server.start], rfl⟩
  · exact fun n i => ⟨rfl, by simp [l, demoMoved, demoMove, Storages.start, Storages.startList, Storages.startOne, demoPlace, Storages.at, Server.start], by simp [l, demoMoved, demoMove, Storages.start, Storages.startList, Storages.startOne, demoPlace, Storages.at, Server.start], rfl⟩

/-- C106 is violated by an empty folder that is moved to where there is a folder of that name: MoveObject is answered OK, but no storage
has an object of that handle any more. -/
theorem C106_vanished_violated : ∃ (m : Storages) (r' : Rsp Storages), StoragesOk m ∧ (m.at 0).tree.has 1 = true ∧
    AnsweredBy Storages.fullDev (demoBoth m) r' (ask (Toy.cmd 0x1019 8 [1, 0x00010002, 0])) (Toy.cmd 0x1019 8 [1, 0x00010002, 0]) .ok [] ∧
    r'.dev.has 1 = false := by
  let l := demoMove [(['f'], .node none ASSOC [])] [(['f'], .node none ASSOC [])] {} fun _ => true
  have key : ∃ r', (demoBoth (demoMoved l)).run Storages.fullDev (ask (Toy.cmd 0x1019 8 [1, 0x00010002, 0])) = .ok r' ∧
      responses r'.out = [.response .ok 8 []] ∧ r'.dev.has 1 = false ∧ r'.st = .idle ∧ r'.req = none ∧ r'.ready = true ∧ r'.session = 1 :=
    ⟨_, rfl, by decide +kernel, by decide +kernel, by decide +kernel, by decide +kernel, by decide +kernel, by decide +kernel⟩
  obtain ⟨r', a, b, c, e1, e2, e3, e4⟩ := key
  refine ⟨demoMoved l, r', ?_, by decide +kernel, ⟨a, ⟨8, by decide +kernel, by rw [b]; rfl⟩, ⟨e1, e2, e3, by omega⟩⟩, c⟩
  exact C103_start [0x3000, 0x3001] 0 l (by
    intro c hc
    simp only [l, demoMove, List.mem_cons, List.not_mem_nil, or_false] at hc
    rcases hc with rfl | rfl <;>
      exact ⟨⟨_, _, rfl, by decide, trivial⟩, by simp [demoPlace, DiskOk, DisksOk], by simp [demoPlace, DiskNames, DisksNames]⟩)
    (by decide) _ rfl (by unfold HandlesLeft; decide +kernel)

end Props
