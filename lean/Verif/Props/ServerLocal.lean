import Verif.Lemmas.ServerLocal
import Verif.Lemmas.ServerPlace
import Verif.Props.Survive
import Verif.Props.ServerCopy
/-! Property theorems C102: changes made on the device while a host is connected. -/
namespace Props
open Mtp Spec
open Mtp.Server (Safe Survives Later)

/-- Of the responder, a change by another program touches only what the host is sent. -/
private theorem occurs_same (r : Rsp Server) (k : DiskFacts) (c : DiskEdit) {r1 : Rsp Server}
    (hs : r.run Server.dev (r.dev.occurs k c) = .ok r1) : ∃ l, r1 = { r with dev := r.dev.here k c, out := r.out ++ l } := by
  unfold Server.occurs at hs
  rw [Rsp.run] at hs
  simp only [Rsp.step, Res.bind_ok] at hs
  have hn : ∀ (l : List TEvent) (r r1 : Rsp Server), r.run Server.dev (l.map Server.eventIn) = .ok r1 →
      ∃ m, r1 = { r with out := r.out ++ m } := by
    intro l
    induction l with
    | nil => intro r r1 h; cases h; exact ⟨[], by simp⟩
    | cons a l il =>
      intro r r1 h
      rw [List.map_cons, Rsp.run] at h
      obtain ⟨r2, h1, h2⟩ : ∃ r2, r.step Server.dev (Server.eventIn a) = .ok r2 ∧ r2.run Server.dev (l.map Server.eventIn) = .ok r1 := by
        cases e : r.step Server.dev (Server.eventIn a) with
        | ok r2 => rw [e] at h; exact ⟨r2, rfl, h⟩
        | ub u => rw [e] at h; cases h
      obtain ⟨m, hm⟩ := il r2 r1 h2
      have hno : ∀ c ps, ∃ m, r.notify Server.dev c ps = { r with out := r.out ++ m } := by
        intro c ps
        unfold Rsp.notify
        split
        · exact ⟨[], by simp⟩
        · unfold Rsp.send
          rw [if_neg (by simp [Out.isEvent])]
          split
          · exact ⟨[], by simp [Out.isEvent]⟩
          · rw [if_neg (by simp [Out.isResponse])]
            exact ⟨_, rfl⟩
      have h3 : ∃ m, r2 = { r with out := r.out ++ m } := by
        cases a <;> (cases h1; exact hno _ _)
      obtain ⟨m', hm'⟩ := h3
      refine ⟨m' ++ m, ?_⟩
      rw [hm, hm']
      simp
  obtain ⟨m, hm⟩ := hn _ _ _ hs
  exact ⟨m, hm⟩

/-- C102. Whatever the host does and whatever other programs do to the storage directory, one after the other, objects and disk agree:
everything proved about the states that can be reached (C82–C101) holds in between. -/
theorem C102_consistent (r r' : Rsp Server) (w : ServerOk r.dev) (h : Lived r r') (hb : r'.dev.tree.asked < 0xFFFFFFFF) :
    ServerOk r'.dev := by
  have key : Later r.dev r'.dev := by
    clear hb w
    induction h with
    | done r => exact Later.refl _
    | @host r r1 r' i hi hs _ ih =>
      refine Later.trans ?_ ih
      refine Rsp.run_closed (Server.closed_later (fun _ => True)) (is := [i]) (fun _ _ => trivial) (fun _ _ => trivial) ?_ ?_
      · intro j hj
        rw [List.mem_singleton] at hj
        subst hj
        cases j with
        | packet b f l n => exact fun _ _ => trivial
        | ready n => exact fun _ => trivial
        | ev e => trivial
        | notify c ps => trivial
        | env d => exact hi d rfl
      · simp only [Rsp.run, hs, Res.bind_ok]
    | @«local» r r1 r' k c hp hs _ ih =>
      refine Later.trans ?_ ih
      obtain ⟨l, rfl⟩ := occurs_same r k c hs
      exact Server.here_later r.dev k c hp
  exact key.2 w hb

private theorem apart_clear {x : Nat} (h0 : x ≠ 0) {d0 : Server} {r r' : Rsp Server} (h : LivedApart x r r')
    (hk : Rsp.Clear (· ≠ x) (Survives x) d0 r) : Rsp.Clear (· ≠ x) (Survives x) d0 r' := by
  induction h with
  | done r => exact hk
  | host hs _ ih => exact ih (Rsp.run_clear (Server.sparing x h0) (spare_run hs) hk)
  | @«local» r r1 r' k c hp hu hs _ ih =>
    apply ih
    obtain ⟨l, rfl⟩ := occurs_same r k c hs
    exact ⟨hk.dev.trans (Server.here_survives r.dev k c hp h0 hu), hk.seq, hk.lst, hk.edt⟩

private theorem apart_safe {x : Nat} {r r' : Rsp Server} (hx : AtRest x r) (w : ServerOk r.dev) (h : LivedApart x r r')
    (hb : r'.dev.tree.asked < 0xFFFFFFFF) : Survives x r.dev r'.dev ∧ Safe x r.dev r'.dev := by
  have := (apart_clear hx.noRoot h ⟨Survives.refl x r.dev, hx.seq, hx.list, hx.edit⟩).dev
  exact ⟨this, this.safe w hb hx.there⟩

/-- C102. An object at rest survives every history that does not address it, in which other programs do whatever they like to other
files and folders of the storage: it is still there, holds the same bytes, and what the device tells about it is the same, but for its
name and folder (the host may have renamed or moved it). -/
theorem C102_survives (r r' : Rsp Server) (w : ServerOk r.dev) (x : Nat) (hx : AtRest x r) (h : LivedApart x r r')
    (hb : r'.dev.tree.asked < 0xFFFFFFFF) :
    r'.dev.tree.has x = true ∧ contents r'.dev x = contents r.dev x ∧
      ∃ o n p, r.dev.infoOf x = (.ok, o) ∧ r'.dev.infoOf x = (.ok, { o with fileName := n, parent := p }) := by
  have sf := (apart_safe hx w h hb).2
  refine ⟨sf.has hx.there, sf.contents hx.file, ?_⟩
  obtain ⟨ix, e⟩ := has_iff.mp hx.there
  obtain ⟨iy, e', hf⟩ := sf.item ix e
  have hk := w.known x
  rw [hx.there, Option.isSome_iff_exists] at hk
  obtain ⟨o, ho⟩ := hk
  refine ⟨_, Server.fromPath iy.name, iy.par, by unfold Server.infoOf; rw [e, ho], ?_⟩
  unfold Server.infoOf
  rw [e', sf.infos, ho]
  simp only [hf]

/-- C102 with C82: a file the host uploaded can be downloaded, byte for byte, after any such history. -/
theorem C102_upload_survives (r : Rsp Server) (ho : Open r) (w : ServerOk r.dev) (hw : Willing r.dev) (o : ObjInfo)
    (data q1 : List UInt8) (bs : List (List UInt8)) (q2 : List UInt8) (ds : List (List UInt8))
    (hu : Uploading r.dev o data q1 bs q2 ds) :
    ∃ r1 h r2, Answered r r1 (sendObject q1 bs) q1 .ok [r.dev.sid, folderOf q1, h] ∧
      r.dev.tree.has h = false ∧ Answered r1 r2 (sendObject q2 ds) q2 .ok [] ∧
      ((∀ e, r2.edit = some e → e.handle ≠ h) →
        ∀ (r3 : Rsp Server), LivedApart h r2 r3 → r3.dev.tree.asked < 0xFFFFFFFF → Open r3 →
        ∀ q3, Asking q3 0x1009 → cParam q3 0 = h →
          ∃ r4, Answered r3 r4 (ask q3) q3 .ok [] ∧ dataOf r4.out = dataOf r3.out ++ data) := by
  obtain ⟨r1, h, r2, a1, hnew, a2, hw2, w2, hc2, _, ⟨_, _, hi2⟩, ⟨n1, n2, n3⟩, _, _⟩ := uploaded r ho w hw o data q1 bs q2 ds hu
  refine ⟨r1, h, r2, a1, hnew, a2, ?_⟩
  intro hed r3 hrun hb ho3 q3 hq3 hp3
  have h0 : h ≠ 0 := by
    rintro rfl
    obtain ⟨ri, hr, _⟩ := w.wf.root
    rw [has_iff.mpr ⟨ri, hr⟩] at hnew
    cases hnew
  have hrest : AtRest h r2 := ⟨Server.info_has hi2, h0, (fun s e => by rw [n1] at e; cases e),
    (fun s e => by rw [n2] at e; cases e), hed, (fun it p n _ _ e => by rw [n3] at e; cases e)⟩
  obtain ⟨sv, sf⟩ := apart_safe hrest w2 hrun hb
  have hsize : r3.dev.sizeOf h = data.length := by
    have h1 := hu.size
    have h2 := hu.small
    have : r3.dev.sizeOf h = r2.dev.sizeOf h := by unfold Server.sizeOf; rw [sf.infos]
    rw [this, Server.size_info hi2]
    show o.size % 2 ^ 32 = _
    omega
  obtain ⟨r4, b1, b2, _⟩ := Server.get_object r3 ho3 (fun a b => by rw [sv.ios]; exact hw2 a b) q3 hq3 h hp3 data
    ((sf.contents hrest.file).trans hc2) hsize hu.small
  exact ⟨r4, b1, b2⟩

private theorem only_events (a l : List Out) (h : ∀ o ∈ l, o.isEvent = true) : events (a ++ l) = events a ++ l := by
  unfold events
  rw [List.filter_append, List.filter_eq_self.mpr h]

private theorem quiet_data (a l : List Out) (h : ∀ o ∈ l, o.isEvent = true) : dataOf (a ++ l) = dataOf a := by
  have : dataOf l = [] := by
    unfold dataOf
    rw [List.flatMap_eq_nil_iff]
    intro o ho
    have := h o ho
    cases o <;> simp_all [Out.isEvent]
  unfold dataOf at *
  rw [List.flatMap_append, this, List.append_nil]

/-! ### What the host is told, and what it gets -/

/-- What a host gets that asks about object `h`, which is the file or folder at path `q`. -/
private theorem told_facts {r : Rsp Server} (ho : Open r) (w : ServerOk r.dev) (hb : r.dev.tree.asked < 0xFFFFFFFF) (hsid : r.dev.sid < 2 ^ 32)
    (k : DiskFacts) {h : Nat} {it : Item} (h0 : h ≠ 0) (e : r.dev.tree.get h = some it)
    (hinfo : r.dev.infoOf h = (.ok, Server.startInfo r.dev.sid k it)) (hfit : FactsFit k it.path it.fmt) (c : List UInt8) (hc : Asking c 0x1008)
    (hp : cParam c 0 = h) :
    ∃ r2 p o, Answered r r2 (ask c) c .ok [] ∧ dataOf r2.out = dataOf r.out ++ p ∧ readObjInfo 0 (dataContainer 0x1008 0 p) = some o ∧
      ToldFacts r.dev k it.path it.fmt o := by
  obtain ⟨p, pit, a1, a2, a3, _, a5, a6⟩ := w.wf.parent h it e h0
  have hname : it.name = baseOf it.path := by rw [a5, baseOf_join a6]
  have hdir : dirOf it.path = pit.path := by rw [a5, dirOf_join a6]
  have hpar : it.par < 2 ^ 32 := by
    have := w.issued p pit a3
    omega
  have hnl : it.name.length ≤ it.path.length := by
    rw [a5, join_length]; omega
  obtain ⟨f1, f2, f3, f4, f5⟩ := hfit
  obtain ⟨r2, pl, b1, b2, _, b4⟩ := Server.get_info r ho c hc (Server.startInfo r.dev.sid k it) (by rw [hp]; exact hinfo) (by
      unfold ObjInfoFits Server.startInfo
      simp only
      refine ⟨by omega, by omega, by omega, ?_, ?_, ?_, ?_, ?_, by omega, by omega, by omega, by omega, ?_, by omega, by omega⟩
      all_goals (split <;> first | decide | omega)) (by
      unfold Server.startInfo
      simp only
      split
      · decide
      · omega) (by
      unfold Server.startInfo Server.fromPath
      simp only [List.length_map]
      exact ⟨by omega, f5, f5⟩)
  refine ⟨r2, pl, _, b1, b2, b4, ⟨rfl, rfl, rfl, rfl, ?_, ?_, rfl, rfl⟩⟩
  · exact ⟨pit, by show r.dev.tree.get it.par = _; rw [a2]; exact a3, hdir.symm⟩
  · simp only [Server.startInfo, ← hname]

private theorem is_at {s : Server} (w : ServerOk s) {x : Nat} {it : Item} (e : s.tree.get x = some it) : IsAt s x it.path := ⟨it, e, rfl⟩

/-- C102. Something appears in a folder: the host gets one ObjectAdded event for each entry that is to be shown (C93), and no other
event; each of these can be downloaded and asked about at once; all other objects are as they were. -/
theorem C102_appeared (r : Rsp Server) (ho : Open r) (w : ServerOk r.dev) (e : Server → Nat → Bool) (k : DiskFacts) (d : Nat) (dit : Item) (n : Path) (disk : Disk)
    (hd : r.dev.tree.get d = some dit) (hp : Possible r.dev k (.appears d n disk)) (hnew : ∀ y, ¬ Entry r.dev d n y)
    (hb : (r.dev.here k (.appears d n disk)).tree.asked < 0xFFFFFFFF) :
    ∃ (r' : Rsp Server) (l : List Nat), r.run (listeningDev e) (r.dev.occurs k (.appears d n disk)) = .ok r' ∧ Open r' ∧ ServerOk r'.dev ∧
      events r'.out = events r.out ++ l.map (fun h => Out.event 0x4002 0xFFFFFFFF [h]) ∧ l.Nodup ∧ dataOf r'.out = dataOf r.out ∧
      (∀ q f, Shown r.dev.tree.excl r.dev.tree.policy r.dev.tree.rootPath (join dit.path n) disk q f → ∃ h ∈ l, IsAt r'.dev h q) ∧
      (∀ h ∈ l, r.dev.tree.has h = false ∧
        ∃ q f, Shown r.dev.tree.excl r.dev.tree.policy r.dev.tree.rootPath (join dit.path n) disk q f ∧ IsAt r'.dev h q ∧
          (f ≠ ASSOC → contents r'.dev h = some (k.bytes q)) ∧
          (f ≠ ASSOC → (k.bytes q).length ≤ 0xFFFFFFFF - 12 → Willing r.dev → ∀ c, Asking c 0x1009 → cParam c 0 = h →
            ∃ r2, Answered r' r2 (ask c) c .ok [] ∧ dataOf r2.out = dataOf r'.out ++ k.bytes q) ∧
          (r.dev.sid < 2 ^ 32 → FactsFit k q f → ∀ c, Asking c 0x1008 → cParam c 0 = h →
            ∃ r2 p o, Answered r' r2 (ask c) c .ok [] ∧ dataOf r2.out = dataOf r'.out ++ p ∧
              readObjInfo 0 (dataContainer 0x1008 0 p) = some o ∧ ToldFacts r'.dev k q f o)) ∧
      ∀ x, r.dev.tree.has x = true → r'.dev.tree.has x = true ∧ contents r'.dev x = contents r.dev x ∧ r'.dev.infoOf x = r.dev.infoOf x := by
  obtain ⟨⟨dit', hd', hdf⟩, hn, dk, du⟩ := id hp
  rw [hd] at hd'; cases hd'
  have hf : AMap.get r.dev.tree.paths (join dit.path n) = none := by
    cases hq : AMap.get r.dev.tree.paths (join dit.path n) with
    | none => rfl
    | some y => exact absurd ((Server.entry_paths w.wf hd).mp hq) (hnew y)
  have a := Server.appears_new r.dev k d n disk w.wf w.issued hd hn dk du hf hb
  have w' := (Server.here_safe w k _ hp hb).1
  obtain ⟨l, l1, l2, l3, _⟩ := C74_created w.wf w.issued d n disk ⟨hn, dk⟩ hb
  have hevs : r.dev.hereEvents k (.appears d n disk) = l.map TEvent.added := by
    show (r.dev.tree.fsCreate d n disk).evs.drop r.dev.tree.evs.length = _
    rw [l2, List.drop_left]
  have hrun := Server.occurs_run e r (by rw [ho.idle]; simp) k (.appears d n disk)
  rw [hevs] at hrun
  have hfil : ((l.map TEvent.added).filter (Server.heardBy e (r.dev.here k (.appears d n disk)))).map Server.evOut =
      l.map (fun h => Out.event 0x4002 0xFFFFFFFF [h]) := by
    rw [List.filter_eq_self.mpr]
    · rw [List.map_map]; rfl
    · intro t ht
      obtain ⟨h, _, rfl⟩ := List.mem_map.mp ht
      rfl
  rw [hfil] at hrun
  generalize hs' : r.dev.here k (.appears d n disk) = s' at hrun w' hb
  have hs2 : r.dev.appears k d n disk = s' := hs'
  have hT : r.dev.tree.fsCreate d n disk = s'.tree := by rw [← hs2]; rfl
  rw [hs2] at a
  rw [hT] at l3
  refine ⟨_, l, hrun, ⟨ho.idle, ho.none, ho.ready, ho.session⟩, w', ?_, l1, ?_, ?_, ?_, ?_⟩
  · exact only_events _ _ (fun o ho' => by obtain ⟨h, _, rfl⟩ := List.mem_map.mp ho'; rfl)
  · exact quiet_data _ _ (fun o ho' => by obtain ⟨h, _, rfl⟩ := List.mem_map.mp ho'; rfl)
  · intro q f hq
    obtain ⟨h, it, e1, e2, _⟩ := (a.shown q f).mpr (Or.inr hq)
    refine ⟨h, (l3 h).mpr ⟨has_iff.mpr ⟨it, e1⟩, ?_⟩, it, e1, e2⟩
    cases hx : r.dev.tree.has h with
    | false => rfl
    | true =>
      obtain ⟨ix, ex⟩ := has_iff.mp hx
      obtain ⟨l', ex'⟩ := a.grown.item h ix ex
      rw [e1] at ex'; cases ex'
      have := free_below w.wf hd hf q (shown_under hq)
      rw [← e2] at this
      rw [w.wf.pathOf h ix ex] at this; cases this
  · intro h hl
    obtain ⟨h1, h2⟩ := (l3 h).mp hl
    obtain ⟨it, e1⟩ := has_iff.mp h1
    obtain ⟨i1, i2⟩ := a.about w e1 h2
    have h0 : h ≠ 0 := by
      rintro rfl
      obtain ⟨ri, e0, _⟩ := w.wf.root
      rw [has_iff.mpr ⟨ri, e0⟩] at h2; cases h2
    refine ⟨h2, it.path, it.fmt, a.new e1 h2, is_at w' e1, i2, ?_, ?_⟩
    · intro hfm hsz hw c hc hcp
      obtain ⟨r2, b1, b2, _⟩ := Server.get_object ({ r with dev := s', out := r.out ++ l.map fun h => Out.event 0x4002 0xFFFFFFFF [h] } : Rsp Server)
        ⟨ho.idle, ho.none, ho.ready, ho.session⟩ (fun a b => by
          have : s'.ios = r.dev.ios := by rw [← hs']; rfl
          show (s'.ios a b).openOk = true ∧ _
          rw [this]; exact hw a b) c hc h hcp (k.bytes it.path) (i2 hfm) (by
          rw [Server.size_info i1]
          show (if it.fmt = ASSOC then 0 else _) = _
          rw [if_neg hfm]) hsz
      exact ⟨r2, b1, b2⟩
    · intro hsid hfit c hc hcp
      have hsd : s'.sid = r.dev.sid := by rw [← hs']; rfl
      exact told_facts (r := { r with dev := s', out := r.out ++ l.map fun h => Out.event 0x4002 0xFFFFFFFF [h] })
        ⟨ho.idle, ho.none, ho.ready, ho.session⟩ w' hb (by show s'.sid < _; rw [hsd]; exact hsid) k h0 e1 (by
          show s'.infoOf h = (.ok, Server.startInfo s'.sid k it)
          rw [hsd]; exact i1) hfit c hc hcp
  · intro x hx
    exact ⟨a.grown.has hx, (a.safe hx).2⟩

/-- The host is sent an event of kind `code` about `h` if it listens to it. -/
private theorem one_event (e : Server → Nat → Bool) (s : Server) (t : TEvent) :
    ([t].filter (Server.heardBy e s)).map Server.evOut = if Server.heardBy e s t = true then [Server.evOut t] else [] := by
  cases h : Server.heardBy e s t <;> simp [h]

private theorem below_all {s : Server} (w : ServerOk s) (hb : s.tree.asked < 0xFFFFFFFF) {h : Nat} (hh : s.tree.has h = true) : h ≠ 0xFFFFFFFF := by
  obtain ⟨it, e⟩ := has_iff.mp hh
  have := w.issued h it e
  omega

/-- For an object other than the root the interest flag decides. -/
private theorem hears_removed (e : Server → Nat → Bool) (s : Server) {h : Nat} (h0 : h ≠ 0) (h1 : h ≠ 0xFFFFFFFF) :
    Server.heardBy e s (.removed h) = e s h := by simp [Server.heardBy, h0, h1]

private theorem hears_changed (e : Server → Nat → Bool) (s : Server) {h : Nat} (h0 : h ≠ 0) (h1 : h ≠ 0xFFFFFFFF) :
    Server.heardBy e s (.infoChanged h) = e s h := by simp [Server.heardBy, h0, h1]

private theorem ev_if (b : Bool) (t : TEvent) : ∀ o ∈ (if b = true then [Server.evOut t] else []), o.isEvent = true := by
  intro o ho
  cases b
  · cases ho
  · rw [if_pos rfl, List.mem_singleton] at ho
    subst ho
    cases t <;> rfl

/-- C102, proved part. A file or an empty folder disappears: the host gets one ObjectRemoved event for it (if it listens to it), and no other;
requests for it are refused; all other objects are as they were. (Missing: folders with contents, see `C74_violated` and
`C19_vanished_folder_violated`.) -/
theorem C102_vanished_partial (r : Rsp Server) (ho : Open r) (w : ServerOk r.dev) (hb : r.dev.tree.asked < 0xFFFFFFFF) (e : Server → Nat → Bool)
    (k : DiskFacts) (d : Nat) (n : Path) (h : Nat) (it : Item) (he : Entry r.dev d n h) (hit : r.dev.tree.get h = some it) (hk : it.kids = []) :
    ∃ r' : Rsp Server, r.run (listeningDev e) (r.dev.occurs k (.vanishes d n)) = .ok r' ∧ Open r' ∧ ServerOk r'.dev ∧
      events r'.out = events r.out ++ (if e r'.dev h = true then [.event 0x4003 0xFFFFFFFF [h]] else []) ∧ dataOf r'.out = dataOf r.out ∧
      (∀ c, Asking c 0x1009 → cParam c 0 = h → ∃ r2, Answered r' r2 (ask c) c .invalidObjectHandle [] ∧ dataOf r2.out = dataOf r'.out) ∧
      (∀ c, Asking c 0x1008 → cParam c 0 = h → ∃ r2, Answered r' r2 (ask c) c .invalidObjectHandle [] ∧ dataOf r2.out = dataOf r'.out) ∧
      (∀ x, r'.dev.tree.has x = true ↔ r.dev.tree.has x = true ∧ x ≠ h) ∧
      ∀ x, x ≠ h → contents r'.dev x = contents r.dev x ∧ r'.dev.infoOf x = r.dev.infoOf x := by
  obtain ⟨dit, it', e1, e2, e3⟩ := id he
  rw [hit] at e2; cases e2
  have h0 : h ≠ 0 := by rintro rfl; exact Server.entry_root w.wf he
  have h1 := below_all w hb (has_iff.mpr ⟨it, hit⟩)
  obtain ⟨t1, t2⟩ := C74_removed_one w.wf d n e1 ((Server.entry_paths w.wf e1).mpr he) hit hk
  obtain ⟨v1, v2⟩ := Server.vanishes_tree r.dev w.wf d n
  obtain ⟨w', old⟩ := Server.dropGone_ok w v1 v2
  have hevs : r.dev.hereEvents k (.vanishes d n) = [.removed h] := by
    show (r.dev.tree.fsDelete d n).evs.drop r.dev.tree.evs.length = _
    rw [t1, List.drop_left]
  have hrun := Server.occurs_run e r (by rw [ho.idle]; simp) k (.vanishes d n)
  rw [hevs, one_event] at hrun
  have hst : r.dev.here k (.vanishes d n) = r.dev.dropGone (r.dev.tree.fsDelete d n) := rfl
  rw [hst, hears_removed e _ h0 h1] at hrun
  generalize hs' : r.dev.dropGone (r.dev.tree.fsDelete d n) = s' at hrun w' old
  have hT : r.dev.tree.fsDelete d n = s'.tree := by rw [← hs']; rfl
  rw [hT] at t2 old
  have hgone : s'.tree.has h = false := by
    cases hx : s'.tree.has h with
    | false => rfl
    | true => exact absurd rfl ((t2 h).mp hx).2
  refine ⟨_, hrun, ⟨ho.idle, ho.none, ho.ready, ho.session⟩, w', only_events _ _ (ev_if _ _), quiet_data _ _ (ev_if _ _), ?_, ?_, t2, ?_⟩
  · intro c hc hp
    obtain ⟨r2, b1, b2, _⟩ := Server.get_object_gone
      ({ r with dev := s', out := r.out ++ (if e s' h = true then [Server.evOut (.removed h)] else []) } : Rsp Server)
      ⟨ho.idle, ho.none, ho.ready, ho.session⟩ c hc (by rw [hp]; exact hgone)
    exact ⟨r2, b1, b2⟩
  · intro c hc hp
    obtain ⟨r2, b1, b2, _⟩ := Server.get_info_gone
      ({ r with dev := s', out := r.out ++ (if e s' h = true then [Server.evOut (.removed h)] else []) } : Rsp Server)
      ⟨ho.idle, ho.none, ho.ready, ho.session⟩ c hc (by rw [hp]; exact hgone)
    exact ⟨r2, b1, b2⟩
  · intro x hx
    cases hh : r.dev.tree.has x with
    | true => exact old x ((t2 x).mpr ⟨hh, hx⟩)
    | false =>
      have h2 : s'.tree.has x = false := by
        cases hy : s'.tree.has x with
        | false => rfl
        | true => rw [((t2 x).mp hy).1] at hh; cases hh
      have g1 := has_false.mp hh
      have g2 := has_false.mp h2
      refine ⟨?_, ?_⟩
      · show contents s' x = _
        unfold Spec.contents
        rw [g1, g2]
      · show s'.infoOf x = _
        unfold Server.infoOf
        rw [g1, g2]

/-- C102. A file is written by another program (and the host is not writing to it): the host is told that what is known about it changed,
if it did and the host listens to it; the file can be downloaded with its new bytes at once, GetObjectInfo tells its new size and date, and
all other objects are as they were. -/
theorem C102_written (r : Rsp Server) (ho : Open r) (w : ServerOk r.dev) (hb : r.dev.tree.asked < 0xFFFFFFFF) (e : Server → Nat → Bool)
    (k : DiskFacts) (d : Nat) (n : Path) (fmt : Nat) (h : Nat) (it : Item) (he : Entry r.dev d n h) (hit : r.dev.tree.get h = some it)
    (hp : Possible r.dev k (.written d n fmt)) (hw : h ≠ r.dev.writing) :
    ∃ r' : Rsp Server, r.run (listeningDev e) (r.dev.occurs k (.written d n fmt)) = .ok r' ∧ Open r' ∧ ServerOk r'.dev ∧
      events r'.out = events r.out ++ (if r'.dev.infoOf h ≠ r.dev.infoOf h ∧ e r'.dev h = true then [.event 0x4007 0xFFFFFFFF [h]] else []) ∧
      dataOf r'.out = dataOf r.out ∧
      contents r'.dev h = some (k.bytes it.path) ∧
      ((k.bytes it.path).length ≤ 0xFFFFFFFF - 12 → Willing r.dev → ∀ c, Asking c 0x1009 → cParam c 0 = h →
        ∃ r2, Answered r' r2 (ask c) c .ok [] ∧ dataOf r2.out = dataOf r'.out ++ k.bytes it.path) ∧
      (r.dev.sid < 2 ^ 32 → FactsFit k it.path fmt → ∀ c, Asking c 0x1008 → cParam c 0 = h →
        ∃ r2 p o, Answered r' r2 (ask c) c .ok [] ∧ dataOf r2.out = dataOf r'.out ++ p ∧
          readObjInfo 0 (dataContainer 0x1008 0 p) = some o ∧ ToldFacts r'.dev k it.path fmt o) ∧
      (∀ x, r'.dev.tree.has x = r.dev.tree.has x) ∧
      ∀ x, x ≠ h → contents r'.dev x = contents r.dev x ∧ r'.dev.infoOf x = r.dev.infoOf x := by
  obtain ⟨hf, hff⟩ := id hp
  have hfi := hff h it he hit
  obtain ⟨dit, it', e1, e2, e3⟩ := id he
  rw [hit] at e2; cases e2
  have h0 : h ≠ 0 := by rintro rfl; exact Server.entry_root w.wf he
  have h1 := below_all w hb (has_iff.mpr ⟨it, hit⟩)
  obtain ⟨w1, hcs⟩ := Server.written_cases w k d n fmt he hit hfi hf
  rcases hcs with ⟨hc, _⟩ | ⟨_, R⟩
  · exact absurd hc hw
  have hpt := (Server.entry_paths w.wf e1).mpr he
  have hrun := Server.occurs_run e r (by rw [ho.idle]; simp) k (.written d n fmt)
  have hevs : r.dev.hereEvents k (.written d n fmt) =
      if r.dev.infoOf h ≠ (r.dev.overwritten k d n fmt).infoOf h then [.infoChanged h] else [] := by
    show Server.writtenEvents r.dev (r.dev.overwritten k d n fmt) d n = _
    unfold Server.writtenEvents
    rw [e1]
    simp only
    rw [hpt]
    simp only [h0, hw, ne_eq, not_false_eq_true, true_and]
  rw [hevs] at hrun
  have hst : r.dev.here k (.written d n fmt) = r.dev.overwritten k d n fmt := rfl
  rw [hst] at hrun
  have hl : ((if r.dev.infoOf h ≠ (r.dev.overwritten k d n fmt).infoOf h then [TEvent.infoChanged h] else []).filter
      (Server.heardBy e (r.dev.overwritten k d n fmt))).map Server.evOut =
      if (r.dev.overwritten k d n fmt).infoOf h ≠ r.dev.infoOf h ∧ e (r.dev.overwritten k d n fmt) h = true then [.event 0x4007 0xFFFFFFFF [h]] else [] := by
    by_cases hd : r.dev.infoOf h = (r.dev.overwritten k d n fmt).infoOf h
    · rw [if_neg (by simp [hd]), if_neg (by simp [hd])]; rfl
    · rw [if_pos hd, one_event, hears_changed e _ h0 h1]
      have : (r.dev.overwritten k d n fmt).infoOf h ≠ r.dev.infoOf h := fun hh => hd hh.symm
      simp only [this, ne_eq, not_false_eq_true, true_and]
      rfl
  rw [hl] at hrun
  generalize hs1 : ({ r.dev with files := AMap.insert r.dev.files (String.ofList it.path) (k.bytes it.path) } : Server) = s1 at R w1
  generalize hs' : r.dev.overwritten k d n fmt = s' at hrun R
  have w' := R.ok w1
  have hsd : s'.sid = r.dev.sid := by rw [R.sid, ← hs1]
  have hios : s'.ios = r.dev.ios := by rw [R.ios, ← hs1]
  have htr : s1.tree = r.dev.tree := by rw [← hs1]
  have hcnt : contents s' h = some (k.bytes it.path) := by
    rw [R.contents, ← hs1]
    unfold Spec.contents
    simp only
    rw [hit]
    simp only
    rw [if_neg hfi, AMap.get_insert, if_pos rfl]
  have hinfo : s'.infoOf h = (.ok, Server.startInfo s'.sid k { it with fmt := fmt }) := by
    rw [R.told, R.sid]
  have hevt : ∀ o ∈ (if s'.infoOf h ≠ r.dev.infoOf h ∧ e s' h = true then [Out.event 0x4007 0xFFFFFFFF [h]] else []), o.isEvent = true := by
    intro o hm
    by_cases hx : s'.infoOf h ≠ r.dev.infoOf h ∧ e s' h = true
    · rw [if_pos hx, List.mem_singleton] at hm; subst hm; rfl
    · rw [if_neg hx] at hm; cases hm
  refine ⟨_, hrun, ⟨ho.idle, ho.none, ho.ready, ho.session⟩, w', only_events _ _ hevt, quiet_data _ _ hevt, hcnt, ?_, ?_, ?_, ?_⟩
  · intro hsz hwl c hc hcp
    obtain ⟨r2, b1, b2, _⟩ := Server.get_object ({ r with dev := s', out := r.out ++
        (if s'.infoOf h ≠ r.dev.infoOf h ∧ e s' h = true then [Out.event 0x4007 0xFFFFFFFF [h]] else []) } : Rsp Server)
      ⟨ho.idle, ho.none, ho.ready, ho.session⟩ (fun a b => by
        show (s'.ios a b).openOk = true ∧ _
        rw [hios]; exact hwl a b) c hc h hcp (k.bytes it.path) hcnt (by
        rw [Server.size_info hinfo]
        show (if fmt = ASSOC then 0 else _) = _
        rw [if_neg hf]) hsz
    exact ⟨r2, b1, b2⟩
  · intro hsid hfit c hc hcp
    exact told_facts (r := { r with dev := s', out := r.out ++
        (if s'.infoOf h ≠ r.dev.infoOf h ∧ e s' h = true then [Out.event 0x4007 0xFFFFFFFF [h]] else []) })
      ⟨ho.idle, ho.none, ho.ready, ho.session⟩ w' (by show s'.tree.asked < _; rw [R.asked, htr]; exact hb)
      (by show s'.sid < _; rw [hsd]; exact hsid) k h0 (it := { it with fmt := fmt }) (by
        show s'.tree.get h = _
        rw [R.get, if_pos rfl]) hinfo hfit c hc hcp
  · intro x
    show s'.tree.has x = _
    rw [R.has, htr]
  · intro x hx
    refine ⟨?_, ?_⟩
    · show contents s' x = _
      rw [R.contents, ← hs1]
      unfold Spec.contents
      simp only
      cases ex : r.dev.tree.get x with
      | none => rfl
      | some ix =>
        simp only
        by_cases hfx : ix.fmt = ASSOC
        · rw [if_pos hfx, if_pos hfx]
        · rw [if_neg hfx, if_neg hfx, AMap.get_insert, if_neg]
          intro hpe
          exact hx (w.wf.inj ex hit (by rw [← String.toList_ofList (l := ix.path), ← String.toList_ofList (l := it.path)]; exact congrArg _ hpe))
    · show s'.infoOf x = _
      rw [R.other hx, ← hs1]
      rfl

/-- C102. Another program moves or renames a file or folder to a place that is free, within the storage (a new name, or another folder, but
see `C102_moved_violated`): it keeps its handle, and with it its bytes; the host is told that what is known about it changed, if it listens
to it; GetObjectInfo tells its new name, folder and date; all other objects, also those inside, are as they were. -/
theorem C102_moved_partial (r : Rsp Server) (ho : Open r) (w : ServerOk r.dev) (hb : r.dev.tree.asked < 0xFFFFFFFF) (e : Server → Nat → Bool)
    (k : DiskFacts) (d1 : Nat) (n1 : Path) (d2 : Nat) (n2 : Path) (fmt : Nat) (h : Nat) (it dit : Item) (he : Entry r.dev d1 n1 h)
    (hit : r.dev.tree.get h = some it) (hdt : r.dev.tree.get d2 = some dit) (hp : Possible r.dev k (.moves d1 n1 d2 n2 fmt))
    (hfree : ∀ y, ¬ Entry r.dev d2 n2 y) :
    ∃ r' : Rsp Server, r.run (listeningDev e) (r.dev.occurs k (.moves d1 n1 d2 n2 fmt)) = .ok r' ∧ Open r' ∧ ServerOk r'.dev ∧
      events r'.out = events r.out ++ (if e r'.dev h = true then [.event 0x4007 0xFFFFFFFF [h]] else []) ∧ dataOf r'.out = dataOf r.out ∧
      Entry r'.dev d2 n2 h ∧ IsAt r'.dev h (join dit.path n2) ∧
      (fmt ≠ ASSOC → (k.bytes (join dit.path n2)).length ≤ 0xFFFFFFFF - 12 → Willing r.dev → ∀ c, Asking c 0x1009 → cParam c 0 = h →
        ∃ r2, Answered r' r2 (ask c) c .ok [] ∧ dataOf r2.out = dataOf r'.out ++ k.bytes (join dit.path n2)) ∧
      (r.dev.sid < 2 ^ 32 → FactsFit k (join dit.path n2) fmt → ∀ c, Asking c 0x1008 → cParam c 0 = h →
        ∃ r2 p o, Answered r' r2 (ask c) c .ok [] ∧ dataOf r2.out = dataOf r'.out ++ p ∧
          readObjInfo 0 (dataContainer 0x1008 0 p) = some o ∧ ToldFacts r'.dev k (join dit.path n2) fmt o ∧ o.parent = d2) ∧
      (∀ x, r'.dev.tree.has x = r.dev.tree.has x ∧ contents r'.dev x = contents r.dev x) ∧
      ∀ x, x ≠ h → r'.dev.infoOf x = r.dev.infoOf x := by
  obtain ⟨hn1, hn2, ⟨dit', hdt', hdf⟩, hall⟩ := id hp
  rw [hdt] at hdt'; cases hdt'
  obtain ⟨hkind, hby, hcase⟩ := hall h it dit he hit hdt
  obtain ⟨_, hsame, hnb⟩ : (∀ y, ¬ Entry r.dev d2 n2 y) ∧ (d1 = d2 ∨ n1 = n2) ∧ ¬ Below r.dev.tree h d2 := by
    rcases hcase with ⟨y, _, hy, _⟩ | hc
    · exact absurd hy (hfree y)
    · exact hc
  have h0 : h ≠ 0 := by rintro rfl; exact Server.entry_root w.wf he
  have h1 := below_all w hb (has_iff.mpr ⟨it, hit⟩)
  obtain ⟨i1, it', e1, e2, e3⟩ := id he
  rw [hit] at e2; cases e2
  have hne : ¬ (d1 = d2 ∧ n1 = n2) := by rintro ⟨rfl, rfl⟩; exact hfree h he
  have hpt := (Server.entry_paths w.wf e1).mpr he
  have hft : AMap.get r.dev.tree.paths (join dit.path n2) = none := by
    cases hq : AMap.get r.dev.tree.paths (join dit.path n2) with
    | none => rfl
    | some y => exact absurd ((Server.entry_paths w.wf hdt).mp hq) (hfree y)
  obtain ⟨s1, it1, S, hios, p1, p2, p3, p4, p5, R⟩ := Server.moves_free w k d1 n1 d2 n2 fmt hn1 hn2 he hit hdt hdf hkind hfree hsame hnb
  have hev := ((C74_moved_partial w.wf d1 n1 d2 n2 fmt hne e1 hdt hpt hit).1 hft).1
  have htree : (r.dev.moves k d1 n1 d2 n2 fmt).tree = r.dev.tree.fsMove d1 n1 d2 n2 fmt := by
    unfold Server.moves
    rw [if_neg hne, e1, hdt]
    simp only
    rw [hpt]
    simp only
    rw [hft]
    rfl
  have hevs : r.dev.hereEvents k (.moves d1 n1 d2 n2 fmt) = [.infoChanged h] := by
    show (r.dev.moves k d1 n1 d2 n2 fmt).tree.evs.drop r.dev.tree.evs.length = _
    rw [htree, hev, List.drop_left]
  have hrun := Server.occurs_run e r (by rw [ho.idle]; simp) k (.moves d1 n1 d2 n2 fmt)
  rw [hevs, one_event, hears_changed e _ h0 h1] at hrun
  have hst : r.dev.here k (.moves d1 n1 d2 n2 fmt) = r.dev.moves k d1 n1 d2 n2 fmt := rfl
  rw [hst] at hrun
  generalize hs' : r.dev.moves k d1 n1 d2 n2 fmt = s' at hrun R
  have w1 := S.ok w
  have w' := R.ok w1
  have hsd : s'.sid = r.dev.sid := by rw [R.sid, S.sid]
  have hget : s'.tree.get h = some { it1 with fmt := fmt } := by rw [R.get, if_pos rfl]
  have hinfo : s'.infoOf h = (.ok, Server.startInfo s'.sid k { it1 with fmt := fmt }) := by
    rw [R.told, R.sid]
  have hcont : ∀ x, contents s' x = contents r.dev x := fun x => by rw [R.contents, (S.contents w x).1]
  have hd2 : ∃ dit2, s'.tree.get d2 = some dit2 ∧ join dit2.path n2 = join dit.path n2 := by
    have hpar := w'.wf.parent h _ hget h0
    obtain ⟨p, pit, a1, a2, a3, _, a5, a6⟩ := hpar
    have : p = d2 := by
      have : some p = some d2 := by rw [← a1]; exact p4
      exact Option.some.inj this
    subst this
    refine ⟨pit, a3, ?_⟩
    have h5 : it1.path = join pit.path it1.name := a5
    rw [p1, p2] at h5
    exact h5.symm
  refine ⟨_, hrun, ⟨ho.idle, ho.none, ho.ready, ho.session⟩, w', only_events _ _ (ev_if _ _), quiet_data _ _ (ev_if _ _), ?_, ?_, ?_, ?_, ?_, ?_⟩
  · obtain ⟨dit2, a, b⟩ := hd2
    exact ⟨dit2, _, a, hget, by show it1.path = _; rw [p1, b]⟩
  · exact ⟨_, hget, p1⟩
  · intro hf hsz hwl c hc hcp
    have hfi : it.fmt ≠ ASSOC := fun hh => hf (hkind.mpr hh)
    obtain ⟨r2, b1, b2, _⟩ := Server.get_object ({ r with dev := s', out := r.out ++
        (if e s' h = true then [Server.evOut (.infoChanged h)] else []) } : Rsp Server)
      ⟨ho.idle, ho.none, ho.ready, ho.session⟩ (fun a b => by
        show (s'.ios a b).openOk = true ∧ _
        rw [R.ios, hios]; exact hwl a b) c hc h hcp (k.bytes (join dit.path n2)) ((hcont h).trans (hby hfi)) (by
        rw [Server.size_info hinfo]
        show (if fmt = ASSOC then 0 else (k.bytes it1.path).length) = _
        rw [if_neg hf, p1]) hsz
    exact ⟨r2, b1, b2⟩
  · intro hsid hfit c hc hcp
    obtain ⟨r2, p, o, b1, b2, b3, b4⟩ := told_facts (r := { r with dev := s', out := r.out ++
        (if e s' h = true then [Server.evOut (.infoChanged h)] else []) })
      ⟨ho.idle, ho.none, ho.ready, ho.session⟩ w' (by show s'.tree.asked < _; rw [R.asked, S.asked]; exact hb)
      (by show s'.sid < _; rw [hsd]; exact hsid) k h0 hget hinfo (by show FactsFit k it1.path fmt; rw [p1]; exact hfit) c hc hcp
    have hq : ({ it1 with fmt := fmt } : Item).path = join dit.path n2 := p1
    rw [hq] at b4
    refine ⟨r2, p, o, b1, b2, b3, b4, ?_⟩
    obtain ⟨io, x1, x2⟩ := b4.parent
    obtain ⟨dit2, a, b⟩ := hd2
    rw [dirOf_join hn2] at x2
    exact w'.wf.inj x1 a (by rw [x2]; exact (join_inj b hn2 hn2).1.symm)
  · intro x
    exact ⟨by show s'.tree.has x = _; rw [R.has, S.has], hcont x⟩
  · intro x hx
    show s'.infoOf x = _
    rw [R.other hx, S.info w x hx]

/-- C102, proved part. Another program moves a file onto another file, replacing it: the moved object's handle is gone and the host is told
so (if it listens); the other object keeps its handle and its file has the bytes moved there; all others are as they were. (Missing: what
is known of the replaced file, see `C102_replaced_violated`.) -/
theorem C102_replaced_partial (r : Rsp Server) (ho : Open r) (w : ServerOk r.dev) (hb : r.dev.tree.asked < 0xFFFFFFFF) (e : Server → Nat → Bool)
    (k : DiskFacts) (d1 : Nat) (n1 : Path) (d2 : Nat) (n2 : Path) (fmt : Nat) (h y : Nat) (he : Entry r.dev d1 n1 h) (hy : Entry r.dev d2 n2 y)
    (hne : h ≠ y) (hf : ∀ it, r.dev.tree.get h = some it → it.fmt ≠ ASSOC) (hfy : ∀ iy, r.dev.tree.get y = some iy → iy.fmt ≠ ASSOC) :
    ∃ r' : Rsp Server, r.run (listeningDev e) (r.dev.occurs k (.moves d1 n1 d2 n2 fmt)) = .ok r' ∧ Open r' ∧ ServerOk r'.dev ∧
      events r'.out = events r.out ++ (if e r'.dev h = true then [.event 0x4003 0xFFFFFFFF [h]] else []) ∧ dataOf r'.out = dataOf r.out ∧
      (∀ c, Asking c 0x1009 → cParam c 0 = h → ∃ r2, Answered r' r2 (ask c) c .invalidObjectHandle [] ∧ dataOf r2.out = dataOf r'.out) ∧
      contents r'.dev y = contents r.dev h ∧
      (∀ x, r'.dev.tree.has x = true ↔ r.dev.tree.has x = true ∧ x ≠ h) ∧
      ∀ x, x ≠ h → r.dev.tree.has x = true → r'.dev.infoOf x = r.dev.infoOf x ∧ (x ≠ y → contents r'.dev x = contents r.dev x) := by
  obtain ⟨dit, it, e1, e2, e3⟩ := id he
  obtain ⟨diy, iy, f1, f2, f3⟩ := id hy
  have h0 : h ≠ 0 := by rintro rfl; exact Server.entry_root w.wf he
  have h1 := below_all w hb (has_iff.mpr ⟨it, e2⟩)
  obtain ⟨w1, t, wt, sh, ht, hmv, hev, hhas⟩ := Server.moves_onto w k d1 n1 d2 n2 fmt he e2 (hf it e2) hy f2 (hfy iy f2) hne
  generalize hs1 : ({ r.dev with
      files := AMap.insert r.dev.files (String.ofList iy.path) ((contents r.dev h).getD [])
      dataFile := r.dev.dataFile.map fun (e : String × Nat) => if e.1 = String.ofList iy.path then ("", e.2) else if e.1 = String.ofList it.path then (String.ofList iy.path, e.2) else e } : Server) = s1 at w1 hmv
  have htr : s1.tree = r.dev.tree := by rw [← hs1]
  obtain ⟨w', old⟩ := Server.dropGone_ok w1 wt (by rw [htr]; exact sh)
  have hevs : r.dev.hereEvents k (.moves d1 n1 d2 n2 fmt) = [.removed h] := by
    show (r.dev.moves k d1 n1 d2 n2 fmt).tree.evs.drop r.dev.tree.evs.length = _
    rw [hmv]
    show t.evs.drop _ = _
    rw [hev, List.drop_left]
  have hrun := Server.occurs_run e r (by rw [ho.idle]; simp) k (.moves d1 n1 d2 n2 fmt)
  rw [hevs, one_event, hears_removed e _ h0 h1] at hrun
  have hst : r.dev.here k (.moves d1 n1 d2 n2 fmt) = s1.dropGone t := hmv
  rw [hst] at hrun
  generalize hs' : s1.dropGone t = s' at hrun w' old
  have hT : t = s'.tree := by rw [← hs']; rfl
  rw [hT] at hhas old
  have hgone : s'.tree.has h = false := by
    cases hx : s'.tree.has h with
    | false => rfl
    | true => exact absurd rfl ((hhas h).mp hx).2
  have hc1 : ∀ x, x ≠ y → contents s1 x = contents r.dev x := by
    intro x hx
    rw [← hs1]
    unfold Spec.contents
    simp only
    cases ex : r.dev.tree.get x with
    | none => rfl
    | some ix =>
      simp only
      by_cases hfx : ix.fmt = ASSOC
      · rw [if_pos hfx, if_pos hfx]
      · rw [if_neg hfx, if_neg hfx, AMap.get_insert, if_neg]
        intro hpe
        exact hx (w.wf.inj ex f2 (by rw [← String.toList_ofList (l := ix.path), ← String.toList_ofList (l := iy.path)]; exact congrArg _ hpe))
  refine ⟨_, hrun, ⟨ho.idle, ho.none, ho.ready, ho.session⟩, w', only_events _ _ (ev_if _ _), quiet_data _ _ (ev_if _ _), ?_, ?_, hhas, ?_⟩
  · intro c hc hp
    obtain ⟨r2, b1, b2, _⟩ := Server.get_object_gone
      ({ r with dev := s', out := r.out ++ (if e s' h = true then [Server.evOut (.removed h)] else []) } : Rsp Server)
      ⟨ho.idle, ho.none, ho.ready, ho.session⟩ c hc (by rw [hp]; exact hgone)
    exact ⟨r2, b1, b2⟩
  · show contents s' y = _
    rw [(old y ((hhas y).mpr ⟨has_iff.mpr ⟨iy, f2⟩, fun hh => hne hh.symm⟩)).1]
    have hfile := Server.file_of w e2 (hf it e2)
    obtain ⟨c, hc⟩ := Option.isSome_iff_exists.mp hfile
    have hcont : contents r.dev h = some c := by
      unfold Spec.contents; rw [e2]; simp only; rw [if_neg (hf it e2)]; exact hc
    rw [hcont, ← hs1]
    unfold Spec.contents
    simp only
    rw [f2]
    simp only
    rw [if_neg (hfy iy f2), AMap.get_insert, if_pos rfl, ← Spec.contents, hcont]
    rfl
  · intro x hx hh
    obtain ⟨o1, o2⟩ := old x ((hhas x).mpr ⟨hh, hx⟩)
    refine ⟨?_, fun hxy => ?_⟩
    · show s'.infoOf x = _
      rw [o2, ← hs1]
      rfl
    · show contents s' x = _
      rw [o1, hc1 x hxy]

/-! ### What goes wrong -/

/-- The files' bytes are their paths, but for "/s/f". -/
def demoFacts : DiskFacts :=
  ⟨fun p => if p = ['/', 's', '/', 'f'] then [47, 115, 47, 100, 47, 102] else p.map fun c => UInt8.ofNat c.toNat, fun _ => [], fun _ => 0⟩

/-- C102, violated: a program on the device replaces file "f" (as programs do that save a document under another name and rename it).
The host is told nothing about "f" and is still told its old size, 4 bytes; it downloads the first 4 of its 6 bytes, and the device
says OK. -/
theorem C102_replaced_violated :
    (match Rsp.run Server.dev { dev := demoTwins } ([.ready [], .packet (Toy.cmd 0x1002 0 [1]) true true []] ++
        demoTwins.occurs demoFacts (.moves 1 ['f'] 0 ['f'] 0x3004) ++ ask (Toy.cmd 0x1009 9 [3])) with
      | .ok r => (contents r.dev 3, (r.dev.infoOf 3).2.size, events r.out, dataOf r.out, responses r.out)
      | .ub _ => (none, 0, [], [], [])) =
    (some [47, 115, 47, 100, 47, 102], 4, [.event 0x4003 0xFFFFFFFF [2]], [47, 115, 47, 100], [.response .ok 0 [], .response .ok 9 []]) := by
  decide +kernel

/-- C102, violated: a program on the device moves "d/f" to "e/g", giving it another name on the way. The storage keeps the old name: the
host is told that something about the object changed, its name is still "f", and it can no longer be downloaded, though nothing was
deleted. -/
theorem C102_moved_violated :
    (match Rsp.run Server.dev { dev := demoTwo } ([.ready [], .packet (Toy.cmd 0x1002 0 [1]) true true []] ++
        demoTwo.occurs demoFacts (.moves 1 ['f'] 3 ['g'] 0x3004) ++ ask (Toy.cmd 0x1009 9 [2])) with
      | .ok r => ((AMap.get r.dev.files "/s/e/g").isSome, contents r.dev 2, (r.dev.infoOf 2).2.fileName, events r.out, dataOf r.out, responses r.out)
      | .ub _ => (false, none, [], [], [], [])) =
    (true, none, [0x66], [.event 0x4007 0xFFFFFFFF [2]], [], [.response .ok 0 [], .response .accessDenied 9 []]) := by
  decide +kernel

/-! ### Examples -/

/-- Files that appear, one that is written and one that is moved: all the hypotheses above are met. -/
theorem C102_witness : ServerOk demoTwo ∧ demoTwo.tree.asked < 0xFFFFFFFF ∧ demoTwo.writing = 0 ∧
    Entry demoTwo 1 ['f'] 2 ∧ Entry demoTwo 0 ['e'] 3 ∧ (∃ it, demoTwo.tree.get 3 = some it ∧ it.kids = []) ∧
    Possible demoTwo demoFacts (.appears 3 ['n'] (.node none ASSOC [(['m'], .node none 0x3004 [])])) ∧
    (∀ y, ¬ Entry demoTwo 3 ['n'] y) ∧
    Possible demoTwo demoFacts (.written 1 ['f'] 0x3004) ∧
    Possible demoTwo ⟨fun _ => [47, 115, 47, 100, 47, 102], fun _ => [], fun _ => 0⟩ (.moves 1 ['f'] 3 ['f'] 0x3004) ∧
    Unconcerned demoTwo 2 (.moves 0 ['d'] 3 ['d'] ASSOC) ∧ (∀ y, ¬ Entry demoTwo 3 ['f'] y) := by
  have w : ServerOk demoTwo := C101_witness.1
  have g1 : demoTwo.tree.get 1 = some ⟨['/', 's', '/', 'd'], ['d'], ASSOC, 0, some 0, [2], 2⟩ := by decide +kernel
  have g2 : demoTwo.tree.get 2 = some ⟨['/', 's', '/', 'd', '/', 'f'], ['f'], 0x3004, 1, some 1, [], 3⟩ := by decide +kernel
  have g3 : demoTwo.tree.get 3 = some ⟨['/', 's', '/', 'e'], ['e'], ASSOC, 0, some 0, [], 4⟩ := by decide +kernel
  have g0 : demoTwo.tree.get 0 = some ⟨['/', 's'], ['s'], ASSOC, 0, none, [3, 1], 1⟩ := by decide +kernel
  have no : ∀ d dit n, demoTwo.tree.get d = some dit → AMap.get demoTwo.tree.paths (join dit.path n) = none → ∀ y, ¬ Entry demoTwo d n y := by
    intro d dit n hd hn y hy
    rw [(Server.entry_paths w.wf hd).mpr hy] at hn
    cases hn
  have only : ∀ d dit n h y, demoTwo.tree.get d = some dit → AMap.get demoTwo.tree.paths (join dit.path n) = some h → Entry demoTwo d n y → y = h := by
    intro d dit n h y hd hn hy
    rw [(Server.entry_paths w.wf hd).mpr hy] at hn
    exact Option.some.inj hn
  refine ⟨w, by decide +kernel, by decide +kernel, ⟨_, _, g1, g2, rfl⟩, ⟨_, _, g0, g3, rfl⟩, ⟨_, g3, rfl⟩,
    ⟨⟨_, g3, rfl⟩, by decide, by simp [DiskOk, DisksOk], by simp [DiskNames, DisksNames]⟩,
    no 3 _ _ g3 (by decide +kernel), ⟨by decide, ?_⟩, ⟨by decide, by decide, ⟨_, g3, rfl⟩, ?_⟩, ⟨?_, no 3 _ _ g3 (by decide +kernel) 2⟩,
    no 3 _ _ g3 (by decide +kernel)⟩
  · intro h it he hi
    have := only 1 _ _ 2 h g1 (by decide +kernel) he
    subst this
    rw [g2] at hi; cases hi
    decide
  · intro h it dit he hi hd
    have := only 1 _ _ 2 h g1 (by decide +kernel) he
    subst this
    rw [g2] at hi; cases hi
    rw [g3] at hd; cases hd
    refine ⟨by decide, fun _ => by decide +kernel, Or.inr ⟨no 3 _ _ g3 (by decide +kernel), Or.inr rfl, ?_⟩⟩
    intro hb
    rcases (w.wf.below_iff g2 g3).mp hb with h | ⟨n, h⟩ <;> simp [join] at h
  · intro he
    have := only 0 _ _ 1 2 g0 (by decide +kernel) he
    cases this

end Props
