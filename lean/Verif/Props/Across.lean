import Verif.Lemmas.ServerCopiedX
import Verif.Props.Storages
import Verif.Props.ServerCopy
/-! Property theorems C105: CopyObject to another storage as the host sees it. -/
namespace Props
open Mtp Spec

theorem of_object {m : Storages} (w : StoragesOk m) {i h : Nat} (hi : i < m.count) (h0 : h ≠ 0) (hh : (m.at i).tree.has h = true) :
    m.ofHandle h = some i := Storages.first_unique hi hh fun j hj e => w.handles j i h hj hi h0 e hh

theorem of_sid {m : Storages} (w : StoragesOk m) {i : Nat} (hi : i < m.count) : m.ofSid (m.at i).sid = some i :=
  Storages.first_unique hi (by simp) fun j hj e => w.ids j i hj hi (by simpa using e)

/-- Where a copy to another storage is done. -/
theorem copy_across {m : Storages} (w : StoragesOk m) {i j : Nat} (hi : i < m.count) (hj : j < m.count) (hij : i ≠ j) (ps : List Nat)
    (c : Bool) (h0 : ps.getD 0 0 ≠ 0) (hh : (m.at i).tree.has (ps.getD 0 0) = true) (hs : ps.getD 1 0 = (m.at j).sid) :
    m.copy ps c = (m.put j (Server.copyFrom (m.at i) (m.at j) ps c).1, (Server.copyFrom (m.at i) (m.at j) ps c).2) := by
  have e1 := of_object w hi h0 hh
  have e2 := of_sid w hj
  rw [← hs] at e2
  have e3 : m.across (ps.getD 0 0) (ps.getD 1 0) = true := by
    unfold Storages.across
    rw [e1, e2]
    simpa using hij
  unfold Storages.copy
  rw [if_pos e3, e1, e2]
  rfl

/-- The others are not touched. -/
theorem put_others (m : Storages) (j : Nat) (s : Server) {k : Nat} (hk : k ≠ j) : apart ((m.put j s).at k) = apart (m.at k) := by
  unfold Storages.at
  rw [Storages.put_apart _ _ _ _ hk]
  rfl

/-- C105. CopyObject of a file or folder to a free place of another storage, where nothing is refused: answered OK with the handle of the
copy. The object and everything in it exist on both storages then, the copies under new handles, in the same arrangement, with the same
bytes and the same information but for storage, folder and dates; all that was on the destination is as before, and the other storages,
that of the object included, are not touched. The storages are still in order. -/
theorem C105_copied (r : Rsp Storages) (ho : Open r) (w : StoragesOk r.dev) (i j : Nat) (hi : i < r.dev.count) (hj : j < r.dev.count)
    (hij : i ≠ j) (q : List UInt8) (hq : Asking q 0x101A) (hs : cParam q 1 = (r.dev.at j).sid)
    (hc : CopyableAcross (r.dev.at i) (r.dev.at j) (cParam q 0) (cParam q 2)) :
    ∃ r' y m, AnsweredBy Storages.dev r r' (ask q) q .ok [y] ∧ dataOf r'.out = dataOf r.out ∧ (cParam q 0, y) ∈ m ∧
      CopiedAcross (r.dev.at i) (r.dev.at j) (r'.dev.at j) (cParam q 0) (cParam q 2) m ∧
      (∀ k, k ≠ j → apart (r'.dev.at k) = apart (r.dev.at k)) ∧
      r'.dev.count = r.dev.count ∧ HandlesLeft r'.dev ∧ StoragesOk r'.dev := by
  obtain ⟨s', y, m, e, hm, cp, ha⟩ := Server.copyFrom_done (w.each i hi) (w.each j hj) hc (cParams q) rfl hs rfl
  obtain ⟨it, _, e1, _⟩ := hc.place
  have hcopy : Storages.dev.copy r.dev (cParams q) false = (r.dev.put j s', .ok, y) := by
    show r.dev.copy (cParams q) false = _
    rw [copy_across w hi hj hij (cParams q) false hc.notRoot (has_iff.mpr ⟨it, e1⟩) hs, e]
  obtain ⟨r', a1, a2, a3⟩ := Server.copy_answer_by Storages.dev r ho q hq
  rw [hcopy] at a1 a2
  simp only at a2
  have hb : HandlesLeft r'.dev := by
    rw [a2]
    have := hc.handles
    show s'.tree.asked < _
    omega
  have hold : Storages.Older r.dev r'.dev := by
    rw [a2]
    refine Storages.put_older r.dev (fun _ => hj) ?_
    have := Server.steps_ages.whole_from (r.dev.at i) (r.dev.at j) (cParams q) false
    rw [e] at this
    exact this
  refine ⟨r', y, m, a1, a3, hm, ?_, fun k hk => ?_, hold.2.1, hb, hold.2.2.2 w hb⟩
  · rw [a2, Storages.put_at]; exact cp
  · rw [a2]; exact put_others _ _ _ hk

/-- C105. Every copied file can be downloaded from the destination, and is the original byte for byte; and the original can still be
downloaded. -/
theorem C105_downloaded (r : Rsp Storages) (ho : Open r) (w : StoragesOk r.dev) (i j : Nat) (hi : i < r.dev.count) (hj : j < r.dev.count)
    (hij : i ≠ j) (q : List UInt8) (hq : Asking q 0x101A) (hs : cParam q 1 = (r.dev.at j).sid)
    (hc : CopyableAcross (r.dev.at i) (r.dev.at j) (cParam q 0) (cParam q 2)) :
    ∃ (r' : Rsp Storages) (y : Nat) (m : List (Nat × Nat)), AnsweredBy Storages.dev r r' (ask q) q .ok [y] ∧ (cParam q 0, y) ∈ m ∧
      (∀ x, Below (r.dev.at i).tree (cParam q 0) x → ∃ y, (x, y) ∈ m) ∧
      ∀ x y c, (x, y) ∈ m → Holds (r.dev.at i) x c → c.length ≤ 0xFFFFFFFF - 12 →
        ∀ q2, Asking q2 0x1009 → cParam q2 0 = y ∨ cParam q2 0 = x →
          ∃ r2, AnsweredBy Storages.dev r' r2 (ask q2) q2 .ok [] ∧ dataOf r2.out = dataOf r'.out ++ c := by
  obtain ⟨r', y, m, a1, a2, hm, cp, hoth, hcount, hb, w'⟩ := C105_copied r ho w i j hi hj hij q hq hs hc
  refine ⟨r', y, m, a1, hm, fun x hx => (cp.source x).mp hx, fun x z c hx hh hl q2 hq2 hz => ?_⟩
  obtain ⟨o, o1, o2⟩ := hh.told
  obtain ⟨_, _, p, d, _, hzi, _, _, t⟩ := cp.told x z hx
  rcases hz with hz | hz
  · have hw : Willing (r'.dev.at j) := by unfold Willing; rw [cp.ios]; exact hc.willing.2
    have h0 : z ≠ 0 := by
      rintro rfl
      obtain ⟨r0, h, _⟩ := (w.each j hj).wf.root
      have := ((cp.new 0).mpr ⟨x, hx⟩).2
      rw [has_iff.mpr ⟨r0, h⟩] at this
      cases this
    exact download_among r' a1.again w' j (hcount ▸ hj) hw q2 hq2 z hz h0 c ((cp.contents x z hx).trans hh.contents)
      (by rw [Server.size_info t]; simp only; rw [o1]; exact o2) hl
  · obtain ⟨_, g2, g3, _, g5⟩ := apart_get (hoth i hij) x
    have h0 : x ≠ 0 := by
      rintro rfl
      obtain ⟨r0, h, h1, h2⟩ := (w.each i hi).wf.root
      have hbel := (cp.source 0).mpr ⟨z, hx⟩
      have hnr := hc.notRoot
      generalize cParam q 0 = h' at hbel hnr
      cases hbel with
      | self => exact hnr rfl
      | child u v _ => rw [h] at u; cases u; rw [h2] at v; cases v
    exact download_among r' a1.again w' i (hcount ▸ hi) (fun a b => by rw [g5]; exact hc.willing.1 a b) q2 hq2 x hz h0 c
      (g2.trans hh.contents) (g3.trans (by rw [Server.size_info o1]; exact o2)) hl

/-- C105. A copied file has the date of the original, if the device can set dates and the date can be written. -/
theorem C105_dated (r : Rsp Storages) (ho : Open r) (w : StoragesOk r.dev) (i j : Nat) (hi : i < r.dev.count) (hj : j < r.dev.count)
    (hij : i ≠ j) (q : List UInt8) (hq : Asking q 0x101A) (hs : cParam q 1 = (r.dev.at j).sid)
    (hc : CopyableAcross (r.dev.at i) (r.dev.at j) (cParam q 0) (cParam q 2)) (hu : ∀ n, (r.dev.at j).times.utimes n = true) :
    ∃ (r' : Rsp Storages) (y : Nat) (m : List (Nat × Nat)), AnsweredBy Storages.dev r r' (ask q) q .ok [y] ∧ (cParam q 0, y) ∈ m ∧
      ∀ x y xi, (x, y) ∈ m → (r.dev.at i).tree.get x = some xi → xi.fmt ≠ ASSOC →
      Readable (r.dev.at j).times.zone (parseDate (r.dev.at j).times.zone (Server.toPath ((r.dev.at i).infoOf x).2.modDate)) →
      ((r'.dev.at j).infoOf y).1 = .ok ∧
      parseDate (r.dev.at j).times.zone (Server.toPath ((r'.dev.at j).infoOf y).2.modDate) =
        parseDate (r.dev.at j).times.zone (Server.toPath ((r.dev.at i).infoOf x).2.modDate) := by
  obtain ⟨r', y, m, a1, a2, hm, cp, _⟩ := C105_copied r ho w i j hi hj hij q hq hs hc
  refine ⟨r', y, m, a1, hm, fun x z xi hx ex hf hr => ?_⟩
  obtain ⟨xi', _, p, d, e1, _, _, hd, t⟩ := cp.told x z hx
  rw [ex] at e1; cases e1
  rw [t]
  exact ⟨rfl, (C83_date_told _ _ _ (hd hf) hu hr).2⟩

/-- What the storage would answer alone. -/
theorem ask_among (r : Rsp Storages) (ho : Open r) (w : StoragesOk r.dev) (i : Nat) (hi : i < r.dev.count) (hb : HandlesLeft r.dev)
    (q : List UInt8) (code : Nat) (hq : Asking q code) (hc : Concerns r.dev i code (cParams q)) (l : List Nat)
    (hk : opKind code = some (.query l)) (hd : hasDataPhase code = false) (he : ((r.dev.at i).query code (cParams q)).2.response ≠ none)
    {s : Rsp Server} {c : Resp} {ps : List Nat} (ha : Answered (onlyStorage i r) s (ask q) q c ps) :
    ∃ r', AnsweredBy Storages.dev r r' (ask q) q c ps ∧ dataOf r'.out = dataOf s.out := by
  obtain ⟨⟨c0, ps0⟩, he0⟩ := Option.ne_none_iff_exists'.mp he
  obtain ⟨s0, a1, a2, a3⟩ := Server.query_answer_by Server.dev (onlyStorage i r) (open_via.mpr ho) q code hq l hk hd c0 ps0 he0
  have hs : s0 = s := by
    have := a1.run.symm.trans ha.run
    cases this; rfl
  subst hs
  obtain ⟨t1, _, o1⟩ := a1.out
  obtain ⟨t2, _, o2⟩ := ha.out
  rw [o1] at o2
  have o3 := List.append_cancel_left o2
  simp only [List.cons.injEq, Out.response.injEq, and_true] at o3
  obtain ⟨rfl, _, rfl⟩ := o3
  obtain ⟨b1, _⟩ := Storages.sim_query w hi (Storages.focus_start w hi hb) code (cParams q) hc
  have b2 : ((r.dev.at i).query code (cParams q)).2 = (r.dev.query code (cParams q)).2 := congrArg (fun z => z.2) b1
  obtain ⟨r', c1, c2, c3⟩ := Server.query_answer_by Storages.dev r ho q code hq l hk hd c0 ps0 (by
    show (r.dev.query code (cParams q)).2.response = _
    rw [← b2]; exact he0)
  refine ⟨r', c1, c3.trans ?_⟩
  rw [a3]
  show dataOf r.out ++ (((r.dev.query code (cParams q)).2.frames).map _).flatten = dataOf r.out ++ ((((r.dev.at i).query code (cParams q)).2.frames).map _).flatten
  rw [b2]

/-- C105. After the copy, the copy is listed in the folder of the destination it was made in and in no other one of it. -/
theorem C105_listed (r : Rsp Storages) (ho : Open r) (w : StoragesOk r.dev) (i j : Nat) (hi : i < r.dev.count) (hj : j < r.dev.count)
    (hij : i ≠ j) (q : List UInt8) (hq : Asking q 0x101A) (hs : cParam q 1 = (r.dev.at j).sid)
    (hc : CopyableAcross (r.dev.at i) (r.dev.at j) (cParam q 0) (cParam q 2)) :
    ∃ (r' : Rsp Storages) (y : Nat), AnsweredBy Storages.dev r r' (ask q) q .ok [y] ∧ y ≠ cParam q 0 ∧
      ∀ q3, Asking q3 0x1007 → cParam q3 0 = (r.dev.at j).sid → cParam q3 1 = 0 → r'.dev.asked < 2 ^ 26 →
        cParam q3 2 ≠ 0 → (cParam q3 2 = ALL ∨ ∃ it, (r'.dev.at j).tree.get (cParam q3 2) = some it ∧ it.fmt = ASSOC) →
        ∃ r3 p l, AnsweredBy Storages.dev r' r3 (ask q3) q3 .ok [] ∧ dataOf r3.out = dataOf r'.out ++ p ∧
          readHandles 0x1007 0 (dataContainer 0x1007 0 p) = some l ∧
          (y ∈ l ↔ cParam q3 2 = if cParam q 2 = 0 then ALL else cParam q 2) ∧
          cParam q 0 ∉ l := by
  obtain ⟨r', y, m, a, _, hm, c, hoth, hcount, hb, w'⟩ := C105_copied r ho w i j hi hj hij q hq hs hc
  obtain ⟨hn1, hn2⟩ := (c.new y).mpr ⟨_, hm⟩
  obtain ⟨it, pit, e1, e2, _⟩ := hc.place
  have hhi : (r'.dev.at i).tree.has (cParam q 0) = true := by
    obtain ⟨g1, _⟩ := apart_get (hoth i hij) (cParam q 0)
    exact has_iff.mpr ⟨it, g1.trans e1⟩
  have hj' : j < r'.dev.count := hcount ▸ hj
  have hi' : i < r'.dev.count := hcount ▸ hi
  refine ⟨r', y, a, ?_, ?_⟩
  · rintro rfl
    exact hij (w'.handles i j _ hi' hj' hc.notRoot hhi hn1)
  intro q3 hq3 hs3 hf3 hb3 h03 ha3
  have hsj : cParam q3 0 = (r'.dev.at j).sid := hs3.trans c.sid.symm
  have hall := (w'.real j hj').2
  obtain ⟨s3, p, l, b1, b2, _, b4, _, b6⟩ := Server.get_handles (onlyStorage j r') (open_via.mpr a.again) (w'.each j hj') q3 hq3 hsj
    hall hb3 hf3 (Or.inr ha3)
  have hcon : Concerns r'.dev j 0x1007 (cParams q3) := by
    refine ⟨fun h => absurd h (by decide), fun h => absurd h (by decide), fun _ => ⟨hsj, ?_⟩, fun h => absurd h (by decide),
      fun h => absurd h (by decide), by decide⟩
    rintro ⟨_, k, hk, hkj, hh⟩
    rcases ha3 with ha3 | ⟨it3, ha3, _⟩
    · obtain ⟨ki, ke⟩ := has_iff.mp hh
      have := (w'.each k hk).issued _ _ ke
      have g2 : (cParams q3).getD 2 0 = cParam q3 2 := rfl
      rw [g2, ha3, Storages.at_asked] at this
      unfold HandlesLeft at hb
      unfold ALL at this
      omega
    · exact hkj (w'.handles k j _ hk hj' h03 hh (has_iff.mpr ⟨it3, ha3⟩))
  obtain ⟨r3, c1, c2⟩ := ask_among r' a.again w' j hj' hb q3 0x1007 hq3 hcon _ rfl rfl (by
    have : ((r'.dev.at j).query 0x1007 (cParams q3)).2 = Server.oneFrame (getObjectHandles [((r'.dev.at j).sid, (r'.dev.at j).tree)]
      (r'.dev.at j).fmts 0 (cParam q3 0) (cParam q3 1) (cParam q3 2)) := rfl
    rw [this]
    unfold Server.oneFrame
    split <;> simp) b1
  refine ⟨r3, p, l, c1, c2.trans b2, b4, (b6 _).trans ?_, fun hl => ?_⟩
  · obtain ⟨xi, yi, z, _, ey, hpar, hz⟩ := c.place _ _ hm
    rw [if_pos rfl] at hz
    subst hz
    have h0 : y ≠ 0 := by
      rintro rfl
      obtain ⟨r0, h, _⟩ := (w.each j hj).wf.root
      rw [has_iff.mpr ⟨r0, h⟩] at hn2
      cases hn2
    have hpA : cParam q 2 ≠ ALL := by
      have := (w.each j hj).issued _ _ e2
      have := hc.handles
      unfold ALL; omega
    constructor
    · rintro ⟨i, g, _, _, hh⟩
      rw [show (onlyStorage j r').dev.tree.get y = some yi from ey] at g; cases g
      rw [hpar] at hh
      rcases hh with hh | ⟨h1, h2⟩ | ⟨h1, h2, h3⟩
      · exact absurd hh h03
      · simp only [Option.some.injEq] at h2
        rw [if_pos h2, h1]
      · simp only [Option.some.injEq] at h3
        rw [if_neg (by rw [h3]; exact h1), h3]
    · intro h
      refine ⟨yi, ey, h0, Or.inl rfl, ?_⟩
      rw [hpar]
      split at h
      · next hp => exact Or.inr (Or.inl ⟨h, by rw [hp]⟩)
      · next hp => rw [h]; exact Or.inr (Or.inr ⟨hp, hpA, rfl⟩)
  · obtain ⟨i2, g, _⟩ := (b6 _).mp hl
    exact hij (w'.handles i j _ hi' hj' hc.notRoot hhi (has_iff.mpr ⟨i2, g⟩))

/-- Events while a copy is made do nothing to the storages. -/
theorem evs_dev {D : Type} (dv : Dev D) (es : List Rsp.Ev) : ∀ {r : Rsp D}, (∀ q, r.req = some q → cCode q = 0x101A) →
    (es.foldl (Rsp.handleEv dv) r).dev = r.dev := by
  induction es with
  | nil => intro r _; rfl
  | cons e es ih =>
    intro r hr
    have key : (r.handleEv dv e).dev = r.dev ∧ ∀ q, (r.handleEv dv e).req = some q → cCode q = 0x101A := by
      cases e with
      | deviceReset => exact ⟨by simp [Rsp.handleEv, Rsp.closeSession, Rsp.deleteStored], by simp [Rsp.handleEv, Rsp.closeSession, Rsp.deleteStored]⟩
      | cleanup => exact ⟨by simp [Rsp.handleEv, Rsp.closeSession, Rsp.deleteStored], by simp [Rsp.handleEv, Rsp.closeSession, Rsp.deleteStored]⟩
      | suspend => exact ⟨by simp [Rsp.handleEv, Rsp.handleSuspend], fun q hq => hr q (by simpa [Rsp.handleEv, Rsp.handleSuspend] using hq)⟩
      | resume =>
        simp only [Rsp.handleEv, Rsp.handleResume]
        split
        · exact ⟨by simp, fun q hq => hr q (by simpa using hq)⟩
        · split
          · exact ⟨by simp, fun q hq => hr q (by simpa using hq)⟩
          · exact ⟨by simp, fun q hq => hr q (by simpa using hq)⟩
      | cancel =>
        simp only [Rsp.handleEv, Rsp.handleCancel]
        split
        · exact ⟨by simp, fun q hq => hr q (by simpa using hq)⟩
        · next q hq =>
          have h1 := hr q hq
          rw [if_neg (by rw [h1]; decide)]
          exact ⟨by simp [Rsp.deleteStored], by simp [Rsp.deleteStored]⟩
    rw [List.foldl_cons, ih key.2, key.1]

/-- C105. CopyObject touches no storage but the destination, whatever happens meanwhile: refused, cancelled, interrupted, out of space,
or with errors of the file system. -/
theorem C105_others (r r' : Rsp Storages) (ho : Open r) (w : StoragesOk r.dev) (j : Nat) (hj : j < r.dev.count) (q : List UInt8)
    (hq : Asking q 0x101A) (hs : cParam q 1 = (r.dev.at j).sid) (es : List Rsp.Ev)
    (hr : r.run Storages.dev [.packet q true true es] = .ok r') (k : Nat) (hk : k ≠ j) : apart (r'.dev.at k) = apart (r.dev.at k) := by
  have hpc : Rsp.preCheck (r.accept q).session (cTid q) = .ok := by rw [Rsp.accept_session, Rsp.preCheck_ok ho.session hq.tid]
  have h1 : r.run Storages.dev [.packet q true true es] = (r.accept q).handle Storages.dev q es .copy := by
    simp only [Rsp.run, Rsp.step]
    rw [Rsp.receive_idle Storages.dev r q es ho.idle, Rsp.command_accept Storages.dev r q es (Or.inl ho.ready), hq.code,
      show opKind 0x101A = some .copy from rfl]
    simp only [Res.bind_ok]
    cases (r.accept q).handle Storages.dev q es .copy <;> rfl
  have hdev := evs_dev Storages.dev es (r := r.accept q) (fun q' h => by
    rw [Rsp.accept_req] at h
    cases h
    exact hq.code)
  rw [Rsp.accept_dev] at hdev
  rw [h1] at hr
  simp only [Rsp.handle, Rsp.copyReq, hpc] at hr
  generalize hx : es.foldl (Rsp.handleEv Storages.dev) (r.accept q) = x at hr hdev
  have hfin : r'.dev = (r.dev.copy (cParams q) (decide (x.st = .txCancel))).1 := by
    have hr' : ({ x with dev := (Storages.copy x.dev (cParams q) (decide (x.st = .txCancel))).1 } : Rsp Storages).copyEnd
        (Storages.copy x.dev (cParams q) (decide (x.st = .txCancel))).2.1
        (Storages.copy x.dev (cParams q) (decide (x.st = .txCancel))).2.2 = .ok r' := hr
    rw [hdev] at hr'
    generalize r.dev.copy (cParams q) (decide (x.st = .txCancel)) = y at hr' ⊢
    unfold Rsp.copyEnd at hr'
    split at hr'
    · cases hr'; rfl
    · unfold Rsp.reply1 at hr'
      split at hr'
      · cases hr'
      · cases hr'
        exact Rsp.send_dev ..
  rw [hfin]
  have e2 := of_sid w hj
  rw [← hs] at e2
  show apart ((r.dev.copy (cParams q) (decide (x.st = .txCancel))).1.at k) = _
  unfold Storages.copy
  show apart ((if r.dev.across (cParam q 0) (cParam q 1) = true then _ else _ : Storages × Resp × Nat).1.at k) = _
  unfold Storages.across
  rw [show (cParams q).getD 1 0 = cParam q 1 from rfl, show (cParams q).getD 0 0 = cParam q 0 from rfl, e2]
  cases e1 : r.dev.ofHandle (cParam q 0) with
  | none =>
    simp only
    unfold Storages.byHandle
    rw [e1]
    have hno : (r.dev.at 0).tree.has (cParam q 0) = false := by
      cases e : (r.dev.at 0).tree.has (cParam q 0) with
      | false => rfl
      | true =>
        unfold Storages.ofHandle Storages.first at e1
        rw [List.find?_eq_none] at e1
        exact absurd e (e1 0 (List.mem_range.mpr w.some))
    have hz : (r.dev.at 0).copy (cParams q) (decide (x.st = .txCancel)) = (r.dev.at 0, .invalidObjectHandle, 0) := by
      unfold Server.copy
      rw [show (cParams q).getD 0 0 = cParam q 0 from rfl, if_pos hno]
    simp only [Bool.false_eq_true, if_false, Option.getD_none, Storages.on]
    rw [hz]
    by_cases hk0 : k = 0
    · rw [hk0, Storages.put_at]
    · exact put_others _ _ _ hk0
  | some i =>
    simp only
    by_cases hij : i = j
    · rw [if_neg (by simp [hij])]
      unfold Storages.byHandle
      rw [e1, hij]
      exact put_others _ _ _ hk
    · rw [if_pos (by simpa using hij)]
      exact put_others _ _ _ hk

end Props
