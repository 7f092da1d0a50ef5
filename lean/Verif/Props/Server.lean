import Verif.Lemmas.Times
import Verif.Props.Delete
import Verif.Props.PropPod
/-! Property theorems C82–C87: a host talking to a storage with files. -/
namespace Props
open Mtp Spec
open Mtp.Server (New Edited Undisturbed)

/-! ### C87 -/

/-- C87. Objects and disk agree after every history of packets, cancellations, suspends, resets and notifications, whatever the
operating system answers, as long as handles are left: the files on disk are exactly those of the objects that are no folders,
the object tree is well formed, parents are folders, and exactly the objects are known. -/
theorem C87_disk_and_objects_agree (r r' : Rsp Server) (w : ServerOk r.dev) (is : List (Rsp.In Server))
    (hin : ∀ d, Rsp.In.env d ∉ is) (hr : r.run Server.dev is = .ok r') (hb : r'.dev.tree.asked < 0xFFFFFFFF) : ServerOk r'.dev := by
  refine (Rsp.run_closed (Server.closed_later fun _ => True) (fun _ _ => trivial) (fun _ _ => trivial) (fun i hi => ?_) hr).2 w hb
  cases i with
  | packet => exact fun _ _ => trivial
  | ready => exact fun _ => trivial
  | ev => trivial
  | notify => trivial
  | env d => exact absurd hi (hin d)

/-! ### C86 -/

theorem harmless_undisturbed {r r' : Rsp Server} (ho : Open r) {is : List (Rsp.In Server)}
    (hin : ∀ i ∈ is, Harmless i) (hr : r.run Server.dev is = .ok r') : Undisturbed r.dev r'.dev := by
  refine Rsp.run_closed Server.closed_undisturbed (fun q hq => ?_) (fun h => absurd h (by decide)) (fun i hi => ?_) hr
  · rw [ho.none] at hq; cases hq
  · have := hin i hi
    cases i with
    | packet => exact this
    | ready => exact this.elim
    | ev => trivial
    | notify => trivial
    | env d => exact this.elim

/-- C86. Whatever a host does short of creating, uploading, editing and deleting objects, in whatever order and with whatever
interruptions, above all moving and renaming objects and the folders they are in: the same objects exist afterwards, and each
holds the same bytes. -/
theorem C86_contents_kept (r r' : Rsp Server) (ho : Open r) (w : ServerOk r.dev) (is : List (Rsp.In Server))
    (hin : ∀ i ∈ is, Harmless i) (hr : r.run Server.dev is = .ok r') :
    ∀ h, r'.dev.tree.has h = r.dev.tree.has h ∧ contents r'.dev h = contents r.dev h ∧ r'.dev.sizeOf h = r.dev.sizeOf h :=
  ((harmless_undisturbed ho hin hr).2.2.2.2 w).2

/-! ### C82 -/

/-- What a host that announced `o` in folder `p` of storage `sid` is told about it: what it sent (texts as transmitted), its place,
the size modulo 2^32, which is all the dataset can hold, and the date `d` of the file as both dates. -/
def toldOf (sid p : Nat) (o : ObjInfo) (d : QStr) : ObjInfo :=
  { objInfoReceived o with storageId := sid, parent := p, captureDate := d, modDate := d }

theorem info_new {s s' : Server} {p y par : Nat} {o : ObjInfo}
    (nw : New s s' p { objInfoReceived o with parent := par } y) (hn : Server.plain (bom (cut o.fileName)) = true) :
    s'.infoOf y = (.ok, toldOf s.sid p o (s.newDate (objInfoReceived o))) := by
  rw [nw.info]
  have : Server.fromPath (Server.toPath (objInfoReceived o).fileName) = (objInfoReceived o).fileName :=
    Server.fromPath_toPath hn
  simp only [this]
  rfl

/-- The folder meant by the command's second parameter. -/
abbrev folderOf (q : List UInt8) : Nat := if cParam q 1 = ALL then 0 else cParam q 1

/-- The data of a new object `h`, announced as `o` in folder `p`. -/
theorem sent_left (r r1 : Rsp Server) (w : ServerOk r.dev) (ho1 : Open r1) (hw1 : Willing r1.dev) {p h : Nat} {o : ObjInfo}
    (nw : New r.dev r1.dev p o h) (hf : o.format ≠ ASSOC) (data : List UInt8) (an : Spec.Announced r1 h data.length)
    (hsm : data.length ≤ 0xFFFFFFFF - 12) (q2 : List UInt8) (hq2 : Asking q2 0x100D) (ds : List (List UInt8)) (hc : Carries ds data) :
    ∃ r2, r2.dev.tree.asked = r1.dev.tree.asked ∧ Answered r1 r2 (sendObject q2 ds) q2 .ok [] ∧
      Willing r2.dev ∧ ServerOk r2.dev ∧ contents r2.dev h = some data ∧ r2.dev.sid = r.dev.sid ∧
      (∃ m, r2.dev.infoOf h = (.ok, { (r1.dev.infoOf h).2 with captureDate := r.dev.times.stamp m (r1.dev.infoOf h).2.modDate, modDate := r.dev.times.stamp m (r1.dev.infoOf h).2.modDate })) ∧
      (r2.sendSeq = none ∧ r2.propList = none ∧ r2.dev.dataFile = none) ∧
      (∃ it, r2.dev.tree.get h = some it ∧ it.fmt = o.format ∧ it.parent = some p) ∧
      ∀ x, x ≠ h → r2.dev.tree.has x = r.dev.tree.has x ∧ contents r2.dev x = contents r.dev x ∧
        r2.dev.infoOf x = r.dev.infoOf x := by
  have w1 := nw.ok w
  obtain ⟨pit, hp, _, _, ⟨v, hget⟩, _⟩ := nw.parent
  have hg := hget h
  rw [if_pos rfl] at hg
  obtain ⟨d1, d2, d3, d4⟩ := hc
  obtain ⟨r2, c, a2, ed, n1, n2, hc, hcok⟩ := Server.send_object r1 ho1 w1 (fun a b => (hw1 a b).2.2.2) q2 hq2 h _ _ hg
    hf an ds d1 d2
  have hok := hcok hw1 d4 (by rw [d3]; omega) (by rw [d3]; omega)
  subst hok
  obtain ⟨k, k1, k2, k3, k4⟩ := hc rfl
  rw [Server.take_all _ k (by rw [d3]; omega), d3] at k1
  refine ⟨r2, by rw [ed.tree], a2, fun a b => by rw [ed.ios]; exact hw1 a b, ed.ok, k1,
    ed.sid.trans nw.sid, (by rw [← nw.times]; exact k3), ⟨n1, n2, k4⟩, ⟨_, (by rw [ed.tree]; exact hg), rfl, rfl⟩, fun x hx => ?_⟩
  refine ⟨?_, (ed.other x hx).1.trans (nw.old w x hx).1, (ed.other x hx).2.trans (nw.old w x hx).2⟩
  rw [ed.tree]
  have hgx := hget x
  rw [if_neg hx] at hgx
  unfold Tree.has
  rw [hgx]
  by_cases e : x = p
  · rw [if_pos e, e, hp]; rfl
  · rw [if_neg e]

/-- What is told after the upload. -/

theorem sent (r r1 : Rsp Server) (w : ServerOk r.dev) (ho1 : Open r1) (hw1 : Willing r1.dev) {p h : Nat} {o : ObjInfo}
    (nw : New r.dev r1.dev p o h) (hf : o.format ≠ ASSOC) (data : List UInt8) (an : Spec.Announced r1 h data.length)
    (hsm : data.length ≤ 0xFFFFFFFF - 12) (q2 : List UInt8) (hq2 : Asking q2 0x100D) (ds : List (List UInt8)) (hc : Carries ds data) :
    ∃ r2, Answered r1 r2 (sendObject q2 ds) q2 .ok [] ∧
      Willing r2.dev ∧ ServerOk r2.dev ∧ contents r2.dev h = some data ∧ r2.dev.sid = r.dev.sid ∧
      (∃ m, r2.dev.infoOf h = (.ok, { (r1.dev.infoOf h).2 with captureDate := r.dev.times.stamp m (r1.dev.infoOf h).2.modDate, modDate := r.dev.times.stamp m (r1.dev.infoOf h).2.modDate })) ∧
      (r2.sendSeq = none ∧ r2.propList = none ∧ r2.dev.dataFile = none) ∧
      (∃ it, r2.dev.tree.get h = some it ∧ it.fmt = o.format ∧ it.parent = some p) ∧
      ∀ x, x ≠ h → r2.dev.tree.has x = r.dev.tree.has x ∧ contents r2.dev x = contents r.dev x ∧
        r2.dev.infoOf x = r.dev.infoOf x := by
  obtain ⟨r2, _, a⟩ := sent_left r r1 w ho1 hw1 nw hf data an hsm q2 hq2 ds hc
  exact ⟨r2, a⟩

theorem filed {s s' s2 : Server} {p y par : Nat} {o : ObjInfo} (nw : New s s' p { objInfoReceived o with parent := par } y)
    (hn : Server.plain (bom (cut o.fileName)) = true) (hf : o.format ≠ ASSOC)
    (h : ∃ m, s2.infoOf y = (.ok, { (s'.infoOf y).2 with captureDate := s.times.stamp m (s'.infoOf y).2.modDate, modDate := s.times.stamp m (s'.infoOf y).2.modDate })) :
    ∃ d, Stamped s.times (bom (cut o.modDate)) d ∧ s2.infoOf y = (.ok, toldOf s.sid p o d) := by
  obtain ⟨m, h⟩ := h
  rw [info_new nw hn] at h
  have hd : s.newDate (objInfoReceived o) = s.times.stamp s.calls (bom (cut o.modDate)) := by
    unfold Server.newDate
    rw [if_neg (show (objInfoReceived o).format ≠ ASSOC from hf)]
    rfl
  rw [hd] at h
  exact ⟨_, .again m _ (.created s.calls), h⟩

/-- The uploading of a new object. -/
theorem uploaded (r : Rsp Server) (ho : Open r) (w : ServerOk r.dev) (hw : Willing r.dev) (o : ObjInfo)
    (data q1 : List UInt8) (bs : List (List UInt8)) (q2 : List UInt8) (ds : List (List UInt8))
    (hu : Uploading r.dev o data q1 bs q2 ds) :
    ∃ r1 h r2, Answered r r1 (sendObject q1 bs) q1 .ok [r.dev.sid, folderOf q1, h] ∧
      r.dev.tree.has h = false ∧ Answered r1 r2 (sendObject q2 ds) q2 .ok [] ∧
      Willing r2.dev ∧ ServerOk r2.dev ∧ contents r2.dev h = some data ∧ r2.dev.sid = r.dev.sid ∧
      (∃ d, Stamped r.dev.times (bom (cut o.modDate)) d ∧ r2.dev.infoOf h = (.ok, toldOf r.dev.sid (folderOf q1) o d)) ∧
      (r2.sendSeq = none ∧ r2.propList = none ∧ r2.dev.dataFile = none) ∧
      (∃ it, r2.dev.tree.get h = some it ∧ it.fmt = o.format ∧ it.parent = some (folderOf q1)) ∧
      ∀ x, x ≠ h → r2.dev.tree.has x = r.dev.tree.has x ∧ contents r2.dev x = contents r.dev x ∧
        r2.dev.infoOf x = r.dev.infoOf x := by
  have hsz := hu.size
  have hsm := hu.small
  have hmod : o.size % 2 ^ 32 = data.length := by omega
  obtain ⟨r1, h, a1, an, hios, nw⟩ := Server.offer_taken r ho w q1 hu.announce o hu.fits bs hu.dataset (by omega) hu.offer
  rw [hmod] at an
  obtain ⟨r2, a2, b1, b2, b3, b4, b5, b6⟩ := sent r r1 w a1.again (fun a b => by rw [hios]; exact hw a b) nw hu.file data an hsm
    q2 hu.send ds hu.packets
  exact ⟨r1, h, r2, a1, has_false.mpr nw.fresh, a2, b1, b2, b3, b4, filed nw hu.offer.name hu.file b5, b6⟩

/-- C82. What is uploaded is what is downloaded. A host announces a new object (SendObjectInfo) and sends its data (SendObject),
both cut into packets as it likes, on a storage where the object can be created and the operating system does not fail: both are
answered OK, the handle is a new one, and GetObject, any time later as long as the host only reads, moves, renames and so on, is
answered OK with exactly the bytes sent. -/
theorem C82_upload_download (r : Rsp Server) (ho : Open r) (w : ServerOk r.dev) (hw : Willing r.dev) (o : ObjInfo)
    (data q1 : List UInt8) (bs : List (List UInt8)) (q2 : List UInt8) (ds : List (List UInt8))
    (hu : Uploading r.dev o data q1 bs q2 ds) :
    ∃ r1 h r2, Answered r r1 (sendObject q1 bs) q1 .ok [r.dev.sid, folderOf q1, h] ∧
      r.dev.tree.has h = false ∧ Answered r1 r2 (sendObject q2 ds) q2 .ok [] ∧
      ∀ (is : List (Rsp.In Server)) (r3 : Rsp Server), (∀ i ∈ is, Harmless i) → r2.run Server.dev is = .ok r3 → Open r3 →
      ∀ q3, Asking q3 0x1009 → cParam q3 0 = h →
        ∃ r4, Answered r3 r4 (ask q3) q3 .ok [] ∧ dataOf r4.out = dataOf r3.out ++ data := by
  obtain ⟨r1, h, r2, a1, hnew, a2, hw2, w2, hc2, _, ⟨_, _, hi2⟩, _⟩ := uploaded r ho w hw o data q1 bs q2 ds hu
  refine ⟨r1, h, r2, a1, hnew, a2, ?_⟩
  intro is r3 hin hr3 ho3 q3 hq3 hp3
  obtain ⟨u1, u2, u3, u4, u5⟩ := harmless_undisturbed a2.again hin hr3
  obtain ⟨w3, u6⟩ := u5 w2
  obtain ⟨v1, v2, v3⟩ := u6 h
  have hsize : r2.dev.sizeOf h = data.length := by
    have h1 := hu.size
    have h2 := hu.small
    rw [Server.size_info hi2]
    show o.size % 2 ^ 32 = _
    omega
  obtain ⟨r4, b1, b2, _⟩ := Server.get_object r3 ho3 (fun a b => by rw [u3]; exact hw2 a b) q3 hq3 h hp3 data
    (v2.trans hc2) (v3.trans hsize) hu.small
  exact ⟨r4, b1, b2⟩

/-- C82. Uploading a new object leaves every other object, what it holds and what is known about it, as it was. -/
theorem C82_others_kept (r : Rsp Server) (ho : Open r) (w : ServerOk r.dev) (hw : Willing r.dev) (o : ObjInfo)
    (data q1 : List UInt8) (bs : List (List UInt8)) (q2 : List UInt8) (ds : List (List UInt8))
    (hu : Uploading r.dev o data q1 bs q2 ds) :
    ∃ r1 h r2, Answered r r1 (sendObject q1 bs) q1 .ok [r.dev.sid, folderOf q1, h] ∧
      Answered r1 r2 (sendObject q2 ds) q2 .ok [] ∧
      ∀ x, x ≠ h → r2.dev.tree.has x = r.dev.tree.has x ∧ contents r2.dev x = contents r.dev x ∧
        r2.dev.infoOf x = r.dev.infoOf x := by
  obtain ⟨r1, h, r2, a1, _, a2, _, _, _, _, _, _, _, ho⟩ := uploaded r ho w hw o data q1 bs q2 ds hu
  exact ⟨r1, h, r2, a1, a2, ho⟩

/-! ### C83 -/

theorem told_fits {o : ObjInfo} (hf : ObjInfoFits o) {sid p : Nat} (h1 : sid < 2 ^ 32) (h2 : p < 2 ^ 32)
    {d : QStr} : ObjInfoFits (toldOf sid p o d) := by
  obtain ⟨f1, f2, f3, f4, f5, f6, f7, f8, f9, f10, f11, f12, f13, f14, f15⟩ := hf
  exact ⟨h1, f2, f3, Nat.lt_of_le_of_lt (Nat.mod_le _ _) f4, f5, f6, f7, f8, f9, f10, f11, h2, f13, f14, f15⟩

theorem received_short (s : QStr) : (bom (cut s)).length ≤ 2 ^ 20 := by
  have := Server.cut_len s
  refine Nat.le_trans (m := 254) ?_ (by decide)
  generalize cut s = c at *
  cases c with
  | nil => simp [bom]
  | cons a c =>
    simp only [bom]
    rw [List.length_cons] at this
    repeat' split
    all_goals first | omega | (simp only [List.length_map, List.length_cons] ; omega)

theorem param_lt (q : List UInt8) (i : Nat) : cParam q i < 2 ^ 32 := by
  have key : ∀ v ∈ cParams q, v < 2 ^ 32 := by
    intro v hv
    unfold cParams at hv
    obtain ⟨j, _, rfl⟩ := List.mem_map.mp hv
    split
    · exact Server.rd_lt 4 _ q
    · decide
  unfold cParam
  rw [List.getD_eq_getElem?_getD]
  cases e : (cParams q)[i]? with
  | none => decide
  | some v => exact key v (List.mem_of_getElem? e)

theorem sid_lt {s : Server} {a b : Nat} {o : ObjInfo} (h : Offer s a b o) (ha : a < 2 ^ 32) : s.sid < 2 ^ 32 := by
  rw [← h.storage]
  split <;> omega

/-- C83. What is announced is what is told: GetObjectInfo about an uploaded object is answered OK with the dataset the host
announced, except that it says which storage and folder the object is in, and that both dates are the date of the file. Missing: the
date of creation (`C83_capture_date_violated`); for the date of modification see `C83_date_told`. -/
theorem C83_info_told_partial (r : Rsp Server) (ho : Open r) (w : ServerOk r.dev) (hw : Willing r.dev) (o : ObjInfo)
    (data q1 : List UInt8) (bs : List (List UInt8)) (q2 : List UInt8) (ds : List (List UInt8))
    (hu : Uploading r.dev o data q1 bs q2 ds) :
    ∃ r1 h r2, Answered r r1 (sendObject q1 bs) q1 .ok [r.dev.sid, folderOf q1, h] ∧
      Answered r1 r2 (sendObject q2 ds) q2 .ok [] ∧
      ∃ d, Stamped r.dev.times (bom (cut o.modDate)) d ∧ ∀ q3, Asking q3 0x1008 → cParam q3 0 = h →
        ∃ r3 p, Answered r2 r3 (ask q3) q3 .ok [] ∧ dataOf r3.out = dataOf r2.out ++ p ∧
          readObjInfo 0 (dataContainer 0x1008 0 p) = some (toldOf r.dev.sid (folderOf q1) o d) := by
  obtain ⟨r1, h, r2, a1, _, a2, _, _, _, _, ⟨d, hd, hi2⟩, _⟩ := uploaded r ho w hw o data q1 bs q2 ds hu
  refine ⟨r1, h, r2, a1, a2, d, hd, ?_⟩
  obtain ⟨dc, dl⟩ := Server.stamped_cut hd
  intro q3 hq3 hp3
  have hp : folderOf q1 < 2 ^ 32 := by
    unfold folderOf
    split
    · decide
    · exact param_lt ..
  obtain ⟨r3, p, b1, b2, _, b4⟩ := Server.get_info r2 a2.again q3 hq3 _ (by rw [hp3]; exact hi2)
    (told_fits hu.fits (sid_lt hu.offer (param_lt ..)) hp)
    (show o.size % 2 ^ 32 < 2 ^ 32 from Nat.mod_lt _ (by decide))
    ⟨received_short _, dl, dl⟩
  refine ⟨r3, p, b1, b2, ?_⟩
  rw [b4]
  congr 1
  unfold toldOf objInfoReceived
  simp only [Server.cut_received, dc]

/-- C83. The date of modification told about an uploaded object is the one announced, if the system sets it and it is a date that can
be written and read back: the text told is that of the same instant. -/
theorem C83_date_told (t : Times) (d0 d : QStr) (hd : Stamped t d0 d) (hu : ∀ n, t.utimes n = true)
    (hr : Readable t.zone (parseDate t.zone (Server.toPath d0))) :
    Server.toPath d = formatDate t.zone (parseDate t.zone (Server.toPath d0)) ∧
      parseDate t.zone (Server.toPath d) = parseDate t.zone (Server.toPath d0) := by
  obtain ⟨a, b⟩ := Server.text_back (z := t) hr.offset hr.minutes hr.found hr.from1900 hr.to9999 hr.some_
  induction hd with
  | created n =>
    rw [Server.stamp_set (hu n) hr.some_]
    exact ⟨a, b⟩
  | again n e _ ih =>
    rw [Server.stamp_set (hu n) (by rw [ih.2]; exact hr.some_), ih.2]
    exact ⟨a, b⟩

/-! ### C84 -/

/-- C84. An uploaded object is listed: GetObjectHandles for its storage, for all objects or for those in its folder, is answered OK
with the handles of exactly the objects there are, in increasing order, among them the new one. (For up to 2^26 handles given
out, so that the list fits into a container.) -/
theorem C84_listed (r : Rsp Server) (ho : Open r) (w : ServerOk r.dev) (hw : Willing r.dev) (o : ObjInfo)
    (data q1 : List UInt8) (bs : List (List UInt8)) (q2 : List UInt8) (ds : List (List UInt8))
    (hu : Uploading r.dev o data q1 bs q2 ds) :
    ∃ r1 h r2, Answered r r1 (sendObject q1 bs) q1 .ok [r.dev.sid, folderOf q1, h] ∧
      Answered r1 r2 (sendObject q2 ds) q2 .ok [] ∧
      ∀ q3, Asking q3 0x1007 → cParam q3 0 = r.dev.sid → r.dev.sid ≠ ALL → cParam q3 1 = 0 → r2.dev.tree.asked < 2 ^ 26 →
        (cParam q3 2 = 0 ∨ cParam q3 2 = if folderOf q1 = 0 then ALL else folderOf q1) →
        ∃ r3 p l, Answered r2 r3 (ask q3) q3 .ok [] ∧ dataOf r3.out = dataOf r2.out ++ p ∧
          readHandles 0x1007 0 (dataContainer 0x1007 0 p) = some l ∧ l.Pairwise (· < ·) ∧ h ∈ l ∧
          ∀ x, x ∈ l ↔ Asked r2.dev.tree 0 (cParam q3 2) x := by
  obtain ⟨r1, h, r2, a1, hnew, a2, _, w2, _, hsid, _, _, ⟨it, hg, _, hpar⟩, _⟩ := uploaded r ho w hw o data q1 bs q2 ds hu
  refine ⟨r1, h, r2, a1, a2, ?_⟩
  intro q3 hq3 hs3 hall hf3 hb3 ha3
  have h0 : h ≠ 0 := by
    rintro rfl
    obtain ⟨ri, hr, _⟩ := w.wf.root
    rw [has_iff.mpr ⟨ri, hr⟩] at hnew
    cases hnew
  obtain ⟨pp, pit, e1, _, e2, _⟩ := w2.wf.parent h it hg h0
  rw [hpar] at e1
  cases e1
  obtain ⟨r3, p, l, b1, b2, _, b4, b5, b6⟩ := Server.get_handles r2 a2.again w2 q3 hq3 (hs3.trans hsid.symm)
    (by rw [hsid]; exact hall) hb3 hf3 (by
      rcases ha3 with ha3 | ha3
      · exact Or.inl ha3
      · split at ha3
        · exact Or.inr (Or.inl ha3)
        · rw [ha3]
          exact Or.inr (Or.inr ⟨pit, e2, w2.folders h it _ pit hg hpar e2⟩))
  refine ⟨r3, p, l, b1, b2, b4, b5, (b6 h).mpr ⟨it, hg, h0, Or.inl rfl, ?_⟩, b6⟩
  rcases ha3 with ha3 | ha3
  · exact Or.inl ha3
  · split at ha3
    · next e => rw [e] at hpar; exact Or.inr (Or.inl ⟨ha3, hpar⟩)
    · next e =>
      have hne : folderOf q1 ≠ ALL := by
        unfold folderOf
        split
        · decide
        · assumption
      rw [ha3]
      exact Or.inr (Or.inr ⟨e, hne, hpar⟩)

/-! ### C85 -/

/-- C85. DeleteObject of an object other than the root, the file system removing what it is asked to remove: answered OK; the object
and everything in it is gone, from the tree and from the disk, every other object, what it holds and what is known about it, is as
it was. -/
theorem C85_deleted (r : Rsp Server) (ho : Open r) (w : ServerOk r.dev) (q : List UInt8) (hq : Asking q 0x100B) (h : Nat)
    (hh : cParam q 0 = h) (hall : h ≠ ALL) (h0 : h ≠ 0) (hx : r.dev.tree.has h = true) (hfs : ∀ i, r.dev.tree.fs i = true) :
    ∃ r', Answered r r' (ask q) q .ok [] ∧ ServerOk r'.dev ∧
      (∀ x, r'.dev.tree.has x = true ↔ r.dev.tree.has x = true ∧ ¬ Below r.dev.tree h x) ∧
      (∀ x, r.dev.tree.has x = true → ¬ Below r.dev.tree h x →
        contents r'.dev x = contents r.dev x ∧ r'.dev.infoOf x = r.dev.infoOf x) ∧
      ∀ x it, r.dev.tree.get x = some it → Below r.dev.tree h x → AMap.get r'.dev.files (String.ofList it.path) = none := by
  obtain ⟨c1, c2⟩ := C19_exactly_subtree w.wf h (cParam q 1 % 65536) hall h0 hx (fun i _ _ => hfs i)
  have hd : r.dev.delete h (cParam q 1 % 65536) = (r.dev.dropGone (r.dev.tree.deleteItem h (cParam q 1 % 65536)).1, .ok) := by
    unfold Server.delete
    rw [if_neg (by rintro ⟨_, e⟩; rw [hx] at e; cases e), c1]
  have hqu : Server.query r.dev 0x100B (cParams q) =
      ((r.dev.delete h (cParam q 1 % 65536)).1, ⟨[], some ((r.dev.delete h (cParam q 1 % 65536)).2, [])⟩) := by
    rw [← hh]; rfl
  rw [hd] at hqu
  obtain ⟨t1, t2⟩ := deleteItem_spec w.wf h (cParam q 1 % 65536)
  obtain ⟨k1, k2⟩ := Server.dropGone_ok w t1 t2
  obtain ⟨r', a1, a2, _⟩ := Server.query_answer r ho q 0x100B hq _ rfl rfl .ok [] (by rw [hqu])
  rw [hqu] at a2
  simp only at a2
  refine ⟨r', a1, by rw [a2]; exact k1, ?_, ?_, ?_⟩
  · rw [a2]; exact c2
  · intro x hx1 hx2
    rw [a2]
    exact k2 x ((c2 x).mpr ⟨hx1, hx2⟩)
  · intro x it e hb
    rw [a2]
    cases ef : AMap.get (r.dev.dropGone (r.dev.tree.deleteItem h (cParam q 1 % 65536)).1).files (String.ofList it.path) with
    | none => rfl
    | some c =>
      obtain ⟨y, iy, g1, g2, g3⟩ := (k1.files _).mp (by rw [ef]; rfl)
      have g1' : (r.dev.tree.deleteItem h (cParam q 1 % 65536)).1.get y = some iy := g1
      have hy := (c2 y).mp (has_iff.mpr ⟨iy, g1'⟩)
      rcases t2.item y with g | ⟨iz, g4, g5⟩
      · rw [g] at g1'; cases g1'
      · rw [g5] at g1'
        cases g1'
        have hpath : iz.path = it.path := Server.ofList_inj g3
        have e1 := w.wf.pathOf y iz g4
        have e2 := w.wf.pathOf x it e
        rw [hpath, e2] at e1
        cases e1
        exact absurd hb hy.2

/-- C85. A deleted object is unknown: GetObject and GetObjectInfo are answered InvalidObjectHandle, without data. -/
theorem C85_unknown (r : Rsp Server) (ho : Open r) (q : List UInt8) (hh : r.dev.tree.has (cParam q 0) = false) :
    (Asking q 0x1009 → ∃ r', Answered r r' (ask q) q .invalidObjectHandle [] ∧ dataOf r'.out = dataOf r.out) ∧
    (Asking q 0x1008 → ∃ r', Answered r r' (ask q) q .invalidObjectHandle [] ∧ dataOf r'.out = dataOf r.out) := by
  refine ⟨fun hq => ?_, fun hq => ?_⟩
  · obtain ⟨r', a, b, _⟩ := Server.get_object_gone r ho q hq hh
    exact ⟨r', a, b⟩
  · obtain ⟨r', a, b, _⟩ := Server.get_info_gone r ho q hq hh
    exact ⟨r', a, b⟩

/-! ### Witnesses -/

/-- An empty storage at "/s". -/
def demoEmpty : Server :=
  { sid := 0x00010001, fmts := [0x3000, 0x3001], caps := demoCaps, tree := (Tree.empty ['/', 's'] [] .denyAll [] (fun _ => true) 0 0).enumerate (.node none ASSOC [])
    infos := [(0, { sampleInfo with size := 0, format := ASSOC })], files := [], dataFile := none, writing := 0, ios := fun _ _ => {}
    times := ⟨fixedZone 0, fun _ => 1700000000, fun _ => true⟩
    alloc := fun _ => true, room := fun _ => 2 ^ 40, calls := 0 }

private theorem demoEmpty_items : demoEmpty.tree.items = [(0, ⟨['/', 's'], ['s'], ASSOC, 0, none, [], 1⟩)] := by decide +kernel

theorem demoEmpty_ok : ServerOk demoEmpty := by
  have hw := enumerate_ok ['/', 's'] [] .denyAll [] (fun _ => true) 0 0 none ASSOC [] (by simp [DisksOk]) (by decide)
    (by decide +kernel)
  have hg : ∀ x, demoEmpty.tree.get x = if x = 0 then some ⟨['/', 's'], ['s'], ASSOC, 0, none, [], 1⟩ else none := by
    intro x
    unfold Tree.get
    rw [demoEmpty_items]
    by_cases h : x = 0
    · subst h; rfl
    · rw [if_neg h]
      simp [AMap.get]; exact h
  refine ⟨hw.1, hw.2, ?_, ?_, ?_, ?_, ?_⟩
  · intro r e
    rw [hg] at e
    cases e
    rfl
  · intro h it p pit e1 e2 e3
    rw [hg] at e1
    split at e1
    · cases e1; cases e2
    · cases e1
  · intro p
    constructor
    · intro h; cases h
    · rintro ⟨h, it, e1, e2, _⟩
      rw [hg] at e1
      split at e1
      · cases e1; exact absurd rfl e2
      · cases e1
  · intro h
    unfold Tree.has
    rw [hg]
    by_cases e : h = 0
    · subst e; rfl
    · rw [if_neg e]
      show (AMap.get [(0, _)] h).isSome = false
      simp [AMap.get]; exact e
  · intro p n h
    cases h

/-- A responder with this storage, in a session. -/
def demoRsp : Rsp Server := { ready := true, session := 1, dev := demoEmpty }

/-- A file "ab" of three bytes. -/
def demoFile : ObjInfo := { sampleInfo with size := 3, format := 0x3000, fileName := [97, 98] }

def demoAnn : List UInt8 := Toy.cmd 0x100C 5 [0x00010001, 0xFFFFFFFF]
def demoAnnData : List (List UInt8) := [dataContainer 0x100C 5 (encs (objInfoVals demoFile))]
def demoPut : List UInt8 := Toy.cmd 0x100D 6 []
def demoPutData : List (List UInt8) := [Toy.dat 0x100D 6 [7], [8, 9]]

/-- The hypotheses of C82–C84 are met. -/
theorem C82_witness : Open demoRsp ∧ ServerOk demoRsp.dev ∧ Willing demoRsp.dev ∧
    Uploading demoRsp.dev demoFile [7, 8, 9] demoAnn demoAnnData demoPut demoPutData := by
  refine ⟨⟨rfl, rfl, rfl, by decide⟩, demoEmpty_ok, fun n i => ⟨rfl, by simp [demoRsp, demoEmpty], by simp [demoRsp, demoEmpty], rfl⟩, ?_⟩
  refine ⟨by unfold ObjInfoFits demoFile sampleInfo; decide, by decide, rfl, by decide, ⟨by decide +kernel, by decide +kernel⟩, ?_, ?_,
    ⟨by decide +kernel, by decide +kernel⟩, ?_⟩
  · refine ⟨by decide +kernel, by decide +kernel, ⟨⟨['/', 's'], ['s'], ASSOC, 0, none, [], 1⟩, by decide +kernel, rfl, by decide +kernel,
      by decide +kernel⟩, rfl, by decide +kernel⟩
  · exact ⟨⟨_, rfl, by decide +kernel⟩, by decide +kernel⟩
  · exact ⟨by decide, by decide +kernel, by decide +kernel, by decide +kernel⟩

/-- The same file with dates. -/
def demoDated : ObjInfo :=
  { demoFile with captureDate := Server.fromPath "20010101T000000".toList, modDate := Server.fromPath "20240101T120000".toList }

/-- C83 is violated for the date of creation: the file system has none, and the one announced is forgotten; told is the date of
modification. -/
theorem C83_capture_date_violated : (match demoRsp.run Server.dev (sendObject demoAnn [dataContainer 0x100C 5 (encs (objInfoVals demoDated))] ++
      sendObject demoPut demoPutData ++ ask (Toy.cmd 0x1008 7 [1])) with
    | .ok r => (readObjInfo 0 (dataContainer 0x1008 0 (dataOf r.out))).map fun o =>
        (String.ofList (Server.toPath o.captureDate), String.ofList (Server.toPath o.modDate))
    | .ub _ => none) = some ("20240101T120000+0000", "20240101T120000+0000") := by
  decide +kernel

/-- The hypotheses of `C83_date_told` are met. -/
theorem C83_date_witness : (∀ n, demoEmpty.times.utimes n = true) ∧
    Readable demoEmpty.times.zone (parseDate demoEmpty.times.zone (Server.toPath demoDated.modDate)) ∧
    Stamped demoEmpty.times demoDated.modDate (Server.fromPath "20240101T120000+0000".toList) :=
  ⟨fun _ => rfl, ⟨by decide, by decide, by decide +kernel, by decide +kernel, by decide +kernel, by decide +kernel⟩, (by
    have h : demoEmpty.times.stamp 0 demoDated.modDate = Server.fromPath "20240101T120000+0000".toList := by decide +kernel
    rw [← h]
    exact .created 0)⟩

/-- The history of the upload, a rename, a download and a deletion, as the host sees it. -/
example : (match demoRsp.run Server.dev (sendObject demoAnn demoAnnData ++ sendObject demoPut demoPutData ++
      sendObject (Toy.cmd 0x9804 7 [1, 0xDC07]) [Toy.dat 0x9804 7 (enc (.str [99]))] ++
      ask (Toy.cmd 0x1009 8 [1]) ++ ask (Toy.cmd 0x100B 9 [1]) ++ ask (Toy.cmd 0x1009 10 [1])) with
    | .ok r => (dataOf r.out, responses r.out, r.dev.files)
    | .ub _ => ([], [], [])) =
    ([7, 8, 9], [.response .ok 5 [0x00010001, 0, 1], .response .ok 6 [], .response .ok 7 [], .response .ok 8 [], .response .ok 9 [],
      .response .invalidObjectHandle 10 []], []) := by
  decide +kernel

/-- C82 is violated for an object that exists already. Announcing a larger file under its name is answered OK with its handle, and so
is the upload, but what the device knows about the object stays: a GetObject handled before the storage hears from the file system
that the file changed (fsstorageplugin.cpp:3046-3080) is answered OK with the beginning of the file only. -/
theorem C82_overwrite_violated : (match demoRsp.run Server.dev (sendObject demoAnn demoAnnData ++ sendObject demoPut demoPutData ++
      sendObject (Toy.cmd 0x100C 7 [0x00010001, 0xFFFFFFFF]) [dataContainer 0x100C 7 (encs (objInfoVals { demoFile with size := 5 }))] ++
      sendObject (Toy.cmd 0x100D 8 []) [Toy.dat 0x100D 8 [1, 2, 3, 4, 5]] ++ ask (Toy.cmd 0x1009 9 [1])) with
    | .ok r => (dataOf r.out, responses r.out, r.dev.files)
    | .ub _ => ([], [], [])) =
    ([1, 2, 3], [.response .ok 5 [0x00010001, 0, 1], .response .ok 6 [], .response .ok 7 [0x00010001, 0, 1], .response .ok 8 [],
      .response .ok 9 []], [("/s/ab", [1, 2, 3, 4, 5])]) := by
  decide +kernel

end Props
