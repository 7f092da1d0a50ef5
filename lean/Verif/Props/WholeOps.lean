import Verif.Props.Whole
import Verif.Props.Folders
import Verif.Props.ServerCopy
/-! Property theorems C118: the operations on objects, on the whole device. -/
namespace Props
open Mtp Spec

/-- C118. A request without data (none of `ownOps`) that the storage alone answers, the whole device answers in the same way, and does
the same to its objects. -/
theorem C118_answers (r : Rsp Device) (ho : Open r) (q : List UInt8) (hq : cCode q ∉ ownOps) {s : Rsp Server} {c : Resp} {ps : List Nat}
    (a : Answered (stored r) s (ask q) q c ps) :
    ∃ r', AnsweredBy Device.dev r r' (ask q) q c ps ∧ stored r' = s := by
  obtain ⟨r', e, v, _⟩ := Rsp.sim_lift Device.sim (ask q) (Device.good ho.none) (Rsp.fitting_ask ho hq) a.run
  subst v
  exact ⟨r', ⟨e, a.out, open_via.mp a.again⟩, rfl⟩

/-- C118. The same for announcing an object. -/
theorem C118_announces (r : Rsp Device) (ho : Open r) (q : List UInt8) (hq : Asking q 0x100C) (bs : List (List UInt8)) {s : Rsp Server}
    {c : Resp} {ps : List Nat} (a : Answered (stored r) s (sendObject q bs) q c ps) :
    ∃ r', AnsweredBy Device.dev r r' (sendObject q bs) q c ps ∧ stored r' = s := by
  obtain ⟨r', e, v, _⟩ := Rsp.sim_lift Device.sim (sendObject q bs) (Device.good ho.none)
    (Rsp.fitting_announce ho hq (by rw [hq.code]; decide)) (by rw [via_transfer]; exact a.run)
  subst v
  exact ⟨r', ⟨e, a.out, open_via.mp a.again⟩, rfl⟩

/-- C118. DeleteObject on the whole device: the object and everything in it is gone, from the tree and from the disk; all else is as it was. -/
theorem C118_deleted (r : Rsp Device) (ho : Open r) (w : ServerOk r.dev.ps.srv) (q : List UInt8) (hq : Asking q 0x100B) (h : Nat)
    (hh : cParam q 0 = h) (hall : h ≠ ALL) (h0 : h ≠ 0) (hx : r.dev.ps.srv.tree.has h = true) (hfs : ∀ i, r.dev.ps.srv.tree.fs i = true) :
    ∃ r', AnsweredBy Device.dev r r' (ask q) q .ok [] ∧ ServerOk r'.dev.ps.srv ∧
      (∀ x, r'.dev.ps.srv.tree.has x = true ↔ r.dev.ps.srv.tree.has x = true ∧ ¬ Below r.dev.ps.srv.tree h x) ∧
      (∀ x, r.dev.ps.srv.tree.has x = true → ¬ Below r.dev.ps.srv.tree h x →
        contents r'.dev.ps.srv x = contents r.dev.ps.srv x ∧ r'.dev.ps.srv.infoOf x = r.dev.ps.srv.infoOf x) ∧
      ∀ x it, r.dev.ps.srv.tree.get x = some it → Below r.dev.ps.srv.tree h x →
        AMap.get r'.dev.ps.srv.files (String.ofList it.path) = none := by
  obtain ⟨s, a, b⟩ := C85_deleted (stored r) (open_via.mpr ho) w q hq h hh hall h0 hx hfs
  obtain ⟨r', c, rfl⟩ := C118_answers r ho q (by rw [hq.code]; decide) a
  exact ⟨r', c, b⟩

/-- C118. MoveObject on the whole device: answered OK exactly if it is possible; then the object is in the folder, with its name, and
nothing else is different; otherwise nothing is. -/
theorem C118_moved (r : Rsp Device) (ho : Open r) (w : ServerOk r.dev.ps.srv) (q : List UInt8) (hq : Asking q 0x1019) :
    ∃ r' c, AnsweredBy Device.dev r r' (ask q) q c [] ∧ dataOf r'.out = dataOf r.out ∧
      (c = .ok ↔ cParam q 1 = r.dev.ps.srv.sid ∧ Movable r.dev.ps.srv (cParam q 0) (cParam q 2)) ∧
      (c = .ok → Placed r.dev.ps.srv r'.dev.ps.srv (cParam q 0) (cParam q 2) (r.dev.ps.srv.infoOf (cParam q 0)).2.fileName) ∧
      (c ≠ .ok → Unchanged r.dev.ps.srv r'.dev.ps.srv) := by
  obtain ⟨s, c, a, b⟩ := C91_move (stored r) (open_via.mpr ho) w q hq
  obtain ⟨r', e, rfl⟩ := C118_answers r ho q (by rw [hq.code]; decide) a
  exact ⟨r', c, e, b⟩

/-- C118. CopyObject on the whole device: a copy of the object and of everything in it is made, and every file copied can be downloaded,
byte for byte the original. -/
theorem C118_copied (r : Rsp Device) (ho : Open r) (w : ServerOk r.dev.ps.srv) (q : List UInt8) (hq : Asking q 0x101A)
    (hs : cParam q 1 = r.dev.ps.srv.sid) (hc : CopyableTo r.dev.ps.srv (cParam q 0) (cParam q 2)) :
    ∃ (r' : Rsp Device) (y : Nat) (m : List (Nat × Nat)), AnsweredBy Device.dev r r' (ask q) q .ok [y] ∧ (cParam q 0, y) ∈ m ∧
      Copied r.dev.ps.srv r'.dev.ps.srv (cParam q 0) (cParam q 2) m ∧
      ∀ x y c, (x, y) ∈ m → Holds r.dev.ps.srv x c → c.length ≤ 0xFFFFFFFF - 12 →
        ∀ q2, Asking q2 0x1009 → cParam q2 0 = y →
          ∃ r2, AnsweredBy Device.dev r' r2 (ask q2) q2 .ok [] ∧ dataOf r2.out = dataOf r'.out ++ c := by
  obtain ⟨s, y, m, a, _, hm, cp⟩ := C101_copied (stored r) (open_via.mpr ho) w q hq hs hc
  obtain ⟨r', e, rfl⟩ := C118_answers r ho q (by rw [hq.code]; decide) a
  refine ⟨r', y, m, e, hm, cp, fun x z c hx hh hl q2 hq2 hz => ?_⟩
  obtain ⟨o, o1, o2⟩ := hh.told
  obtain ⟨_, _, p, d, _, _, _, _, t⟩ := cp.told x z hx
  have hw : Willing (stored r').dev := by unfold Willing; rw [cp.ios]; exact hc.willing
  obtain ⟨s2, b1, b2, _⟩ := Server.get_object (stored r') a.again hw q2 hq2 z hz c ((cp.contents x z hx).trans hh.contents)
    (by rw [Server.size_info t]; simp only; rw [show (stored r).dev.infoOf x = _ from o1]; exact o2) hl
  obtain ⟨r2, e2, rfl⟩ := C118_answers r' e.again q2 (by rw [hq2.code]; decide) b1
  exact ⟨r2, e2, b2⟩

/-- C118. Downloading parts on the whole device (see C89_parts). -/
theorem C118_parts (r : Rsp Device) (ho : Open r) (hw : Willing r.dev.ps.srv) (q : List UInt8) (c : List UInt8)
    (hc : Holds r.dev.ps.srv (cParam q 0) c) (hm : c.length < 2 ^ 63) :
    (Asking q 0x101B → cParam q 1 ≤ c.length →
      ∃ r', AnsweredBy Device.dev r r' (ask q) q .ok [((c.drop (cParam q 1)).take (cParam q 2)).length] ∧
        dataOf r'.out = dataOf r.out ++ (c.drop (cParam q 1)).take (cParam q 2)) ∧
    (Asking q 0x95C1 → cParam q 2 * 2 ^ 32 + cParam q 1 ≤ c.length →
      ∃ r', AnsweredBy Device.dev r r' (ask q) q .ok [] ∧
        dataOf r'.out = dataOf r.out ++ (c.drop (cParam q 2 * 2 ^ 32 + cParam q 1)).take (cParam q 3)) := by
  obtain ⟨h1, h2⟩ := C89_parts (stored r) (open_via.mpr ho) hw q c hc hm
  refine ⟨fun hq hoff => ?_, fun hq hoff => ?_⟩
  · obtain ⟨s, a, b⟩ := h1 hq hoff
    obtain ⟨r', e, rfl⟩ := C118_answers r ho q (by rw [hq.code]; decide) a
    exact ⟨r', e, b⟩
  · obtain ⟨s, a, b⟩ := h2 hq hoff
    obtain ⟨r', e, rfl⟩ := C118_answers r ho q (by rw [hq.code]; decide) a
    exact ⟨r', e, b⟩

/-- C118. Listing a folder of the whole device, of any format (0: all), and counting: the handles told are those of the objects that meet the
request, in increasing order; GetNumObjects tells their number. -/
theorem C118_listed (r : Rsp Device) (ho : Open r) (w : ServerOk r.dev.ps.srv) (hs1 : r.dev.ps.srv.sid ≠ ALL) (q : List UInt8)
    (hs : cParam q 0 = r.dev.ps.srv.sid)
    (ha : cParam q 2 = 0 ∨ cParam q 2 = ALL ∨ ∃ it, r.dev.ps.srv.tree.get (cParam q 2) = some it ∧ it.fmt = ASSOC) :
    (Asking q 0x1007 → cParam q 1 = 0 → r.dev.ps.srv.tree.asked < 2 ^ 26 →
      ∃ (r' : Rsp Device) (p : List UInt8) (l : List Nat), AnsweredBy Device.dev r r' (ask q) q .ok [] ∧
        dataOf r'.out = dataOf r.out ++ p ∧ readHandles 0x1007 0 (dataContainer 0x1007 0 p) = some l ∧ l.Pairwise (· < ·) ∧
        ∀ x, x ∈ l ↔ Asked r.dev.ps.srv.tree 0 (cParam q 2) x) ∧
    (Asking q 0x1006 → (cParam q 1 = 0 ∨ cParam q 1 ∈ r.dev.ps.srv.fmts) → cParam q 1 < 65536 →
      (cParam q 2 = 0 ∨ cParam q 1 ≠ UNDEF) →
      ∃ (r' : Rsp Device) (l : List Nat), AnsweredBy Device.dev r r' (ask q) q .ok [l.length] ∧ dataOf r'.out = dataOf r.out ∧
        l.Pairwise (· < ·) ∧ ∀ x, x ∈ l ↔ Asked r.dev.ps.srv.tree (cParam q 1) (cParam q 2) x) := by
  refine ⟨fun hq hf hb => ?_, fun hq hfm hf16 hun => ?_⟩
  · obtain ⟨s, p, l, a, b, _, c⟩ := Server.get_handles (stored r) (open_via.mpr ho) w q hq hs hs1 hb hf ha
    obtain ⟨r', e, rfl⟩ := C118_answers r ho q (by rw [hq.code]; decide) a
    exact ⟨r', p, l, e, b, c⟩
  · obtain ⟨s, l, a, b, c⟩ := C90_count (stored r) (open_via.mpr ho) w q hq hs hs1 hfm hf16 hun ha
    obtain ⟨r', e, rfl⟩ := C118_answers r ho q (by rw [hq.code]; decide) a
    exact ⟨r', l, e, b, c⟩

/-- C118. Making a folder on the whole device: it is there, empty; nothing else is different; and it can be listed at once. -/
theorem C118_made (r : Rsp Device) (ho : Open r) (w : ServerOk r.dev.ps.srv) (o : ObjInfo) (q : List UInt8) (bs : List (List UInt8))
    (hm : MakingFolder r.dev.ps.srv o q bs) :
    ∃ r1 h, AnsweredBy Device.dev r r1 (sendObject q bs) q .ok [r.dev.ps.srv.sid, folderOf q, h] ∧
      r.dev.ps.srv.tree.has h = false ∧ ServerOk r1.dev.ps.srv ∧ contents r1.dev.ps.srv h = none ∧
      (∀ x, x ≠ h → r1.dev.ps.srv.tree.has x = r.dev.ps.srv.tree.has x ∧ contents r1.dev.ps.srv x = contents r.dev.ps.srv x ∧
        r1.dev.ps.srv.infoOf x = r.dev.ps.srv.infoOf x) ∧
      ∀ q3, Asking q3 0x1008 → cParam q3 0 = h →
        ∃ r3 p, AnsweredBy Device.dev r1 r3 (ask q3) q3 .ok [] ∧ dataOf r3.out = dataOf r1.out ++ p ∧
          readObjInfo 0 (dataContainer 0x1008 0 p) = some (toldOf r.dev.ps.srv.sid (folderOf q) o
            (r.dev.ps.srv.times.text (r.dev.ps.srv.times.clock r.dev.ps.srv.calls))) := by
  obtain ⟨s1, h, a, b1, b2, b3, b4, b5⟩ := C99_made_partial (stored r) (open_via.mpr ho) w o q bs hm
  obtain ⟨r1, e, rfl⟩ := C118_announces r ho q hm.announce bs a
  refine ⟨r1, h, e, b1, b2, b3, b4, fun q3 hq3 hp3 => ?_⟩
  obtain ⟨s3, p, c1, c2⟩ := b5 q3 hq3 hp3
  obtain ⟨r3, e3, rfl⟩ := C118_answers r1 e.again q3 (by rw [hq3.code]; decide) c1
  exact ⟨r3, p, e3, c2⟩

/-- C118. BeginEditObject, EndEditObject and TruncateObject64 on the whole device (see C92_begin_end, C92_truncate). -/
theorem C118_edited (r : Rsp Device) (ho : Open r) (w : ServerOk r.dev.ps.srv) (q : List UInt8) :
    (Asking q 0x95C4 → r.dev.ps.srv.tree.has (cParam q 0) = true →
      ∃ r', AnsweredBy Device.dev r r' (ask q) q .ok [] ∧ editing r' = some (cParam q 0) ∧ r'.dev.ps.srv = r.dev.ps.srv) ∧
    (Asking q 0x95C5 → editing r = some (cParam q 0) →
      ∃ r', AnsweredBy Device.dev r r' (ask q) q .ok [] ∧ editing r' = none ∧ r'.dev.ps.srv = r.dev.ps.srv) ∧
    (Asking q 0x95C3 → editing r = some (cParam q 0) → ∀ c, contents r.dev.ps.srv (cParam q 0) = some c →
      ∃ r' a, AnsweredBy Device.dev r r' (ask q) q a [] ∧ editing r' = editing r ∧
        (Willing r.dev.ps.srv → a = .ok ∧ Willing r'.dev.ps.srv) ∧
        (a = .ok → ∃ c', Resized c (cParam q 2 * 2 ^ 32 + cParam q 1) c' ∧ EditedTo r.dev.ps.srv r'.dev.ps.srv (cParam q 0) c') ∧
        (a ≠ .ok → Unchanged r.dev.ps.srv r'.dev.ps.srv)) := by
  have hed : ∀ t : Rsp Device, editing (stored t) = editing t := fun _ => rfl
  obtain ⟨h1, h2⟩ := C92_begin_end (stored r) (open_via.mpr ho) q
  refine ⟨fun hq hx => ?_, fun hq he => ?_, fun hq he c hc => ?_⟩
  · obtain ⟨s, a, b, d⟩ := h1 hq hx
    obtain ⟨r', e, rfl⟩ := C118_answers r ho q (by rw [hq.code]; decide) a
    exact ⟨r', e, b, d⟩
  · obtain ⟨s, a, b, d⟩ := h2 hq he
    obtain ⟨r', e, rfl⟩ := C118_answers r ho q (by rw [hq.code]; decide) a
    exact ⟨r', e, b, d⟩
  · obtain ⟨s, x, a, b, d⟩ := C92_truncate (stored r) (open_via.mpr ho) w q hq he c hc
    obtain ⟨r', e, rfl⟩ := C118_answers r ho q (by rw [hq.code]; decide) a
    exact ⟨r', x, e, b, d⟩

/-- C118. Requests for an unknown object on the whole device: GetObject, GetObjectInfo, GetPartialObject and CopyObject are answered
InvalidObjectHandle, DeleteObject GeneralError; no data is sent, and copying and deleting change nothing. -/
theorem C118_unknown (r : Rsp Device) (ho : Open r) (w : ServerOk r.dev.ps.srv) (q : List UInt8)
    (hx : r.dev.ps.srv.tree.has (cParam q 0) = false) :
    (Asking q 0x1009 ∨ Asking q 0x1008 → ∃ r', AnsweredBy Device.dev r r' (ask q) q .invalidObjectHandle [] ∧ dataOf r'.out = dataOf r.out) ∧
    (Asking q 0x101B → ∃ r', AnsweredBy Device.dev r r' (ask q) q .invalidObjectHandle [0] ∧ dataOf r'.out = dataOf r.out) ∧
    (Asking q 0x101A → ∃ r', AnsweredBy Device.dev r r' (ask q) q .invalidObjectHandle [0] ∧ r'.dev.ps.srv = r.dev.ps.srv) ∧
    (Asking q 0x100B → cParam q 0 ≠ ALL → ∃ r', AnsweredBy Device.dev r r' (ask q) q .generalError [] ∧
      r'.dev.ps.srv = r.dev.ps.srv ∧ dataOf r'.out = dataOf r.out) := by
  have ho' : Open (stored r) := open_via.mpr ho
  obtain ⟨g1, g2⟩ := C85_unknown (stored r) ho' q hx
  refine ⟨fun h => ?_, fun hq => ?_, fun hq => ?_, fun hq hall => ?_⟩
  · rcases h with hq | hq
    · obtain ⟨s, a, b⟩ := g1 hq
      obtain ⟨r', e, rfl⟩ := C118_answers r ho q (by rw [hq.code]; decide) a
      exact ⟨r', e, b⟩
    · obtain ⟨s, a, b⟩ := g2 hq
      obtain ⟨r', e, rfl⟩ := C118_answers r ho q (by rw [hq.code]; decide) a
      exact ⟨r', e, b⟩
  · obtain ⟨s, a, b⟩ := ((C89_parts_refused (stored r) ho' q).2 hx).1 hq
    obtain ⟨r', e, rfl⟩ := C118_answers r ho q (by rw [hq.code]; decide) a
    exact ⟨r', e, b⟩
  · obtain ⟨s, a, b⟩ := (C101_refused (stored r) ho' w q hq).1 hx
    obtain ⟨r', e, rfl⟩ := C118_answers r ho q (by rw [hq.code]; decide) a
    exact ⟨r', e, b⟩
  · obtain ⟨s, a, b⟩ := C85_delete_unknown (stored r) ho' q hq hx hall
    obtain ⟨r', e, rfl⟩ := C118_answers r ho q (by rw [hq.code]; decide) a
    exact ⟨r', e, b⟩

/-- The device of the examples with the storage `s`; a session is open. -/
def onGadget (s : Server) : Rsp Device := { ready := true, session := 1, dev := { demoGadget with ps := ⟨s, [], []⟩ } }

/-- What the host gets for `is` from that device: the responses and the data. -/
def toldOn (s : Server) (is : List (Rsp.In Device)) : List Out × List UInt8 :=
  match (onGadget s).run Device.dev is with
  | .ok r => (responses r.out, dataOf r.out)
  | .ub _ => ([], [])

/-- The hypotheses of C118 are met: by the storages of C101_witness (copying folder 1 into folder 3) and of C91_witness (moving file 1
into folder 2); and how the host sees a file edited, and one moved, listed, downloaded and deleted. -/
theorem C118_witness : (∀ s, Open (onGadget s)) ∧ (∀ s, (onGadget s).dev.ps.srv = s) ∧ ServerOk demoTwo ∧ CopyableTo demoTwo 1 3 ∧
    ServerOk demoTalk.dev ∧ Willing demoTalk.dev ∧ Movable demoTalk.dev 1 2 ∧ Holds demoTalk.dev 1 [7, 8, 9] ∧
    toldOn demoTalk.dev (ask (Toy.cmd 0x95C4 9 [1]) ++ ask (Toy.cmd 0x95C3 10 [1, 2, 0]) ++ ask (Toy.cmd 0x95C5 11 [1]) ++
      ask (Toy.cmd 0x1009 12 [1])) = ([.response .ok 9 [], .response .ok 10 [], .response .ok 11 [], .response .ok 12 []], [7, 8]) ∧
    toldOn demoTalk.dev (ask (Toy.cmd 0x1019 9 [1, 0x00010001, 2]) ++ ask (Toy.cmd 0x1007 10 [0x00010001, 0, 2]) ++
      ask (Toy.cmd 0x101B 11 [1, 1, 5]) ++ ask (Toy.cmd 0x100B 12 [2]) ++ ask (Toy.cmd 0x1006 13 [0x00010001, 0, 0])) =
      ([.response .ok 9 [], .response .ok 10 [], .response .ok 11 [2], .response .ok 12 [], .response .ok 13 [0]],
        [1, 0, 0, 0, 1, 0, 0, 0, 8, 9]) :=
  ⟨fun _ => ⟨rfl, rfl, rfl, Nat.one_ne_zero⟩, fun _ => rfl, C101_witness.1, C101_witness.2, demoTalk_ok.2.1, demoTalk_ok.2.2,
    C91_witness.2.2.1, C89_witness.1, by decide +kernel, by decide +kernel⟩

end Props
