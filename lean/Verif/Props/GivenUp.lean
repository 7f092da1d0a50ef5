import Verif.Lemmas.ServerCancel
import Verif.Props.ServerList
/-! Property theorems C98: uploads that are given up. -/
namespace Props
open Mtp Spec

/-- C98. An upload that is cancelled leaves nothing behind. The host announces a new object with SendObjectInfo, begins to send its
data, and cancels at any point before the device has answered: no response follows, no object, no contents and no information
differ from before the announcement, nothing is announced any more, and the next command is treated as by a device between two
commands. -/
theorem C98_cancelled (r : Rsp Server) (ho : Open r) (w : ServerOk r.dev) (hfs : ∀ i, r.dev.tree.fs i = true) (o : ObjInfo)
    (hfit : ObjInfoFits o) (hsz : o.size < 0xFFFFFFFF) (q1 : List UInt8) (hq1 : Asking q1 0x100C)
    (hof : Offer r.dev (cParam q1 0) (cParam q1 1) o) (bs : List (List UInt8))
    (hd : CarriesDataset bs (dataContainer 0x100C (cTid q1) (encs (objInfoVals o)))) :
    ∃ r1 h, Answered r r1 (sendObject q1 bs) q1 .ok [r.dev.sid, folderOf q1, h] ∧
      ∀ q2, Asking q2 0x100D → ∀ ds : List (List UInt8), (∀ b ∈ ds.head?, 12 ≤ b.length) →
      ∀ r2, r1.run Server.dev (sendPart q2 ds) = .ok r2 → responses r2.out = responses r1.out →
      ∃ r3 r4, r2.run Server.dev [.ev .cancel] = .ok r3 ∧ responses r3.out = responses r2.out ∧ Unchanged r.dev r3.dev ∧
        r3.sendSeq = none ∧ r3.propList = none ∧ Continues r3 r4 := by
  have hz : o.size < 2 ^ 32 := by omega
  obtain ⟨r1, h, a1, an, _, nw⟩ := Server.offer_taken r ho w q1 hq1 o hfit bs hd (by omega) hof
  exact ⟨r1, h, a1, fun q2 hq2 ds hb r2 hr hno => Server.cancel_going w a1.again nw an hfs q2 hq2 ds hb r2 hr hno⟩

/-- C98. The same for an object announced with SendObjectPropList. -/
theorem C98_cancelled_list (r : Rsp Server) (ho : Open r) (w : ServerOk r.dev) (hfs : ∀ i, r.dev.tree.fs i = true)
    (hc : r.dev.caps.WF) (hseq : r.sendSeq = none)
    (es : List Elem) (name : QStr) (q1 : List UInt8) (hq1 : Asking q1 0x9808) (h3 : cParam q1 3 = 0)
    (hs : ∀ e ∈ es, SoundElem e ∧ (e.code = 0xDC07 → e.dtype = 0xFFFF)) (hl : (Spec.listData es).length ≤ 2 ^ 30)
    (hb : ∀ e ∈ es, Belongs r.dev.caps (cParam q1 2 % 2 ^ 16) e) (hn : ∃ k, LastName es k (.str name))
    (hof : Offer r.dev (cParam q1 0) (cParam q1 1) (listedAs q1 name)) (bs : List (List UInt8))
    (hd : CarriesDataset bs (dataContainer 0x9808 (cTid q1) (Spec.listData es))) :
    ∃ r1 h, Answered r r1 (sendObject q1 bs) q1 .ok [r.dev.sid, folderOf q1, h] ∧
      ∀ q2, Asking q2 0x100D → ∀ ds : List (List UInt8), (∀ b ∈ ds.head?, 12 ≤ b.length) →
      ∀ r2, r1.run Server.dev (sendPart q2 ds) = .ok r2 → responses r2.out = responses r1.out →
      ∃ r3 r4, r2.run Server.dev [.ev .cancel] = .ok r3 ∧ responses r3.out = responses r2.out ∧ Unchanged r.dev r3.dev ∧
        r3.sendSeq = none ∧ r3.propList = none ∧ Continues r3 r4 := by
  obtain ⟨r1, h, a1, an, _, _, nw⟩ := list_taken r ho w hc hseq es name q1 hq1 h3 hs hl hb hn hof bs hd
  exact ⟨r1, h, a1, fun q2 hq2 ds hb r2 hr hno => Server.cancel_going w a1.again nw an hfs q2 hq2 ds hb r2 hr hno⟩

/-- C98. When the system takes everything, the device answers no sooner than all bytes are there: until then an upload can be
cancelled as in `C98_cancelled`. -/
theorem C98_not_answered_before (r : Rsp Server) (ho : Open r) (w : ServerOk r.dev) (hw : Willing r.dev) (o : ObjInfo)
    (hfit : ObjInfoFits o) (hfo : o.format ≠ ASSOC) (hsz : o.size < 0xFFFFFFFF) (q1 : List UInt8) (hq1 : Asking q1 0x100C)
    (hof : Offer r.dev (cParam q1 0) (cParam q1 1) o) (bs : List (List UInt8))
    (hd : CarriesDataset bs (dataContainer 0x100C (cTid q1) (encs (objInfoVals o)))) :
    ∃ r1 h, Answered r r1 (sendObject q1 bs) q1 .ok [r.dev.sid, folderOf q1, h] ∧
      ∀ q2, Asking q2 0x100D → ∀ ds : List (List UInt8), (∀ b ∈ ds.head?, 12 ≤ b.length) → (∀ b ∈ ds, b.length < 2 ^ 31) →
      (bodies true ds).flatten.length < o.size →
      ∃ r2, r1.run Server.dev (sendPart q2 ds) = .ok r2 ∧ responses r2.out = responses r1.out := by
  have hz : o.size < 2 ^ 32 := by omega
  obtain ⟨r1, h, a1, an, hios, nw⟩ := Server.offer_taken r ho w q1 hq1 o hfit bs hd (by omega) hof
  refine ⟨r1, h, a1, fun q2 hq2 ds hb hl hlt => ?_⟩
  rw [Nat.mod_eq_of_lt hz] at an
  exact Server.send_waits w (fun a b => by rw [hios]; exact hw a b) a1.again nw
    (show ({ objInfoReceived o with parent := cParam q1 1 } : ObjInfo).format ≠ ASSOC by
      have e : (objInfoReceived o).format = o.format := by
        unfold objInfoReceived
        simp only
      exact fun hh => hfo (e ▸ hh)) hz an q2 hq2 ds hb hl hlt

/-- The hypotheses of C98 are met by the upload of `C82_witness`, cancelled after its first packet. -/
theorem C98_witness : (∀ i, demoRsp.dev.tree.fs i = true) ∧ ObjInfoFits demoFile ∧ demoFile.size < 0xFFFFFFFF ∧
    (bodies true [Toy.dat 0x100D 6 [7]]).flatten.length < demoFile.size ∧
    (match demoRsp.run Server.dev (sendObject demoAnn demoAnnData ++ sendPart demoPut [Toy.dat 0x100D 6 [7]]) with
      | .ok r => (responses r.out, r.dev.files)
      | .ub _ => ([], [])) = ([.response .ok 5 [0x00010001, 0, 1]], [("/s/ab", [7, 0, 0])]) ∧
    (match demoRsp.run Server.dev (sendObject demoAnn demoAnnData ++ sendPart demoPut [Toy.dat 0x100D 6 [7]] ++ [.ev .cancel] ++
        ask (Toy.cmd 0x1007 7 [0xFFFFFFFF, 0, 0])) with
      | .ok r => (responses r.out, dataOf r.out, r.dev.files)
      | .ub _ => ([], [], [])) = ([.response .ok 5 [0x00010001, 0, 1], .response .ok 7 []], [0, 0, 0, 0], []) :=
  ⟨fun _ => rfl, by unfold ObjInfoFits; decide, by decide, by decide, by decide +kernel, by decide +kernel⟩

/-- C98 is violated when the host is unplugged in the middle of an upload: the file stays, with the announced size and zeros for the
bytes that never came, and in the next session it is a file like any other. -/
theorem C98_unplugged_violated : (match demoRsp.run Server.dev (sendObject demoAnn demoAnnData ++
      sendPart demoPut [Toy.dat 0x100D 6 [7]] ++ [.ev .cleanup] ++ ask (Toy.cmd 0x1002 0 [2]) ++ ask (Toy.cmd 0x1009 1 [1])) with
    | .ok r => (responses r.out, dataOf r.out)
    | .ub _ => ([], [])) =
    ([.response .ok 5 [0x00010001, 0, 1], .response .ok 0 [], .response .ok 1 []], [7, 0, 0]) := by
  decide +kernel

/-- C98 is violated when an announcement is cancelled after a folder was made: the device takes the folder for the upload to be
undone. Here the host uploads "ab", makes the folder "d", moves "ab" into it, begins to announce another object and cancels that: the
folder and the file in it are deleted. -/
theorem C98_folder_lost_violated : (match demoRsp.run Server.dev (sendObject demoAnn demoAnnData ++ sendObject demoPut demoPutData ++
      sendObject (Toy.cmd 0x100C 7 [0x00010001, 0xFFFFFFFF])
        [dataContainer 0x100C 7 (encs (objInfoVals { demoFile with size := 0, format := ASSOC, fileName := [100] }))] ++
      ask (Toy.cmd 0x1019 8 [1, 0x00010001, 2]) ++ ask (Toy.cmd 0x1009 9 [1]) ++ ask (Toy.cmd 0x100C 10 [0x00010001, 0xFFFFFFFF]) ++
      [.ev .cancel] ++ ask (Toy.cmd 0x1009 11 [1])) with
    | .ok r => (responses r.out, dataOf r.out, r.dev.files)
    | .ub _ => ([], [], [])) =
    ([.response .ok 5 [0x00010001, 0, 1], .response .ok 6 [], .response .ok 7 [0x00010001, 0, 2], .response .ok 8 [], .response .ok 9 [],
      .response .invalidObjectHandle 11 []], [7, 8, 9], []) := by
  decide +kernel

end Props
