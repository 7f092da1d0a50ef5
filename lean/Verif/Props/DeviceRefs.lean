import Verif.Lemmas.Device
import Verif.Props.ServerPropList
/-! C109: object references, end to end. -/
namespace Props
open Mtp Spec

/-- C109. A host sets the references of an object to a list of objects (SetObjectReferences), all of which exist. That is answered
OK; and whatever happens afterwards that does not set the object's references again, as long as the object exists, asking for its
references (GetObjectReferences) gives exactly the objects of that list that still exist, in the order and as often as listed. -/
theorem C109_references (r0 r : Rsp Device) (hr0 : r0.req = none) (w0 : ServerOk r0.dev.ps.srv) (t0 : Elapsed [] r0 r) (ho : Open r)
    (q : List UInt8) (bs : List (List UInt8)) (h : Nat) (l : List Nat) (hs : SettingRefs q bs h l)
    (hh : r.dev.ps.srv.tree.has h = true) (hl : ∀ x ∈ l, r.dev.ps.srv.tree.has x = true) :
    ∃ r1 : Rsp Device, AnsweredBy Device.dev r r1 (sendObject q bs) q .ok [] ∧
      ∀ r2 : Rsp Device, Referring h r1 r2 → Open r2 → r2.dev.ps.srv.tree.asked < 0xFFFFFFFF →
        r2.dev.ps.srv.tree.has h = true → TellsRefs r2 h (l.filter r2.dev.ps.srv.tree.has) := by
  obtain ⟨r1, a1, _, a3⟩ := Device.set_refs r ho hs
  obtain ⟨s1, s2⟩ := Device.setRefs_done r.dev hh hl
  rw [s1] at a1
  rw [s2] at a3
  refine ⟨r1, a1, fun r2 t ho2 hb hh2 q2 hq2 hp => ?_⟩
  have hk := (Device.refs_history a1.again.none t).dev
  have e1 : r1.dev.ps = r.dev.ps := by rw [a3]
  have e2 : AMap.get r1.dev.refs h = some l := by
    rw [a3]
    show AMap.get (AMap.insert r.dev.refs h l) h = _
    rw [AMap.get_insert, if_pos rfl]
  have hb1 : r.dev.ps.srv.tree.asked < 0xFFFFFFFF := Nat.lt_of_le_of_lt (by rw [← e1]; exact hk.1) hb
  have w := Device.lived_ok hr0 w0 t0 hb1
  obtain ⟨_, _, _, hsame⟩ := hk.2 (by rw [e1]; exact w) hb
  obtain ⟨l', f1, _, f3⟩ := hsame l e2 (fun x hx => by rw [e1]; exact PServer.has_issued w (hl x hx))
  subst hp
  refine Device.get_refs r2 ho2 hq2 hh2 _ (by rw [f1]; exact f3) ?_ ?_
  · exact Nat.le_trans (List.length_filter_le _ _) hs.short
  · intro x hx
    exact hs.handles x (List.mem_filter.mp hx).1

/-- C109. An object whose references were never set since the device started (with none) has none. -/
theorem C109_unset (r0 r : Rsp Device) (hr0 : r0.req = none) (w0 : ServerOk r0.dev.ps.srv) (h0 : r0.dev.refs = []) (h : Nat)
    (t : Referring h r0 r) (ho : Open r) (hb : r.dev.ps.srv.tree.asked < 0xFFFFFFFF) (hh : r.dev.ps.srv.tree.has h = true) :
    TellsRefs r h [] := by
  intro q hq hp
  subst hp
  obtain ⟨_, _, hn, _⟩ := (Device.refs_history hr0 t).dev.2 w0 hb
  refine Device.get_refs r ho hq hh [] (by rw [hn (by rw [h0]; rfl)]; rfl) (by decide) (by simp)

/-- C109. Setting references of an object that does not exist is answered InvalidObjectHandle, setting a list with an object that
does not exist Invalid_ObjectReference; nothing changes. -/
theorem C109_set_refused (r : Rsp Device) (ho : Open r) (q : List UInt8) (bs : List (List UInt8)) (h : Nat) (l : List Nat)
    (hs : SettingRefs q bs h l) :
    (r.dev.ps.srv.tree.has h = false →
      ∃ r' : Rsp Device, AnsweredBy Device.dev r r' (sendObject q bs) q .invalidObjectHandle [] ∧ r'.dev = r.dev) ∧
    (r.dev.ps.srv.tree.has h = true → (∃ x ∈ l, r.dev.ps.srv.tree.has x = false) →
      ∃ r' : Rsp Device, AnsweredBy Device.dev r r' (sendObject q bs) q .invalidObjRef [] ∧ r'.dev = r.dev) := by
  obtain ⟨r', a1, _, a3⟩ := Device.set_refs r ho hs
  refine ⟨fun hh => ?_, fun hh ⟨x, hx, hn⟩ => ?_⟩
  · obtain ⟨s1, s2⟩ := Device.setRefs_none r.dev (l := l) hh
    rw [s1] at a1
    rw [s2] at a3
    exact ⟨r', a1, a3⟩
  · obtain ⟨s1, s2⟩ := Device.setRefs_bad r.dev hh ⟨x, hx, hn⟩
    rw [s1] at a1
    rw [s2] at a3
    exact ⟨r', a1, a3⟩

/-- C109. Asking for references of an object that does not exist is answered InvalidObjectHandle, without data; nothing changes. -/
theorem C109_query_refused (r : Rsp Device) (ho : Open r) (q : List UInt8) (hq : Asking q 0x9810)
    (hh : r.dev.ps.srv.tree.has (cParam q 0) = false) :
    ∃ r' : Rsp Device, AnsweredBy Device.dev r r' (ask q) q .invalidObjectHandle [] ∧ dataOf r'.out = dataOf r.out ∧ r'.dev = r.dev := by
  refine Device.untold r ho q 0x9810 hq [] rfl rfl .invalidObjectHandle r.dev ?_
  show r.dev.answerRefs (cParam q 0) = _
  unfold Device.answerRefs getObjReferences
  rw [if_pos (by exact hh)]
  rfl

/-- A device with an empty storage. -/
def demoGadget : Device := ⟨⟨demoEmpty, [], []⟩, [], demoDevState, loadInfo shippedConf true, ⟨3, 2, 0, 0, 0, 0xFFFFFFFF, [], []⟩, none⟩

def demoGRsp : Rsp Device := { ready := true, session := 1, dev := demoGadget }

/-- What the host gets for `is`: the responses and the data. -/
def toldBy (is : List (Rsp.In Device)) : List Out × List UInt8 :=
  match demoGRsp.run Device.dev is with
  | .ok r => (responses r.out, dataOf r.out)
  | .ub _ => ([], [])

/-- The objects listed in the data of a GetObjectReferences transaction. -/
def refsTold (is : List (Rsp.In Device)) : Option (List Nat) := readHandles 0x9810 0 (dataContainer 0x9810 0 (toldBy is).2)

/-- Folders 1, 2 (in 1) and 3 (in 2) are created. -/
def demoFolders : List (Rsp.In Device) :=
  sendObject demoAnn [dataContainer 0x100C 5 (encs (objInfoVals demoFolder))] ++
  sendObject (Toy.cmd 0x100C 7 [0x00010001, 1]) [dataContainer 0x100C 7 (encs (objInfoVals demoFolder))] ++
  sendObject (Toy.cmd 0x100C 8 [0x00010001, 2]) [dataContainer 0x100C 8 (encs (objInfoVals demoFolder))]

def demoRefs (h : Nat) (l : List Nat) : List (Rsp.In Device) :=
  sendObject (Toy.cmd 0x9811 9 [h]) [dataContainer 0x9811 9 (enc (.arr 4 l))]

theorem lived_run {avoid : List Nat} {r0 : Rsp Device} : ∀ (is : List (Rsp.In Device)) (r r' : Rsp Device), Elapsed avoid r0 r →
    (∀ i ∈ is, Avoiding avoid i) → r.run Device.dev is = .ok r' → Elapsed avoid r0 r'
  | [], r, r', h, _, e => by
    cases e
    exact h
  | i :: is, r, r', h, hi, e => by
    simp only [Rsp.run] at e
    cases e1 : r.step Device.dev i with
    | ub k => rw [e1] at e; cases e
    | ok r1 =>
      rw [e1] at e
      exact lived_run is r1 r' (.step h (hi i (List.mem_cons_self ..)) e1) (fun j hj => hi j (List.mem_cons_of_mem _ hj)) e

theorem send_avoids (q : List UInt8) (bs : List (List UInt8)) : ∀ i ∈ (sendObject q bs : List (Rsp.In Device)), Avoiding [] i := by
  intro i hi
  have key : ∀ (bs : List (List UInt8)) (first : Bool), ∀ i ∈ (dataPhase first bs : List (Rsp.In Device)), Avoiding [] i := by
    intro bs
    induction bs with
    | nil => intro _ i hi; cases hi
    | cons b bs ih =>
      intro first i hi
      rcases List.mem_cons.mp hi with rfl | hi
      · exact fun _ _ => List.not_mem_nil
      · exact ih false i hi
  rcases List.mem_cons.mp hi with rfl | hi
  · exact fun _ _ => List.not_mem_nil
  · exact key bs true i hi

/-- Three folders are created, and the references of the first are set to the third, the second and the third; then the third is
deleted: the hypotheses of C109 are met, and the list told is the second. -/
theorem C109_witness : demoGRsp.req = none ∧ ServerOk demoGRsp.dev.ps.srv ∧ demoGRsp.dev.refs = [] ∧
    (∃ r : Rsp Device, demoGRsp.run Device.dev demoFolders = .ok r ∧ Elapsed [] demoGRsp r ∧
      (r.st = .idle ∧ r.req = none ∧ r.ready = true ∧ r.session ≠ 0) ∧ (∀ x ∈ [1, 3, 2, 3], r.dev.ps.srv.tree.has x = true) ∧
      ∃ r1 r2 : Rsp Device, r.run Device.dev (demoRefs 1 [3, 2, 3]) = .ok r1 ∧ r1.run Device.dev (ask (Toy.cmd 0x100B 11 [3])) = .ok r2 ∧
        Referring 1 r1 r2 ∧ (r2.st = .idle ∧ r2.req = none ∧ r2.ready = true ∧ r2.session ≠ 0) ∧
        r2.dev.ps.srv.tree.asked < 0xFFFFFFFF ∧ r2.dev.ps.srv.tree.has 1 = true ∧ [3, 2, 3].filter r2.dev.ps.srv.tree.has = [2]) ∧
    SettingRefs (Toy.cmd 0x9811 9 [1]) [dataContainer 0x9811 9 (enc (.arr 4 [3, 2, 3]))] 1 [3, 2, 3] ∧
    refsTold (demoFolders ++ demoRefs 1 [3, 2, 3] ++ ask (Toy.cmd 0x9810 10 [1])) = some [3, 2, 3] ∧
    refsTold (demoFolders ++ demoRefs 1 [3, 2, 3] ++ ask (Toy.cmd 0x100B 11 [3]) ++ ask (Toy.cmd 0x9810 10 [1])) = some [2] := by
  refine ⟨rfl, demoEmpty_ok, rfl, ?_, ⟨⟨by decide +kernel, by decide +kernel⟩, by decide +kernel, ⟨⟨_, rfl, by decide +kernel⟩,
    by decide +kernel⟩, by decide, by decide⟩, by decide +kernel, by decide +kernel⟩
  have hk : (match demoGRsp.run Device.dev demoFolders with
      | .ok r => decide (r.st = .idle) && r.req.isNone && r.ready && decide (r.session ≠ 0) &&
          [1, 3, 2, 3].all r.dev.ps.srv.tree.has &&
          (match r.run Device.dev (demoRefs 1 [3, 2, 3]) with
            | .ok r1 => (match r1.run Device.dev (ask (Toy.cmd 0x100B 11 [3])) with
              | .ok r2 => decide (r2.st = .idle) && r2.req.isNone && r2.ready && decide (r2.session ≠ 0) &&
                  decide (r2.dev.ps.srv.tree.asked < 0xFFFFFFFF) && r2.dev.ps.srv.tree.has 1 &&
                  decide ([3, 2, 3].filter r2.dev.ps.srv.tree.has = [2])
              | .ub _ => false)
            | .ub _ => false)
      | .ub _ => false) = true := by decide +kernel
  cases e : demoGRsp.run Device.dev demoFolders with
  | ub k => rw [e] at hk; cases hk
  | ok r =>
    rw [e] at hk
    cases e1 : r.run Device.dev (demoRefs 1 [3, 2, 3]) with
    | ub k => simp only [e1, Bool.and_false] at hk; cases hk
    | ok r1 =>
      cases e2 : r1.run Device.dev (ask (Toy.cmd 0x100B 11 [3])) with
      | ub k => simp only [e1, e2, Bool.and_false] at hk; cases hk
      | ok r2 =>
        simp only [e1, e2, Bool.and_eq_true, decide_eq_true_eq, Option.isNone_iff_eq_none] at hk
        obtain ⟨⟨⟨⟨⟨h1, h2⟩, h3⟩, h4⟩, h5⟩, ⟨⟨⟨⟨⟨h6, h7⟩, h8⟩, h9⟩, h10⟩, h11⟩, h12⟩ := hk
        refine ⟨r, rfl, lived_run _ _ _ (.start _) ?_ e, ⟨h1, h2, h3, h4⟩, List.all_eq_true.mp h5, r1, r2, e1, e2, .lived (.start _) (lived_run _ _ _ (.start _) ?_ e2),
          ⟨h6, h7, h8, h9⟩, h10, h11, h12⟩
        · intro i hi
          unfold demoFolders at hi
          rcases List.mem_append.mp hi with hi | hi
          · rcases List.mem_append.mp hi with hi | hi
            · exact send_avoids _ _ i hi
            · exact send_avoids _ _ i hi
          · exact send_avoids _ _ i hi
        · intro i hi
          have : i = .packet (Toy.cmd 0x100B 11 [3]) true true [] := by simpa [ask] using hi
          subst this
          exact fun _ _ => by decide +kernel

end Props
