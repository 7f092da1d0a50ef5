import Verif.Lemmas.ServerTold
import Verif.Props.Server
import Verif.Props.ServerList
/-! C100: properties of objects, end to end. -/
namespace Props
open Mtp Spec

/-- The value the storage has for a property of the dataset. -/
private theorem prop_info {s : Server} {h p : Nat} {o : ObjInfo} (hi : s.infoOf h = (.ok, o)) {v : Val} (hv : infoValue o p = some v) :
    s.prop h p = some v := by
  unfold Server.prop
  rw [hi]
  simp only
  unfold infoValue at hv
  split at hv <;> first | (cases hv; done) | (rw [← hv]; rfl)

theorem int_typed {dt w n : Nat} (hw : w ∈ [1, 2, 4, 8, 16]) (ht : typeOf dt = some (.int w)) (hn : n < 256 ^ w) :
    Typed dt (.int w n) ∧ (enc (.int w n)).length ≤ 2 ^ 30 := by
  refine ⟨⟨⟨hw, hn⟩, ht⟩, ?_⟩
  rw [enc_int_length]
  simp only [List.mem_cons, List.not_mem_nil, or_false] at hw
  omega

private theorem str_typed {dt : Nat} (s : QStr) (ht : typeOf dt = some .str) : Typed dt (.str s) ∧ (enc (.str s)).length ≤ 2 ^ 30 :=
  ⟨⟨trivial, ht⟩, enc_str_length s⟩

private theorem info_typed {o : ObjInfo} (hf : ObjInfoFits o) {p : Nat} {v : Val} (hv : infoValue o p = some v) :
    (Typed (stdType p) v ∧ (enc v).length ≤ 2 ^ 30) ∧ p ∈ toldProps := by
  obtain ⟨f1, f2, f3, f4, f5, f6, f7, f8, f9, f10, f11, f12, f13⟩ := hf
  unfold infoValue at hv
  split at hv <;> first
    | (cases hv; done)
    | (cases hv; exact ⟨int_typed (by decide) (by decide) (by assumption), by decide⟩)
    | (cases hv; exact ⟨str_typed _ (by decide), by decide⟩)

private theorem info_shown {o : ObjInfo} {p : Nat} {v : Val} (hv : infoValue o p = some v) :
    infoValue { o with fileName := cut o.fileName, captureDate := cut o.captureDate, modDate := cut o.modDate, keywords := cut o.keywords } p =
      some (shown v) := by
  unfold infoValue at hv ⊢
  split at hv <;> first | (cases hv; done) | (cases hv; rfl)

private theorem says_same {r : Rsp PServer} {h p : Nat} {Q : Nat → Prop} (hc : PServer.Coh (fun x c => Q x ∧ c = p) r.dev) (hQ : Q h)
    (hcaps : r.dev.srv.caps.WF) (ho : Open r) (ht : Tellable r.dev.srv h) (hp : p ∈ toldProps) (hid : p ≠ 0xDC41) : SaysSame r h p := by
  obtain ⟨o, hi, hof, hsz, hn⟩ := ht
  obtain ⟨v, hv⟩ : ∃ v, infoValue o p = some v := by
    simp only [toldProps, List.mem_cons, List.not_mem_nil, or_false] at hp
    rcases hp with rfl | rfl | rfl | rfl | rfl | rfl | rfl | rfl | rfl <;> first | exact ⟨_, rfl⟩ | exact absurd rfl hid
  obtain ⟨⟨k1, k2⟩, k3⟩ := info_typed hof hv
  intro q1 q2 hq1 hp1 hq2 hp2 hp3
  obtain ⟨r1, b1, a1, a2, a3, a4⟩ := PServer.get_info r ho q1 hq1 o (by rw [hp1]; exact hi) hof hsz hn
  obtain ⟨d, d1, d2⟩ := PServer.told_described k3 r1.dev.srv.caps (by rw [a3]; exact hcaps) (r1.dev.srv.infoOf h).2.format
  have hh : r.dev.srv.tree.has h = true := Server.info_has hi
  obtain ⟨r2, b2, e1, e2, e3, e4⟩ := PServer.get_value r1 a1.again (by rw [a3]; exact hc.ok) (by rw [a3]; exact hcaps) q2 hq2
    (by rw [a3, hp2]; exact hh) (by rw [hp3]; exact (PServer.told_common k3).2) d (by rw [hp2, hp3]; exact d1) v (by rw [d2]; exact k1) k2
    (by rw [a3, hp2, hp3]; exact prop_info hi hv) (fun w hw => by
      rw [a3, hp2, hp3] at hw
      rw [hc.told h p w ⟨hQ, rfl⟩ hh hw]
      exact prop_info hi hv)
  exact ⟨r1, r2, b1, b2, _, _, a1, a2, a4, e1, e2, by rw [← d2]; exact e3, info_shown hv⟩

/-- C100. After every history of a freshly started device without operations that spoil property `p`: what GetObjPropValue says about
`p` of any object is what GetObjectInfo says. Missing: histories with such operations (see the violations below). -/
theorem C100_told_partial (r0 r : Rsp PServer) (hf : Fresh r0) (p : Nat) (hp : p ∈ toldProps) (hid : p ≠ 0xDC41)
    (ht : Talked (spoiling p) r0 r) (hb : r.dev.srv.tree.asked < 0xFFFFFFFF) (hcaps : r.dev.srv.caps.WF) (ho : Open r) (h : Nat)
    (hi : Tellable r.dev.srv h) : SaysSame r h p :=
  says_same (Q := fun _ => True) (PServer.talked_coh hp hf.req hf.list ht hb (hf.coh _)) trivial hcaps ho hi hp hid

/-- C100. What happened before does not matter for objects that did not exist then: whatever was said before `r`, property `p` of
objects created since is told truly. -/
theorem C100_new (r0 r r' : Rsp PServer) (hf : Fresh r0) (h0 : Talked [] r0 r) (p : Nat) (hp : p ∈ toldProps) (hid : p ≠ 0xDC41)
    (hr : r.req = none) (hl : r.propList = none) (ht : Talked (spoiling p) r r') (hb : r'.dev.srv.tree.asked < 0xFFFFFFFF)
    (hcaps : r'.dev.srv.caps.WF) (ho : Open r') (h : Nat) (hnew : r.dev.srv.tree.asked < h) (hi : Tellable r'.dev.srv h) :
    SaysSame r' h p := by
  have hb1 : r.dev.srv.tree.asked < 0xFFFFFFFF :=
    Nat.lt_of_le_of_lt (PServer.talked_closed (PServer.closed_next (PServer.fair_told hp fun _ => False)) PServer.remove_next hr hl ht).1 hb
  have c0 := PServer.talked_any hf h0 hb1
  refine says_same (Q := fun x => r.dev.srv.tree.asked < x) (PServer.talked_coh hp hr hl ht hb ⟨c0.ok, ?_, c0.known⟩) hnew hcaps ho hi hp hid
  intro x c v hx hh hv
  have := c0.known x c v hv
  have := hx.1
  omega

/-- C100. EndEditObject makes the device look again: whatever was said before, every property of the edited object is told truly
from then on. -/
theorem C100_edited (r0 r : Rsp PServer) (hf : Fresh r0) (h0 : Talked [] r0 r) (ho : Open r) (hl : r.propList = none) (e : EditSeq)
    (he : r.edit = some e) (q : List UInt8) (hq : Asking q 0x95C5) (hh : cParam q 0 = e.handle) :
    ∃ r1, AnsweredBy PServer.dev r r1 (ask q) q .ok [] ∧ dataOf r1.out = dataOf r.out ∧
      ∀ p ∈ toldProps, p ≠ 0xDC41 → ∀ r2, Talked (spoiling p) r1 r2 → r2.dev.srv.tree.asked < 0xFFFFFFFF → r2.dev.srv.caps.WF →
        Open r2 → Tellable r2.dev.srv e.handle → SaysSame r2 e.handle p := by
  obtain ⟨r1, a1, a2, a3, a4⟩ := PServer.end_edit r ho e he q hq hh
  refine ⟨r1, a1, a2, fun p hp hid r2 ht hb hcaps ho2 hi => ?_⟩
  have hl1 : r1.propList = none := a4.trans hl
  have hb1 : r.dev.srv.tree.asked < 0xFFFFFFFF := by
    have := (PServer.talked_closed (PServer.closed_next (PServer.fair_told hp fun _ => False)) PServer.remove_next a1.again.none hl1 ht).1
    rw [a3] at this
    exact Nat.lt_of_le_of_lt this hb
  have c0 := PServer.talked_any hf h0 hb1
  refine says_same (Q := fun x => x = e.handle) (PServer.talked_coh hp a1.again.none hl1 ht hb ?_) rfl hcaps ho2 hi hp hid
  rw [a3]
  refine ⟨c0.ok, ?_, fun x c v hv => c0.known x c v (PServer.remove_sub hv).1⟩
  intro x c v hx _ hv
  exact absurd ⟨hx.1, Or.inr rfl⟩ (PServer.remove_sub hv).2

/-- C100. The persistent identifier of an object is told the same at all times. -/
theorem C100_identifier (r0 r r' : Rsp PServer) (hf : Fresh r0) (h0 : Talked [0x9808] r0 r) (ht : Talked [0x9808] r r')
    (hr : r.req = none) (hb : r'.dev.srv.tree.asked < 0xFFFFFFFF) (hcaps : r.dev.srv.caps.WF) (hcaps' : r'.dev.srv.caps.WF) (ho : Open r)
    (ho' : Open r') (h : Nat) (hh : r.dev.srv.tree.has h = true) (hh' : r'.dev.srv.tree.has h = true)
    (hfit : ∀ it, r.dev.srv.tree.get h = some it → it.puoid < 256 ^ 16) :
    ∃ n, Says r h 0xDC41 (.int 16 n) ∧ Says r' h 0xDC41 (.int 16 n) := by
  have hl := PServer.no_list hf h0
  have hb1 : r.dev.srv.tree.asked < 0xFFFFFFFF :=
    Nat.lt_of_le_of_lt (PServer.talked_closed (PServer.closed_next (PServer.fair_told (p := 0xDC41) (by decide) fun _ => False)) PServer.remove_next hr hl ht).1 hb
  have c0 := PServer.talked_coh (p := 0xDC41) (by decide) (Q := fun _ => True) hf.req hf.list h0 hb1 (hf.coh _)
  have c1 := PServer.talked_coh (p := 0xDC41) (by decide) (Q := fun _ => True) hr hl ht hb c0
  obtain ⟨it, o, g1, g2, _⟩ := PServer.infoOf_has c0.ok hh
  have hv : r.dev.srv.prop h 0xDC41 = some (.int 16 it.puoid) := by
    unfold Server.prop
    rw [g2, g1]
    rfl
  have hv' : r'.dev.srv.prop h 0xDC41 = some (.int 16 it.puoid) := by
    rw [← hv]
    have := ((PServer.talked_closed PServer.closed_fixed (fun _ _ _ => Server.Steady.refl _ _) hr hl ht).2 c0.ok hb).2 h hh'
    rcases this with g | ⟨_, g⟩
    · have := PServer.has_issued c0.ok hh; omega
    · exact g 0xDC41 (show PServer.fixed 0xDC41 by unfold PServer.fixed; decide)
  have fin : ∀ r : Rsp PServer, Open r → r.dev.srv.caps.WF → r.dev.srv.tree.has h = true →
      PServer.Coh (fun h c => True ∧ c = 0xDC41) r.dev → r.dev.srv.prop h 0xDC41 = some (.int 16 it.puoid) →
      Says r h 0xDC41 (.int 16 it.puoid) := by
    intro r ho hcaps hh hc hv q hq hp1 hp2
    obtain ⟨d, d1, d2⟩ := PServer.told_described (p := 0xDC41) (by decide) r.dev.srv.caps hcaps (r.dev.srv.infoOf h).2.format
    obtain ⟨k1, k2⟩ := int_typed (dt := stdType 0xDC41) (w := 16) (by decide) (by decide) (hfit it g1)
    obtain ⟨r2, b2, e1, e2, e3, e4⟩ := PServer.get_value r ho hc.ok hcaps q hq
      (by rw [hp1]; exact hh) (by rw [hp2]; decide) d (by rw [hp1, hp2]; exact d1) (.int 16 it.puoid) (by rw [d2]; exact k1) k2
      (by rw [hp1, hp2]; exact hv) (fun w hw => by
        rw [hp1, hp2] at hw
        rw [hc.told h 0xDC41 w ⟨trivial, rfl⟩ hh hw]
        exact hv)
    exact ⟨r2, b2, e1, e2, by rw [← d2]; exact e3⟩
  exact ⟨it.puoid, fin r ho hcaps hh c0 hv, fin r' ho' hcaps' hh' c1 hv'⟩

/-! A device with one empty storage, just started. -/

def demoPRsp : Rsp PServer := { ready := true, session := 1, dev := ⟨demoEmpty, [], []⟩ }

/-- The value of one property is asked for. -/
def propValue (t h p : Nat) : List (Rsp.In PServer) := ask (Toy.cmd 0x9803 t [h, p])

/-- What the host gets for `is`: the responses and the data. -/
def gets (is : List (Rsp.In PServer)) : List Out × List UInt8 :=
  match demoPRsp.run PServer.dev is with
  | .ok r => (responses r.out, dataOf r.out)
  | .ub _ => ([], [])

theorem talked_run {avoid : List Nat} {r0 : Rsp PServer} : ∀ (is : List (Rsp.In PServer)) (r r' : Rsp PServer), Talked avoid r0 r →
    (∀ i ∈ is, Avoiding avoid i) → r.run PServer.dev is = .ok r' → Talked avoid r0 r'
  | [], r, r', h, _, e => by
    cases e
    exact h
  | i :: is, r, r', h, hi, e => by
    simp only [Rsp.run] at e
    cases e1 : r.step PServer.dev i with
    | ub k => rw [e1] at e; cases e
    | ok r1 =>
      rw [e1] at e
      exact talked_run is r1 r' (.step h (hi i (List.mem_cons_self ..)) e1) (fun j hj => hi j (List.mem_cons_of_mem _ hj)) e

instance (o : ObjInfo) : Decidable (ObjInfoFits o) := by
  unfold ObjInfoFits
  infer_instance

/-- The hypotheses of C100 are met: nothing is cached on a started device; a file is uploaded and its name is asked for twice. -/
theorem C100_witness : Fresh demoPRsp ∧ Open demoPRsp ∧ demoPRsp.dev.srv.caps.WF ∧
    (∃ r, demoPRsp.run PServer.dev (sendObject demoAnn demoAnnData ++ sendObject demoPut demoPutData) = .ok r ∧
      Talked (spoiling 0xDC07) demoPRsp r ∧ (r.st = .idle ∧ r.req = none ∧ r.ready = true ∧ r.session ≠ 0) ∧
      Tellable r.dev.srv 1 ∧ r.dev.srv.tree.asked < 0xFFFFFFFF) ∧
    gets (sendObject demoAnn demoAnnData ++ sendObject demoPut demoPutData ++ propValue 7 1 0xDC07 ++ propValue 8 1 0xDC07) =
      ([.response .ok 5 [0x00010001, 0, 1], .response .ok 6 [], .response .ok 7 [], .response .ok 8 []],
        [3, 97, 0, 98, 0, 0, 0, 3, 97, 0, 98, 0, 0, 0]) := by
  refine ⟨⟨demoEmpty_ok, fun h p => by simp [demoPRsp, Cache.get, AMap.get], rfl, rfl⟩, ⟨rfl, rfl, rfl, by decide⟩,
    ⟨by decide, by decide, by decide, by decide⟩, ?_, by decide +kernel⟩
  have hk : (match demoPRsp.run PServer.dev (sendObject demoAnn demoAnnData ++ sendObject demoPut demoPutData) with
      | .ok r => decide (r.st = .idle) && r.req.isNone && r.ready && decide (r.session ≠ 0) &&
          (match r.dev.srv.infoOf 1 with
            | (.ok, o) => decide (ObjInfoFits o ∧ o.size < 2 ^ 32 ∧ o.fileName.length ≤ 2 ^ 20 ∧ o.captureDate.length ≤ 2 ^ 20 ∧
                o.modDate.length ≤ 2 ^ 20)
            | _ => false) &&
          decide (r.dev.srv.tree.asked < 0xFFFFFFFF)
      | .ub _ => false) = true := by decide +kernel
  cases e : demoPRsp.run PServer.dev (sendObject demoAnn demoAnnData ++ sendObject demoPut demoPutData) with
  | ub k => rw [e] at hk; cases hk
  | ok r =>
    rw [e] at hk
    simp only [Bool.and_eq_true, decide_eq_true_eq, Option.isNone_iff_eq_none] at hk
    obtain ⟨⟨⟨⟨⟨h1, h2⟩, h3⟩, h4⟩, h5⟩, h6⟩ := hk
    refine ⟨r, rfl, talked_run _ _ _ (.start _) ?_ e, ⟨h1, h2, h3, h4⟩, ?_, h6⟩
    rotate_left
    · cases e2 : r.dev.srv.infoOf 1 with
      | mk c o =>
        rw [e2] at h5
        cases c <;> first | exact ⟨o, e2, of_decide_eq_true h5⟩ | cases h5
    intro i hi
    have hall : ∀ b ∈ [demoAnn, demoPut] ++ demoAnnData ++ demoPutData, cCode b ∉ spoiling 0xDC07 := by decide +kernel
    have hin : ∀ (q : List UInt8) (bs : List (List UInt8)), cCode q ∉ spoiling 0xDC07 → (∀ b ∈ bs, cCode b ∉ spoiling 0xDC07) →
        ∀ i ∈ (sendObject q bs : List (Rsp.In PServer)), Avoiding (spoiling 0xDC07) i := by
      intro q bs h1 h2 i hi
      have key : ∀ (bs : List (List UInt8)) (first : Bool), (∀ b ∈ bs, cCode b ∉ spoiling 0xDC07) →
          ∀ i ∈ (dataPhase first bs : List (Rsp.In PServer)), Avoiding (spoiling 0xDC07) i := by
        intro bs
        induction bs with
        | nil => intro _ _ i hi; cases hi
        | cons b bs ih =>
          intro first hb i hi
          rcases List.mem_cons.mp hi with rfl | hi
          · exact fun _ _ => hb b (List.mem_cons_self ..)
          · exact ih false (fun x hx => hb x (List.mem_cons_of_mem _ hx)) i hi
      rcases List.mem_cons.mp hi with rfl | hi
      · exact fun _ _ => h1
      · exact key bs true h2 i hi
    rcases List.mem_append.mp hi with hi | hi
    · exact hin _ _ (hall _ (by simp)) (fun b hb => hall _ (by simp [hb])) i hi
    · exact hin _ _ (hall _ (by simp)) (fun b hb => hall _ (by simp [hb])) i hi

/-- C100 is violated while a file is edited: asked for its size before and after TruncateObject, the device says 3 bytes both times;
the file has 1. Only EndEditObject makes the device look again. -/
theorem C100_edit_violated :
    gets (sendObject demoAnn demoAnnData ++ sendObject demoPut demoPutData ++ propValue 7 1 0xDC04 ++ ask (Toy.cmd 0x95C4 8 [1]) ++
        ask (Toy.cmd 0x95C3 9 [1, 1, 0]) ++ propValue 10 1 0xDC04 ++ ask (Toy.cmd 0x101B 11 [1, 0, 9]) ++ ask (Toy.cmd 0x95C5 12 [1]) ++
        propValue 13 1 0xDC04) =
      ([.response .ok 5 [0x00010001, 0, 1], .response .ok 6 [], .response .ok 7 [], .response .ok 8 [], .response .ok 9 [],
        .response .ok 10 [], .response .ok 11 [1], .response .ok 12 [], .response .ok 13 []],
        [3, 0, 0, 0, 0, 0, 0, 0] ++ [3, 0, 0, 0, 0, 0, 0, 0] ++ [7] ++ [1, 0, 0, 0, 0, 0, 0, 0]) := by
  decide +kernel

/-- C100 is violated when an upload fails: the size announced (3), if it was asked for before the data came, is told from then on;
nothing is in the file, and GetObject sends nothing. -/
theorem C100_failed_violated :
    gets (sendObject demoAnn demoAnnData ++ propValue 7 1 0xDC04 ++ sendObject demoPut [Toy.dat 0x100D 6 [7, 8]] ++
        propValue 8 1 0xDC04 ++ ask (Toy.cmd 0x1009 9 [1])) =
      ([.response .ok 5 [0x00010001, 0, 1], .response .ok 7 [], .response .incompleteTransfer 6 [], .response .ok 8 [], .response .ok 9 []],
        [3, 0, 0, 0, 0, 0, 0, 0] ++ [3, 0, 0, 0, 0, 0, 0, 0]) := by
  decide +kernel

/-- C100 is violated for an upload announced with SendObjectPropList: a value sent for a property that cannot be set (here the parent,
99) is told from then on, although there is no such object and the file is listed in the root. -/
theorem C100_listed_violated :
    gets (sendObject demoListCmd [dataContainer 0x9808 5 (Spec.listData [⟨0, 0xDC07, 0xFFFF, .str [97, 98]⟩, ⟨0, 0xDC0B, 6, .int 4 99⟩])] ++
        sendObject demoPut demoPutData ++ propValue 7 1 0xDC0B ++ ask (Toy.cmd 0x1007 8 [0x00010001, 0, 0xFFFFFFFF])) =
      ([.response .ok 5 [0x00010001, 0, 1], .response .ok 6 [], .response .ok 7 [], .response .ok 8 []],
        [99, 0, 0, 0] ++ [1, 0, 0, 0, 1, 0, 0, 0]) := by
  decide +kernel

/-- What a host sends with SendObjectPropList for a property the storage has no value for (here the artist) is told back; a new name is
told as set. -/
example : gets (sendObject demoListCmd demoListData ++ sendObject demoPut demoPutData ++ propValue 7 1 0xDC46) =
    ([.response .ok 5 [0x00010001, 0, 1], .response .ok 6 [], .response .ok 7 []], [2, 99, 0, 0, 0]) := by
  decide +kernel

example : gets (sendObject demoAnn demoAnnData ++ sendObject demoPut demoPutData ++
      sendObject (Toy.cmd 0x9804 7 [1, 0xDC07]) [dataContainer 0x9804 7 (enc (.str [99]))] ++ propValue 8 1 0xDC07) =
    ([.response .ok 5 [0x00010001, 0, 1], .response .ok 6 [], .response .ok 7 [], .response .ok 8 []], [2, 99, 0, 0, 0]) := by
  decide +kernel

end Props
