import Verif.Lemmas.ServerReads
import Verif.Lemmas.ServerAnswers
import Verif.Props.PropSet
import Verif.Spec.ServerProps
/-! Answers about properties. -/
namespace Mtp
open Spec
namespace PServer

theorem infoOf_has {s : Server} (w : ServerOk s) {h : Nat} (hh : s.tree.has h = true) :
    ∃ it o, s.tree.get h = some it ∧ s.infoOf h = (.ok, o) ∧ o.parent = it.par ∧ o.format = it.fmt := by
  obtain ⟨it, e⟩ := has_iff.mp hh
  have hk := w.known h
  rw [hh] at hk
  obtain ⟨o, ho⟩ := Option.isSome_iff_exists.mp hk
  refine ⟨it, { o with fileName := Server.fromPath it.name, format := it.fmt, parent := it.par }, e, ?_, rfl, rfl⟩
  unfold Server.infoOf
  rw [e, ho]

/-- GetObjPropValue for an object that exists, if what is cached is true. -/
theorem get_value (r : Rsp PServer) (ho : Open r) (w : ServerOk r.dev.srv) (hcaps : r.dev.srv.caps.WF) (q : List UInt8)
    (hq : Asking q 0x9803) (hh : r.dev.srv.tree.has (cParam q 0) = true) (hp : cParam q 1 < 2 ^ 16) (d : ObjPropDesc)
    (hd : Props.Described r.dev.srv.caps (r.dev.srv.infoOf (cParam q 0)).2.format (cParam q 1) d) (v : Val) (hv : Typed d.dtype v)
    (hl : (enc v).length ≤ 2 ^ 30) (he : r.dev.srv.prop (cParam q 0) (cParam q 1) = some v)
    (hc : ∀ w, r.dev.cache.get (cParam q 0) (cParam q 1) = some w → w = some v) :
    ∃ r' b, AnsweredBy dev r r' (ask q) q .ok [] ∧ dataOf r'.out = dataOf r.out ++ b ∧
      readValue 0x9803 0 d.dtype (dataContainer 0x9803 0 b) = some (shown v) ∧ r'.dev.srv = r.dev.srv := by
  have hpar : r.dev.fac.store.has (r.dev.fac.store.parent (cParam q 0)) = true ∨ cParam q 0 = 0 := by
    by_cases h0 : cParam q 0 = 0
    · exact Or.inr h0
    · left
      obtain ⟨it, o, e1, e2, e3, _⟩ := infoOf_has w hh
      obtain ⟨p, pit, f1, f2, f3, _⟩ := w.wf.parent _ it e1 h0
      show r.dev.srv.tree.has (r.dev.srv.infoOf (cParam q 0)).2.parent = true
      rw [e2]
      show r.dev.srv.tree.has o.parent = true
      rw [e3, f2]
      exact has_iff.mpr ⟨pit, f3⟩
  obtain ⟨f, hr⟩ := r.dev.fac.read_true (cParam q 0) (cParam q 1) hh hpar (fun x hx => by
    rw [hc x hx]; exact he.symm)
  have he' : r.dev.fac.store.val (cParam q 0) (cParam q 1) = some v := he
  rw [he'] at hr
  obtain ⟨bytes, e, hb⟩ := Props.get_cached r.dev.view hcaps (cParam q 0) (cParam q 1) hp d hd hh v hv hl f hr 0
  obtain ⟨p, hpay⟩ : ∃ p, payload 0x9803 0 bytes = some p := by
    cases hpay : payload 0x9803 0 bytes with
    | some p => exact ⟨p, rfl⟩
    | none =>
      unfold readValue at hb
      rw [hpay] at hb
      cases hb
  obtain ⟨p1, p2⟩ := Server.payload_container hpay
  have hqu : dev.query r.dev 0x9803 (cParams q) = r.dev.answer (getObjPropValue r.dev.view 0 (cParam q 0) (cParam q 1)) := rfl
  rw [e] at hqu
  obtain ⟨r', a1, a2, a3⟩ := Server.query_answer_by dev r ho q 0x9803 hq _ rfl rfl .ok [] (by rw [hqu]; rfl)
  refine ⟨r', p, a1, ?_, by rw [← p1]; exact hb, by rw [a2, hqu]; rfl⟩
  rw [a3, hqu]
  simp [answer, Server.oneFrame, p2]

/-- GetObjectInfo. -/
theorem get_info (r : Rsp PServer) (ho : Open r) (q : List UInt8) (hq : Asking q 0x1008) (o : ObjInfo)
    (hi : r.dev.srv.infoOf (cParam q 0) = (.ok, o)) (hf : ObjInfoFits o) (hsz : o.size < 2 ^ 32)
    (hn : o.fileName.length ≤ 2 ^ 20 ∧ o.captureDate.length ≤ 2 ^ 20 ∧ o.modDate.length ≤ 2 ^ 20) :
    ∃ r' p, AnsweredBy dev r r' (ask q) q .ok [] ∧ dataOf r'.out = dataOf r.out ++ p ∧ r'.dev = r.dev ∧
      readObjInfo 0 (dataContainer 0x1008 0 p) = some { o with fileName := cut o.fileName, captureDate := cut o.captureDate, modDate := cut o.modDate, keywords := cut o.keywords } := by
  obtain ⟨bytes, e, hr⟩ := Props.C70_object_info_partial o hf hsz 96 0 (by decide) hn
  have hqu : dev.query r.dev 0x1008 (cParams q) =
      (r.dev, Server.oneFrame (getObjectInfo (r.dev.srv.infoOf (cParam q 0)) 96 0)) := rfl
  rw [hi, e] at hqu
  obtain ⟨p, hp⟩ : ∃ p, payload 0x1008 0 bytes = some p := by
    cases hp : payload 0x1008 0 bytes with
    | some p => exact ⟨p, rfl⟩
    | none =>
      unfold readObjInfo readDataset at hr
      rw [hp] at hr
      cases hr
  obtain ⟨p1, p2⟩ := Server.payload_container hp
  obtain ⟨r', a1, a2, a3⟩ := Server.query_answer_by dev r ho q 0x1008 hq _ rfl rfl .ok [] (by rw [hqu]; rfl)
  refine ⟨r', p, a1, ?_, by rw [a2, hqu], by rw [← p1]; exact hr⟩
  rw [a3, hqu]
  simp [Server.oneFrame, p2]

/-! ### Histories -/

theorem avoiding_using {avoid : List Nat} {i : Rsp.In PServer} (h : Avoiding avoid i) : Rsp.Using (· ∉ avoid) i := by
  cases i <;> first | exact h | exact h.elim

/-- What every step of a history respects. -/
theorem talked_closed {R : PServer → PServer → Prop} {avoid : List Nat} (cl : Rsp.Closed dev (· ∉ avoid) R)
    (hd : ∀ d : PServer, ∀ h p, R d { d with cache := d.cache.remove h p }) {r r' : Rsp PServer} (hr : r.req = none) (hl : r.propList = none)
    (ht : Talked avoid r r') : R r.dev r'.dev := by
  have : Rsp.Along (· ∉ avoid) R r.dev r' := by
    induction ht with
    | start => exact ⟨cl.refl _, (fun q e => by rw [hr] at e; cases e), (fun _ e => by rw [hl] at e; cases e)⟩
    | step _ hi hs ih => exact Rsp.Along.input cl ih _ (avoiding_using hi) hs
    | drop h p _ ih => exact ih.step cl (hd _ h p)
  exact this.dev

/-- Told by everyone, set by no one. -/
theorem told_readonly {p : Nat} (hp : p ∈ toldProps) (hn : p ≠ 0xDC07) (c : DevCaps) (cat : Cat) (d : ObjPropDesc)
    (hd : objectPropDesc c cat p = (.ok, some d)) : d.getSet = false := by
  by_cases hm : p ∈ propsSupported c cat
  · obtain ⟨k, r, hk, hr, hrc, he⟩ := objectPropDesc_some c cat p hm
    rw [he] at hd
    cases hd
    show r.getSet = false
    have : ∀ k, ∀ r ∈ rowsOf k, r.code ∈ toldProps → r.code ≠ 0xDC07 → r.getSet = false := by
      intro k
      cases k <;> decide
    exact this k r hr (hrc ▸ hp) (hrc ▸ hn)
  · rw [objectPropDesc_none c cat p hm] at hd
    cases hd

theorem fair_told {p : Nat} (hp : p ∈ toldProps) (Q : Nat → Prop) : Fair (· ∉ spoiling p) (fun h c => Q h ∧ c = p) where
  list h1 _ := absurd (by simp [spoiling]) h1
  data h := by
    rintro x c ⟨_, rfl⟩ hw
    have hm : c ∈ [0xDC04, 0xDC08, 0xDC09] := by
      unfold Server.written at hw
      rcases hw with rfl | rfl | rfl | rfl
      · decide
      · decide
      · decide
      · exact absurd hp (by decide)
    have : 0x100D ∈ spoiling c ∧ 0x95C2 ∈ spoiling c ∧ 0x95C3 ∈ spoiling c ∧ 0x101A ∈ spoiling c := by simp only [spoiling, if_pos hm]; simp
    rcases h with h | h | h | h
    · exact h this.1
    · exact h this.2.1
    · exact h this.2.2.1
    · exact h this.2.2.2
  sets h := by
    rintro x c ⟨_, rfl⟩
    have hn : c ≠ 0xDC07 := by
      rintro rfl
      rcases h with h | h <;> exact h (by decide)
    exact ⟨hn, fun c' cat d hd => told_readonly hp hn c' cat d hd⟩

theorem remove_next {P : Nat → Nat → Prop} (d : PServer) (h p : Nat) : Next P d { d with cache := d.cache.remove h p } :=
  Next.all (Server.Steady.refl ..) fun _ _ _ e => (remove_sub e).1

/-- After a history that does not spoil property `p` of the objects in `Q`. -/
theorem talked_coh {p : Nat} (hp : p ∈ toldProps) {Q : Nat → Prop} {r r' : Rsp PServer} (hr : r.req = none) (hl : r.propList = none)
    (ht : Talked (spoiling p) r r') (hb : r'.dev.srv.tree.asked < 0xFFFFFFFF) (hc : Coh (fun h c => Q h ∧ c = p) r.dev) :
    Coh (fun h c => Q h ∧ c = p) r'.dev :=
  (talked_closed (closed_next (fair_told hp Q)) remove_next hr hl ht).2 hb hc

theorem _root_.Spec.Fresh.coh {r : Rsp PServer} (h : Fresh r) (P : Nat → Nat → Prop) : Coh P r.dev :=
  ⟨h.ok, (fun x p v _ _ e => by rw [h.cache] at e; cases e), (fun x p v e => by rw [h.cache] at e; cases e)⟩

/-- After any history. -/
theorem talked_any {r r' : Rsp PServer} (hf : Fresh r) (ht : Talked [] r r') (hb : r'.dev.srv.tree.asked < 0xFFFFFFFF) :
    Coh (fun _ _ => False) r'.dev :=
  (talked_closed (closed_next ⟨fun _ _ _ _ => id, fun _ _ _ => False.elim, fun _ _ _ => False.elim⟩) remove_next hf.req hf.list ht).2 hb
    (hf.coh _)

/-- Without SendObjectPropList, none is under way. -/
theorem no_list {r r' : Rsp PServer} (hf : Fresh r) (ht : Talked [0x9808] r r') : r'.propList = none := by
  have cl : Rsp.Closed dev (· ∉ [0x9808]) (fun _ _ => True) := by
    constructor <;> intros <;> trivial
  have : Rsp.Along (· ∉ [0x9808]) (fun _ _ => True) r.dev r' := by
    induction ht with
    | start => exact ⟨trivial, (fun q e => by rw [hf.req] at e; cases e), (fun _ e => by rw [hf.list] at e; cases e)⟩
    | step _ hi hs ih => exact Rsp.Along.input cl ih _ (avoiding_using hi) hs
    | drop h p _ ih => exact ih.step cl trivial
  cases h : r'.propList with
  | none => rfl
  | some x => exact absurd (List.mem_singleton.mpr rfl) (this.list (by decide) (by rw [h]; rfl))

/-- The properties that no operation changes. -/
def fixed (p : Nat) : Prop := p ∈ [0xDC01, 0xDC02, 0xDC03, 0xDC41]

theorem fixed_all {s s' : Server} (h : Server.Steady (fun _ _ => True) s s') : Server.Steady (fun _ p => fixed p) s s' := h.mono fun _ _ _ => trivial

theorem fixed_touched {s s' : Server} (h : Server.Steady (fun _ p => ¬ Server.written p) s s') : Server.Steady (fun _ p => fixed p) s s' :=
  h.mono fun _ p hp hw => by
    unfold Server.written at hw
    unfold fixed at hp
    rcases hw with rfl | rfl | rfl | rfl <;> revert hp <;> decide

/-- What setting properties does to the objects. -/
theorem set_fixed (d : PServer) (h p : Nat) (v : Option Val) : Server.Steady (fun _ p => fixed p) d.srv (d.set h p v).1.srv := by
  unfold set
  split
  · exact Server.Steady.refl _ _
  · split
    · exact (Server.rename_steady ..).mono fun _ p hp e => by subst e; revert hp; unfold fixed; decide
    · exact Server.Steady.refl _ _

theorem setElem_fixed {d d' : PServer} {rx rx' : Rx} {r : Resp} (e : d.setElem rx = .ok (d', r, rx')) :
    Server.Steady (fun _ p => fixed p) d.srv d'.srv := by
  unfold setElem at e
  cases h1 : rx.getInt 4 with
  | ub u => rw [h1] at e; cases e
  | ok x =>
    obtain ⟨h, rx1⟩ := x
    rw [h1] at e
    simp only [Res.bind_ok] at e
    split at e
    · cases h2 : rx1.getInt 2 with
      | ub u => rw [h2] at e; cases e
      | ok x =>
        obtain ⟨p, rx2⟩ := x
        rw [h2] at e
        simp only [Res.bind_ok] at e
        split at e
        · split at e
          · cases h3 : rx2.getInt 2 with
            | ub u => rw [h3] at e; cases e
            | ok x =>
              obtain ⟨dt, rx3⟩ := x
              rw [h3] at e
              simp only [Res.bind_ok] at e
              cases h4 : rx3.getVariant dt with
              | ub u => rw [h4] at e; cases e
              | ok x =>
                obtain ⟨v, rx4⟩ := x
                rw [h4] at e
                simp only [Res.bind_ok, Res.pure_eq, Res.ok.injEq, Prod.mk.injEq] at e
                rw [← e.1]
                exact set_fixed ..
          · simp only [Res.pure_eq, Res.ok.injEq, Prod.mk.injEq] at e
            rw [← e.1]; exact Server.Steady.refl _ _
        · simp only [Res.pure_eq, Res.ok.injEq, Prod.mk.injEq] at e
          rw [← e.1]; exact Server.Steady.refl _ _
    · simp only [Res.pure_eq, Res.ok.injEq, Prod.mk.injEq] at e
      rw [← e.1]; exact Server.Steady.refl _ _

theorem setElems_fixed (n : Nat) : ∀ (i : Nat) (d : PServer) (rx : Rx),
    Server.Steady (fun _ p => fixed p) d.srv (setElems n i d rx).1.srv := by
  induction n with
  | zero => intro i d rx; exact Server.Steady.refl _ _
  | succ n ih =>
    intro i d rx
    unfold setElems
    split
    · next e => exact (setElem_fixed e).trans (ih _ _ _)
    · next e => exact setElem_fixed e
    · exact Server.Steady.refl _ _

theorem took_srv (d : PServer) (x : Res (Fac (Option Val) × Option (List UInt8) × Resp)) : (d.answer x).1.srv = d.srv := by
  unfold answer
  split <;> rfl

theorem closed_fixed {ok : Nat → Prop} : Rsp.Closed dev ok (fun d d' => Server.Steady (fun _ p => fixed p) d.srv d'.srv) where
  refl d := Server.Steady.refl _ _
  trans _ _ _ := Server.Steady.trans
  query d c ps _ := by
    show Server.Steady _ d.srv (d.query c ps).1.srv
    unfold query
    simp only
    split
    · rw [took_srv]; exact Server.Steady.refl _ _
    split
    · rw [took_srv]; exact Server.Steady.refl _ _
    split
    · exact Server.delete_steady ..
    split
    · exact (Server.move_steady ..).mono fun _ p hp _ g => by
        have := g.2; subst this; revert hp; unfold fixed; decide
    · next h1 h2 =>
      show Server.Steady _ d.srv (Server.query d.srv c ps).1
      unfold Server.query
      simp only [if_neg h1, if_neg h2]
      repeat' split
      all_goals first
        | exact Server.Steady.refl _ _
        | exact Server.Steady.of (Server.tick_later _) fun _ _ x hx => Or.inr ⟨hx, fun _ _ => rfl⟩
  copy _ d ps c := fixed_touched (Server.steps_steady.whole d.srv ps c)
  store d c ps b _ := by
    show Server.Steady _ d.srv (d.store c ps b).1.srv
    unfold store
    split
    · split
      · unfold setValue
        split
        · split
          · exact set_fixed ..
          · exact Server.Steady.refl _ _
        · exact Server.Steady.refl _ _
      · exact Server.Steady.refl _ _
    · split
      · unfold setList
        split
        · exact Server.Steady.refl _ _
        · next n rx _ =>
          have := setElems_fixed n 0 d rx
          split
          · next e2 => rw [e2] at this; exact this
          · next e2 => rw [e2] at this; exact this
      · exact Server.Steady.refl _ _
  addInfo _ d ps b := Server.addInfo_steady ..
  addList _ d ps b := Server.addList_steady ..
  write _ d h b f' l := fixed_touched ((Server.write_touched d.srv h b f' l).steady
    (Server.Later.of (congrArg Tree.asked (Server.write_tree ..)) fun w => Server.write_ok w _ _ _ _))
  cut _ d h n := fixed_touched ((Server.truncate_touched d.srv h n).steady
    (Server.Later.of (congrArg Tree.asked (Server.truncate_tree ..)) fun w => Server.truncate_ok w _ _))
  setProps _ _ d h b := by
    show Server.Steady _ d.srv (d.setProps h b).srv
    unfold setProps
    split
    · split <;> exact Server.Steady.refl _ _
    · exact Server.Steady.refl _ _
  writePartial _ d h o b f' l := fixed_touched ((Server.writePartial_touched d.srv h o b f' l).steady
    (Server.Later.of (congrArg Tree.asked (Server.writePartial_tree ..)) fun w => Server.writePartial_ok w _ _ _ _ _))
  delete _ d h := Server.delete_steady ..
  flush _ d h := Server.Steady.refl _ _
  setEvents _ d _ _ := Server.Steady.refl _ _
  eventsOff _ d := Server.Steady.refl _ _

/-- EndEditObject. -/
theorem end_edit (r : Rsp PServer) (ho : Open r) (e : EditSeq) (he : r.edit = some e) (q : List UInt8) (hq : Asking q 0x95C5)
    (hh : cParam q 0 = e.handle) :
    ∃ r1, AnsweredBy dev r r1 (ask q) q .ok [] ∧ dataOf r1.out = dataOf r.out ∧
      r1.dev = { r.dev with cache := r.dev.cache.remove e.handle } ∧ r1.propList = r.propList := by
  have hpc : Rsp.preCheck (r.accept q).session (cTid q) = .ok := by rw [Rsp.accept_session, Rsp.preCheck_ok ho.session hq.tid]
  have h1 : r.run dev (ask q) = (r.accept q).handle dev q [] .endEdit := by
    unfold ask
    simp only [Rsp.run, Rsp.step]
    rw [Rsp.receive_idle dev r q [] ho.idle, Rsp.command_accept dev r q [] (Or.inl ho.ready), hq.code]
    show ((r.accept q).handle dev q [] .endEdit >>= fun x => Res.ok x) = _
    cases (r.accept q).handle dev q [] .endEdit <;> rfl
  have h2 : (r.accept q).handle dev q [] .endEdit =
      .ok (({ (r.accept q) with edit := none, dev := { r.dev with cache := r.dev.cache.remove e.handle } } : Rsp PServer).reply .ok) := by
    simp only [Rsp.handle, Rsp.endEditReq]
    rw [hpc]
    simp only [Rsp.accept_edit, he, hh, ne_eq, not_true, if_false, Rsp.accept_dev]
    rfl
  have hst : (r.accept q).st = .waitResp := by rw [Rsp.accept_st, hq.code]; rfl
  obtain ⟨r1, b1, b2, b3, b4, b5⟩ := Server.replyP_spec
    ({ (r.accept q) with edit := none, dev := { r.dev with cache := r.dev.cache.remove e.handle } } : Rsp PServer) q
    (Rsp.accept_req ..) (Or.inl hst) ((Rsp.accept_ready ..).trans ho.ready)
    (by show (r.accept q).session ≠ 0; rw [Rsp.accept_session]; exact ho.session) .ok []
  have b1' : (({ (r.accept q) with edit := none, dev := { r.dev with cache := r.dev.cache.remove e.handle } } : Rsp PServer).reply .ok) = r1 := by
    simpa [Rsp.replyP] using b1
  refine ⟨r1, ⟨by rw [h1, h2, b1'], ⟨u16 (cTid q), by unfold u16; omega, ?_⟩, b3⟩, ?_, b2, ?_⟩
  · rw [b4]
    show responses (r.accept q).out ++ _ = _
    rw [Rsp.responses_accept]
    rfl
  · rw [b5]
    exact Server.dataOf_accept ..
  · rw [← b1', Rsp.reply_propList]
    exact Rsp.accept_propList ..

theorem told_common {p : Nat} (hp : p ∈ toldProps) : p ∈ commonRows.map (·.code) ∧ p < 2 ^ 16 := by
  have : ∀ p ∈ toldProps, p ∈ commonRows.map (·.code) ∧ p < 2 ^ 16 := by decide
  exact this p hp

theorem told_described {p : Nat} (hp : p ∈ toldProps) (c : DevCaps) (hw : c.WF) (fmt : Nat) :
    ∃ d, Props.Described c fmt p d ∧ d.dtype = stdType p := by
  obtain ⟨h1, h2⟩ := told_common hp
  rcases Props.desc_of c hw fmt p h2 with ⟨d, _, h, _, _, _, _, e⟩ | ⟨h, _⟩
  · exact ⟨d, h, e⟩
  · have hu : u16 p = p := by unfold u16; omega
    obtain ⟨k, r, _, _, _, hd⟩ := objectPropDesc_some c (c.category (u16 fmt)) p ((supported_mem c _ _).mpr (Or.inl h1))
    rw [hu, hd] at h
    cases h

end PServer
end Mtp
