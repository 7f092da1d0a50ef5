import Verif.Spec.Whole
import Verif.Lemmas.Mixed
import Verif.Lemmas.Device
/-! The whole device does to its objects what its storage alone does. -/
namespace Mtp
open Spec
namespace Device

theorem sim : Rsp.Sim dev Server.dev (·.ps.srv) (fun _ => True) (fun _ => True) (fun c _ => c ∉ ownOps) (fun _ => True) where
  query d c ps _ hc := by
    refine ⟨?_, fun _ => trivial⟩
    have hp : c ∉ propOps := fun h => hc (List.mem_append_left _ h)
    have ho : c ∉ [0x1001, 0x1004, 0x1005, 0x1014, 0x1015, 0x1016, 0x9801, 0x9802, 0x9810, 0x9811] :=
      fun h => hc (List.mem_append_right _ h)
    simp only [List.mem_cons, List.not_mem_nil, or_false, not_or] at ho
    obtain ⟨h1, h2, h3, h4, h5, h6, h7, h8, h9, h10⟩ := ho
    have e := (PServer.sim.query d.ps c ps trivial hp).1
    show Server.query d.ps.srv c ps = ((query d c ps).1.ps.srv, (query d c ps).2)
    unfold query
    simp only [if_neg h1, if_neg h2, if_neg h3, if_neg h4, if_neg h5, if_neg h7, if_neg h8, if_neg h9]
    exact e
  copy d ps x _ _ := ⟨rfl, fun _ => trivial⟩
  check d c ps _ hc := by
    have h1 : c ≠ 0x1016 := fun e => hc (by rw [e]; decide)
    have e := PServer.sim.check d.ps c ps trivial (fun h => hc (List.mem_append_left _ h))
    show Server.dev.check d.ps.srv c ps = (if c = 0x1016 then _ else _)
    rw [if_neg h1]
    exact e
  store d c ps b _ hc := by
    refine ⟨?_, fun _ => trivial⟩
    have h1 : c ≠ 0x1016 := fun e => hc (by rw [e]; decide)
    have h2 : c ≠ 0x9811 := fun e => hc (by rw [e]; decide)
    have e := (PServer.sim.store d.ps c ps b trivial (fun h => hc (List.mem_append_left _ h))).1
    show Server.dev.store d.ps.srv c ps b = ((storeData d c ps b).1.ps.srv, (storeData d c ps b).2)
    unfold storeData
    rw [if_neg h1, if_neg h2]
    exact e
  listCheck _ _ _ _ := rfl
  addInfo _ _ _ _ _ := ⟨rfl, fun _ => ⟨trivial, fun _ => trivial⟩⟩
  addList _ _ _ _ _ := ⟨rfl, fun _ => ⟨trivial, Or.inl trivial⟩⟩
  write _ _ _ _ _ _ _ := ⟨rfl, trivial⟩
  cut _ _ _ _ _ := ⟨rfl, trivial⟩
  setProps d h b _ _ := PServer.sim.setProps d.ps h b trivial trivial
  writePartial _ _ _ _ _ _ _ _ := ⟨rfl, trivial⟩
  delete _ _ _ _ := ⟨rfl, trivial⟩
  handleOk _ _ _ _ := ⟨rfl, trivial⟩
  flush _ _ _ _ := ⟨rfl, trivial⟩
  setEvents _ _ _ _ _ := ⟨rfl, trivial⟩
  eventsOff _ _ := ⟨rfl, trivial⟩
  eventsOn _ _ _ := rfl

theorem good {r : Rsp Device} (hr : r.req = none) :
    Rsp.Good (fun _ : Device => True) (fun c _ => c ∉ ownOps) (fun _ => True) r :=
  ⟨trivial, (fun q e => by rw [hr] at e; cases e), fun _ _ => trivial, fun _ _ => ⟨Or.inl trivial, by decide⟩, fun _ _ => trivial⟩

/-! ### Objects that are not addressed -/

theorem sparing (x : Nat) (h0 : x ≠ 0) :
    Rsp.Sparing dev (fun d q => Server.Elsewhere x d.ps.srv q) (· ≠ x) (fun d h => Server.Other x d.ps.srv h)
      (fun ps => ∃ i p, ps = [i, p, x]) (fun d d' => Server.Survives x d.ps.srv d'.ps.srv) where
  refl d := Server.Survives.refl x d.ps.srv
  trans _ _ _ := Server.Survives.trans
  zero := Ne.symm h0
  edit _ _ h e := h.2.1 e
  query d q hq := by
    show Server.Survives x d.ps.srv (query d (cCode q) (cParams q)).1.ps.srv
    unfold query
    simp only
    repeat' split
    all_goals first
      | exact Server.Survives.refl x _
      | exact (PServer.sparing x h0).query d.ps q hq
      | (unfold answerRefs; split <;> exact Server.Survives.refl x _)
  copy d q b hq hc := (PServer.sparing x h0).copy d.ps q b hq hc
  store d c ps b := by
    show Server.Survives x d.ps.srv (storeData d c ps b).1.ps.srv
    unfold storeData
    split
    · unfold setDevProp; split <;> exact Server.Survives.refl x _
    split
    · unfold setReferences; split <;> exact Server.Survives.refl x _
    · exact (PServer.sparing x h0).store d.ps c ps b
  addInfo d ps b := (PServer.sparing x h0).addInfo d.ps ps b
  announced d ps b h := (PServer.sparing x h0).announced d.ps ps b h
  addList d ps b := (PServer.sparing x h0).addList d.ps ps b
  listed d ps b := (PServer.sparing x h0).listed d.ps ps b
  write d h b f l hw := (PServer.sparing x h0).write d.ps h b f l hw
  cut d h n hw := (PServer.sparing x h0).cut d.ps h n hw
  setProps d h b hw := (PServer.sparing x h0).setProps d.ps h b hw
  writePartial d h o b f l hw := (PServer.sparing x h0).writePartial d.ps h o b f l hw
  delete d h ho := (PServer.sparing x h0).delete d.ps h ho
  flush d _ := Server.Survives.refl x d.ps.srv
  setEvents d _ _ := Server.Survives.refl x d.ps.srv
  eventsOff d := Server.Survives.refl x d.ps.srv

theorem spares_clear {x : Nat} (h0 : x ≠ 0) {r r' : Rsp Device} (h : SparesWhole x r r') {d0 : Device}
    (hk : Rsp.Clear (· ≠ x) (fun d d' : Device => Server.Survives x d.ps.srv d'.ps.srv) d0 r) :
    Rsp.Clear (· ≠ x) (fun d d' : Device => Server.Survives x d.ps.srv d'.ps.srv) d0 r' := by
  induction h with
  | start => exact hk
  | @step r1 r2 i _ hs hi ih =>
    refine Rsp.run_clear (sparing x h0) (.cons hs ⟨fun b n e hst => ?_, ?_, ?_, ?_, ?_⟩ (.nil r2)) ih
    · have e' : Rsp.In.via (·.ps.srv) i = .packet b true true n := by rw [e]; rfl
      exact ⟨fun hc => hi.delete b n e' hst hc, fun hc => hi.edit b n e' hst hc, fun hc => hi.copy b n e' hst hc⟩
    · intro e q _ _ h0
      obtain ⟨c1, c2⟩ := hi.cancel (by rw [e]; rfl)
      unfold Rsp.cancelTarget at h0 ⊢
      cases hp : r1.propList with
      | some p => exact c2 p hp
      | none =>
        cases hs : r1.sendSeq with
        | some s => exact c1 s hs
        | none => rw [hp, hs] at h0; exact absurd rfl h0
    · rintro ⟨l, c, t, ps, e1, e2, i, p, rfl⟩
      exact hi.upload l c t i p e1 e2
    · rintro n rfl
      exact hi.others.1 n rfl
    · rintro d rfl
      exact hi.others.2 d.ps.srv rfl
  | drop h p _ ih => exact ⟨ih.dev, ih.seq, ih.lst, ih.edt⟩
  | battery n _ ih => exact ⟨ih.dev, ih.seq, ih.lst, ih.edt⟩
  | space v _ ih => exact ⟨ih.dev, ih.seq, ih.lst, ih.edt⟩

end Device
end Mtp
