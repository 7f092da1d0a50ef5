import Verif.Spec.Mixed
import Verif.Lemmas.Sim
import Verif.Lemmas.Fitting
import Verif.Lemmas.ServerSpare
import Verif.Lemmas.ServerReads
/-! The server with properties does to its objects what the server without does. -/
namespace Mtp
open Spec

namespace Rsp
variable {D E : Type} {dv : Dev D} {ev : Dev E} {f : D → E} {okq : Nat → List Nat → Prop} {H : Nat → Prop}

/-- What the one does, the other does. -/
theorem sim_lift {I : D → Prop} (S : Sim dv ev f I (fun _ => True) okq H) (is : List (In D)) :
    ∀ {r : Rsp D} {s : Rsp E}, Good I okq H r → Fitting dv okq r is → (r.via f).run ev (is.map (In.via f)) = .ok s →
      ∃ r', r.run dv is = .ok r' ∧ r'.via f = s ∧ Good I okq H r' := by
  induction is with
  | nil => intro r s g _ e; cases e; exact ⟨r, rfl, rfl, g⟩
  | cons x is ih =>
    intro r s g hf hr
    cases hf with
    | cons h1 h2 =>
      obtain ⟨a, b⟩ := sim_step S g x h1
      rw [List.map_cons, run, a] at hr
      rw [run]
      cases hs : r.step dv x with
      | ub e => rw [hs] at hr; cases hr
      | ok r1 =>
        rw [hs] at hr
        simp only [viaRes_ok, Res.bind_ok] at hr ⊢
        exact ih (b r1 hs trivial) (h2 r1 hs) hr

end Rsp

namespace PServer

theorem sim : Rsp.Sim dev Server.dev (·.srv) (fun _ => True) (fun _ => True) (fun c _ => c ∉ propOps) (fun _ => True) where
  query d c ps _ hc := by
    refine ⟨?_, fun _ => trivial⟩
    simp only [propOps, List.mem_cons, List.not_mem_nil, or_false, not_or] at hc
    show Server.query d.srv c ps = ((query d c ps).1.srv, (query d c ps).2)
    unfold query
    simp only [if_neg hc.1, if_neg hc.2.2.1]
    split
    · next e => subst e; rfl
    · split
      · next e => subst e; rfl
      · rfl
  copy d ps x _ _ := ⟨rfl, fun _ => trivial⟩
  check d c ps _ hc := by
    have : c ≠ 0x9804 := fun e => hc (by rw [e]; decide)
    show (if c = 0x9804 then _ else _) = (if c = 0x9804 then _ else _)
    rw [if_neg this, if_neg this]
  store d c ps b _ hc := by
    refine ⟨?_, fun _ => trivial⟩
    simp only [propOps, List.mem_cons, List.not_mem_nil, or_false, not_or] at hc
    show Server.store d.srv c ps b = ((store d c ps b).1.srv, (store d c ps b).2)
    unfold store Server.store
    rw [if_neg (fun e => hc.2.1 e.1), if_neg hc.2.1, if_neg hc.2.2.2]
  listCheck _ _ _ _ := rfl
  addInfo _ _ _ _ _ := ⟨rfl, fun _ => ⟨trivial, fun _ => trivial⟩⟩
  addList _ _ _ _ _ := ⟨rfl, fun _ => ⟨trivial, Or.inl trivial⟩⟩
  write _ _ _ _ _ _ _ := ⟨rfl, trivial⟩
  cut _ _ _ _ _ := ⟨rfl, trivial⟩
  setProps d h b _ _ := by
    refine ⟨?_, trivial⟩
    show d.srv = (setProps d h b).srv
    unfold setProps
    split
    · split <;> rfl
    · rfl
  writePartial _ _ _ _ _ _ _ _ := ⟨rfl, trivial⟩
  delete _ _ _ _ := ⟨rfl, trivial⟩
  handleOk _ _ _ _ := ⟨rfl, trivial⟩
  flush _ _ _ _ := ⟨rfl, trivial⟩
  setEvents _ _ _ _ _ := ⟨rfl, trivial⟩
  eventsOff _ _ := ⟨rfl, trivial⟩
  eventsOn _ _ _ := rfl

theorem good {r : Rsp PServer} (hr : r.req = none) :
    Rsp.Good (fun _ : PServer => True) (fun c _ => c ∉ propOps) (fun _ => True) r :=
  ⟨trivial, (fun q e => by rw [hr] at e; cases e), fun _ _ => trivial, fun _ _ => ⟨Or.inl trivial, by decide⟩, fun _ _ => trivial⟩

theorem answer_srv (d : PServer) (x : Res (Fac (Option Val) × Option (List UInt8) × Resp)) : (d.answer x).1.srv = d.srv := by
  unfold answer
  split <;> rfl

/-! ### Setting properties -/

/-- What setting properties does to the objects: nothing, or it renames some. -/
inductive Renamed : Server → Server → Prop
  | none (s : Server) : Renamed s s
  | one {s s' : Server} (h : Nat) (n : QStr) : Renamed (s.rename h n).1 s' → Renamed s s'

theorem Renamed.trans {a b c : Server} (h1 : Renamed a b) (h2 : Renamed b c) : Renamed a c := by
  induction h1 with
  | none => exact h2
  | one h n _ ih => exact .one h n (ih h2)

theorem set_renamed (d : PServer) (h p : Nat) (v : Option Val) : Renamed d.srv (d.set h p v).1.srv := by
  unfold set
  split
  · exact .none _
  · split
    · exact .one h (asName v) (.none _)
    · exact .none _

theorem setElem_renamed {d d' : PServer} {rx rx' : Rx} {r : Resp} (e : d.setElem rx = .ok (d', r, rx')) : Renamed d.srv d'.srv := by
  unfold setElem at e
  cases h1 : rx.getInt 4 with
  | ub u => rw [h1] at e; cases e
  | ok x =>
    obtain ⟨h, rx1⟩ := x
    rw [h1] at e
    simp only [Res.bind_ok] at e
    split at e
    · cases h2 : rx1.getInt 2 with
      | ub u => rw [h2] at e; cases e
      | ok x =>
        obtain ⟨p, rx2⟩ := x
        rw [h2] at e
        simp only [Res.bind_ok] at e
        split at e
        · next t et =>
          split at e
          · cases h3 : rx2.getInt 2 with
            | ub u => rw [h3] at e; cases e
            | ok x =>
              obtain ⟨dt, rx3⟩ := x
              rw [h3] at e
              simp only [Res.bind_ok] at e
              cases h4 : rx3.getVariant dt with
              | ub u => rw [h4] at e; cases e
              | ok x =>
                obtain ⟨v, rx4⟩ := x
                rw [h4] at e
                simp only [Res.bind_ok, Res.pure_eq, Res.ok.injEq, Prod.mk.injEq] at e
                rw [← e.1]
                exact set_renamed ..
          · simp only [Res.pure_eq, Res.ok.injEq, Prod.mk.injEq] at e
            rw [← e.1]; exact .none _
        · simp only [Res.pure_eq, Res.ok.injEq, Prod.mk.injEq] at e
          rw [← e.1]; exact .none _
    · simp only [Res.pure_eq, Res.ok.injEq, Prod.mk.injEq] at e
      rw [← e.1]; exact .none _

theorem setElems_renamed (n : Nat) : ∀ (i : Nat) (d : PServer) (rx : Rx), Renamed d.srv (setElems n i d rx).1.srv := by
  induction n with
  | zero => intro i d rx; exact .none _
  | succ n ih =>
    intro i d rx
    unfold setElems
    split
    · next e => exact (setElem_renamed e).trans (ih _ _ _)
    · next e => exact setElem_renamed e
    · exact .none _

theorem store_renamed (d : PServer) (c : Nat) (ps : List Nat) (b : List UInt8) : Renamed d.srv (d.store c ps b).1.srv := by
  unfold store
  split
  · split
    · unfold setValue
      split
      · split
        · exact set_renamed ..
        · exact .none _
      · exact .none _
    · exact .none _
  · split
    · unfold setList
      split
      · exact .none _
      · next n rx _ =>
        have := setElems_renamed n 0 d rx
        split
        · next e2 => rw [e2] at this; exact this
        · next e2 => rw [e2] at this; exact this
    · exact .none _

theorem Renamed.survives {s s' : Server} (h : Renamed s s') {x : Nat} (h0 : x ≠ 0) : Server.Survives x s s' := by
  induction h with
  | none s => exact Server.Survives.refl x s
  | @one s s' h n _ ih =>
    refine Server.Survives.trans ?_ ih
    refine Server.Survives.quiet (Server.rename_later ..) (Server.rename_same ..).2.2.1 (Server.rename_same ..).1 fun w => ?_
    rcases Server.rename_cases' w h n with q | ⟨_, it, p, pit, _, _, _, m, _⟩
    · exact q.safe x
    · exact m.safe w h0

/-! ### Objects that are not addressed -/

theorem sparing (x : Nat) (h0 : x ≠ 0) :
    Rsp.Sparing dev (fun d q => Server.Elsewhere x d.srv q) (· ≠ x) (fun d h => Server.Other x d.srv h)
      (fun ps => ∃ i p, ps = [i, p, x]) (fun d d' => Server.Survives x d.srv d'.srv) where
  refl d := Server.Survives.refl x d.srv
  trans _ _ _ := Server.Survives.trans
  zero := Ne.symm h0
  edit _ _ h e := h.2.1 e
  query d q hq := by
    show Server.Survives x d.srv (query d (cCode q) (cParams q)).1.srv
    unfold query
    simp only
    split
    · rw [answer_srv]; exact Server.Survives.refl x _
    split
    · rw [answer_srv]; exact Server.Survives.refl x _
    split
    · next h => exact Server.delete_survives h0 d.srv _ _ (hq.1 h)
    split
    · exact Server.move_survives h0 d.srv ..
    · exact (Server.sparing x h0).query d.srv q hq
  copy d q b hq hc := (Server.sparing x h0).copy d.srv q b hq hc
  store d c ps b := (store_renamed d c ps b).survives h0
  addInfo d ps b := (Server.sparing x h0).addInfo d.srv ps b
  announced d ps b h := (Server.sparing x h0).announced d.srv ps b h
  addList d ps b := (Server.sparing x h0).addList d.srv ps b
  listed d ps b := (Server.sparing x h0).listed d.srv ps b
  write d h b f l hw := (Server.sparing x h0).write d.srv h b f l hw
  cut d h n hw := (Server.sparing x h0).cut d.srv h n hw
  setProps d h b _ := by
    have := (sim.setProps d h b trivial trivial).1
    rw [← this]
    exact Server.Survives.refl x _
  writePartial d h o b f l hw := (Server.sparing x h0).writePartial d.srv h o b f l hw
  delete d h ho := (Server.sparing x h0).delete d.srv h ho
  flush d _ := Server.Survives.refl x d.srv
  setEvents d _ _ := Server.Survives.refl x d.srv
  eventsOff d := Server.Survives.refl x d.srv

end PServer
end Mtp
