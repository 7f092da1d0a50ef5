import Verif.Spec.Control
import Verif.Lemmas.Responder
/-! The device status through all histories. -/
namespace Mtp
open Spec

variable {D : Type}

theorem deviceStatus_append (a b : List Out) : deviceStatus (a ++ b) = b.foldl (fun s o => o.status.getD s) (deviceStatus a) := by
  simp [deviceStatus]

theorem deviceStatus_snoc (a : List Out) (o : Out) : deviceStatus (a ++ [o]) = o.status.getD (deviceStatus a) := by
  simp [deviceStatus]

/-- The status is busy whenever something of a transaction is sent, and OK right after the response. -/
def Talk (out : List Out) : Prop :=
  ∀ a o b, out = a ++ o :: b → (OfTransaction o → deviceStatus a = .busy) ∧ (o.isResponse → b.head? = some .statusOk)

theorem Talk.nil : Talk [] := by
  intro a o b h
  simp at h

theorem Talk.snoc {out : List Out} (h : Talk out) (o : Out) (h1 : OfTransaction o → deviceStatus out = .busy) (h2 : o.isResponse = false) :
    Talk (out ++ [o]) := by
  intro a x b e
  rcases List.eq_nil_or_concat b with rfl | ⟨b', y, rfl⟩
  · obtain ⟨e1, e2⟩ := List.append_inj' e rfl
    cases e1
    cases e2
    exact ⟨h1, fun hr => by rw [h2] at hr; cases hr⟩
  · have e' : out ++ [o] = (a ++ x :: b') ++ [y] := by rw [e]; simp
    obtain ⟨e1, e2⟩ := List.append_inj' e' rfl
    obtain ⟨t1, t2⟩ := h a x b' e1
    refine ⟨t1, fun hr => ?_⟩
    have := t2 hr
    cases b' with
    | nil => cases this
    | cons z b' => simpa using this

theorem Talk.answer {out : List Out} (h : Talk out) (o : Out) (h1 : deviceStatus out = .busy) : Talk (out ++ [o, .statusOk]) := by
  intro a x b e
  rcases List.eq_nil_or_concat b with rfl | ⟨b', y, rfl⟩
  · have e' : (out ++ [o]) ++ [.statusOk] = a ++ [x] := by rw [← e]; simp
    obtain ⟨_, e2⟩ := List.append_inj' e' rfl
    cases e2
    exact ⟨False.elim, fun hr => by cases hr⟩
  · have e' : (out ++ [o]) ++ [.statusOk] = (a ++ x :: b') ++ [y] := by
      have : out ++ [o, .statusOk] = (out ++ [o]) ++ [.statusOk] := by simp
      rw [← this, e]; simp
    obtain ⟨e1, e2⟩ := List.append_inj' e' rfl
    cases e2
    rcases List.eq_nil_or_concat b' with rfl | ⟨b2, z, rfl⟩
    · obtain ⟨e3, e4⟩ := List.append_inj' e1 rfl
      cases e3
      cases e4
      exact ⟨fun _ => h1, fun _ => rfl⟩
    · have e3 : out ++ [o] = (a ++ x :: b2) ++ [z] := by rw [e1]; simp
      obtain ⟨e4, _⟩ := List.append_inj' e3 rfl
      obtain ⟨t1, t2⟩ := h a x b2 e4
      refine ⟨t1, fun hr => ?_⟩
      have := t2 hr
      cases b2 with
      | nil => cases this
      | cons w b2 => simpa using this

/-- A transaction is going on. -/
def Waiting (s : RState) : Prop := s = .waitData ∨ s = .waitResp ∨ s = .waitStorage

/-- The state of the responder and what it has sent. `strict`: the interface was never switched off. -/
structure StI (strict : Prop) (st : RState) (req : Option (List UInt8)) (resend : Option Out) (out : List Out) : Prop where
  talk : Talk out
  busy : Waiting st → deviceStatus out = .busy
  awake : st ≠ .suspend
  kept : resend = none
  has : Waiting st → req ≠ none
  free : strict → Out.reset ∉ out → (req ≠ none ↔ Waiting st) ∧ (Waiting st ∨ deviceStatus out = .ok)

namespace Rsp

variable {s : Prop}

def StInv (s : Prop) (r : Rsp D) : Prop := StI s r.st r.req r.resend r.out

/-- A request being handled means that a transaction is going on. -/
def Held (r : Rsp D) : Prop := r.req ≠ none → Waiting r.st

theorem _root_.Mtp.StI.plain {s : Prop} {st : RState} {q : Option (List UInt8)} {o : Option Out} {out : List Out} (h : StI s st q o out) (x : Out)
    (h1 : OfTransaction x → deviceStatus out = .busy) (h2 : x.isResponse = false) (h3 : x.status = none) : StI s st q o (out ++ [x]) := by
  have e : deviceStatus (out ++ [x]) = deviceStatus out := by rw [deviceStatus_snoc, h3]; rfl
  refine ⟨h.talk.snoc x h1 h2, fun w => by rw [e]; exact h.busy w, h.awake, h.kept, h.has, fun hs hr => ?_⟩
  rw [e]
  exact h.free hs (fun hm => hr (by simp [hm]))

theorem StInv.plain {r : Rsp D} (h : StInv s r) (x : Out) (h1 : OfTransaction x → deviceStatus r.out = .busy) (h2 : x.isResponse = false)
    (h3 : x.status = none) : StInv s (r.emit x) := StI.plain h x h1 h2 h3

theorem status_setState (r : Rsp D) (x : RState) : deviceStatus (r.setState x).out = deviceStatus r.out := by
  rw [setState_out]
  by_cases h1 : r.st = .idle <;> by_cases h2 : x = .idle <;> simp [h1, h2, deviceStatus, Out.status]

theorem talk_setState (r : Rsp D) (x : RState) (h : Talk r.out) : Talk (r.setState x).out := by
  rw [setState_out]
  by_cases h1 : r.st = .idle <;> by_cases h2 : x = .idle <;> simp [h1, h2, h]
  · exact h.snoc _ False.elim rfl
  · exact h.snoc _ False.elim rfl

theorem reset_setState (r : Rsp D) (x : RState) : Out.reset ∈ (r.setState x).out ↔ Out.reset ∈ r.out := by
  rw [setState_out]
  by_cases h1 : r.st = .idle <;> by_cases h2 : x = .idle <;> simp [h1, h2]

/-- A response is sent. -/
theorem StInv.send {r : Rsp D} (h : StInv s r) (hh : Held r) (o : Out) (hr : r.req ≠ none) (ho : o.status = none) :
    StInv s (r.send o).1 ∧ Held (r.send o).1 := by
  have w := hh hr
  unfold Rsp.send
  rw [if_neg (by intro e; rw [e.1] at w; rcases w with w | w | w <;> cases w), if_neg h.awake]
  split
  · next hres =>
    refine ⟨?_, fun e => absurd rfl e⟩
    show StI s _ _ _ _
    have hst : deviceStatus (r.setState .idle).out = .busy := by rw [status_setState]; exact h.busy w
    have t := Talk.answer (talk_setState r .idle h.talk) o hst
    have eo : (((r.setState .idle).emit o).emit .statusOk).deleteStored.out = (r.setState .idle).out ++ [o, .statusOk] := by
      simp [deleteStored_out, emit_out]
    have est : (((r.setState .idle).emit o).emit .statusOk).deleteStored.st = .idle := by
      show (r.setState .idle).st = .idle
      exact setState_st r .idle
    have ere : (((r.setState .idle).emit o).emit .statusOk).deleteStored.resend = none := by
      show (r.setState .idle).resend = none
      rw [setState_resend]; exact h.kept
    rw [eo, est, ere]
    have nw : ¬ Waiting RState.idle := by rintro (e | e | e) <;> cases e
    refine ⟨t, fun e => absurd e nw, by simp, rfl, fun e => absurd e nw, fun _ _ => ⟨⟨fun e => absurd rfl e, fun e => absurd e nw⟩, Or.inr ?_⟩⟩
    rw [deviceStatus_append]
    rfl
  · next hres =>
    exact ⟨h.plain o (fun _ => h.busy w) (by simpa using hres) ho, hh⟩

theorem StInv.reply {r : Rsp D} (h : StInv s r) (hh : Held r) (c : Resp) : StInv s (r.reply c) ∧ Held (r.reply c) := by
  unfold Rsp.reply
  split
  · exact ⟨h, hh⟩
  · next q e => exact h.send hh _ (by rw [e]; simp) rfl

theorem StInv.replyP {r r' : Rsp D} (h : StInv s r) (hh : Held r) (c : Resp) (ps : List Nat) (hr : r.replyP c ps = .ok r') :
    StInv s r' ∧ Held r' := by
  unfold Rsp.replyP at hr
  split at hr
  · cases hr; exact h.reply hh c
  · unfold reply1 at hr
    split at hr
    · simp at hr
    · next q e => cases hr; exact h.send hh _ (by rw [e]; simp) rfl

theorem StInv.more {r : Rsp D} (h : StInv s r) (w : Waiting r.st) (l : List (List UInt8 × Bool)) :
    StInv s { r with out := r.out ++ l.map fun f => .more f.1 f.2 } := by
  induction l generalizing r with
  | nil => simpa using h
  | cons f l ih =>
    have h2 := ih (h.plain (.more f.1 f.2) (fun _ => h.busy w) rfl rfl) w
    have e : ({ (r.emit (.more f.1 f.2)) with out := (r.emit (.more f.1 f.2)).out ++ l.map fun f => .more f.1 f.2 } : Rsp D) =
        { r with out := r.out ++ (f :: l).map fun f => .more f.1 f.2 } := by
      simp [Rsp.emit]
    rw [e] at h2
    exact h2

theorem StInv.sendReply {r r' : Rsp D} (h : StInv s r) (hh : Held r) (q : List UInt8) (p : Reply) (hq : r.req ≠ none)
    (hr : r.sendReply q p = .ok r') : StInv s r' ∧ Held r' := by
  have w := hh hq
  unfold Rsp.sendReply at hr
  split at hr
  · split at hr
    · cases hr; exact ⟨h, hh⟩
    · exact h.replyP hh _ _ hr
  · next d l rest hf =>
    have hs : r.send (.data (cCode q) (cTid q) d l) = (r.emit (.data (cCode q) (cTid q) d l), true) := by
      unfold Rsp.send
      rw [if_neg (by intro e; rw [e.1] at w; rcases w with w | w | w <;> cases w), if_neg h.awake]
      rfl
    rw [hs] at hr
    simp only at hr
    have h1 : StInv s (r.emit (.data (cCode q) (cTid q) d l)) := h.plain _ (fun _ => h.busy w) rfl rfl
    have h2 := StInv.more h1 w rest
    split at hr
    · cases hr; exact ⟨h2, hh⟩
    · exact h2.replyP (r := { (r.emit (.data (cCode q) (cTid q) d l)) with
          out := (r.emit (.data (cCode q) (cTid q) d l)).out ++ rest.map fun f => .more f.1 f.2 }) hh _ _ hr

theorem not_waiting : ¬ Waiting RState.idle ∧ ¬ Waiting RState.txCancel :=
  ⟨(by rintro (e | e | e) <;> cases e), (by rintro (e | e | e) <;> cases e)⟩

theorem closeSession_st (r : Rsp D) : r.closeSession.st = .idle := by
  show (({ r with session := 0 } : Rsp D).deleteStored.setState .idle).st = .idle
  exact setState_st _ .idle

theorem closeSession_req (r : Rsp D) : r.closeSession.req = none := by
  show (({ r with session := 0 } : Rsp D).deleteStored.setState .idle).req = none
  rw [setState_req]; rfl

/-- The session is dropped; a status OK follows or the interface was switched off. -/
theorem StInv.closed {r : Rsp D} (h : StInv s r) : StInv False r.closeSession := by
  have e1 : r.closeSession.st = .idle := closeSession_st r
  have e2 : r.closeSession.resend = none := by
    show (({ r with session := 0 } : Rsp D).deleteStored.setState .idle).resend = none
    rw [setState_resend]; exact h.kept
  refine ⟨?_, ?_, by rw [e1]; simp, e2, by rw [e1]; exact fun w => absurd w not_waiting.1, False.elim⟩
  · exact talk_setState (({ r with session := 0 } : Rsp D).deleteStored) .idle h.talk
  · rw [e1]; exact fun w => absurd w not_waiting.1

theorem StInv.reseted {r : Rsp D} (h : StInv s r) : StInv s (r.closeSession.emit .statusOk) := by
  have h1 := h.closed
  have e1 : r.closeSession.st = .idle := closeSession_st r
  refine ⟨h1.talk.snoc _ False.elim rfl, ?_, h1.awake, h1.kept, h1.has, fun _ _ => ⟨?_, Or.inr ?_⟩⟩
  · show Waiting r.closeSession.st → _
    rw [e1]; exact fun w => absurd w not_waiting.1
  · show r.closeSession.req ≠ none ↔ Waiting r.closeSession.st
    rw [e1, closeSession_req]
    exact ⟨fun e => absurd rfl e, fun w => absurd w not_waiting.1⟩
  · rw [emit_out, deviceStatus_snoc]; rfl

theorem StInv.handleCancel {r : Rsp D} (h : StInv s r) (dv : Dev D) : StInv s (r.handleCancel dv) ∧ Held (r.handleCancel dv) := by
  unfold Rsp.handleCancel
  split
  · next e =>
    have nw : ¬ Waiting r.st := fun w => h.has w e
    refine ⟨⟨h.talk.snoc _ False.elim rfl, fun w => absurd w nw, h.awake, h.kept, h.has, fun _ _ => ⟨⟨fun e' => absurd e e', fun w => absurd w nw⟩, Or.inr ?_⟩⟩,
      fun e' => absurd e e'⟩
    rw [emit_out, deviceStatus_snoc]; rfl
  · have h1 : Talk (r.setState .txCancel).out := talk_setState r .txCancel h.talk
    have h2 : (r.setState .txCancel).st = .txCancel := setState_st r .txCancel
    have h3 : (r.setState .txCancel).resend = none := by rw [setState_resend]; exact h.kept
    generalize r.setState .txCancel = r1 at *
    have fin : ∀ r2 : Rsp D, Talk r2.out → r2.st = .txCancel → r2.resend = none →
        StInv s (r2.deleteStored.emit .statusOk) ∧ Held (r2.deleteStored.emit .statusOk) := by
      intro r2 a1 a2 a3
      refine ⟨⟨a1.snoc _ False.elim rfl, ?_, ?_, a3, ?_, fun _ _ => ⟨?_, Or.inr ?_⟩⟩, fun e => absurd rfl e⟩
      · show Waiting r2.st → _
        rw [a2]; exact fun w => absurd w not_waiting.2
      · show r2.st ≠ _
        rw [a2]; simp
      · show Waiting r2.st → _
        rw [a2]; exact fun w => absurd w not_waiting.2
      · show none ≠ none ↔ Waiting r2.st
        rw [a2]
        exact ⟨fun e => absurd rfl e, fun w => absurd w not_waiting.2⟩
      · rw [emit_out, deviceStatus_snoc]; rfl
    simp only
    split
    · unfold cancelUpload
      have half : ∀ r2 : Rsp D, Talk r2.out → r2.st = .txCancel → r2.resend = none →
          StInv s ((if r2.propList.isSome then { r2 with propList := none } else { r2 with sendSeq := none }).deleteStored.emit .statusOk) ∧
          Held ((if r2.propList.isSome then { r2 with propList := none } else { r2 with sendSeq := none }).deleteStored.emit .statusOk) := by
        intro r2 a1 a2 a3
        split
        · exact fin { r2 with propList := none } a1 a2 a3
        · exact fin { r2 with sendSeq := none } a1 a2 a3
      simp only
      split
      · exact half r1 h1 h2 h3
      · exact half _ h1 h2 h3
    · exact fin _ h1 h2 h3

end Rsp
end Mtp
