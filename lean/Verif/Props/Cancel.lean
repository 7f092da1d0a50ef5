import Verif.Props.Announce
/-! Property theorems C38: cancelling an upload. -/
namespace Props
open Mtp Mtp.Rsp Spec

variable {D : Type}

/-- The operations an upload consists of. -/
def IsUpload (code : Nat) : Prop := code = 0x100C ∨ code = 0x9808 ∨ code = 0x100D

/-- C38. A cancel during SendObjectInfo, SendObjectPropList or SendObject removes the announced object (if the
storage can delete it) and forgets the announcement; the host is told the device is ready. `h` is the object
announced by the one announcement pending, `w` bytes of it may have been written already; with two
announcements pending see `C38_both_violated`. -/
theorem C38_cancel_partial (dv : Dev D) (has : D → Nat → Prop)
    (law : ∀ d h, (dv.delete d h).2 = .ok → ¬ has (dv.delete d h).1 h)
    (r : Rsp D) (q : List UInt8) (hq : r.req = some q) (hc : IsUpload (cCode q)) (h n w : Nat) (hh : h ≠ 0)
    (hp : (r.sendSeq = some ⟨h, n, w⟩ ∧ r.propList = none) ∨
      (r.sendSeq = none ∧ ∃ p, r.propList = some p ∧ p.handle = h)) :
    (r.handleEv dv .cancel).sendSeq = none ∧ (r.handleEv dv .cancel).propList = none ∧
    (r.handleEv dv .cancel).dev = (dv.delete r.dev h).1 ∧
    ((dv.delete r.dev h).2 = .ok → ¬ has (r.handleEv dv .cancel).dev h) ∧
    (r.handleEv dv .cancel).req = none ∧ responses (r.handleEv dv .cancel).out = responses r.out ∧
    (r.handleEv dv .cancel).out.getLast? = some .statusOk := by
  have hc' : cCode q = 0x100D ∨ cCode q = 0x9808 ∨ cCode q = 0x100C := by
    rcases hc with e | e | e <;> simp [e]
  have key : r.handleEv dv .cancel =
      (({ (r.setState .txCancel) with sendSeq := none, propList := none, dev := (dv.delete r.dev h).1 } :
        Rsp D).deleteStored).emit .statusOk := by
    simp only [handleEv, handleCancel]
    split
    · next e => rw [hq] at e; simp at e
    · next q' e =>
      have : q' = q := by rw [hq] at e; exact (Option.some.inj e).symm
      subst this
      rw [if_pos hc']
      congr 2
      unfold cancelUpload cancelTarget
      rcases hp with ⟨e1, e2⟩ | ⟨e1, p, e2, e3⟩
      · simp [setState_sendSeq, setState_propList, e1, e2, hh]
      · simp [setState_sendSeq, setState_propList, e1, e2, e3, hh]
  rw [key]
  refine ⟨rfl, rfl, rfl, fun ho => law _ _ ho, rfl, ?_, ?_⟩
  · simp only [emit_out, responses_append, deleteStored_out]
    rw [responses_setState]
    simp [responses, Out.isResponse]
  · simp [emit_out]

/-- C38. After a cancel of any transaction the next command is treated exactly as by an idle responder. -/
theorem C38_next_command (dv : Dev D) (r : Rsp D) (q : List UInt8) (hq : r.req = some q) (b : List UInt8)
    (n : List Ev) :
    ∃ r' : Rsp D, r'.st = .idle ∧ r'.req = none ∧ r'.session = r.session ∧ r'.ready = r.ready ∧
      r'.dev = (r.handleEv dv .cancel).dev ∧ r'.sendSeq = (r.handleEv dv .cancel).sendSeq ∧
      r'.propList = (r.handleEv dv .cancel).propList ∧ r'.edit = r.edit ∧
      (r.handleEv dv .cancel).receive dv b true true n = r'.receive dv b true true n := by
  have hst : (r.handleEv dv .cancel).st = .txCancel ∧ (r.handleEv dv .cancel).req = none ∧
      (r.handleEv dv .cancel).session = r.session ∧ (r.handleEv dv .cancel).ready = r.ready ∧
      (r.handleEv dv .cancel).edit = r.edit := by
    simp only [handleEv, handleCancel]
    split
    · next e => rw [hq] at e; simp at e
    · split
      · unfold cancelUpload
        simp only
        split <;> split <;> simp [deleteStored, emit]
      · simp
  refine ⟨(r.handleEv dv .cancel).setState .idle, by simp, by simp [hst], by simp [hst], by simp [hst],
    by simp, by simp, by simp, by simp [hst], ?_⟩
  exact receive_other dv _ b n (Or.inl hst.1)

/-- C38. A cancel when no transaction is open changes nothing; the host is told the device is ready. -/
theorem C38_nothing (dv : Dev D) (r : Rsp D) (hq : r.req = none) :
    r.handleEv dv .cancel = r.emit .statusOk := by
  simp only [handleEv, handleCancel]
  split
  · rfl
  · next e => rw [hq] at e; simp at e

/-- A cancelled upload: the object is gone, and the command that follows is served. -/
example : after (({ dev := [], ready := true, session := 1 } : Rsp Toy.Objs).run Toy.dev
    [.packet (Toy.cmd 0x100C 1 [0, 0]) true true [], .packet (Toy.dat 0x100C 1 (infoOf 3)) true true [],
     .packet (Toy.cmd 0x100D 2 []) true true [], .packet (Toy.dat 0x100D 2 [7]) true false [], .ev .cancel,
     .packet (Toy.cmd 0x1004 3 []) true true []])
    (fun r => responses r.out = [.response .ok 1 [1, 0, 1], .response .ok 3 []] ∧ r.dev = [] ∧
      r.sendSeq = none ∧ r.propList = none ∧ r.st = .idle) := by decide +kernel

example : ∀ d h, (Toy.dev.delete d h).2 = .ok → ¬ (Toy.has (Toy.dev.delete d h).1 h = true) := by
  intro d h _
  simp [Toy.dev, Toy.has]

/-- C38 is violated when both kinds of announcement are pending (mtpresponder.cpp:2798-2846 treats only one):
the object announced by SendObjectInfo survives the cancel, half written, and its announcement too: the next
SendObject is accepted and writes to it. -/
theorem C38_both_violated :
    after (({ dev := [], ready := true, session := 1 } : Rsp Toy.Objs).run Toy.dev
      [.packet (Toy.cmd 0x100C 1 [0, 0]) true true [], .packet (Toy.dat 0x100C 1 (infoOf 9)) true true [],
       .packet (Toy.cmd 0x9808 2 [1, 0, 0x3000, 0, 3]) true true [], .packet (Toy.dat 0x9808 2 []) true true [],
       .packet (Toy.cmd 0x100D 3 []) true true [], .packet (Toy.dat 0x100D 3 [7]) true false [], .ev .cancel])
    (fun r => r.dev = [(1, [7])] ∧ r.sendSeq = some ⟨1, 9, 0⟩ ∧ r.propList = none) := by decide +kernel

end Props
