import Verif.Lemmas.Events
import Verif.Props.Edit
/-! Property theorems C41: which changes the host hears of. -/
namespace Props
open Mtp Mtp.Rsp Spec

variable {D : Type}

/-- Object added, removed, info changed, property changed. -/
def objectEvents : List Nat := [0x4002, 0x4003, 0x4007, 0xC801]

/-- The event is about this object. -/
def About (code : Nat) (ps : List Nat) (h : Nat) : Prop :=
  code ∈ objectEvents ∧ ps.head? = some h ∧ h ≠ 0 ∧ h ≠ 0xFFFFFFFF

/-- The host should hear of this: a new object, something that is not about an object, or a change of an object
whose events are on. -/
def Heard (dv : Dev D) (d : D) (code : Nat) (ps : List Nat) : Prop :=
  code = 0x4002 ∨ ∀ h, About code ps h → dv.eventsOn d h = true

private theorem heard_iff (dv : Dev D) (d : D) (code : Nat) (ps : List Nat) :
    Heard dv d code ps ↔ ¬ (code ≠ EV_ADDED ∧ listening dv d code ps = false) := by
  unfold Heard listening About objectEvents
  by_cases h1 : code = 0x4002
  · simp [h1, EV_ADDED]
  · by_cases h2 : code = 0x4003 ∨ code = 0x4007 ∨ code = 0xC801
    · have hm : code ∈ [0x4002, 0x4003, 0x4007, 0xC801] := by
        rcases h2 with h | h | h <;> simp [h]
      simp only
      rw [if_pos (show code = EV_ADDED ∨ code = EV_REMOVED ∨ code = EV_INFO ∨ code = EV_PROP from Or.inr h2)]
      unfold EV_ADDED
      cases ps with
      | nil => simp [h1]
      | cons p ps =>
        by_cases hp : p = 0 ∨ p = 0xFFFFFFFF
        · rcases hp with hp | hp <;> simp [h1, hp] <;> omega
        · have hp' : ¬ (p = 0) ∧ ¬ (p = 4294967295) := not_or.mp hp
          simp [h1, hp'.1, hp'.2, h2]
    · have : ¬ (code = 0x4002 ∨ code = 0x4003 ∨ code = 0x4007 ∨ code = 0xC801) := by
        rintro (h | h); exact h1 h; exact h2 h
      have hm : code ∉ [0x4002, 0x4003, 0x4007, 0xC801] := by simpa using this
      simp only
      rw [if_neg (show ¬ (code = EV_ADDED ∨ code = EV_REMOVED ∨ code = EV_INFO ∨ code = EV_PROP) from this)]
      unfold EV_ADDED
      simp [h1]
      intro a b
      rcases b with b | b | b <;> exact absurd (by simp [b]) h2

/-- The events a step should cause. -/
def owed (dv : Dev D) (r : Rsp D) (i : In D) (o : List Out) : Prop :=
  match i with
  | .notify code ps =>
    (Heard dv r.dev code ps → o = [.event code 0xFFFFFFFF ps]) ∧ (¬ Heard dv r.dev code ps → o = [])
  | _ => o = []

/-- C41. In every history, and unless the bus is suspended, the host gets an event exactly when a storage
announces one that it should hear of (`Heard`); the event has transaction id 0xFFFFFFFF and the announced
parameters, the first of which is the object; nothing else produces an event. For what a storage announces, and
during a suspension, see the violations below. -/
theorem C41_events_partial (dv : Dev D) (d : D) (is : List (In D)) (r r' : Rsp D) (i : In D)
    (hr : Rsp.run dv { dev := d } is = .ok r) (hi : r.step dv i = .ok r') (hs : r.st ≠ .suspend) :
    ∃ o, events r'.out = events r.out ++ o ∧ owed dv r i o := by
  have hinv : ∀ (is : List (In D)) (r0 : Rsp D), (∀ o, r0.resend = some o → o.isEvent = false) →
      Rsp.run dv r0 is = .ok r → ∀ o, r.resend = some o → o.isEvent = false := by
    intro is
    induction is with
    | nil => intro r0 h0 hr; cases hr; exact h0
    | cons i is ih =>
      intro r0 h0 hr
      unfold Rsp.run at hr
      cases hst : r0.step dv i with
      | ub w => rw [hst] at hr; simp at hr
      | ok r1 =>
        rw [hst] at hr
        refine ih r1 ?_ hr
        by_cases hn : ∃ c ps, i = .notify c ps
        · obtain ⟨c, ps, rfl⟩ := hn
          cases hst
          unfold Rsp.notify
          split
          · exact h0
          · unfold Rsp.send
            split
            · exact h0
            · split
              · split
                · exact h0
                · next hx => exact absurd rfl hx
              · split
                · next hx => simp [Out.isResponse] at hx
                · exact h0
        · exact (EvInv.step ⟨rfl, h0⟩ dv i (fun c ps e => hn ⟨c, ps, e⟩) hst).2
  have h0 := hinv is _ (by simp) hr
  by_cases hn : ∃ c ps, i = .notify c ps
  · obtain ⟨c, ps, rfl⟩ := hn
    cases hi
    unfold Rsp.notify
    have hh := heard_iff dv r.dev c ps
    split
    · next hx => exact ⟨[], by simp, fun h => absurd hx (hh.mp h), fun _ => rfl⟩
    · next hx =>
      refine ⟨[.event c 0xFFFFFFFF ps], ?_, fun _ => rfl, fun h => absurd (hh.mpr hx) h⟩
      unfold Rsp.send
      rw [if_neg (by simp [Out.isEvent]), if_neg hs, if_neg (by simp [Out.isResponse]), emit_out, events_append]
      rfl
  · have := (EvInv.step ⟨rfl, h0⟩ dv i (fun c ps e => hn ⟨c, ps, e⟩) hi).1
    refine ⟨[], by rw [this, List.append_nil], ?_⟩
    cases i with
    | notify c ps => exact absurd ⟨c, ps, rfl⟩ hn
    | packet b f l n => rfl
    | ready n => rfl
    | ev e => rfl
    | env d => rfl

/-- C41. While the storage has an object's events off (as after BeginEditObject, `C40_begin_end`) a change of it
goes unnoticed: nothing happens at all. -/
theorem C41_silent (dv : Dev D) (r : Rsp D) (code h : Nat) (ps : List Nat) (hc : code ∈ objectEvents)
    (ha : code ≠ 0x4002) (hh : h ≠ 0 ∧ h ≠ 0xFFFFFFFF) (he : dv.eventsOn r.dev h = false) :
    r.step dv (.notify code (h :: ps)) = .ok r := by
  simp only [Rsp.step]
  unfold Rsp.notify
  rw [if_pos]
  by_cases hx : code ≠ EV_ADDED ∧ listening dv r.dev code (h :: ps) = false
  · exact hx
  · have := (heard_iff dv r.dev code (h :: ps)).mpr hx
    rcases this with e | e
    · exact absurd e ha
    · rw [e h ⟨hc, rfl, hh.1, hh.2⟩] at he; simp at he

/-- C41 fails during a suspension: events are dropped, they are not sent on resume. -/
theorem C41_suspend_violated (dv : Dev D) (r : Rsp D) (code : Nat) (ps : List Nat) (hs : r.st = .suspend) :
    r.step dv (.notify code ps) = .ok r := by
  simp only [Rsp.step]
  unfold Rsp.notify
  split
  · rfl
  · unfold Rsp.send
    rw [if_neg (by simp [Out.isEvent]), if_pos hs, if_pos (by rfl)]

/-- C41 fails for removals: the storage announces the removal when it has already forgotten the object
(fsstorageplugin.cpp:1317-1345), and for an unknown object the filter lets everything through
(mtpresponder.cpp:3036-3048): the host hears of the removal of every object, whether it enabled its events or
not. -/
theorem C41_removed_violated (dv : Dev D) (known : D → Nat → Prop)
    (law : ∀ d h, ¬ known d h → dv.eventsOn d h = true) (r : Rsp D) (hs : r.st ≠ .suspend) (h : Nat) (d : D)
    (hd : ¬ known d h) :
    ∃ r', r.run dv [.env d, .notify 0x4003 [h]] = .ok r' ∧
      events r'.out = events r.out ++ [.event 0x4003 0xFFFFFFFF [h]] := by
  simp only [Rsp.run, Rsp.step, Res.bind_ok]
  refine ⟨_, rfl, ?_⟩
  unfold Rsp.notify
  have : ¬ (0x4003 ≠ EV_ADDED ∧ listening dv d 0x4003 [h] = false) := by
    rw [← heard_iff]
    right
    intro h' ha
    obtain ⟨_, e, _, _⟩ := ha
    simp only [List.head?_cons, Option.some.injEq] at e
    rw [← e]
    exact law d h hd
  rw [if_neg this]
  unfold Rsp.send
  rw [if_neg (by simp [Out.isEvent]), if_neg (by exact hs), if_neg (by simp [Out.isResponse]), emit_out, events_append]
  rfl

/-- The FS storage's event flags (storageitem.cpp:48-70, fsstorageplugin.cpp:505-515, 1659-1678, 2256-2282):
objects with events on. GetObjectInfo turns them on. -/
def interestDev : Dev (List Nat) where
  query d c ps := (if c = 0x1008 then ps.getD 0 0 :: d else d, { frames := [], response := some (.ok, []) })
  copy d _ _ := (d, .ok, 0)
  check _ _ _ := .ok
  store d _ _ _ := (d, .ok, [])
  listCheck _ _ := .ok
  addInfo d _ _ := (d, .ok, [], 1)
  addList d _ _ := (d, .ok, [], 1)
  write d _ _ _ _ := (d, .ok)
  truncate d _ _ := (d, .ok)
  setProps d _ _ := d
  writePartial d _ _ _ _ _ := (d, .ok)
  delete d _ := (d, .ok)
  handleOk _ h := if h < 100 then .ok else .invalidObjectHandle
  flush d _ := d
  setEvents d h b := if b then h :: d else d.filter (· ≠ h)
  eventsOff _ := []
  eventsOn d h := d.any (· = h)

/-- The host looks at object 7, then not at 8: a change of 7 is announced, one of 8 not. -/
example : after (({ dev := [], ready := true, session := 1 } : Rsp (List Nat)).run interestDev
    [.packet (Toy.cmd 0x1008 1 [7]) true true [], .notify 0x4007 [7], .notify 0x4007 [8], .notify 0x4002 [9]])
    (fun r => events r.out = [.event 0x4007 0xFFFFFFFF [7], .event 0x4002 0xFFFFFFFF [9]]) := by decide +kernel

/-- C41 fails for an object being edited whose info the host asks for: that turns its events on again
(fsstorageplugin.cpp:1673), so the host's own edits are announced to it. -/
theorem C41_edit_violated :
    after (({ dev := [], ready := true, session := 1 } : Rsp (List Nat)).run interestDev
      [.packet (Toy.cmd 0x95C4 1 [7]) true true [], .packet (Toy.cmd 0x1008 2 [7]) true true [],
       .notify 0x4007 [7]])
    (fun r => editing r = some 7 ∧ events r.out = [.event 0x4007 0xFFFFFFFF [7]]) := by decide +kernel

/-- C41 fails after a device reset (or a cable disconnect): the flags of the previous session stay on
(mtpresponder.cpp:2711-2722 tells the storages nothing), so the next session's host hears of objects it never
asked for. -/
theorem C41_reset_violated :
    after (({ dev := [], ready := true, session := 1 } : Rsp (List Nat)).run interestDev
      [.packet (Toy.cmd 0x1008 1 [7]) true true [], .ev .deviceReset, .packet (Toy.cmd 0x1002 0 [2]) true true [],
       .notify 0x4007 [7]])
    (fun r => r.session = 2 ∧ events r.out = [.event 0x4007 0xFFFFFFFF [7]]) := by decide +kernel

end Props
