import Verif.Spec.Interrupt
import Verif.Lemmas.DataPhase
import Verif.Spec.Server
namespace Mtp.Rsp
open Spec

variable {D : Type}

/-- What a command without data goes through: `a` is the responder when its handler begins. -/
structure Begun (r a : Rsp D) (b : List UInt8) : Prop where
  st : a.st = .waitResp
  req : a.req = some b
  session : a.session = r.session
  ready : a.ready = r.ready
  dev : a.dev = r.dev
  resp : responses a.out = responses r.out
  data : dataOf a.out = dataOf r.out

theorem dataOf_append (a b : List Out) : dataOf (a ++ b) = dataOf a ++ dataOf b := by simp [dataOf]

theorem dataOf_setState (r : Rsp D) (s : RState) : dataOf (r.setState s).out = dataOf r.out := by
  unfold setState
  split
  · rfl
  · simp only
    split
    · rfl
    · split <;> simp [emit, dataOf]

theorem query_kinds {c : Nat} {l : List Nat} (h : opKind c = some (.query l)) :
    hasDataPhase c = false ∧ c ≠ 0x100D ∧ c ≠ 0x9808 ∧ c ≠ 0x100C := by
  have key : ∀ x ∈ opTable, ∀ l, x.2 = .query l → hasDataPhase x.1 = false ∧ x.1 ≠ 0x100D ∧ x.1 ≠ 0x9808 ∧ x.1 ≠ 0x100C := by
    intro x hx
    simp only [opTable, List.mem_cons, List.not_mem_nil, or_false] at hx
    rcases hx with h | h | h | h | h | h | h | h | h | h | h | h | h | h | h | h | h | h | h | h | h | h | h | h | h | h | h | h | h | h |
      h | h | h | h | h | h | h <;> subst h <;> intro l e <;> first | (cases e; done) | (exact ⟨by decide, by decide, by decide, by decide⟩)
  unfold opKind at h
  simp only [Option.map_eq_some_iff] at h
  obtain ⟨x, hx, e⟩ := h
  have h1 := List.mem_of_find?_eq_some hx
  have h2 := List.find?_some hx
  simp only [decide_eq_true_eq] at h2
  subst h2
  exact key x h1 l e

theorem command_begins (dv : Dev D) (r : Rsp D) (b : List UInt8) (d : D) (p : Reply) (h : Queried dv r b d p) (ws : List Writing) :
    ∃ a, Begun r a b ∧ r.commandPacketI dv b ws = ({ a with dev := d } : Rsp D).sendReplyI dv b p ws := by
  obtain ⟨l, hk⟩ := h.kind
  have hd := (query_kinds hk).1
  refine ⟨{ (({ (r.setState .idle) with req := some b } : Rsp D).setState .waitResp).emit .statusBusy with resp := .ok }, ?_, ?_⟩
  · refine ⟨by simp, by simp, by simp, by simp, by simp, ?_, ?_⟩
    · simp only [emit_out, responses_append, responses_setState]
      simp [responses, Out.isResponse]
    · simp only [emit_out, dataOf_append, dataOf_setState]
      simp [dataOf]
  · unfold commandPacketI commandI
    simp only [hd, emit_req, setState_req]
    rw [if_neg (by simp [h.ready]), hk]
    simp only [Bool.false_eq_true, if_false, handleI]
    rw [show preCheck _ _ = .ok from preCheck_ok (by simpa using h.session) h.tid]
    simp only [emit_dev, setState_dev, h.answer]

/-- The request, if there is one, is no upload. -/
def NoUpload (r : Rsp D) : Prop := ∀ q, r.req = some q → cCode q ≠ 0x100D ∧ cCode q ≠ 0x9808 ∧ cCode q ≠ 0x100C

/-- What interruptions leave alone. -/
structure Same (r r' : Rsp D) : Prop where
  responses : responses r'.out = responses r.out
  data : dataOf r'.out = dataOf r.out
  dev : NoUpload r → r'.dev = r.dev
  plain : NoUpload r → NoUpload r'
  ready : r'.ready = r.ready

theorem Same.refl (r : Rsp D) : Same r r := ⟨rfl, rfl, fun _ => rfl, id, rfl⟩

theorem Same.trans {a b c : Rsp D} (h1 : Same a b) (h2 : Same b c) : Same a c :=
  ⟨h2.responses.trans h1.responses, h2.data.trans h1.data, fun h => (h2.dev (h1.plain h)).trans (h1.dev h),
    fun h => h2.plain (h1.plain h), h2.ready.trans h1.ready⟩

theorem ends_step (dv : Dev D) (r : Rsp D) (e : Ev) (he : Ends e) :
    Same r (r.handleEv dv e) ∧ (r.req.isSome = true ∨ Free r → Free (r.handleEv dv e)) := by
  have close : Same r r.closeSession ∧ Free r.closeSession := by
    refine ⟨⟨?_, ?_, ?_, ?_, ?_⟩, ?_, ?_⟩
    · simp only [closeSession, responses_setState]; rfl
    · simp only [closeSession, dataOf_setState]; rfl
    · intro _; simp [closeSession, deleteStored]
    · intro _ q hq; simp [closeSession, deleteStored] at hq
    · simp [closeSession, deleteStored]
    · simp [closeSession, deleteStored]
    · left; simp [closeSession]
  have emitOk : ∀ x : Rsp D, Same x (x.emit .statusOk) ∧ (Free x → Free (x.emit .statusOk)) := by
    intro x
    refine ⟨⟨?_, ?_, fun _ => rfl, fun h q hq => h q (by simpa using hq), rfl⟩, fun h => ⟨h.1, h.2⟩⟩
    · simp [emit_out, responses_append, responses, Out.isResponse]
    · simp [emit_out, dataOf_append, dataOf]
  rcases he with rfl | rfl | rfl
  · simp only [handleEv, handleCancel]
    cases hq : r.req with
    | none =>
      refine ⟨(emitOk r).1, fun h => ?_⟩
      rcases h with h | h
      · simp at h
      · exact (emitOk r).2 h
    | some q =>
      simp only
      generalize hx : (if cCode q = 0x100D ∨ cCode q = 0x9808 ∨ cCode q = 0x100C then (r.setState .txCancel).cancelUpload dv
        else r.setState .txCancel) = x
      have hxo : x.out = (r.setState .txCancel).out ∧ x.st = .txCancel ∧ x.ready = r.ready := by
        subst hx
        split
        · unfold cancelUpload
          simp only
          split <;> split <;> simp
        · simp
      refine ⟨?_, fun _ => ⟨by simp [deleteStored], Or.inr (by simp [deleteStored, hxo.2.1])⟩⟩
      refine ⟨?_, ?_, ?_, ?_, ?_⟩
      · rw [(emitOk _).1.responses]
        simp only [deleteStored_out, hxo.1, responses_setState]
      · rw [(emitOk _).1.data]
        simp only [deleteStored_out, hxo.1, dataOf_setState]
      · intro h
        have := h q hq
        rw [if_neg (by simp [this])] at hx
        subst hx
        simp [deleteStored]
      · intro _ q hq
        simp [deleteStored] at hq
      · simp [deleteStored, hxo.2.2]
  · simp only [handleEv]
    exact ⟨close.1.trans (emitOk _).1, fun _ => (emitOk _).2 close.2⟩
  · exact ⟨close.1, fun _ => close.2⟩

theorem ends_fold (dv : Dev D) (es : List Ev) (he : ∀ e ∈ es, Ends e) (r : Rsp D) :
    Same r (es.foldl (handleEv dv) r) ∧ (Free r → Free (es.foldl (handleEv dv) r)) ∧
      (r.req.isSome = true → es ≠ [] → Free (es.foldl (handleEv dv) r)) := by
  induction es generalizing r with
  | nil => exact ⟨.refl r, id, fun _ h => absurd rfl h⟩
  | cons e es ih =>
    obtain ⟨s1, f1⟩ := ends_step dv r e (he e (by simp))
    obtain ⟨s2, f2, _⟩ := ih (fun x hx => he x (by simp [hx])) (r.handleEv dv e)
    exact ⟨s1.trans s2, fun h => f2 (f1 (.inr h)), fun h _ => f2 (f1 (.inl h))⟩

/-- After some packets of a data phase: `n` were to be sent, carrying `d`; `done`: they were. -/
structure Phase (r r' : Rsp D) (n : Nat) (d : List UInt8) (ws : List Writing) (done : Bool) : Prop where
  responses : responses r'.out = responses r.out
  dev : NoUpload r → r'.dev = r.dev
  plain : NoUpload r → NoUpload r'
  ready : r'.ready = r.ready
  all : AllWritten (ws.take n) → done = true
  data : done = true → dataOf r'.out = dataOf r.out ++ d
  free : Free r → Free r'
  ended : r.req.isSome = true → Interrupted n ws → done = true → Free r'
  going : ¬ Interrupted n ws → r'.st = r.st ∧ r'.req = r.req
  stopped : r.req.isSome = true ∨ Free r → Free r' ∨ (r'.st = r.st ∧ r'.req = r.req)

theorem int_cons (n : Nat) (ws : List Writing) :
    Interrupted (n + 1) ws ↔ (ws.headD {}).events ≠ [] ∨ Interrupted n ws.tail := by
  unfold Interrupted
  cases ws <;> simp

theorem all_cons (n : Nat) (ws : List Writing) :
    AllWritten (ws.take (n + 1)) ↔ (ws.headD {}).ok = true ∧ AllWritten (ws.tail.take n) := by
  unfold AllWritten
  cases ws <;> simp

theorem head_ends {ws : List Writing} (hw : OnlyEnds ws) : ∀ e ∈ (ws.headD {}).events, Ends e := by
  cases ws with
  | nil => intro e h; simp at h
  | cons w ws => exact hw w (by simp)

theorem tail_ends {ws : List Writing} (hw : OnlyEnds ws) : OnlyEnds ws.tail := fun w h => hw w (List.mem_of_mem_tail h)

/-- One packet more. -/
theorem Phase.cons (dv : Dev D) (r r' : Rsp D) (o : Out) (d ds : List UInt8) (ho : o.isResponse = false) (hd : dataOf [o] = d) (n : Nat)
    (ws : List Writing) (hw : OnlyEnds ws) (done : Bool)
    (h : Phase ((ws.headD {}).events.foldl (handleEv dv) (r.emit o)) r' n ds ws.tail done) :
    Phase r r' (n + 1) (d ++ ds) ws done := by
  obtain ⟨s1, s2, s3⟩ := ends_fold dv _ (head_ends hw) (r.emit o)
  have hfr : Free r → Free (r.emit o) := fun h => ⟨h.1, h.2⟩
  have hdat : dataOf (r.emit o).out = dataOf r.out ++ d := by rw [emit_out, dataOf_append, hd]
  have hres : Spec.responses (r.emit o).out = Spec.responses r.out := by
    rw [emit_out, responses_append]; simp [Spec.responses, ho]
  have hpl : NoUpload r → NoUpload (r.emit o) := fun h q hq => h q hq
  have hno : (ws.headD {}).events = [] → (ws.headD {}).events.foldl (handleEv dv) (r.emit o) = r.emit o := by
    intro h; rw [h]; rfl
  generalize (ws.headD {}).events.foldl (handleEv dv) (r.emit o) = x at s1 s2 s3 hno h
  refine ⟨?_, ?_, ?_, ?_, ?_, ?_, ?_, ?_, ?_, ?_⟩
  · rw [h.responses, s1.responses, hres]
  · intro g; rw [h.dev (s1.plain (hpl g)), s1.dev (hpl g)]; rfl
  · intro g; exact h.plain (s1.plain (hpl g))
  · rw [h.ready, s1.ready]; rfl
  · intro g; exact h.all ((all_cons n ws).mp g).2
  · intro g; rw [h.data g, s1.data, hdat]; simp
  · intro g; exact h.free (s2 (hfr g))
  · intro g hi hd
    rcases (int_cons n ws).mp hi with e | e
    · exact h.free (s3 g e)
    · by_cases e' : (ws.headD {}).events = []
      · exact h.ended (by rw [hno e']; exact g) e hd
      · exact h.free (s3 g e')
  · intro g
    rw [int_cons, not_or] at g
    have e := Classical.not_not.mp g.1
    have := h.going g.2
    rw [hno e] at this
    exact this
  · intro g
    by_cases e' : (ws.headD {}).events = []
    · have := h.stopped (by rw [hno e']; exact g.imp id hfr)
      rw [hno e'] at this
      exact this
    · exact .inl (h.free (g.elim (fun g => s3 g e') (fun g => s2 (hfr g))))

/-- A write failed. -/
theorem Phase.fail (dv : Dev D) (r : Rsp D) (o : Out) (ho : o.isResponse = false) (n : Nat) (d : List UInt8)
    (ws : List Writing) (hw : OnlyEnds ws) (hk : ¬ (ws.headD {}).ok = true) :
    Phase r ((ws.headD {}).events.foldl (handleEv dv) (r.emit o)) (n + 1) d ws false := by
  obtain ⟨s1, s2, s3⟩ := ends_fold dv _ (head_ends hw) (r.emit o)
  have hfr : Free r → Free (r.emit o) := fun h => ⟨h.1, h.2⟩
  have hres : Spec.responses (r.emit o).out = Spec.responses r.out := by
    rw [emit_out, responses_append]; simp [Spec.responses, ho]
  have hpl : NoUpload r → NoUpload (r.emit o) := fun h q hq => h q hq
  have hno : (ws.headD {}).events = [] → (ws.headD {}).events.foldl (handleEv dv) (r.emit o) = r.emit o := by
    intro h; rw [h]; rfl
  generalize (ws.headD {}).events.foldl (handleEv dv) (r.emit o) = x at s1 s2 s3 hno
  have hn : ∀ {p : Prop}, false = true → p := fun h => (nomatch h)
  refine ⟨?_, ?_, ?_, ?_, ?_, hn, ?_, fun _ _ => hn, ?_, ?_⟩
  · rw [s1.responses, hres]
  · intro g; rw [s1.dev (hpl g)]; rfl
  · intro g; exact s1.plain (hpl g)
  · rw [s1.ready]; rfl
  · intro g; exact absurd ((all_cons n ws).mp g).1 hk
  · intro g; exact s2 (hfr g)
  · intro g
    rw [int_cons, not_or] at g
    have e := Classical.not_not.mp g.1
    rw [hno e]
    exact ⟨rfl, rfl⟩
  · intro g
    by_cases e' : (ws.headD {}).events = []
    · right; rw [hno e']; exact ⟨rfl, rfl⟩
    · exact .inl (g.elim (fun g => s3 g e') (fun g => s2 (hfr g)))

theorem moreI_spec (dv : Dev D) (fs : List (List UInt8 × Bool)) (ws : List Writing) (hw : OnlyEnds ws) (r : Rsp D) :
    Phase r (r.moreI dv fs ws).1 fs.length (fs.map (·.1)).flatten ws (r.moreI dv fs ws).2 := by
  induction fs generalizing r ws with
  | nil =>
    exact ⟨rfl, fun _ => rfl, id, rfl, fun _ => rfl, fun _ => by simp [moreI], id,
      fun _ h => by simp [Interrupted] at h, fun _ => ⟨rfl, rfl⟩, fun _ => .inr ⟨rfl, rfl⟩⟩
  | cons f fs ih =>
    simp only [moreI]
    by_cases hok : (ws.headD {}).ok = true
    · rw [if_pos hok]
      exact Phase.cons dv r _ (.more f.1 f.2) f.1 _ rfl (by simp [dataOf]) fs.length ws hw _ (ih ws.tail (tail_ends hw) _)
    · rw [if_neg hok]
      exact Phase.fail dv r (.more f.1 f.2) rfl fs.length _ ws hw hok

/-- The whole answer: its data phase, then, if all of it was sent, its response. -/
theorem sendReplyI_spec (dv : Dev D) (r : Rsp D) (q : List UInt8) (p : Reply) (ws : List Writing) (hw : OnlyEnds ws)
    (hs : r.st = .waitResp) :
    ∃ r1 done, Phase r r1 p.frames.length (p.frames.map (·.1)).flatten ws done ∧
      r.sendReplyI dv q p ws = match done, p.response with
        | true, some (c, ps) => r1.replyI dv c ps ((ws.drop p.frames.length).headD {})
        | _, _ => .ok r1 := by
  obtain ⟨fs, resp⟩ := p
  cases fs with
  | nil =>
    refine ⟨r, true, ?_, ?_⟩
    · have := moreI_spec dv [] ws hw r
      simpa [moreI] using this
    · cases resp with
      | none => rfl
      | some x => rfl
  | cons f fs =>
    obtain ⟨d, l⟩ := f
    have hsend : r.sendI dv (.data (cCode q) (cTid q) d l) (ws.headD {}) =
        ((ws.headD {}).events.foldl (handleEv dv) (r.emit (.data (cCode q) (cTid q) d l)), true) := by
      unfold sendI
      rw [if_neg (by simp [hs]), if_neg (by simp [hs]), if_neg (by simp [Out.isResponse])]
    refine ⟨_, _, Phase.cons dv r _ (.data (cCode q) (cTid q) d l) d _ rfl (by simp [dataOf]) fs.length ws hw _
      (moreI_spec dv fs ws.tail (tail_ends hw) _), ?_⟩
    simp only [sendReplyI, hsend]
    generalize (((ws.headD {}).events.foldl (handleEv dv) (r.emit (.data (cCode q) (cTid q) d l))).moreI dv fs ws.tail) = x
    obtain ⟨x, done⟩ := x
    cases done <;> cases resp <;> rfl

end Mtp.Rsp
