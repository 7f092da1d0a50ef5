import Verif.Lemmas.Interrupt
import Verif.Lemmas.ServerParts
import Verif.Props.Talk
/-! Property theorems C94: answers that are interrupted. -/
namespace Props
open Mtp Mtp.Rsp Spec

variable {D : Type}

/-! ### Nothing happens -/

/-- Nothing happens during any write, and every one succeeds. -/
def Undisturbed (ws : List Writing) : Prop := ∀ w ∈ ws, w.events = [] ∧ w.ok = true

private theorem head_calm {ws : List Writing} (h : Undisturbed ws) : (ws.headD {}).events = [] ∧ (ws.headD {}).ok = true := by
  cases ws with
  | nil => exact ⟨rfl, rfl⟩
  | cons w ws => exact h w (by simp)

private theorem tail_calm {ws : List Writing} (h : Undisturbed ws) : Undisturbed ws.tail :=
  fun w hw => h w (List.mem_of_mem_tail hw)

private theorem drop_calm {ws : List Writing} (h : Undisturbed ws) (n : Nat) : Undisturbed (ws.drop n) :=
  fun w hw => h w (List.mem_of_mem_drop hw)

private theorem sendI_calm (dv : Dev D) (r : Rsp D) (o : Out) (w : Writing) (hw : w.events = []) (ho : o.isEvent = false) :
    r.sendI dv o w = r.send o := by
  unfold sendI send
  simp only [ho, and_true, Bool.false_eq_true, if_false, hw, List.foldl_nil]

private theorem replyI_calm (dv : Dev D) (r : Rsp D) (c : Resp) (ps : List Nat) (w : Writing) (hw : w.events = []) :
    r.replyI dv c ps w = r.replyP c ps := by
  unfold replyI replyP reply reply1
  cases r.req <;> cases ps <;> simp only [] <;> rw [sendI_calm _ _ _ _ hw rfl]

private theorem moreI_calm (dv : Dev D) (fs : List (List UInt8 × Bool)) (ws : List Writing) (hw : Undisturbed ws) (r : Rsp D) :
    r.moreI dv fs ws = ({ r with out := r.out ++ fs.map fun f => .more f.1 f.2 }, true) := by
  induction fs generalizing r ws with
  | nil => simp [moreI]
  | cons f fs ih =>
    simp only [moreI, (head_calm hw).1, (head_calm hw).2, List.foldl_nil, if_true]
    rw [ih _ (tail_calm hw)]
    simp [emit]

private theorem sendReplyI_calm (dv : Dev D) (r : Rsp D) (q : List UInt8) (p : Reply) (ws : List Writing) (hw : Undisturbed ws) :
    r.sendReplyI dv q p ws = r.sendReply q p := by
  obtain ⟨fs, resp⟩ := p
  cases fs with
  | nil =>
    cases resp with
    | none => rfl
    | some x => exact replyI_calm _ _ _ _ _ (head_calm hw).1
  | cons f fs =>
    obtain ⟨d, l⟩ := f
    simp only [sendReplyI, sendReply]
    rw [sendI_calm _ _ _ _ (head_calm hw).1 rfl]
    generalize r.send (.data (cCode q) (cTid q) d l) = x
    obtain ⟨x, b⟩ := x
    cases b with
    | false => rfl
    | true =>
      simp only []
      rw [moreI_calm dv fs ws.tail (tail_calm hw)]
      cases resp with
      | none => rfl
      | some y => exact replyI_calm _ _ _ _ _ (head_calm (drop_calm hw _)).1

private theorem commandI_calm (dv : Dev D) (a : Rsp D) (ws : List Writing) (hw : Undisturbed ws) : a.commandI dv ws = a.command dv [] := by
  unfold commandI Rsp.command
  cases a.req with
  | none => rfl
  | some q =>
    simp only []
    have e : ∀ (x : Rsp D) (k : OpKind), x.handleI dv q ws k = x.handle dv q [] k := by
      intro x k
      cases k <;> simp only [handleI, handle, sendReplyI_calm _ _ _ _ _ hw, replyI_calm _ _ _ _ _ (head_calm hw).1]
      all_goals first | rfl | (split <;> rfl)
    split
    · rfl
    · cases opKind (cCode q) with
      | none => exact replyI_calm _ _ _ _ _ (head_calm hw).1
      | some k => exact e _ k

/-- C94: when nothing happens during the writes, and they all succeed, a command is handled as everywhere else in this
development. -/
theorem C94_undisturbed (dv : Dev D) (r : Rsp D) (b : List UInt8) (hr : Accepting r) (ws : List Writing) (hw : Undisturbed ws) :
    r.commandPacketI dv b ws = r.receive dv b true true [] := by
  have h1 : r.receive dv b true true [] =
      ((({ (r.setState .idle) with req := some b } : Rsp D).setState (if hasDataPhase (cCode b) then .waitData else .waitResp)).emit
        .statusBusy).command dv [] := by
    unfold Rsp.receive
    rcases hr with h | h | h <;> simp only [h, and_self, if_true]
  rw [h1]
  exact commandI_calm dv _ ws hw

/-! ### The transaction is given up -/

private theorem begun_plain {dv : Dev D} {r a : Rsp D} {b : List UInt8} {d : D} {p : Reply} (h : Queried dv r b d p) (hb : Begun r a b) :
    NoUpload ({ a with dev := d } : Rsp D) := by
  obtain ⟨l, hk⟩ := h.kind
  intro q hq
  have : q = b := by
    have : a.req = some q := hq
    rw [hb.req] at this
    exact (Option.some.inj this).symm
  subst this
  exact (query_kinds hk).2

private theorem reply_free (dv : Dev D) (r : Rsp D) (hf : Free r) (c : Resp) (w : Writing) : r.replyI dv c [] w = .ok r := by
  unfold replyI
  rw [hf.1]

/-- C94: when the host gives up (or goes away) during the data phase, there is no response, the next command will be accepted, and
the storages are as after the same request undisturbed. Answers with a parameter: see `C94_crash_violated`; failing writes:
`C94_stuck_violated`. -/
theorem C94_interrupted_partial (dv : Dev D) (r : Rsp D) (b : List UInt8) (d : D) (p : Reply) (h : Queried dv r b d p)
    (hp : ∀ c ps, p.response = some (c, ps) → ps = []) (ws : List Writing) (hw : OnlyEnds ws) (ha : AllWritten ws)
    (hi : Interrupted p.frames.length ws) :
    ∃ r', r.commandPacketI dv b ws = .ok r' ∧ responses r'.out = responses r.out ∧ Free r' ∧ r'.dev = d ∧ r'.ready = true := by
  obtain ⟨a, ba, e⟩ := command_begins dv r b d p h ws
  obtain ⟨r1, done, ph, e2⟩ := sendReplyI_spec dv { a with dev := d } b p ws hw ba.st
  have hd := ph.all (fun w hw => ha w (List.mem_of_mem_take hw))
  subst hd
  have hf := ph.ended (by show a.req.isSome = true; rw [ba.req]; rfl) hi rfl
  refine ⟨r1, ?_, ph.responses.trans ba.resp, hf, ph.dev (begun_plain h ba), ph.ready.trans (ba.ready.trans h.ready)⟩
  rw [e, e2]
  cases hr : p.response with
  | none => rfl
  | some x =>
    obtain ⟨c, ps⟩ := x
    rw [hp c ps hr]
    exact reply_free dv r1 hf c _

private theorem reply_ends (dv : Dev D) (r : Rsp D) (b : List UInt8) (hs : r.st = .waitResp) (hq : r.req = some b) (hn : NoUpload r)
    (c : Resp) (ps : List Nat) (w : Writing) (he : ∀ e ∈ w.events, Ends e) :
    ∃ r', r.replyI dv c ps w = .ok r' ∧ responses r'.out = responses r.out ++ [.response c (u16 (cTid b)) (ps.take 1)] ∧ Free r' ∧
      r'.dev = r.dev ∧ dataOf r'.out = dataOf r.out := by
  have e1 : r.replyI dv c ps w = .ok (r.sendI dv (.response c (u16 (cTid b)) (ps.take 1)) w).1 := by
    unfold replyI
    rw [hq]
    cases ps <;> rfl
  have e2 : r.sendI dv (.response c (u16 (cTid b)) (ps.take 1)) w =
      (((w.events.foldl (handleEv dv) ((r.setState .idle).emit (.response c (u16 (cTid b)) (ps.take 1)))).emit .statusOk).deleteStored,
        true) := by
    unfold sendI
    rw [if_neg (by simp [hs]), if_neg (by simp [hs]), if_pos (by rfl)]
  obtain ⟨s1, s2, s3⟩ := ends_fold dv w.events he ((r.setState .idle).emit (.response c (u16 (cTid b)) (ps.take 1)))
  have hn' : NoUpload ((r.setState .idle).emit (.response c (u16 (cTid b)) (ps.take 1))) := fun q h => hn q (by simpa using h)
  have hst : (w.events.foldl (handleEv dv) ((r.setState .idle).emit (.response c (u16 (cTid b)) (ps.take 1)))).st = .idle ∨
      (w.events.foldl (handleEv dv) ((r.setState .idle).emit (.response c (u16 (cTid b)) (ps.take 1)))).st = .txCancel := by
    by_cases e : w.events = []
    · rw [e]; left; simp
    · exact (s3 (by simp [hq]) e).2
  have hd := s1.dev hn'
  have hr := s1.responses
  have hdd := s1.data
  rw [e1, e2]
  generalize w.events.foldl (handleEv dv) ((r.setState .idle).emit (.response c (u16 (cTid b)) (ps.take 1))) = x at hst hd hr hdd
  refine ⟨_, rfl, ?_, ⟨rfl, ?_⟩, ?_, ?_⟩
  · simp only [deleteStored_out, emit_out, responses_append]
    rw [hr]
    simp only [emit_out, responses_append, responses_setState]
    simp [responses, Out.isResponse]
  · simpa [deleteStored] using hst
  · simpa [deleteStored] using hd
  · simp only [deleteStored_out, emit_out, dataOf_append]
    rw [hdd]
    simp only [emit_out, dataOf_append, Rsp.dataOf_setState]
    simp [dataOf]

/-- C94: whatever happens during the answer, the storages end up as after the same request undisturbed, and at most one response is
sent. -/
theorem C94_storage_untouched (dv : Dev D) (r r' : Rsp D) (b : List UInt8) (d : D) (p : Reply) (h : Queried dv r b d p)
    (ws : List Writing) (hw : OnlyEnds ws) (e : r.commandPacketI dv b ws = .ok r') :
    r'.dev = d ∧ ∃ l, responses r'.out = responses r.out ++ l ∧ l.length ≤ 1 := by
  obtain ⟨a, ba, e1⟩ := command_begins dv r b d p h ws
  obtain ⟨r1, done, ph, e2⟩ := sendReplyI_spec dv { a with dev := d } b p ws hw ba.st
  have hd1 : r1.dev = d := ph.dev (begun_plain h ba)
  have hr1 : responses r1.out = responses r.out := ph.responses.trans ba.resp
  have stop : (.ok r1 : Res (Rsp D)) = .ok r' → r'.dev = d ∧ ∃ l, responses r'.out = responses r.out ++ l ∧ l.length ≤ 1 := by
    intro e; cases e
    exact ⟨hd1, [], by rw [hr1]; simp, by simp⟩
  rw [e1, e2] at e
  cases done with
  | false => exact stop e
  | true =>
    cases hr : p.response with
    | none => rw [hr] at e; exact stop e
    | some x =>
      obtain ⟨c, ps⟩ := x
      rw [hr] at e
      simp only at e
      have he : ∀ e ∈ ((ws.drop p.frames.length).headD {}).events, Ends e :=
        head_ends (fun w h => hw w (List.mem_of_mem_drop h))
      by_cases hi : Interrupted p.frames.length ws
      · have hf := ph.ended (by show a.req.isSome = true; rw [ba.req]; rfl) hi rfl
        cases ps with
        | nil => rw [reply_free dv r1 hf] at e; exact stop e
        | cons n ps => unfold replyI at e; rw [hf.1] at e; cases e
      · have hg := ph.going hi
        obtain ⟨r2, g1, g2, g3, g4, g5⟩ := reply_ends dv r1 b (hg.1.trans ba.st) (hg.2.trans ba.req) (ph.plain (begun_plain h ba)) c ps _ he
        rw [g1] at e
        cases e
        exact ⟨g4.trans hd1, _, by rw [g2, hr1], by simp⟩

/-- C94: an answer not interrupted in its data phase is given in full, with its response; the next command will be accepted even if
the host gives up while the response is written. -/
theorem C94_completed (dv : Dev D) (r : Rsp D) (b : List UInt8) (d : D) (p : Reply) (h : Queried dv r b d p)
    (c : Resp) (ps : List Nat) (hp : p.response = some (c, ps)) (ws : List Writing) (hw : OnlyEnds ws)
    (ha : AllWritten (ws.take p.frames.length)) (hi : ¬ Interrupted p.frames.length ws) :
    ∃ r', r.commandPacketI dv b ws = .ok r' ∧
      responses r'.out = responses r.out ++ [.response c (u16 (cTid b)) (ps.take 1)] ∧ Free r' ∧
      dataOf r'.out = dataOf r.out ++ (p.frames.map (·.1)).flatten := by
  obtain ⟨a, ba, e1⟩ := command_begins dv r b d p h ws
  obtain ⟨r1, done, ph, e2⟩ := sendReplyI_spec dv { a with dev := d } b p ws hw ba.st
  have hd := ph.all ha
  subst hd
  have hg := ph.going hi
  obtain ⟨r2, g1, g2, g3, g4, g5⟩ := reply_ends dv r1 b (hg.1.trans ba.st) (hg.2.trans ba.req) (ph.plain (begun_plain h ba)) c ps
    ((ws.drop p.frames.length).headD {}) (head_ends (fun w h => hw w (List.mem_of_mem_drop h)))
  refine ⟨r2, by rw [e1, e2, hp]; exact g1, ?_, g3, ?_⟩
  · rw [g2, ph.responses, ba.resp]
  · rw [g5, ph.data rfl, ba.data]

/-- C94 is violated: a cancelled download goes on: all the data is sent, as long as the writes succeed. -/
theorem C94_keeps_sending_violated (dv : Dev D) (r r' : Rsp D) (b : List UInt8) (d : D) (p : Reply) (h : Queried dv r b d p)
    (hp : ∀ c ps, p.response = some (c, ps) → ps = []) (ws : List Writing) (hw : OnlyEnds ws) (ha : AllWritten ws)
    (hi : Interrupted p.frames.length ws) (e : r.commandPacketI dv b ws = .ok r') :
    dataOf r'.out = dataOf r.out ++ (p.frames.map (·.1)).flatten := by
  obtain ⟨a, ba, e1⟩ := command_begins dv r b d p h ws
  obtain ⟨r1, done, ph, e2⟩ := sendReplyI_spec dv { a with dev := d } b p ws hw ba.st
  have hd := ph.all (fun w hw => ha w (List.mem_of_mem_take hw))
  subst hd
  have hf := ph.ended (by show a.req.isSome = true; rw [ba.req]; rfl) hi rfl
  have : r' = r1 := by
    rw [e1, e2] at e
    cases hr : p.response with
    | none => rw [hr] at e; exact (Res.ok.inj e).symm
    | some x =>
      obtain ⟨c, ps⟩ := x
      rw [hr, hp c ps hr] at e
      exact (Res.ok.inj ((reply_free dv r1 hf c _).symm.trans e)).symm
  rw [this, ph.data rfl, ba.data]

/-- C94 is violated by answers whose response carries a parameter (GetPartialObject): the request is forgotten when the host gives
up, then dereferenced. -/
theorem C94_crash_violated (dv : Dev D) (r : Rsp D) (b : List UInt8) (d : D) (p : Reply) (h : Queried dv r b d p)
    (c : Resp) (n : Nat) (ps : List Nat) (hp : p.response = some (c, n :: ps)) (ws : List Writing) (hw : OnlyEnds ws)
    (ha : AllWritten ws) (hi : Interrupted p.frames.length ws) : r.commandPacketI dv b ws = .ub .nullDeref := by
  obtain ⟨a, ba, e1⟩ := command_begins dv r b d p h ws
  obtain ⟨r1, done, ph, e2⟩ := sendReplyI_spec dv { a with dev := d } b p ws hw ba.st
  have hd := ph.all (fun w hw => ha w (List.mem_of_mem_take hw))
  subst hd
  have hf := ph.ended (by show a.req.isSome = true; rw [ba.req]; rfl) hi rfl
  rw [e1, e2, hp]
  show r1.replyI dv c (n :: ps) _ = _
  unfold replyI
  rw [hf.1]

/-- C94 is violated by a write that fails in the middle of the data phase while nobody gives up: no response, and the next command
is not handled. -/
theorem C94_stuck_violated (dv : Dev D) (r : Rsp D) (b : List UInt8) (d : D) (f g : List UInt8 × Bool) (fs : List (List UInt8 × Bool))
    (x : Option (Resp × List Nat)) (h : Queried dv r b d ⟨f :: g :: fs, x⟩) (ws : List Writing) :
    ∃ r', r.commandPacketI dv b ({} :: { ok := false } :: ws) = .ok r' ∧ responses r'.out = responses r.out ∧
      ∀ b2 n, r'.receive dv b2 true true n = .ok ((r'.setState .idle).emit .reset) := by
  obtain ⟨a, ba, e1⟩ := command_begins dv r b d _ h ({} :: { ok := false } :: ws)
  have hsend : ({ a with dev := d } : Rsp D).sendI dv (.data (cCode b) (cTid b) f.1 f.2) {} =
      (({ a with dev := d } : Rsp D).emit (.data (cCode b) (cTid b) f.1 f.2), true) := by
    unfold sendI
    rw [if_neg (by simp [ba.st]), if_neg (by simp [ba.st]), if_neg (by simp [Out.isResponse])]
    rfl
  refine ⟨(({ a with dev := d } : Rsp D).emit (.data (cCode b) (cTid b) f.1 f.2)).emit (.more g.1 g.2), ?_, ?_, ?_⟩
  · rw [e1]
    simp only [sendReplyI, List.headD_cons, hsend]
    rfl
  · simp only [emit_out, responses_append, ba.resp]
    simp [responses, Out.isResponse]
  · intro b2 n
    unfold Rsp.receive
    have : ((({ a with dev := d } : Rsp D).emit (.data (cCode b) (cTid b) f.1 f.2)).emit (.more g.1 g.2)).st = .waitResp := ba.st
    rw [this]

/-! ### The file server -/

/-- C94 is violated by GetPartialObject of any file, when the host gives up (or is unplugged) while the first packet is written. -/
theorem C94_partial_object_violated (r : Rsp Server) (ho : Open r) (hw : Willing r.dev) (q : List UInt8) (hq : Asking q 0x101B)
    (c : List UInt8) (hc : contents r.dev (cParam q 0) = some c) (hs : r.dev.sizeOf (cParam q 0) = c.length) (hm : c.length < 2 ^ 63)
    (hoff : cParam q 1 < c.length) (hsz : cParam q 2 ≠ 0) (e : Ev) (he : Ends e) :
    r.commandPacketI Server.dev q [{ events := [e] }] = .ub .nullDeref := by
  obtain ⟨it, hg, hn, hf, hv⟩ := Server.contents_item hc
  have hres := (C32_partial_succeeds r.dev.view (r.dev.ios r.dev.calls)
    (fun i => ⟨(hw r.dev.calls i).1, (hw r.dev.calls i).2.1⟩) _ _ c hv hf rfl hs hm (cParam q 2) (Server.param_lt ..)).1
    (cParam q 1) (Server.param_lt ..) (Nat.le_of_lt hoff)
  have hdat := (C32_partial_exact r.dev.view (r.dev.ios r.dev.calls) (fun _ => true) _ _ _ (Server.param_lt ..) (Server.param_lt ..) _ c
    hv hf hs rfl _ hres).2.1.2.2
  generalize hD : getPartialObject r.dev.view (r.dev.ios r.dev.calls) (fun _ => true) (cParam q 0) (cParam q 1) (cParam q 2) = dl
    at hres hdat
  have hfr : (Server.downloadReply dl true).frames ≠ [] := by
    intro h0
    have : dl.frames = [] := by simpa [Server.downloadReply] using h0
    rw [this] at hdat
    have := congrArg List.length hdat
    simp at this
    omega
  refine C94_crash_violated Server.dev r q r.dev.tickCall (Server.downloadReply dl true)
    ⟨.inl ho.idle, ho.ready, ho.session, hq.tid, ⟨[], by rw [hq.code]; rfl⟩, ?_⟩ .ok _ [] (by
      unfold Server.downloadReply
      rw [hres]; rfl) _ ?_ ?_ ?_
  · show Server.query r.dev (cCode q) (cParams q) = _
    rw [hq.code, ← hD]
    rfl
  · intro w hw e' he'
    simp only [List.mem_singleton] at hw
    subst hw
    simp only [List.mem_singleton] at he'
    subst he'
    exact he
  · intro w hw
    simp only [List.mem_singleton] at hw
    subst hw
    rfl
  · refine ⟨{ events := [e] }, ?_, by simp⟩
    cases hl : (Server.downloadReply dl true).frames with
    | nil => exact absurd hl hfr
    | cons a b => simp

/-! ### Concrete cases -/

/-- Storages that answer every request with three packets. -/
def threePackets : Dev Toy.Objs :=
  { Toy.dev with query := fun d _ _ => (d, ⟨[([1, 2], false), ([3, 4], false), ([5], true)], some (.ok, [])⟩) }

/-- A session with them. -/
def demoPackets : Rsp Toy.Objs := { dev := [], ready := true, session := 1 }

/-- GetObject is such a request, and a cancel during the second packet is such an interruption. -/
theorem C94_witness : Queried threePackets demoPackets (Toy.cmd 0x1009 9 [1]) []
      ⟨[([1, 2], false), ([3, 4], false), ([5], true)], some (.ok, [])⟩ ∧
    OnlyEnds [{}, { events := [.cancel] }] ∧ AllWritten [{}, { events := [.cancel] }] ∧ Interrupted 3 [{}, { events := [.cancel] }] ∧
    ¬ Interrupted 3 [{}, {}, {}, { events := [.cleanup] }] := by
  refine ⟨⟨.inl rfl, rfl, by decide, by decide +kernel, ⟨[], by decide +kernel⟩, rfl⟩, ?_, ?_, ?_, ?_⟩
  · intro w hw e he
    simp only [List.mem_cons, List.not_mem_nil, or_false] at hw
    rcases hw with rfl | rfl
    · simp at he
    · simp only [List.mem_singleton] at he; subst he; exact .inl rfl
  · intro w hw
    simp only [List.mem_cons, List.not_mem_nil, or_false] at hw
    rcases hw with rfl | rfl <;> rfl
  · exact ⟨{ events := [.cancel] }, by decide, by decide⟩
  · rintro ⟨w, hw, h⟩
    simp at hw
    subst hw
    exact h rfl

/-- All three packets go out although the second one was cancelled; no response. -/
example : after (demoPackets.commandPacketI threePackets (Toy.cmd 0x1009 9 [1]) [{}, { events := [.cancel] }])
    (fun r => r.out = [.pending, .statusBusy, .data 0x1009 9 [1, 2] false, .more [3, 4] false, .statusOk, .more [5] true]) := by
  decide +kernel

/-- A partial download of a file that holds 7, 8, 9. -/
example : after (demoTalk.commandPacketI Server.dev (Toy.cmd 0x101B 9 [1, 1, 2]) []) (fun r => dataOf r.out = dataOf demoTalk.out ++ [8, 9]) ∧
    (match demoTalk.commandPacketI Server.dev (Toy.cmd 0x101B 9 [1, 1, 2]) [{ events := [.cancel] }] with
      | .ub .nullDeref => true
      | _ => false) = true := by
  decide +kernel

end Props
