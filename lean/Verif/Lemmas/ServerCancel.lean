import Verif.Spec.GivenUp
import Verif.Lemmas.ServerAnswers
import Verif.Props.Cancel
import Verif.Props.Delete
/-! Uploads that are cancelled. -/
namespace Mtp
open Spec
namespace Server

/-- Packets that come after the verdict are not answered. -/
theorem stray_unfinished (bs : List (List UInt8)) : ∀ r : Rsp Server, r.st = .idle → r.req = none →
    ∀ r', r.run dev (unfinished false bs) = .ok r' → responses r'.out = responses r.out := by
  induction bs with
  | nil => intro r _ _ r' h; cases h; rfl
  | cons b bs ih =>
    intro r h1 h2 r' h
    have hs : r.setState .idle = r := by unfold Rsp.setState; rw [if_pos h1]
    have hr : r.receive dev b false false [] = .ok (({ r with req := none } : Rsp Server).emit .reset) := by
      unfold Rsp.receive
      split
      · simp only [hs, Bool.false_eq_true, false_and, if_false]
      all_goals next h => rw [h1] at h; simp at h
    simp only [unfinished, Rsp.run, Rsp.step, hr, Res.bind_ok] at h
    rw [ih _ (by exact h1) rfl r' h, Rsp.emit_out, Spec.responses_append]
    simp [Spec.responses, Out.isResponse]

/-- An upload that was not answered yet goes on. -/
theorem unfinished_going {s0 : Server} (w0 : ServerOk s0) {h : Nat} {it : Item} (hg : s0.tree.get h = some it) (q : List UInt8) (n : Nat)
    (bs : List (List UInt8)) : ∀ (r : Rsp Server) (f : Bool) (w : Nat), Rsp.Going r q h n w → (f = true → r.dev = s0) →
      (f = false → Edited s0 r.dev h) → (f = true → ∀ b ∈ bs.head?, 12 ≤ b.length) →
      ∀ r', r.run dev (unfinished f bs) = .ok r' → responses r'.out = responses r.out →
      ∃ w', Rsp.Going r' q h n w' ∧ (r'.dev = s0 ∨ Edited s0 r'.dev h) ∧ r'.session = r.session ∧ r'.ready = r.ready := by
  induction bs with
  | nil =>
    intro r f w g h0 h1 _ r' hr _
    cases hr
    refine ⟨w, g, ?_, rfl, rfl⟩
    cases f with
    | true => exact Or.inl (h0 rfl)
    | false => exact Or.inr (h1 rfl)
  | cons b bs ih =>
    intro r f w g h0 h1 hb r' hr ho
    obtain ⟨r1, e1, m⟩ := Rsp.upload_packet dev r q b _ h n w f false g (fun hf => hb hf b rfl) rfl
    generalize (if f = true then List.drop 12 b else b) = d at m
    simp only [unfinished, Rsp.run, Rsp.step, e1, Res.bind_ok] at hr
    have no : ∀ c, Rsp.Verdict r r1 q c → False := by
      intro c v
      have := stray_unfinished bs r1 v.st v.req r' hr
      rw [this, v.out] at ho
      have := congrArg List.length ho
      simp at this
    have hF : Edited s0 (dev.write r.dev h (some d) f false).1 h := by
      cases f with
      | true => rw [h0 rfl]; exact write_first_edited w0 hg d false
      | false =>
        have e := h1 rfl
        exact e.trans (write_edited e.ok (by rw [e.tree]; exact hg) _ _ _ e.mine)
    rcases m with ⟨_, m2, _⟩ | ⟨_, _, m3, _⟩ | ⟨_, _, m3, _⟩ | ⟨_, _, _, m4, m5, m6, m7, _, m9⟩
    · exact (no _ m2).elim
    · exact (no _ m3).elim
    · cases m3
    · obtain ⟨w', g', a, b1, b2⟩ := ih r1 false (w + d.length) m4 (fun h => by cases h) (fun _ => by rw [m5]; exact hF)
        (fun h => by cases h) r' hr (ho.trans m9.symm)
      exact ⟨w', g', a, b1.trans m6, b2.trans m7⟩

/-- While bytes are missing and the system is willing, the device waits for more. -/
theorem unfinished_waits {s0 : Server} (w0 : ServerOk s0) (hw : Willing s0) {h : Nat} {it : Item} (hg : s0.tree.get h = some it)
    (hf : it.fmt ≠ ASSOC) (q : List UInt8) (n : Nat) (hn : n < 2 ^ 32) (bs : List (List UInt8)) (hl : ∀ b ∈ bs, b.length < 2 ^ 31) :
    ∀ (r : Rsp Server) (f : Bool) (w : Nat), Rsp.Going r q h n w → (f = true → r.dev = s0) →
      (f = false → Edited s0 r.dev h) → (f = true → ∀ b ∈ bs.head?, 12 ≤ b.length) → w + (bodies f bs).flatten.length < n →
      ∃ r', r.run dev (unfinished f bs) = .ok r' ∧ responses r'.out = responses r.out := by
  induction bs with
  | nil => intro r f w _ _ _ _ _; exact ⟨r, rfl, rfl⟩
  | cons b bs ih =>
    intro r f w g h0 h1 hb hsz
    obtain ⟨r1, e1, m⟩ := Rsp.upload_packet dev r q b _ h n w f false g (fun hf => hb hf b rfl) rfl
    have hbl : (if f = true then List.drop 12 b else b).length < 2 ^ 31 := by
      have := hl b (by simp)
      split
      · rw [List.length_drop]; omega
      · exact this
    simp only [bodies, List.flatten_cons, List.length_append] at hsz
    generalize (if f = true then List.drop 12 b else b) = d at m hsz hbl
    have hF : Edited s0 (dev.write r.dev h (some d) f false).1 h ∧ (dev.write r.dev h (some d) f false).2 = .ok := by
      cases f with
      | true => rw [h0 rfl]; exact ⟨write_first_edited w0 hg d false, write_taken hg hf hw d hbl _ _⟩
      | false =>
        have e := h1 rfl
        have hg' : r.dev.tree.get h = some it := by rw [e.tree]; exact hg
        exact ⟨e.trans (write_edited e.ok hg' _ _ _ e.mine), write_taken hg' hf (fun a b => by rw [e.ios]; exact hw a b) d hbl _ _⟩
    rcases m with ⟨m1, _⟩ | ⟨_, m2, _⟩ | ⟨_, _, m3, _⟩ | ⟨_, _, _, m4, m5, _, _, _, m9⟩
    · exact absurd hF.2 m1
    · omega
    · cases m3
    · obtain ⟨r', e, o⟩ := ih (fun b hb => hl b (by simp [hb])) r1 false (w + d.length) m4 (fun h => by cases h)
        (fun _ => by rw [m5]; exact hF.1) (fun h => by cases h) (by omega)
      refine ⟨r', ?_, o.trans m9⟩
      simp only [unfinished, Rsp.run, Rsp.step, e1, Res.bind_ok]
      exact e

/-- Deleting an object that was just created leaves everything else as it was before. -/
theorem delete_new {s0 s1 s : Server} {p h : Nat} {o : ObjInfo} (w : ServerOk s0) (nw : New s0 s1 p o h)
    (hs : s = s1 ∨ Edited s1 s h) (hfs : ∀ i, s0.tree.fs i = true) : Unchanged s0 (s.delete h 0).1 := by
  have w1 := nw.ok w
  obtain ⟨pit, hp, hpf, hfree, ⟨v, hget⟩, _⟩ := nw.parent
  have ht : s.tree = s1.tree := by
    rcases hs with rfl | e
    · rfl
    · exact e.tree
  have ws : ServerOk s := by
    rcases hs with rfl | e
    · exact w1
    · exact e.ok
  have hsid : s.sid = s0.sid := by
    rcases hs with rfl | e
    · exact nw.sid
    · exact e.sid.trans nw.sid
  have hoth : ∀ x, x ≠ h → contents s x = contents s0 x ∧ s.infoOf x = s0.infoOf x := by
    intro x hx
    obtain ⟨a, b⟩ := nw.old w x hx
    rcases hs with rfl | e
    · exact ⟨a, b⟩
    · exact ⟨(e.other x hx).1.trans a, (e.other x hx).2.trans b⟩
  have hh : s.tree.has h = true := by
    rw [ht]
    exact has_iff.mpr ⟨_, (hget h).trans (if_pos rfl)⟩
  have h0 : h ≠ 0 := by have := nw.later; omega
  have hph : p ≠ h := by
    rintro rfl
    rw [nw.fresh] at hp; cases hp
  obtain ⟨c1, c2⟩ := Props.C19_exactly_subtree ws.wf h 0 nw.notAll h0 hh (fun i _ _ => by rw [ht, nw.fs]; exact hfs i)
  obtain ⟨t1, t2⟩ := deleteItem_spec ws.wf h 0
  obtain ⟨k1, k2⟩ := dropGone_ok ws t1 t2
  have hd : (s.delete h 0).1 = s.dropGone (s.tree.deleteItem h 0).1 := by
    unfold delete
    rw [if_neg (by rintro ⟨_, e⟩; rw [hh] at e; cases e)]
  -- nothing is below it
  have hbel : ∀ x, Below s.tree h x → x = h := by
    intro x hx
    induction hx with
    | self => rfl
    | child e1 e2 _ ih =>
      rename_i x p' it' _
      subst ih
      rw [ht, hget] at e1
      by_cases hxh : x = p'
      · exact hxh
      rw [if_neg hxh] at e1
      exfalso
      by_cases hxp : x = p
      · rw [if_pos hxp] at e1
        cases e1
        simp only at e2
        have hx0 : x ≠ 0 := by
          rintro rfl
          obtain ⟨rt, r1, _, r3⟩ := w.wf.root
          rw [← hxp] at hp
          rw [hp] at r1; cases r1
          rw [e2] at r3; cases r3
        obtain ⟨q, qit, f1, _, f3, _⟩ := w.wf.parent p pit hp (hxp ▸ hx0)
        rw [e2] at f1; cases f1
        rw [nw.fresh] at f3; cases f3
      · rw [if_neg hxp] at e1
        have hx0 : x ≠ 0 := by
          rintro rfl
          obtain ⟨rt, r1, _, r3⟩ := w.wf.root
          rw [e1] at r1; cases r1
          rw [e2] at r3; cases r3
        obtain ⟨q, qit, f1, _, f3, _⟩ := w.wf.parent x it' e1 hx0
        rw [e2] at f1; cases f1
        rw [nw.fresh] at f3; cases f3
  have hnot : (s.tree.deleteItem h 0).1.has h = false := by
    cases e : (s.tree.deleteItem h 0).1.has h with
    | false => rfl
    | true => exact absurd Below.self ((c2 h).mp e).2
  have hsame : ∀ x, x ≠ h → (s.tree.deleteItem h 0).1.has x = s0.tree.has x := by
    intro x hx
    have h1 : s.tree.has x = s0.tree.has x := by
      rw [ht]
      unfold Tree.has
      rw [hget x, if_neg hx]
      by_cases hxp : x = p
      · rw [if_pos hxp, hxp, hp]; rfl
      · rw [if_neg hxp]
    have h2 := c2 x
    rw [← h1]
    cases e : s.tree.has x with
    | true => exact h2.mpr ⟨e, fun hb => hx (hbel x hb)⟩
    | false =>
      cases e2 : (s.tree.deleteItem h 0).1.has x with
      | false => rfl
      | true => exact absurd (h2.mp e2).1 (by rw [e]; simp)
  have gone : ∀ u : Server, u.tree.has h = false → contents u h = none := by
    intro u hu
    unfold contents
    rw [has_false.mp hu]
  have gone2 : ∀ u : Server, u.tree.has h = false → u.infoOf h = (.invalidObjectHandle, ⟨0, 0, 0, 0, 0, 0, 0, 0, 0, 0, 0, 0, 0, 0, 0, [], [], [], []⟩) := by
    intro u hu
    unfold infoOf
    rw [has_false.mp hu]
  have hf0 : s0.tree.has h = false := has_false.mpr nw.fresh
  have hgone : (s.dropGone (s.tree.deleteItem h 0).1).tree.has h = false := hnot
  rw [hd]
  -- objects that did not exist before do not exist now
  refine ⟨hsid, k1, fun x => ?_, fun x => ?_, fun x => ?_⟩
  · by_cases hx : x = h
    · subst hx; rw [hf0]; exact hnot
    · exact hsame x hx
  · by_cases hx : x = h
    · subst hx; rw [gone _ hgone, gone _ hf0]
    · cases e : s0.tree.has x with
      | true => rw [(k2 x (by rw [hsame x hx, e])).1, (hoth x hx).1]
      | false =>
        have e' : (s.dropGone (s.tree.deleteItem h 0).1).tree.has x = false := by
          show (s.tree.deleteItem h 0).1.has x = false
          rw [hsame x hx, e]
        unfold contents
        rw [has_false.mp e, has_false.mp e']
  · by_cases hx : x = h
    · subst hx; rw [gone2 _ hgone, gone2 _ hf0]
    · cases e : s0.tree.has x with
      | true => rw [(k2 x (by rw [hsame x hx, e])).2, (hoth x hx).2]
      | false =>
        have e' : (s.dropGone (s.tree.deleteItem h 0).1).tree.has x = false := by
          show (s.tree.deleteItem h 0).1.has x = false
          rw [hsame x hx, e]
        unfold infoOf
        rw [has_false.mp e, has_false.mp e']

/-- An upload announced before, begun, not answered, and cancelled. -/
theorem cancel_going {r r1 : Rsp Server} {p h n : Nat} {o : ObjInfo} (w : ServerOk r.dev) (ho1 : Open r1) (nw : New r.dev r1.dev p o h)
    (an : Spec.Announced r1 h n) (hfs : ∀ i, r.dev.tree.fs i = true) (q : List UInt8) (hq : Asking q 0x100D)
    (ds : List (List UInt8)) (hb : ∀ b ∈ ds.head?, 12 ≤ b.length) (r2 : Rsp Server) (hr : r1.run dev (sendPart q ds) = .ok r2)
    (hno : responses r2.out = responses r1.out) :
    ∃ r3 r4, r2.run dev [.ev .cancel] = .ok r3 ∧ responses r3.out = responses r2.out ∧ Unchanged r.dev r3.dev ∧
      r3.sendSeq = none ∧ r3.propList = none ∧ Continues r3 r4 := by
  obtain ⟨ra, e1, g, kk, o1⟩ := Rsp.accept_going dev r1 q h n ho1.idle ho1.ready ho1.session hq.tid hq.code an
  obtain ⟨pit, _, _, _, ⟨v, hget⟩, _⟩ := nw.parent
  simp only [sendPart, Rsp.run, Rsp.step, e1, Res.bind_ok] at hr
  obtain ⟨w', g', hd, hse, hre⟩ := unfinished_going (nw.ok w) ((hget h).trans (if_pos rfl)) q n ds ra true 0 g (fun _ => kk.dev)
    (fun h => by cases h) (fun _ => hb) r2 hr (hno.trans o1.symm)
  have h0 : h ≠ 0 := by have := nw.later; omega
  have un := delete_new w nw hd hfs
  obtain ⟨c1, c2, c3, _, c5, c6, _⟩ := Props.C38_cancel_partial dev (fun _ _ => False) (fun _ _ _ hh => hh) r2 q g'.req (by unfold Props.IsUpload; rw [g'.code]; decide) h n
    (u32 w') h0 (by
      rcases g'.pend with a | ⟨a, pl, b1, b2, _⟩
      · exact Or.inl a
      · exact Or.inr ⟨a, pl, b1, b2⟩)
  refine ⟨r2.handleEv dev .cancel, (r2.handleEv dev .cancel).setState .idle, rfl, c6, by rw [c3]; exact un, c1, c2, ?_⟩
  have hst : (r2.handleEv dev .cancel).st = .txCancel ∧ (r2.handleEv dev .cancel).session = r2.session ∧
      (r2.handleEv dev .cancel).ready = r2.ready := by
    simp only [Rsp.handleEv, Rsp.handleCancel]
    split
    · next e => rw [g'.req] at e; simp at e
    · split
      · unfold Rsp.cancelUpload
        simp only
        split <;> split <;> simp [Rsp.deleteStored, Rsp.emit]
      · simp
  refine ⟨⟨by simp, by simp [c5], ?_, ?_⟩, by simp, Rsp.responses_setState _ _, fun b n => Rsp.receive_other dev _ b n (Or.inl hst.1)⟩
  · rw [Rsp.setState_ready, hst.2.2, hre, kk.ready]; exact ho1.ready
  · rw [Rsp.setState_session, hst.2.1, hse, kk.session]; exact ho1.session

theorem send_waits {r r1 : Rsp Server} {p h n : Nat} {o : ObjInfo} (w : ServerOk r.dev) (hw : Willing r1.dev) (ho1 : Open r1)
    (nw : New r.dev r1.dev p o h) (hf : o.format ≠ ASSOC) (hn : n < 2 ^ 32) (an : Spec.Announced r1 h n) (q : List UInt8)
    (hq : Asking q 0x100D) (ds : List (List UInt8)) (hb : ∀ b ∈ ds.head?, 12 ≤ b.length) (hl : ∀ b ∈ ds, b.length < 2 ^ 31)
    (hsz : (bodies true ds).flatten.length < n) :
    ∃ r2, r1.run dev (sendPart q ds) = .ok r2 ∧ responses r2.out = responses r1.out := by
  obtain ⟨ra, e1, g, kk, o1⟩ := Rsp.accept_going dev r1 q h n ho1.idle ho1.ready ho1.session hq.tid hq.code an
  obtain ⟨pit, _, _, _, ⟨v, hget⟩, _⟩ := nw.parent
  obtain ⟨r2, e2, o2⟩ := unfinished_waits (nw.ok w) hw ((hget h).trans (if_pos rfl)) hf q n hn ds hl ra true 0 g (fun _ => kk.dev)
    (fun h => by cases h) (fun _ => hb) (by omega)
  refine ⟨r2, ?_, o2.trans o1⟩
  simp only [sendPart, Rsp.run, Rsp.step, e1, Res.bind_ok]
  exact e2

end Server
end Mtp
