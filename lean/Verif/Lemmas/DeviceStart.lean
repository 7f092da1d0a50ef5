import Verif.Spec.DeviceStart
import Verif.Lemmas.Device
import Verif.Lemmas.ServerIds
import Verif.Lemmas.Startup
import Verif.Props.Restart
import Verif.Props.DeviceRefs
/-! The device across restarts: its ids stay in order. -/
namespace Mtp
open Spec
namespace Device
open Server (InOrder)

theorem avoiding_weaken {a b : List Nat} (h : ∀ c ∈ a, c ∈ b) {i : Rsp.In Device} (hi : Avoiding b i) : Avoiding a i := by
  cases i <;> first | exact hi | exact (fun x y => fun m => hi x y (h _ m)) | trivial

theorem elapsed_weaken {a b : List Nat} (h : ∀ c ∈ a, c ∈ b) {r r' : Rsp Device} (t : Elapsed b r r') : Elapsed a r r' := by
  induction t with
  | start => exact .start _
  | step _ hi hs ih => exact .step ih (avoiding_weaken h hi) hs
  | drop x p _ ih => exact .drop x p ih
  | battery n _ ih => exact .battery n ih
  | space v _ ih => exact .space v ih

theorem elapsed_trans {a : List Nat} {r r1 r2 : Rsp Device} (t1 : Elapsed a r r1) (t2 : Elapsed a r1 r2) : Elapsed a r r2 := by
  induction t2 with
  | start => exact t1
  | step _ hi hs ih => exact .step ih hi hs
  | drop x p _ ih => exact .drop x p ih
  | battery n _ ih => exact .battery n ih
  | space v _ ih => exact .space v ih

theorem naming_weaken {a : List Nat} {r r' : Rsp Device} (t : Naming a r r') : Naming [] r r' := by
  induction t with
  | start => exact .start _
  | lived _ l ih =>
    exact .lived ih (elapsed_weaken (fun c hc => by
      simp only [List.mem_cons, List.not_mem_nil, or_false] at hc
      simp only [List.mem_cons]
      rcases hc with h | h | h <;> simp [h]) l)
  | set _ ho hs hx hrun ih => exact .set ih ho hs hx hrun


theorem _root_.Spec.Naming.trans {a : List Nat} {r r1 r2 : Rsp Device} (t1 : Naming a r r1) (t2 : Naming a r1 r2) : Naming a r r2 := by
  induction t2 with
  | start => exact t1
  | lived _ l ih => exact .lived ih l
  | set _ ho hs hx hrun ih => exact .set ih ho hs hx hrun

/-- A property value that is set: the packets hold no other command. -/
theorem value_avoids {q : List UInt8} {bs : List (List UInt8)} {h p : Nat} {pay : List UInt8} (hs : SettingValue q bs h p pay)
    {avoid : List Nat} (ha : 0x9804 ∉ avoid) : ∀ i ∈ (sendObject q bs : List (Rsp.In Device)), Avoiding avoid i := by
  have hrest : ∀ (bs : List (List UInt8)), ∀ i ∈ (dataPhase false bs : List (Rsp.In Device)), Avoiding avoid i := by
    intro bs
    induction bs with
    | nil => intro i hi; cases hi
    | cons b bs ih =>
      intro i hi
      rcases List.mem_cons.mp hi with rfl | hi
      · exact fun h => by cases h
      · exact ih i hi
  intro i hi
  rcases List.mem_cons.mp hi with rfl | hi
  · exact fun _ _ => by rw [hs.ask.code]; exact ha
  · obtain ⟨⟨b, hb, hb12⟩, hfl⟩ := hs.data
    cases bs with
    | nil => cases hi
    | cons b' bs =>
      cases hb
      rcases List.mem_cons.mp hi with rfl | hi
      · intro _ _
        have hp := Server.proper_of (q := q) (b := b) (bs := bs) (pay := pay) (by rw [hs.ask.code]; exact hfl) hb12 hs.short
        rw [hp.code, hs.ask.code]
        exact ha
      · exact hrest bs i hi

/-- A history with property values set is a history. -/
theorem naming_elapsed {avoid : List Nat} (ha : 0x9804 ∉ avoid) {r r' : Rsp Device} (t : Naming avoid r r') : Elapsed avoid r r' := by
  induction t with
  | start => exact .start _
  | lived _ l ih => exact elapsed_trans ih (elapsed_weaken (fun c hc => by simp [hc]) l)
  | set _ _ hs _ hrun ih => exact Props.lived_run _ _ _ ih (value_avoids hs ha) hrun

theorem set_ids (d : PServer) (h p : Nat) (v : Option Val) (hx : p ≠ 0xDC07 ∨ ∃ it, d.srv.tree.get h = some it ∧ it.fmt ≠ ASSOC) :
    InOrder d.srv (d.set h p v).1.srv := by
  unfold PServer.set
  split
  · exact InOrder.refl _
  · split
    · next e =>
      obtain ⟨it, e1, e2⟩ := hx.resolve_left (fun g => g e)
      exact Server.rename_ids _ _ _ fun it' e' => by rw [e1] at e'; cases e'; exact e2
    · exact InOrder.refl _

theorem setValue_ids (d : PServer) (h p : Nat) (b : List UInt8) (hx : p % 2 ^ 16 ≠ 0xDC07 ∨ ∃ it, d.srv.tree.get h = some it ∧ it.fmt ≠ ASSOC) :
    InOrder d.srv (d.setValue h p b).1.srv := by
  unfold PServer.setValue
  split
  · next t e =>
    have ht : t.code = p % 2 ^ 16 := by
      unfold propDescOf at e
      split at e
      · rw [PServer.desc_code e]; unfold u16; rfl
      · cases e
    split
    · exact set_ids d h _ _ (by rw [ht]; exact hx)
    · exact InOrder.refl _
  · exact InOrder.refl _

theorem store_value (d : Device) (ps : List Nat) (b : List UInt8) :
    (dev.store d 0x9804 ps b).1.ps = (d.ps.store 0x9804 ps b).1 ∧ (dev.store d 0x9804 ps b).1.refs = d.refs := by
  unfold dev
  simp only [storeData]
  rw [if_neg (by decide), if_neg (by decide)]
  exact ⟨rfl, rfl⟩

theorem store_value_ids (d : PServer) (ps : List Nat) (b : List UInt8)
    (hx : ps.getD 1 0 % 2 ^ 16 ≠ 0xDC07 ∨ ∃ it, d.srv.tree.get (ps.getD 0 0) = some it ∧ it.fmt ≠ ASSOC) :
    InOrder d.srv (d.store 0x9804 ps b).1.srv := by
  unfold PServer.store
  rw [if_pos rfl]
  split
  · exact setValue_ids d _ _ b hx
  · exact InOrder.refl _

/-- What a history of naming respects: the order of the ids, and what is known of references. -/
def Ordered (d d' : Device) : Prop := InOrder d.ps.srv d'.ps.srv

theorem closed_order : Rsp.Closed dev (· ∉ [0x1019, 0x9804, 0x9806]) Ordered := closed_server PServer.closed_ids

/-- SetObjPropValue. -/
theorem set_value_any (r : Rsp Device) (ho : Open r) {q : List UInt8} {bs : List (List UInt8)} {h p : Nat} {pay : List UInt8}
    (hs : SettingValue q bs h p pay) :
    ∃ r' c l, AnsweredBy dev r r' (sendObject q bs) q c l ∧
      (r'.dev = r.dev ∨ r'.dev = (dev.store r.dev 0x9804 (cParams q) (dataContainer 0x9804 (cTid q) pay)).1) := by
  have hne : bs ≠ [] := by
    obtain ⟨⟨b, hb, _⟩, _⟩ := hs.data
    rintro rfl
    cases hb
  by_cases hc : dev.check r.dev 0x9804 (cParams q) = .ok
  · obtain ⟨r', a1, a2, _⟩ := Server.set_answer_by dev r ho q 0x9804 hs.ask true rfl rfl _ bs hs.data hs.short (fun _ => hc)
    exact ⟨r', _, _, a1, Or.inr a2⟩
  · obtain ⟨r', a1, a2⟩ := Server.set_refused_by dev r ho q 0x9804 hs.ask rfl rfl bs hne _ rfl hc
    exact ⟨r', _, _, a1, Or.inl a2⟩

theorem naming_along {r r' : Rsp Device} (hr : r.req = none) (t : Naming [] r r') :
    Rsp.Along (· ∉ [0x1019, 0x9804, 0x9806]) Ordered r.dev r' := by
  induction t with
  | start => exact along_open closed_order (by decide) hr
  | lived _ l ih => exact lived_along closed_order (fun d _ _ => InOrder.refl _) (fun d _ => InOrder.refl _) ih l
  | @set r1 r2 q bs h p pay _ ho hs hx hrun ih =>
    obtain ⟨r3, c, l, a1, a2⟩ := set_value_any r1 ho hs
    have e := answer_unique' a1 hrun
    subst e
    refine ⟨closed_order.trans _ _ _ ih.dev ?_, (fun q e => by rw [a1.again.none] at e; cases e), fun _ _ => by decide⟩
    rcases a2 with a2 | a2
    · rw [a2]; exact InOrder.refl _
    · rw [a2]
      show InOrder r1.dev.ps.srv (dev.store r1.dev 0x9804 (cParams q) _).1.ps.srv
      rw [(store_value _ _ _).1]
      exact store_value_ids _ _ _ (by
        rw [show (cParams q).getD 1 0 = cParam q 1 from rfl, show (cParams q).getD 0 0 = cParam q 0 from rfl, hs.prop, hs.object]
        exact hx)

theorem naming_order {r r' : Rsp Device} (hr : r.req = none) (t : Naming [] r r') : InOrder r.dev.ps.srv r'.dev.ps.srv :=
  (naming_along hr t).dev

/-! ### Starting -/

theorem start_tree (e : Setting) (f : Saved) : (start e f).ps.srv.tree =
    ((Tree.empty e.root e.excl e.policy (readIds e.junk f.ids).2 e.fs e.asked (readIds e.junk f.ids).1).enumerate e.disk).dropUnused := rfl

theorem boots_ok {e : Setting} {f : Saved} {r : Rsp Device} (b : Boots e f r) : ServerOk r.dev.ps.srv := by
  obtain ⟨l, es, hd, hm⟩ := b.dir.dir
  have hh := b.handles
  rw [b.dev] at hh ⊢
  have d1 := b.dir.names
  have d2 := b.dir.distinct
  rw [hd] at d1 d2
  rw [start_tree, hd] at hh
  have := Server.start_ok e.sid e.fmts e.caps e.facts e.ios e.alloc e.room e.times (pu := (readIds e.junk f.ids).2) (fs := e.fs)
    (asked := e.asked) (ids := (readIds e.junk f.ids).1) d1 d2 hm hh
  show ServerOk (Server.start e.sid e.fmts e.caps _ e.disk e.facts e.ios e.alloc e.room e.times)
  rw [hd]
  exact this

theorem boots_start {e : Setting} {f : Saved} {r : Rsp Device} (b : Boots e f r) :
    ∃ l es, e.disk = .node l ASSOC es ∧
      Props.StartOk (readIds e.junk f.ids).2 e.root e.excl e.policy e.fs e.asked (readIds e.junk f.ids).1 l ASSOC es := by
  obtain ⟨l, es, hd, hm⟩ := b.dir.dir
  have hh := b.handles
  have d1 := b.dir.names
  rw [hd, DiskOk] at d1
  rw [b.dev, start_tree, hd] at hh
  exact ⟨l, es, hd, d1, (mayShow_iff (Tree.empty _ _ _ _ _ _ _) _ _).mpr hm, hh⟩

theorem readIds_largest (junk : Nat → UInt8) (largest : Nat) (ids : List (List Char × Nat)) (hl : largest < 2^128)
    (hc : ids.length < 2^32) : (readIds junk (storeIds largest ids)).1 = largest := by
  unfold storeIds
  rw [Props.readIds_header junk hl hc]

theorem start_restart (e : Setting) (f : Saved) : (start e f).refTree =
    restart e.junk f.ids f.refs e.root e.excl e.policy e.fs e.asked (readIds e.junk f.ids).1 e.disk := rfl

theorem boots_again {e : Setting} {d : Device} {r : Rsp Device} (i : IdsInv d.ps.srv.tree) (wr : Writable d) (b : Boots e d.save r) :
    IdsInv r.dev.ps.srv.tree ∧ ∀ h it, r.dev.ps.srv.tree.get h = some it →
      ∀ p v, AMap.get d.ps.srv.tree.puoids p = some v → (it.puoid = v ↔ it.path = p) := by
  obtain ⟨l, es, hd, so⟩ := boots_start b
  have hl : (readIds e.junk d.save.ids).1 = d.ps.srv.tree.idsAsked := readIds_largest _ _ _ wr.ids wr.number
  have := Props.restart_inv i ⟨wr.number, wr.entries⟩ e.junk wr.ids d.save.refs (Nat.le_of_eq hl.symm) so
  have he : r.dev.ps.srv.tree = (restart e.junk (storeIds d.ps.srv.tree.idsAsked d.ps.srv.tree.puoids) d.save.refs e.root e.excl e.policy
      e.fs e.asked (readIds e.junk d.save.ids).1 (.node l ASSOC es)).t := by
    rw [b.dev, ← hd]
    exact congrArg RefTree.t (start_restart e d.save)
  rw [he]
  exact this.2

theorem boots_first {e : Setting} {r : Rsp Device} (b : Boots e ⟨[], []⟩ r) : IdsInv r.dev.ps.srv.tree := by
  obtain ⟨l, es, hd, so⟩ := boots_start b
  obtain ⟨w, _⟩ := enumerate_ok _ _ _ _ _ _ _ _ _ _ so.names so.root so.handles
  have i0 : IdsInv (Tree.empty e.root e.excl e.policy (readIds e.junk ([] : List UInt8)).2 e.fs e.asked (readIds e.junk ([] : List UInt8)).1) :=
    empty_ids (fun p q v hp => by cases hp) (fun p v hp => by cases hp) List.nodup_nil
  have ie := (add_ids i0 e.root (.node l ASSOC es) none false false 0).1
  rw [b.dev, start_tree, hd]
  exact dropUnused_ids w ie

theorem booted_ids {r : Rsp Device} (b : Booted r) : r.req = none ∧ r.propList = none ∧ ServerOk r.dev.ps.srv ∧ IdsInv r.dev.ps.srv.tree := by
  induction b with
  | first b => exact ⟨b.req, b.list, boots_ok b, boots_first b⟩
  | again _ t hb wr b ih =>
    obtain ⟨i1, i2, i3, i4⟩ := ih
    have i := (naming_order i1 t).2 i3 hb i4
    exact ⟨b.req, b.list, boots_ok b, (boots_again i wr b).1⟩

end Device
end Mtp
