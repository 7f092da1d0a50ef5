import Verif.Lemmas.ServerProps
import Verif.Lemmas.PropSet
/-! The factory's cache in front of the server: when it tells the truth. -/
namespace Mtp
open Spec

namespace Fac
variable {V : Type}

/-- The cache grew by true values of objects the storages know. -/
def Fed (s s' : Fac V) : Prop :=
  s'.store = s.store ∧ ∀ h p v, s'.cache.get h p = some v → s.cache.get h p = some v ∨
    (v = s.store.val h p ∧ (s.store.has h = true ∨ ∃ par, h ∈ s.store.kids par))

theorem Fed.refl (s : Fac V) : Fed s s := ⟨rfl, fun _ _ _ => Or.inl⟩

theorem Fed.trans {a b c : Fac V} (h1 : Fed a b) (h2 : Fed b c) : Fed a c := by
  refine ⟨h2.1.trans h1.1, fun h p v e => ?_⟩
  rcases h2.2 h p v e with e | e
  · exact h1.2 h p v e
  · rw [h1.1] at e; exact Or.inr e

theorem readOne_fed (s : Fac V) {h : Nat} (hh : s.store.has h = true) (f : List (Nat × V)) (m : List Nat) :
    Fed s (s.readOne h f m).1 := by
  refine ⟨rfl, fun x p v e => ?_⟩
  rcases addTrue_get s h m e with ⟨g1, g2⟩ | g
  · exact Or.inr ⟨g1, Or.inl (g2 ▸ hh)⟩
  · exact Or.inl g

theorem feed_fed (s : Fac V) (par : Nat) (m ms : List Nat) : Fed s { s with cache := s.feed par m, mass := ms } := by
  refine ⟨rfl, fun x p v e => ?_⟩
  rcases feed_get s par m e with ⟨g1, g2⟩ | g
  · exact Or.inr ⟨g1, Or.inr ⟨par, g2⟩⟩
  · exact Or.inl g

theorem read_fed (s : Fac V) (h : Nat) (codes : List Nat) : Fed s (s.read h codes).1 := by
  unfold read
  generalize splitReq s.cache h codes = fm
  obtain ⟨f, m⟩ := fm
  simp only
  by_cases h1 : m = []
  · rw [if_pos h1]; exact Fed.refl s
  rw [if_neg h1]
  cases hh : s.store.has h with
  | false => simp only [Bool.false_eq_true, not_false_eq_true, if_true]; exact Fed.refl s
  | true =>
    simp only [not_true, if_false]
    by_cases h2 : s.store.parent h ∈ s.mass ∨ h = 0
    · rw [if_pos h2]; exact readOne_fed s hh f m
    rw [if_neg h2]
    cases hp : s.store.has (s.store.parent h) with
    | false => simp only [Bool.false_eq_true, not_false_eq_true, if_true]; exact Fed.refl s
    | true =>
      simp only [not_true, if_false]
      have hf := feed_fed s (s.store.parent h) m (s.store.parent h :: s.mass)
      by_cases h3 : (splitReq (s.feed (s.store.parent h) m) h (f.map (·.1) ++ m)).2 = []
      · rw [if_pos h3]; exact hf
      · rw [if_neg h3]
        have h4 := fun f' m' =>
          readOne_fed { s with cache := s.feed (s.store.parent h) m, mass := s.store.parent h :: s.mass } (h := h) hh f' m'
        exact hf.trans (h4 [] (splitReq (s.feed (s.store.parent h) m) h (f.map (·.1) ++ m)).2)

theorem split_some {c : Cache V} {h p : Nat} {v : V} (e : c.get h p = some v) : splitReq c h [p] = ([(p, v)], []) := by
  simp [splitReq, e]

theorem split_none {c : Cache V} {h p : Nat} (e : c.get h p = none) : splitReq c h [p] = ([], [p]) := by
  simp [splitReq, e]

/-- Asking for one property of an object that exists, whose cached value, if any, is true. -/
theorem read_true (s : Fac V) (h p : Nat) (hh : s.store.has h = true) (hp : s.store.has (s.store.parent h) = true ∨ h = 0)
    (hc : ∀ v, s.cache.get h p = some v → v = s.store.val h p) :
    ∃ s', s.read h [p] = (s', .ok, [(p, s.store.val h p)]) := by
  unfold read
  cases e : s.cache.get h p with
  | some v =>
    rw [split_some e]
    simp only [if_true]
    rw [hc v e]
    exact ⟨_, rfl⟩
  | none =>
    rw [split_none e]
    simp only [List.cons_ne_nil, if_false, hh, not_true]
    by_cases h2 : s.store.parent h ∈ s.mass ∨ h = 0
    · rw [if_pos h2]; exact ⟨_, rfl⟩
    · rw [if_neg h2]
      have hpar : s.store.has (s.store.parent h) = true := hp.resolve_right fun x => h2 (Or.inr x)
      simp only [hpar, not_true, if_false, List.map_nil, List.nil_append]
      cases e2 : (s.feed (s.store.parent h) [p]).get h p with
      | some v =>
        rw [split_some e2]
        simp only [if_true]
        rcases feed_get s _ _ e2 with ⟨g, _⟩ | g
        · rw [g]; exact ⟨_, rfl⟩
        · rw [e] at g; cases g
      | none =>
        rw [split_none e2]
        simp only [List.cons_ne_nil, if_false]
        exact ⟨_, rfl⟩

end Fac

theorem propListLoop_fed (c : DevCaps) (format : Nat → Nat) (prop : Nat) (hs : List Nat) :
    ∀ (s : Fac (Option Val)) (t : Tx) (n : Nat) {s' : Fac (Option Val)} {r : Resp} {t' : Tx} {n' : Nat},
    propListLoop c format prop hs s t n = .ok (s', r, t', n') → Fac.Fed s s' := by
  induction hs with
  | nil => intro s t n s' r t' n' e; simp only [propListLoop, Res.ok.injEq, Prod.mk.injEq] at e; rw [← e.1]; exact Fac.Fed.refl s
  | cons h hs ih =>
    intro s t n s' r t' n' e
    unfold propListLoop at e
    split at e
    · simp only [Res.ok.injEq, Prod.mk.injEq] at e; rw [← e.1]; exact Fac.Fed.refl s
    · simp only at e
      cases hw : wantedCodes c (c.category (u16 (format h))) prop with
      | ub u => rw [hw] at e; cases e
      | ok x =>
        obtain ⟨q, codes⟩ := x
        rw [hw] at e
        simp only [Res.bind_ok] at e
        have hf := Fac.read_fed s h codes
        generalize s.read h codes = y at e hf
        obtain ⟨s1, r1, vals⟩ := y
        simp only at e hf
        by_cases h1 : q = .ok
        · simp only [h1, ne_eq, not_true, if_false] at e
          by_cases h2 : r1 = .ok
          · simp only [h2, ne_eq, not_true, if_false] at e
            cases hz : serializePropList c (c.category (u16 (format h))) h vals t with
            | ub u => rw [hz] at e; cases e
            | ok z =>
              obtain ⟨t2, m⟩ := z
              rw [hz] at e
              simp only [Res.bind_ok] at e
              exact hf.trans (ih _ _ _ e)
          · simp only [h2, ne_eq, not_false_eq_true, if_true, Res.pure_eq, Res.ok.injEq, Prod.mk.injEq] at e
            rw [← e.1]; exact hf
        · simp only [h1, ne_eq, not_false_eq_true, if_true, Res.pure_eq, Res.ok.injEq, Prod.mk.injEq] at e
          rw [← e.1]; exact Fac.Fed.refl s

theorem getObjPropValue_fed (sv : PropServer) (tid h p : Nat) {f : Fac (Option Val)} {b : Option (List UInt8)} {r : Resp}
    (e : getObjPropValue sv tid h p = .ok (f, b, r)) : Fac.Fed sv.fac f := by
  unfold getObjPropValue at e
  split at e
  · next d _ =>
    have hf := Fac.read_fed sv.fac h [d.code]
    simp only at e
    split at e
    · cases h1 : Tx.new 2 0x9803 tid 16 with
      | ub u => rw [h1] at e; cases e
      | ok t =>
        rw [h1] at e
        simp only [Res.bind_ok] at e
        generalize t.putVariant d.dtype _ = y at e
        cases y with
        | ub u => cases e
        | ok t2 =>
          simp only [Res.bind_ok] at e
          cases h3 : t2.buffer with
          | ub u => rw [h3] at e; cases e
          | ok t3 =>
            rw [h3] at e
            simp only [Res.bind_ok, Res.pure_eq, Res.ok.injEq, Prod.mk.injEq] at e
            rw [← e.1]; exact hf
    · simp only [Res.ok.injEq, Prod.mk.injEq] at e
      rw [← e.1]; exact hf
  · simp only [Res.ok.injEq, Prod.mk.injEq] at e
    rw [← e.1]; exact Fac.Fed.refl _

theorem getObjectPropList_fed (sv : PropServer) (tid p0 p1 p2 p4 : Nat) {f : Fac (Option Val)} {b : Option (List UInt8)} {r : Resp}
    (e : getObjectPropList sv tid p0 p1 p2 p4 = .ok (f, b, r)) : Fac.Fed sv.fac f := by
  have emp : ∀ r', (emptyPropList tid >>= fun b => (pure (sv.fac, some b, r') : Res _)) = .ok (f, b, r) → Fac.Fed sv.fac f := by
    intro r' e
    cases h1 : emptyPropList tid with
    | ub u => rw [h1] at e; cases e
    | ok t =>
      rw [h1] at e
      simp only [Res.bind_ok, Res.pure_eq, Res.ok.injEq, Prod.mk.injEq] at e
      rw [← e.1]; exact Fac.Fed.refl _
  unfold getObjectPropList at e
  simp only at e
  by_cases c1 : p0 = 0 ∧ p4 = 0
  · rw [if_pos c1] at e; exact emp _ e
  rw [if_neg c1] at e
  by_cases c2 : 1 < p4 ∧ p4 < 0xFFFFFFFF
  · rw [if_pos c2] at e; cases e; exact Fac.Fed.refl _
  rw [if_neg c2] at e
  by_cases c3 : u16 p2 = 0
  · rw [if_pos c3] at e; cases e; exact Fac.Fed.refl _
  rw [if_neg c3] at e
  by_cases c4 : u16 p1 ≠ 0 ∧ sv.caps.category (u16 p1) = .unsupported
  · rw [if_pos c4] at e; cases e; exact Fac.Fed.refl _
  rw [if_neg c4] at e
  generalize (if p4 = 0 then (Resp.ok, [p0])
      else sv.handles (u16 p1) (if p0 = 0 then 0xFFFFFFFF else if p0 = 0xFFFFFFFF then 0 else p0)) = x at e
  obtain ⟨r1, hs⟩ := x
  simp only at e
  by_cases c5 : r1 = .ok
  · rw [if_pos c5] at e
    cases h1 : Tx.new 2 0x9805 tid (16384 - 12) with
    | ub u => rw [h1] at e; cases e
    | ok t =>
      rw [h1] at e
      simp only [Res.bind_ok] at e
      cases h2 : t.putInt 4 (u32 hs.length) with
      | ub u => rw [h2] at e; cases e
      | ok t2 =>
        rw [h2] at e
        simp only [Res.bind_ok] at e
        cases h3 : propListLoop sv.caps sv.format (u16 p2) hs sv.fac t2 0 with
        | ub u => rw [h3] at e; cases e
        | ok y =>
          obtain ⟨s1, r2, t3, n⟩ := y
          have hf := propListLoop_fed _ _ _ _ _ _ _ h3
          rw [h3] at e
          simp only [Res.bind_ok] at e
          by_cases c6 : r2 = .ok
          · rw [if_pos c6] at e
            cases h4 : Mem.store t3.mem 12 (leBytes 4 n) with
            | ub u => rw [h4] at e; cases e
            | ok m =>
              rw [h4] at e
              simp only [Res.bind_ok] at e
              cases h5 : Tx.buffer { t3 with mem := m } with
              | ub u => rw [h5] at e; cases e
              | ok z =>
                rw [h5] at e
                simp only [Res.bind_ok, Res.pure_eq, Res.ok.injEq, Prod.mk.injEq] at e
                rw [← e.1]; exact hf
          · rw [if_neg c6] at e
            simp only [Res.pure_eq, Res.ok.injEq, Prod.mk.injEq] at e
            rw [← e.1]; exact hf
  · rw [if_neg c5] at e; exact emp _ e

namespace PServer
open Server (Steady written Later)

/-- Objects and disk agree, and what is cached about the properties in `P` of existing objects is true. -/
structure Coh (P : Nat → Nat → Prop) (d : PServer) : Prop where
  ok : ServerOk d.srv
  told : ∀ h p v, P h p → d.srv.tree.has h = true → d.cache.get h p = some v → v = d.srv.prop h p
  known : ∀ h p v, d.cache.get h p = some v → h ≤ d.srv.tree.asked

variable {P : Nat → Nat → Prop}

theorem has_issued {s : Server} (w : ServerOk s) {h : Nat} (hh : s.tree.has h = true) : h ≤ s.tree.asked := by
  obtain ⟨it, e⟩ := has_iff.mp hh
  exact w.issued h it e

/-- From one state to a later one. -/
def Next (P : Nat → Nat → Prop) (d d' : PServer) : Prop :=
  d.srv.tree.asked ≤ d'.srv.tree.asked ∧ (d'.srv.tree.asked < 0xFFFFFFFF → Coh P d → Coh P d')

theorem Next.refl (d : PServer) : Next P d d := ⟨Nat.le_refl _, fun _ h => h⟩

theorem Next.trans {a b c : PServer} (h1 : Next P a b) (h2 : Next P b c) : Next P a c :=
  ⟨Nat.le_trans h1.1 h2.1, fun hb h => h2.2 hb (h1.2 (Nat.lt_of_le_of_lt h2.1 hb) h)⟩

theorem Next.of {T : Nat → Nat → Prop} {d d' : PServer} (st : Steady T d.srv d'.srv)
    (hc : ∀ x p v, d'.cache.get x p = some v → d.cache.get x p = some v ∧ (P x p → T x p)) : Next P d d' := by
  refine ⟨st.1, fun hb h => ?_⟩
  obtain ⟨w, hx⟩ := st.2 h.ok hb
  refine ⟨w, fun x p v hp hh e => ?_, fun x p v e => Nat.le_trans (h.known x p v (hc x p v e).1) st.1⟩
  obtain ⟨e1, e2⟩ := hc x p v e
  rcases hx x hh with g | ⟨g1, g2⟩
  · have := h.known x p v e1; omega
  · rw [g2 p (e2 hp)]; exact h.told x p v hp g1 e1

theorem Next.all {d d' : PServer} (st : Steady (fun _ _ => True) d.srv d'.srv)
    (hc : ∀ x p v, d'.cache.get x p = some v → d.cache.get x p = some v) : Next P d d' :=
  Next.of st fun x p v e => ⟨hc x p v e, fun _ => trivial⟩

/-- Values of properties that are not in `P` are cached. -/
theorem Next.cached {d : PServer} {h : Nat} {l : List (Nat × Option Val)} (hh : d.srv.tree.has h = true)
    (hl : ∀ e ∈ l, ¬ P h e.1) : Next P d { d with cache := d.cache.addList h l } := by
  refine ⟨Nat.le_refl _, fun _ c => ⟨c.ok, fun x p v hp hx e => ?_, fun x p v e => ?_⟩⟩
  · simp only [Cache.get_addList] at e
    split at e
    · next g =>
      subst g
      cases hq : lastIn l p with
      | none => rw [hq] at e; exact c.told _ p v hp hx (by simpa using e)
      | some w => exact absurd hp (hl _ (Fac.lastIn_mem hq))
    · exact c.told x p v hp hx e
  · simp only [Cache.get_addList] at e
    split at e
    · next g => subst g; exact has_issued c.ok hh
    · exact c.known x p v e

/-- Properties were read. -/
theorem Next.took {d : PServer} {f : Fac (Option Val)} (hf : Fac.Fed d.fac f) : Next P d (d.took f) := by
  refine ⟨Nat.le_refl _, fun _ c => ⟨c.ok, fun x p v hp hx e => ?_, fun x p v e => ?_⟩⟩
  · rcases hf.2 x p v e with g | g
    · exact c.told x p v hp hx g
    · exact g.1
  · rcases hf.2 x p v e with g | ⟨_, g⟩
    · exact c.known x p v g
    · rcases g with g | ⟨par, g⟩
      · exact has_issued c.ok g
      · have g' : x ∈ ((d.srv.tree.get par).map (·.kids)).getD [] := g
        cases hg : d.srv.tree.get par with
        | none => rw [hg] at g'; simp at g'
        | some it =>
          rw [hg] at g'
          obtain ⟨ci, hc, _⟩ := c.ok.wf.kids par it x hg g'
          exact c.ok.issued x ci hc

theorem remove_sub {c : Cache (Option Val)} {h q x p : Nat} {v : Option Val} (e : (c.remove h q).get x p = some v) :
    c.get x p = some v ∧ ¬ (x = h ∧ (q = p ∨ q = 0)) := by
  rw [Cache.get_remove] at e
  split at e
  · cases e
  · next g =>
    refine ⟨e, fun ⟨a, b⟩ => g ?_⟩
    simp [a, Spec.invalidates]
    exact b

theorem answer_next {d : PServer} {x : Res (Fac (Option Val) × Option (List UInt8) × Resp)}
    (h : ∀ f b r, x = .ok (f, b, r) → Fac.Fed d.fac f) : Next P d (d.answer x).1 := by
  unfold answer
  split
  · exact Next.took (h _ _ _ rfl)
  · exact Next.refl d

theorem query_next (d : PServer) (c : Nat) (ps : List Nat) : Next P d (d.query c ps).1 := by
  unfold query
  simp only
  split
  · exact answer_next fun f b r e => getObjPropValue_fed _ _ _ _ e
  split
  · exact answer_next fun f b r e => getObjectPropList_fed _ _ _ _ _ _ e
  split
  · exact Next.all (Server.delete_steady ..) fun x p v e => (remove_sub e).1
  split
  · refine Next.of (Server.move_steady ..) fun x p v e => ?_
    unfold move at e
    simp only at e
    split at e
    · exact ⟨(remove_sub e).1, fun _ _ g => (remove_sub e).2 ⟨g.1, Or.inl g.2.symm⟩⟩
    · next hne => exact ⟨e, fun _ hok => absurd hok hne⟩
  · next h1 h2 =>
    refine Next.all ?_ fun x p v e => e
    show Steady _ d.srv (Server.query d.srv c ps).1
    unfold Server.query
    simp only [if_neg h1, if_neg h2]
    repeat' split
    all_goals first
      | exact Steady.refl _ _
      | exact Steady.of (Server.tick_later _) fun _ _ x hx => Or.inr ⟨hx, fun _ _ => rfl⟩

/-- What a history may do without spoiling the properties in `P`. -/
structure Fair (ok : Nat → Prop) (P : Nat → Nat → Prop) : Prop where
  /-- a list of properties sent with an upload is cached, whatever is in it -/
  list : ok 0x9808 → ok 0x100D → ∀ h p, ¬ P h p
  /-- writing changes sizes and dates -/
  data : ok 0x100D ∨ ok 0x95C2 ∨ ok 0x95C3 ∨ ok 0x101A → ∀ h p, P h p → ¬ written p
  /-- settable properties are cached as they were set -/
  sets : ok 0x9804 ∨ ok 0x9806 → ∀ h p, P h p → p ≠ 0xDC07 ∧
    ∀ c cat d, objectPropDesc c cat p = (.ok, some d) → d.getSet = false

theorem desc_code {c : DevCaps} {cat : Cat} {p : Nat} {d : ObjPropDesc} (h : objectPropDesc c cat p = (.ok, some d)) : d.code = p := by
  by_cases hm : p ∈ propsSupported c cat
  · obtain ⟨k, r, _, _, hrc, hd⟩ := objectPropDesc_some c cat p hm
    rw [hd] at h
    cases h
    exact hrc
  · rw [objectPropDesc_none c cat p hm] at h
    cases h

theorem set_next {d : PServer} {h p : Nat} (v : Option Val) (hp : ∀ x, ¬ P x 0xDC07) (hs : ∀ x, ¬ P x p) : Next P d (d.set h p v).1 := by
  unfold set
  split
  · exact Next.refl d
  · next hh =>
    have hh' : d.srv.tree.has h = true := by simpa using hh
    split
    · next e =>
      subst e
      have h1 : Next P d { d with srv := (d.srv.rename h (asName v)).1 } :=
        Next.of (Server.rename_steady ..) fun x p _ e => ⟨e, fun g e' => hp x (e' ▸ g)⟩
      show Next P d { d with srv := (d.srv.rename h (asName v)).1, cache := _ }
      split
      · refine ⟨h1.1, fun hb c => ?_⟩
        have c1 := h1.2 hb c
        refine ⟨c1.ok, fun x q w hq hx e => ?_, fun x q w e => ?_⟩
        · simp only [Cache.get_addList] at e
          split at e
          · next g =>
            subst g
            cases hl : lastIn [(0xDC07, v)] q with
            | none => rw [hl] at e; exact c1.told _ q w hq hx (by simpa using e)
            | some z =>
              have := Fac.lastIn_mem hl
              simp only [List.mem_singleton, Prod.mk.injEq] at this
              exact absurd (this.1 ▸ hq) (hp _)
          · exact c1.told x q w hq hx e
        · simp only [Cache.get_addList] at e
          split at e
          · next g => subst g; exact Nat.le_trans (has_issued c.ok hh') h1.1
          · exact c1.known x q w e
      · exact h1
    · exact Next.cached hh' fun e he => by
        simp only [List.mem_singleton] at he
        rw [he]
        exact hs h

variable {ok : Nat → Prop}

theorem Fair.name (f : Fair ok P) (h : ok 0x9804 ∨ ok 0x9806) : ∀ x, ¬ P x 0xDC07 := fun x hx => (f.sets h x _ hx).1 rfl

theorem propDescOf_desc {c : DevCaps} {fm : Nat → Nat} {s : Fac (Option Val)} {h p : Nat} {t : ObjPropDesc}
    (e : propDescOf c fm s h p = (.ok, some t)) : objectPropDesc c (c.category (u16 (fm h))) t.code = (.ok, some t) := by
  unfold propDescOf at e
  split at e
  · rw [desc_code e]; exact e
  · cases e

theorem setValue_next (f : Fair ok P) (ho : ok 0x9804 ∨ ok 0x9806) {d : PServer} {h p : Nat} (b : List UInt8)
    (hr : setObjPropValueReq d.view h p = .ok) : Next P d (d.setValue h p b).1 := by
  unfold setValue
  unfold setObjPropValueReq at hr
  split
  · next t e =>
    rw [show propDescOf d.view.caps d.view.format d.view.fac h p = (.ok, some t) from e] at hr
    simp only at hr
    have hg : t.getSet = true := by
      cases hg : t.getSet with
      | true => rfl
      | false => rw [hg] at hr; cases hr
    split
    · refine set_next _ (f.name ho) fun x hx => ?_
      rw [(f.sets ho x _ hx).2 _ _ t (propDescOf_desc e)] at hg
      cases hg
    · exact Next.refl d
  · exact Next.refl d

theorem setElem_next (f : Fair ok P) (ho : ok 0x9804 ∨ ok 0x9806) {d d' : PServer} {rx rx' : Rx} {r : Resp}
    (e : d.setElem rx = .ok (d', r, rx')) : Next P d d' := by
  unfold setElem at e
  cases h1 : rx.getInt 4 with
  | ub u => rw [h1] at e; cases e
  | ok x =>
    obtain ⟨h, rx1⟩ := x
    rw [h1] at e
    simp only [Res.bind_ok] at e
    split at e
    · cases h2 : rx1.getInt 2 with
      | ub u => rw [h2] at e; cases e
      | ok x =>
        obtain ⟨p, rx2⟩ := x
        rw [h2] at e
        simp only [Res.bind_ok] at e
        split at e
        · next t et =>
          split at e
          · next hg =>
            cases h3 : rx2.getInt 2 with
            | ub u => rw [h3] at e; cases e
            | ok x =>
              obtain ⟨dt, rx3⟩ := x
              rw [h3] at e
              simp only [Res.bind_ok] at e
              cases h4 : rx3.getVariant dt with
              | ub u => rw [h4] at e; cases e
              | ok x =>
                obtain ⟨v, rx4⟩ := x
                rw [h4] at e
                simp only [Res.bind_ok, Res.pure_eq, Res.ok.injEq, Prod.mk.injEq] at e
                rw [← e.1]
                refine set_next _ (f.name ho) fun x hx => ?_
                rw [(f.sets ho x _ hx).2 _ _ t (propDescOf_desc et)] at hg
                cases hg
          · simp only [Res.pure_eq, Res.ok.injEq, Prod.mk.injEq] at e
            rw [← e.1]; exact Next.refl d
        · simp only [Res.pure_eq, Res.ok.injEq, Prod.mk.injEq] at e
          rw [← e.1]; exact Next.refl d
    · simp only [Res.pure_eq, Res.ok.injEq, Prod.mk.injEq] at e
      rw [← e.1]; exact Next.refl d

theorem setElems_next (f : Fair ok P) (ho : ok 0x9804 ∨ ok 0x9806) (n : Nat) : ∀ (i : Nat) (d : PServer) (rx : Rx),
    Next P d (setElems n i d rx).1 := by
  induction n with
  | zero => intro i d rx; exact Next.refl d
  | succ n ih =>
    intro i d rx
    unfold setElems
    split
    · next e => exact (setElem_next f ho e).trans (ih _ _ _)
    · next e => exact setElem_next f ho e
    · exact Next.refl d

theorem store_next (f : Fair ok P) (d : PServer) (c : Nat) (ps : List Nat) (b : List UInt8) (hc : ok c) : Next P d (d.store c ps b).1 := by
  unfold store
  split
  · next e =>
    split
    · next hr => exact setValue_next f (Or.inl (e ▸ hc)) b hr
    · exact Next.refl d
  · split
    · next e =>
      unfold setList
      split
      · exact Next.refl d
      · next n rx _ =>
        have := setElems_next f (Or.inr (e ▸ hc)) n 0 d rx
        split
        · next e2 => rw [e2] at this; exact this
        · next e2 => rw [e2] at this; exact this
    · exact Next.refl d

theorem closed_next (f : Fair ok P) : Rsp.Closed dev ok (Next P) where
  refl := Next.refl
  trans _ _ _ := Next.trans
  query d c ps _ := query_next d c ps
  copy ho d ps c := Next.of (Server.steps_steady.whole d.srv ps c) fun x p v e =>
    ⟨by
      have e : (if (d.srv.copy ps c).2.1 = .storeFull then d.cache.remove (d.srv.copy ps c).2.2 else d.cache).get x p = some v := e
      split at e
      · exact (remove_sub e).1
      · exact e, f.data (Or.inr (Or.inr (Or.inr ho))) x p⟩
  store d c ps b hc := store_next f d c ps b hc
  addInfo _ d ps b := Next.all (Server.addInfo_steady ..) fun _ _ _ e => e
  addList _ d ps b := Next.all (Server.addList_steady ..) fun _ _ _ e => e
  write ho d h b f' l := Next.of ((Server.write_touched d.srv h b f' l).steady
    (Later.of (congrArg Tree.asked (Server.write_tree ..)) fun w => Server.write_ok w _ _ _ _)) fun x p _ e => ⟨e, f.data (Or.inl ho) x p⟩
  cut ho d h n := Next.of ((Server.truncate_touched d.srv h n).steady
    (Later.of (congrArg Tree.asked (Server.truncate_tree ..)) fun w => Server.truncate_ok w _ _))
    fun x p _ e => ⟨e, f.data (ho.imp id fun h => Or.inr (Or.inl h)) x p⟩
  setProps h1 h2 d h b := by
    show Next P d (d.setProps h b)
    unfold setProps
    split
    · split
      · next hh => exact Next.cached hh fun e _ => f.list h2 h1 h e.1
      · exact Next.refl d
    · exact Next.refl d
  writePartial ho d h o b f' l := Next.of ((Server.writePartial_touched d.srv h o b f' l).steady
    (Later.of (congrArg Tree.asked (Server.writePartial_tree ..)) fun w => Server.writePartial_ok w _ _ _ _ _))
    fun x p _ e => ⟨e, f.data (Or.inr (Or.inl ho)) x p⟩
  delete _ d h := Next.all (Server.delete_steady ..) fun x p v e => (remove_sub e).1
  flush _ d h := Next.all (Steady.refl ..) fun x p v e => (remove_sub e).1
  setEvents _ d _ _ := Next.refl d
  eventsOff _ d := Next.refl d

end PServer
end Mtp
