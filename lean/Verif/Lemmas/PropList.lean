import Verif.Model.PropList
import Verif.Spec.PropList
import Verif.Lemmas.PropPod
import Verif.Lemmas.Factory
/-! Lemmas about GetObjectPropList. -/
namespace Mtp
open Spec

theorem rows_std (k : Cat) : ∀ r ∈ rowsOf k, stdType r.code = r.dtype := by
  cases k <;> decide

/-- A supported property has a description with its code and standard type; no other code has one. -/
theorem desc_supported (c : DevCaps) (cat : Cat) (p : Nat) (h : p ∈ propsSupported c cat) :
    ∃ d, objectPropDesc c cat p = (.ok, some d) ∧ d.code = p ∧ d.dtype = stdType p ∧ p < 2 ^ 16 ∧ stdType p < 2 ^ 16 := by
  obtain ⟨k, r, _, hr, hc, e⟩ := objectPropDesc_some c cat p h
  refine ⟨_, e, hc, ?_, ?_, ?_⟩
  · rw [← hc]; exact (rows_std k r hr).symm
  · rw [← hc]; exact (rows_ok k r hr).1
  · rw [← hc, rows_std k r hr]; exact (rows_ok k r hr).2.1

theorem wanted_fold (c : DevCaps) (cat : Cat) (l : List Nat) (hl : ∀ p ∈ l, p ∈ propsSupported c cat) (acc : List Nat) :
    l.foldlM (wantedStep c cat) (Resp.ok, acc) = .ok (.ok, acc ++ l.filter (fun p => p ≠ 0xDC86)) := by
  induction l generalizing acc with
  | nil => simp
  | cons p l ih =>
    obtain ⟨d, e, hc, _⟩ := desc_supported c cat p (hl p List.mem_cons_self)
    have ih' := fun a => ih (fun q hq => hl q (List.mem_cons_of_mem _ hq)) a
    simp only [List.foldlM_cons, wantedStep, if_true, e, hc]
    by_cases hp : p = 0xDC86
    · simp only [hp, ne_eq, not_true_eq_false, if_false, Res.bind_ok, ih', decide_false, List.filter_cons]
      simp
    · simp only [hp, ne_eq, not_false_eq_true, if_true, Res.bind_ok, ih', decide_true, List.filter_cons]
      simp

theorem wantedCodes_all (c : DevCaps) (cat : Cat) :
    wantedCodes c cat 0xFFFF = .ok (.ok, (propsSupported c cat).filter (fun p => p ≠ 0xDC86)) := by
  unfold wantedCodes
  rw [if_pos rfl, wanted_fold c cat _ (fun p hp => hp)]
  simp

/-- The properties asked for about an object of a category. -/
def asked (c : DevCaps) (cat : Cat) (prop : Nat) : List Nat :=
  if prop = 0xFFFF then (propsSupported c cat).filter (fun p => p ≠ 0xDC86) else [prop]

theorem wantedCodes_ok (c : DevCaps) (cat : Cat) (prop : Nat) (h : prop = 0xFFFF ∨ prop ∈ propsSupported c cat) :
    wantedCodes c cat prop = .ok (.ok, asked c cat prop) ∧ ∀ p ∈ asked c cat prop, p ∈ propsSupported c cat := by
  by_cases hp : prop = 0xFFFF
  · subst hp
    refine ⟨by rw [wantedCodes_all]; rfl, ?_⟩
    intro p hp
    exact (List.mem_filter.mp hp).1
  · have hm : prop ∈ propsSupported c cat := by
      rcases h with h | h
      · exact absurd h hp
      · exact h
    obtain ⟨d, e, _⟩ := desc_supported c cat prop hm
    unfold wantedCodes asked
    rw [if_neg hp, if_neg hp, e]
    exact ⟨rfl, by simpa using hm⟩

/-- The elements for a list of properties and values of one object. -/
def elemsFor (h : Nat) (l : List (Nat × Option Val)) : List Elem :=
  l.filterMap fun q => q.2.map fun v => ⟨h, q.1, stdType q.1, v⟩

/-- The data of an element. -/
def elemVals (e : Elem) : List Val := [.int 4 e.handle, .int 2 e.code, .int 2 e.dtype, e.val]

theorem puts_append (t : Tx) (a b : List Val) : t.puts (a ++ b) = t.puts a >>= fun t' => t'.puts b := by
  induction a generalizing t with
  | nil => simp [Tx.puts]
  | cons v a ih =>
    simp only [List.cons_append, Tx.puts]
    cases t.put v with
    | ub u => rfl
    | ok t' => simp [ih]

theorem serializePropList_eq (c : DevCaps) (cat : Cat) (h : Nat) (l : List (Nat × Option Val))
    (hl : ∀ p v, (p, some v) ∈ l → p ∈ propsSupported c cat ∧ Typed (stdType p) v) (t : Tx) :
    serializePropList c cat h l t =
      t.puts ((elemsFor h l).flatMap elemVals) >>= fun t' => .ok (t', (elemsFor h l).length) := by
  induction l generalizing t with
  | nil => simp [serializePropList, elemsFor, Tx.puts]
  | cons q l ih =>
    obtain ⟨p, ov⟩ := q
    have ih' := fun t => ih (fun p v hm => hl p v (List.mem_cons_of_mem _ hm)) t
    cases ov with
    | none =>
      have e : elemsFor h ((p, none) :: l) = elemsFor h l := by simp [elemsFor]
      rw [e, ← ih' t]
      simp [serializePropList]
    | some v =>
      obtain ⟨hs, ht⟩ := hl p v List.mem_cons_self
      obtain ⟨d, e1, e2, e3, _⟩ := desc_supported c cat p hs
      have e : elemsFor h ((p, some v) :: l) = ⟨h, p, stdType p, v⟩ :: elemsFor h l := by simp [elemsFor]
      rw [e]
      simp only [serializePropList, e1, e2, e3, List.flatMap_cons, puts_append, List.length_cons]
      have hpi : ∀ (t : Tx) w n, t.put (.int w n) = t.putInt w n := fun _ _ _ => rfl
      simp only [elemVals, Tx.puts, hpi, putVariant_typed _ _ _ ht, ih']
      cases t.putInt 4 h with
      | ub u => rfl
      | ok t1 =>
        simp only [Res.bind_ok]
        cases t1.putInt 2 p with
        | ub u => rfl
        | ok t2 =>
          simp only [Res.bind_ok]
          cases t2.putInt 2 (stdType p) with
          | ub u => rfl
          | ok t3 =>
            simp only [Res.bind_ok]
            cases t3.put v with
            | ub u => rfl
            | ok t4 =>
              simp only [Res.bind_ok]
              cases t4.puts ((elemsFor h l).flatMap elemVals) with
              | ub u => rfl
              | ok t5 => rfl

theorem Fac.read_queue {V : Type} (s : Fac V) (h : Nat) (codes : List Nat) : (s.read h codes).1.queue = s.queue := by
  unfold Fac.read Fac.readOne
  simp only
  repeat' split
  all_goals rfl

/-- What is expected for one object: one element for each property asked for that has a value in the storage. -/
def expectElems (c : DevCaps) (format : Nat → Nat) (prop : Nat) (st : Store (Option Val)) (h : Nat) : List Elem :=
  elemsFor h ((asked c (c.category (u16 (format h))) prop).map fun p => (p, st.val h p))

/-- What has to hold of the objects asked about. -/
structure GoodObj (c : DevCaps) (format : Nat → Nat) (prop : Nat) (st : Store (Option Val)) (h : Nat) : Prop where
  has : st.has h = true
  par : st.has (st.parent h) = true ∨ h = 0
  kind : prop = 0xFFFF ∨ prop ∈ propsSupported c (c.category (u16 (format h)))
  typed : ∀ p ∈ asked c (c.category (u16 (format h))) prop, ∀ v, st.val h p = some v → Typed (stdType p) v

theorem loop_eq (c : DevCaps) (format : Nat → Nat) (prop : Nat) (hs : List Nat) (s : Fac (Option Val)) (t : Tx) (n : Nat)
    {P : Nat → Nat → Prop} (hi : Fac.CohOn P s) (hP : ∀ h ∈ hs, ∀ p ∈ asked c (c.category (u16 (format h))) prop, P h p)
    (hg : ∀ h ∈ hs, GoodObj c format prop s.store h)
    (hn : n + (hs.flatMap (expectElems c format prop s.store)).length < 2 ^ 32) :
    ∃ s' groups, Each (fun h g => g.Perm (expectElems c format prop s.store h)) hs groups ∧
      s'.store = s.store ∧
      propListLoop c format prop hs s t n =
        t.puts (groups.flatten.flatMap elemVals) >>= fun t' => .ok (s', .ok, t', n + groups.flatten.length) := by
  induction hs generalizing s t n with
  | nil => exact ⟨s, [], .nil, rfl, by simp [propListLoop, Tx.puts]⟩
  | cons h hs ih =>
    obtain ⟨g1, g2, g3, g4⟩ := hg h List.mem_cons_self
    obtain ⟨w1, w2⟩ := wantedCodes_ok c _ prop g3
    obtain ⟨r1, r2, r3⟩ := Fac.read_on hi h (asked c (c.category (u16 (format h))) prop)
    obtain ⟨r4, r5⟩ := r3 g1 g2 (hP h List.mem_cons_self)
    generalize hrd : s.read h (asked c (c.category (u16 (format h))) prop) = rd at r1 r2 r4 r5
    obtain ⟨s1, rr, vals⟩ := rd
    simp only at r1 r2 r4 r5
    have hvals : ∀ p v, (p, some v) ∈ vals →
        p ∈ propsSupported c (c.category (u16 (format h))) ∧ Typed (stdType p) v := by
      intro p v hm
      obtain ⟨q, hq1, hq2⟩ := List.mem_map.mp (r5.mem_iff.mp hm)
      simp only [Prod.mk.injEq] at hq2
      obtain ⟨rfl, hq3⟩ := hq2
      exact ⟨w2 q hq1, g4 q hq1 v hq3⟩
    have hperm : (elemsFor h vals).Perm (expectElems c format prop s.store h) := r5.filterMap _
    have hlen : (elemsFor h vals).length = (expectElems c format prop s.store h).length := hperm.length_eq
    rw [List.flatMap_cons, List.length_append] at hn
    have hu : u32 (n + (elemsFor h vals).length) = n + (elemsFor h vals).length := by
      unfold u32; omega
    have hstep : ∀ t, propListLoop c format prop (h :: hs) s t n =
        t.puts ((elemsFor h vals).flatMap elemVals) >>= fun t' =>
          propListLoop c format prop hs s1 t' (n + (elemsFor h vals).length) := by
      intro t
      simp only [propListLoop, g1, w1, hrd, r4, serializePropList_eq c _ h vals hvals, not_true_eq_false, if_false,
        Res.bind_ok, ne_eq]
      cases t.puts ((elemsFor h vals).flatMap elemVals) with
      | ub u => rfl
      | ok t' => simp only [Res.bind_ok, hu]
    cases hput : t.puts ((elemsFor h vals).flatMap elemVals) with
    | ub u =>
      -- the rest of the loop is not reached; any container gives the groups
      obtain ⟨s', groups, q1, q2, q3⟩ := ih s1 t (n + (elemsFor h vals).length) r1 (fun x hx => hP x (List.mem_cons_of_mem _ hx))
        (by rw [r2]; exact fun x hx => hg x (List.mem_cons_of_mem _ hx)) (by rw [r2]; omega)
      rw [r2] at q1
      refine ⟨s', elemsFor h vals :: groups, .cons hperm q1, by rw [q2, r2], ?_⟩
      rw [hstep, List.flatten_cons, List.flatMap_append, puts_append, hput]
      rfl
    | ok t1 =>
      obtain ⟨s', groups, q1, q2, q3⟩ := ih s1 t1 (n + (elemsFor h vals).length) r1 (fun x hx => hP x (List.mem_cons_of_mem _ hx))
        (by rw [r2]; exact fun x hx => hg x (List.mem_cons_of_mem _ hx)) (by rw [r2]; omega)
      rw [r2] at q1
      refine ⟨s', elemsFor h vals :: groups, .cons hperm q1, by rw [q2, r2], ?_⟩
      rw [hstep, List.flatten_cons, List.flatMap_append, puts_append, hput]
      simp only [Res.bind_ok, q3, List.length_append, Nat.add_assoc]

/-! Host side -/

/-- The numbers of an element fit their fields. -/
def ElemOk (e : Elem) : Prop := e.handle < 2 ^ 32 ∧ e.code < 2 ^ 16 ∧ e.dtype < 2 ^ 16 ∧ Typed e.dtype e.val

def shownElem (e : Elem) : Elem := { e with val := shown e.val }

theorem takeElem_at (e : Elem) (h : ElemOk e) (post : List UInt8) :
    takeElem (encs (elemVals e) ++ post) = some (shownElem e, post) := by
  obtain ⟨h1, h2, h3, h4⟩ := h
  have e1 := fun p => takeInt_at 4 e.handle p (by simpa using h1)
  have e2 := fun p => takeInt_at 2 e.code p (by simpa using h2)
  have e3 := fun p => takeInt_at 2 e.dtype p (by simpa using h3)
  have e4 := fun p => takeVal_at e.val p h4.1
  simp only [encs, elemVals, List.flatMap_cons, List.flatMap_nil, List.append_nil, List.append_assoc]
  unfold takeElem
  simp [enc_int, e1, e2, e3, e4, h4.2, shownElem]

theorem takeElems_at (es : List Elem) (h : ∀ e ∈ es, ElemOk e) (post : List UInt8) :
    takeElems es.length (encs (es.flatMap elemVals) ++ post) = some (es.map shownElem, post) := by
  induction es with
  | nil => simp [takeElems, encs]
  | cons e es ih =>
    have hs : encs ((e :: es).flatMap elemVals) = encs (elemVals e) ++ encs (es.flatMap elemVals) := by
      simp [encs]
    rw [hs, List.append_assoc]
    have ih' := ih (fun x hx => h x (List.mem_cons_of_mem _ hx))
    simp [takeElems, takeElem_at e (h e List.mem_cons_self), ih']

end Mtp
