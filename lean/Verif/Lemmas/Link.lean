import Verif.Spec.Link
import Verif.Lemmas.Usb
import Verif.Lemmas.Resets
import Verif.Lemmas.Upload
/-! From pieces to packets. -/
namespace Mtp
namespace Link
open Spec

variable {D : Type}

/-- The packets of the containers still to come, `op` being what is missing from the current one. -/
inductive Covers (m : Nat) : Option (List UInt8) → List (List UInt8 × Nat) → List (Rsp.In D) → Prop
  | done : Covers m none [] []
  | start (c k bs rest is) (hc : bs.flatten = c) (hne : ∀ b ∈ bs, b ≠ [] ∧ b.length ≤ m) (hk : ∀ b ∈ bs.head?, k ≤ b.length)
      (h : Covers m none rest is) : Covers m none ((c, k) :: rest) (dataPhase true bs ++ is)
  | cont (t bs rest is) (hc : bs.flatten = t) (hne : ∀ b ∈ bs, b ≠ [] ∧ b.length ≤ m)
      (h : Covers m none rest is) : Covers m (some t) rest (dataPhase false bs ++ is)

theorem Covers.packets {m : Nat} {op : Option (List UInt8)} {cs : List (List UInt8 × Nat)} {is : List (Rsp.In D)}
    (h : Covers m op cs is) : Rsp.Packets is := by
  have dp : ∀ f bs, Rsp.Packets (D := D) (dataPhase f bs) := by
    intro f bs
    induction bs generalizing f with
    | nil => intro i hi; cases hi
    | cons b bs ih =>
      intro i hi
      rcases List.mem_cons.mp hi with rfl | hi
      · exact ⟨_, _, _, rfl⟩
      · exact ih false i hi
  induction h with
  | done => intro i hi; cases hi
  | start c k bs rest is hc hne hk h ih =>
    intro i hi
    rcases List.mem_append.mp hi with hi | hi
    · exact dp _ _ i hi
    · exact ih i hi
  | cont t bs rest is hc hne h ih =>
    intro i hi
    rcases List.mem_append.mp hi with hi | hi
    · exact dp _ _ i hi
    · exact ih i hi

/-- A container that can be told from its first four bytes. -/
def Good (c : List UInt8 × Nat) : Prop := Sized c.1 ∧ 4 ≤ c.2 ∧ c.2 ≤ c.1.length

/-- `stream` is what is missing from the current container and the containers `pend`; `readLen` is `n`. -/
inductive Rest : Nat → Option (List UInt8) → List UInt8 → List (List UInt8 × Nat) → Prop
  | closed (pend) (g : ∀ c ∈ pend, Good c) : Rest 0 none (pend.map (·.1)).flatten pend
  | opened (t rest) (ht : t ≠ []) (g : ∀ c ∈ rest, Good c) :
      Rest t.length (some t) (t ++ (rest.map (·.1)).flatten) rest

/-- Cut position `L` (counted from the end of the stream) is allowed. -/
def CutOk (pend : List (List UInt8 × Nat)) (L : Nat) : Prop :=
  ∀ pre c post, pend = pre ++ c :: post →
    ¬ (L < ((c :: post).map (·.1)).flatten.length ∧ ((c :: post).map (·.1)).flatten.length < L + c.2)

theorem CutOk.tail {c : List UInt8 × Nat} {rest : List (List UInt8 × Nat)} {L : Nat} (h : CutOk (c :: rest) L) : CutOk rest L :=
  fun pre d post e => h (c :: pre) d post (by rw [e]; rfl)

theorem announced_sized {o : Nat} {c data : List UInt8} (h : Sized c) (e : data.take 4 = c.take 4) : announced o data = c.length :=
  announced_wf (o := o) ⟨by have := h.1; omega, Or.inl ⟨h.2.1, by have := h.2.2; omega⟩⟩ e

/-- A run of packets that resets nothing is a link that does the same. -/
def Same (dv : Dev D) (n : Nat) (data : List UInt8) (fuel : Nat) (is : List (Rsp.In D)) (n' : Nat) : Prop :=
  ∀ (E : Nat) (r r' : Rsp D), r.RsInv E → r.run dv is = .ok r' → r'.RsInv E → piece dv fuel ⟨r, n⟩ data = .done ⟨r', n'⟩

theorem Same.nil (dv : Dev D) (n fuel : Nat) : Same dv n [] (fuel + 1) [] n := by
  intro E r r' _ hr _
  cases hr
  simp [piece]

/-- One packet of `data`. -/
theorem Same.packet (dv : Dev D) (n n' fuel len chunk : Nat) (data : List UInt8) (is : List (Rsp.In D)) (hp : Rsp.Packets is)
    (hd : 0 < data.length) (h4 : n = 0 → 4 ≤ data.length) (hlen : ∀ o, (if n = 0 then announced o data else n) = len)
    (hch : (if data.length < len then data.length else len) = chunk)
    (h : Same dv (len - chunk) (data.drop chunk) fuel is n') :
    Same dv n data (fuel + 1) (.packet (data.take chunk) (decide (n = 0)) (decide (len - chunk = 0)) [] :: is) n' := by
  intro E r r' hi hr hi'
  rw [Rsp.run] at hr
  cases e : r.step dv (.packet (data.take chunk) (decide (n = 0)) (decide (len - chunk = 0)) []) with
  | ub w => rw [e] at hr; cases hr
  | ok r1 =>
    rw [e] at hr
    have hr' : r1.run dv is = .ok r' := hr
    have e' : r.receive dv (data.take chunk) (decide (n = 0)) (decide (len - chunk = 0)) [] = .ok r1 := e
    have h1 : r1.RsInv E := by
      rcases hi.receive dv _ _ _ _ e' with h1 | h1
      · exact h1
      · obtain ⟨k, hk⟩ := h1.run dv is hp hr'
        have := hk.1
        rw [hi'.1] at this
        omega
    have := h E r1 r' h1 hr' hi'
    unfold piece
    rw [if_neg (by omega), if_neg (by intro hh; have := h4 hh.1; omega)]
    simp only [hlen, hch, e']
    rw [if_pos (by rw [h1.1, hi.1])]
    exact this

theorem Covers.cons_false {m : Nat} {b t : List UInt8} {rest : List (List UInt8 × Nat)} {is : List (Rsp.In D)} (hb : b ≠ []) (hbm : b.length ≤ m)
    (ht : t ≠ []) (h : Covers m (some t) rest is) : Covers m (some (b ++ t)) rest (.packet b false false [] :: is) := by
  cases h with
  | cont t bs rest is hc hne h =>
    have hbs : bs ≠ [] := by rintro rfl; exact ht (by rw [← hc]; rfl)
    refine cast ?_ (Covers.cont (b ++ t) (b :: bs) rest is (by simp [hc]) ?_ h)
    · congr 1
      cases bs with
      | nil => exact absurd rfl hbs
      | cons b2 bs => rfl
    · intro x hx
      rcases List.mem_cons.mp hx with rfl | hx
      · exact ⟨hb, hbm⟩
      · exact hne x hx

theorem Covers.cons_true {m k : Nat} {b t : List UInt8} {rest : List (List UInt8 × Nat)} {is : List (Rsp.In D)} (hb : b ≠ []) (hbm : b.length ≤ m)
    (ht : t ≠ []) (hk : k ≤ b.length) (h : Covers m (some t) rest is) :
    Covers m none ((b ++ t, k) :: rest) (.packet b true false [] :: is) := by
  cases h with
  | cont t bs rest is hc hne h =>
    have hbs : bs ≠ [] := by rintro rfl; exact ht (by rw [← hc]; rfl)
    refine cast ?_ (Covers.start (b ++ t) k (b :: bs) rest is (by simp [hc]) ?_ (by simpa using hk) h)
    · congr 1
      cases bs with
      | nil => exact absurd rfl hbs
      | cons b2 bs => rfl
    · intro x hx
      rcases List.mem_cons.mp hx with rfl | hx
      · exact ⟨hb, hbm⟩
      · exact hne x hx

theorem piece_spec (dv : Dev D) (m : Nat) : ∀ (fuel n : Nat) (op : Option (List UInt8))
    (data L : List UInt8) (pend : List (List UInt8 × Nat)), data.length < fuel → data.length ≤ m →
    Rest n op (data ++ L) pend → CutOk pend L.length →
    ∃ is n' op' pend', Same dv n data fuel is n' ∧ Rest n' op' L pend' ∧ Rsp.Packets is ∧
      (∀ K, CutOk pend K → CutOk pend' K) ∧
      (∀ more, Covers m op' pend' more → Covers m op pend (is ++ more)) := by
  intro fuel
  induction fuel with
  | zero => intro n op data L pend h; omega
  | succ fuel ih =>
    intro n op data L pend hf hm hp hc
    by_cases hd : data = []
    · subst hd
      exact ⟨[], n, op, pend, Same.nil dv n fuel, hp, fun i hi => (nomatch hi), fun _ h => h, fun _ h => h⟩
    · have hpos : 0 < data.length := List.length_pos_iff.mpr hd
      generalize hR : data ++ L = R at hp
      cases hp with
      | closed _ g =>
        cases pend with
        | nil => simp [hd] at hR
        | cons c rest =>
          obtain ⟨c, k⟩ := c
          obtain ⟨hw, hk4, hkc⟩ := g (c, k) (by simp)
          simp only at hw hk4 hkc
          have hlen := congrArg List.length hR
          have hk : k ≤ data.length := by
            have := hc [] (c, k) rest rfl
            simp only [List.length_append] at hlen
            simp only at this
            omega
          have htake : data.take 4 = c.take 4 := by
            have := congrArg (List.take 4) hR
            rwa [List.take_append_of_le_length (by omega), List.map_cons, List.flatten_cons,
              List.take_append_of_le_length (by have := hw.1; simp only; omega)] at this
          have han : ∀ o, announced o data = c.length := fun o => announced_sized hw htake
          have hlenN : ∀ o, (if (0:Nat) = 0 then announced o data else 0) = c.length := fun o => by rw [if_pos rfl]; exact han o
          by_cases hlt : data.length < c.length
          · obtain ⟨x, hx1, hx2⟩ := append_split (a := c) (b := (rest.map (·.1)).flatten) (c := data) (d := L)
              (by rw [hR]; rfl) (by omega)
            have hxl : x.length = c.length - data.length := by rw [hx1]; simp
            have hxne : x ≠ [] := by intro e; rw [e] at hxl; simp at hxl; omega
            refine ⟨[.packet data true false []], x.length, some x, rest, ?_, ?_, ?_, fun _ h => h.tail, ?_⟩
            · have := Same.packet dv 0 (c.length - data.length) fuel c.length data.length data [] (fun i hi => (nomatch hi)) hpos (fun _ => by omega) hlenN
                (by rw [if_pos hlt]) (by
                  rw [List.drop_length]
                  cases fuel with
                  | zero => omega
                  | succ fuel => exact Same.nil dv _ fuel)
              rw [List.take_length] at this
              rw [hxl]
              have e : decide (c.length - data.length = 0) = false := by simp; omega
              rw [e] at this
              exact this
            · rw [hx2]; exact Rest.opened x rest hxne (fun d hd => g d (by simp [hd]))
            · intro i hi
              rcases List.mem_cons.mp hi with rfl | hi
              · exact ⟨_, _, _, rfl⟩
              · cases hi
            · intro more hm'
              rw [hx1]
              exact Covers.cons_true hd hm hxne hk hm'
          · obtain ⟨x, hx1, hx2⟩ := append_split (a := data) (b := L) (c := c) (d := (rest.map (·.1)).flatten)
              (by rw [hR]; rfl) (by omega)
            have hc4 := hw.1
            have hxl : x.length < fuel := by rw [hx1, List.length_append] at hf; omega
            obtain ⟨is, m', op', pend', e1, e2, e3, e4, e5⟩ := ih 0 none x L rest hxl (by rw [hx1, List.length_append] at hm; omega)
              (by rw [← hx2]; exact Rest.closed rest (fun d hd => g d (by simp [hd]))) hc.tail
            refine ⟨.packet c true true [] :: is, m', op', pend', ?_, e2, ?_, fun K h => e4 K h.tail, ?_⟩
            · have := Same.packet dv 0 m' fuel c.length c.length data is e3 hpos (fun _ => by omega) hlenN
                (by rw [if_neg hlt]) (by rw [hx1, List.drop_left, Nat.sub_self]; exact e1)
              rw [hx1, List.take_left, Nat.sub_self] at this
              rw [hx1]
              exact this
            · intro i hi
              rcases List.mem_cons.mp hi with rfl | hi
              · exact ⟨_, _, _, rfl⟩
              · exact e3 i hi
            · intro more hm'
              exact Covers.start c k [c] rest _ (by simp) (by
                intro b hb
                rcases List.mem_singleton.mp hb with rfl
                exact ⟨by intro e; rw [e] at hc4; simp at hc4, by rw [hx1, List.length_append] at hm; omega⟩) (by simpa using hkc) (e5 more hm')
      | opened t rest ht g =>
        have htp : 0 < t.length := List.length_pos_iff.mpr ht
        have ht0 : ¬ t.length = 0 := by omega
        have hlenN : ∀ o, (if t.length = 0 then announced o data else t.length) = t.length := fun o => if_neg ht0
        by_cases hlt : data.length < t.length
        · obtain ⟨x, hx1, hx2⟩ := append_split (a := t) (b := (pend.map (·.1)).flatten) (c := data) (d := L)
            hR.symm (by omega)
          have hxl : x.length = t.length - data.length := by rw [hx1]; simp
          have hxne : x ≠ [] := by intro e; rw [e] at hxl; simp at hxl; omega
          refine ⟨[.packet data false false []], x.length, some x, pend, ?_, ?_, ?_, fun _ h => h, ?_⟩
          · have := Same.packet dv t.length (t.length - data.length) fuel t.length data.length data [] (fun i hi => (nomatch hi)) hpos (fun h => absurd h ht0) hlenN
              (by rw [if_pos hlt]) (by
                rw [List.drop_length]
                cases fuel with
                | zero => omega
                | succ fuel => exact Same.nil dv _ fuel)
            rw [List.take_length] at this
            rw [hxl]
            have e : decide (t.length - data.length = 0) = false := by simp; omega
            have e' : decide (t.length = 0) = false := by simp; exact ht
            rw [e, e'] at this
            exact this
          · rw [hx2]; exact Rest.opened x pend hxne g
          · intro i hi
            rcases List.mem_cons.mp hi with rfl | hi
            · exact ⟨_, _, _, rfl⟩
            · cases hi
          · intro more hm'
            rw [hx1]
            exact Covers.cons_false hd hm hxne hm'
        · obtain ⟨x, hx1, hx2⟩ := append_split (a := data) (b := L) (c := t) (d := (pend.map (·.1)).flatten)
            hR (by omega)
          have hxl : x.length < fuel := by rw [hx1, List.length_append] at hf; omega
          obtain ⟨is, m', op', pend', e1, e2, e3, e4, e5⟩ := ih 0 none x L pend hxl (by rw [hx1, List.length_append] at hm; omega)
            (by rw [← hx2]; exact Rest.closed pend g) hc
          refine ⟨.packet t false true [] :: is, m', op', pend', ?_, e2, ?_, e4, ?_⟩
          · have := Same.packet dv t.length m' fuel t.length t.length data is e3 hpos (fun h => absurd h ht0) hlenN
              (by rw [if_neg hlt]) (by rw [hx1, List.drop_left, Nat.sub_self]; exact e1)
            have e' : decide (t.length = 0) = false := by simp; exact ht
            rw [hx1, List.take_left, Nat.sub_self, e'] at this
            rw [hx1]
            exact this
          · intro i hi
            rcases List.mem_cons.mp hi with rfl | hi
            · exact ⟨_, _, _, rfl⟩
            · exact e3 i hi
          · intro more hm'
            exact Covers.cont t [t] pend _ (by simp) (by
              intro b hb
              rcases List.mem_singleton.mp hb with rfl
              exact ⟨ht, by rw [hx1, List.length_append] at hm; omega⟩) (e5 more hm')

theorem run_append (dv : Dev D) (r r' : Rsp D) (a b : List (Rsp.In D)) (h : r.run dv (a ++ b) = .ok r') :
    ∃ r1, r.run dv a = .ok r1 ∧ r1.run dv b = .ok r' := by
  induction a generalizing r with
  | nil => exact ⟨r, rfl, h⟩
  | cons i a ih =>
    rw [List.cons_append, Rsp.run] at h
    cases e : r.step dv i with
    | ub w => rw [e] at h; cases h
    | ok r1 =>
      rw [e] at h
      obtain ⟨r2, h1, h2⟩ := ih r1 h
      exact ⟨r2, by rw [Rsp.run, e]; exact h1, h2⟩

theorem run_join {dv : Dev D} {r r1 : Rsp D} {a b : List (Rsp.In D)} (h : r.run dv a = .ok r1) : r.run dv (a ++ b) = r1.run dv b := by
  induction a generalizing r with
  | nil => cases h; rfl
  | cons i a ih =>
    rw [Rsp.run] at h
    rw [List.cons_append, Rsp.run]
    cases e : r.step dv i with
    | ub w => rw [e] at h; cases h
    | ok r2 => rw [e] at h; exact ih h

theorem pieces_spec (dv : Dev D) (m : Nat) : ∀ (ps : List (List UInt8)) (n : Nat)
    (op : Option (List UInt8)) (pend : List (List UInt8 × Nat)), (∀ p ∈ ps, p.length ≤ m) →
    Rest n op ps.flatten pend →
    (∀ ps₁ ps₂, ps = ps₁ ++ ps₂ → CutOk pend ps₂.flatten.length) →
    ∃ is, Covers m op pend is ∧
      ∀ (E : Nat) (r r' : Rsp D), r.RsInv E → r.run dv is = .ok r' → r'.RsInv E → pieces dv ⟨r, n⟩ ps = .done ⟨r', 0⟩ := by
  intro ps
  induction ps with
  | nil =>
    intro n op pend hm hp hc
    generalize hR : ([] : List (List UInt8)).flatten = R at hp
    cases hp with
    | closed _ g =>
      cases pend with
      | nil =>
        refine ⟨[], Covers.done, ?_⟩
        intro E r r' _ hr _
        cases hr
        rfl
      | cons c rest =>
        have := (g c (by simp)).1.1
        have e := congrArg List.length hR
        simp at e
        omega
    | opened t rest ht g =>
      simp at hR
      exact absurd hR.1 ht
  | cons p ps ih =>
    intro n op pend hm hp hc
    obtain ⟨is, m', op', pend', e1, e2, e3, e4, e5⟩ := piece_spec dv m (p.length + 1) n op p
      ps.flatten pend (by omega) (hm p (by simp)) (by simpa using hp) (hc [p] ps rfl)
    obtain ⟨is', e6, e7⟩ := ih m' op' pend' (fun p hp => hm p (by simp [hp])) e2
      (fun ps₁ ps₂ e => e4 _ (hc (p :: ps₁) ps₂ (by rw [e]; rfl)))
    refine ⟨is ++ is', e5 _ e6, ?_⟩
    intro E r r' hi hr hi'
    obtain ⟨r1, hr1, hr2⟩ := run_append dv r r' is is' hr
    have hi1 : r1.RsInv E := by
      obtain ⟨k, hk⟩ := hi.run dv is e3 hr1
      obtain ⟨j, hj⟩ := hk.run dv is' e6.packets hr2
      have := hj.1
      rw [hi'.1] at this
      have : k = 0 := by omega
      rw [this] at hk
      exact hk
    unfold pieces
    rw [e1 E r r1 hi hr1 hi1]
    exact e7 E r1 r' hi1 hr2 hi'

/-- What covers the containers of `ts` conveys `ts`. -/
theorem Covers.conveys {m : Nat} (ts : List Turn) : ∀ (is : List (Rsp.In D)), (∀ c ∈ containers ts, Good c) →
    Covers m none (containers ts) is → Conveys m ts is := by
  have cmd : ∀ (q : List UInt8) (rest : List (List UInt8 × Nat)) (is : List (Rsp.In D)), 12 ≤ q.length →
      Covers m none ((q, q.length) :: rest) is → ∃ is', is = .packet q true true [] :: is' ∧ Covers m none rest is' := by
    intro q rest is hq h
    cases h with
    | start c k bs rest is hc hne hk h =>
      cases bs with
      | nil => rw [← hc] at hq; simp at hq
      | cons b bs =>
        have h1 := hk b (by simp)
        have h2 := congrArg List.length hc
        simp only [List.flatten_cons, List.length_append] at h2
        cases bs with
        | nil =>
          have : b = q := by simpa using hc
          subst this
          exact ⟨is, rfl, h⟩
        | cons b2 bs =>
          have h3 := (hne b2 (by simp)).1
          have h4 := List.length_pos_iff.mpr h3
          simp only [List.flatten_cons, List.length_append] at h2
          omega
  induction ts with
  | nil =>
    intro is g h
    cases h
    exact .nil
  | cons t ts ih =>
    intro is g h
    cases t with
    | ask q =>
      obtain ⟨is', rfl, h'⟩ := cmd q (containers ts) is (g (q, q.length) (by simp [containers, Turn.parts])).1.1 h
      exact .ask q ts is' (ih is' (fun c hc => g c (by simp [containers, Turn.parts] at hc ⊢; exact Or.inr hc)) h')
    | give q c =>
      obtain ⟨is', rfl, h'⟩ := cmd q ((c, 12) :: containers ts) is (g (q, q.length) (by simp [containers, Turn.parts])).1.1 h
      cases h' with
      | start c k bs rest is hc hne hk h2 =>
        exact .give q c bs ts is hc hne hk (ih is (fun c hc => g c (by simp [containers, Turn.parts] at hc ⊢; exact Or.inr (Or.inr hc))) h2)

/-! ### Cuts between reads -/

/-- Where a prefix of the reads ends: at or before the beginning of a container, at or behind its end, or at least one full read
behind its beginning. -/
theorem transfers_prefix {cs reads : List (List UInt8)} (h : Transfers cs reads) : ∀ (a b : List (List UInt8)), reads = a ++ b →
    ∀ c₁ c c₂, cs = c₁ ++ c :: c₂ → a.flatten.length ≤ c₁.flatten.length ∨
      c₁.flatten.length + min MAX_IN c.length ≤ a.flatten.length := by
  induction h with
  | nil =>
    intro a b _ c₁ c c₂ e
    cases c₁ <;> cases e
  | cons d rs cs reads hd h ih =>
    intro a b e c₁ c c₂ ec
    obtain ⟨hfl, hfull⟩ := hd
    rcases List.append_eq_append_iff.mp e with ⟨x, ha, hx⟩ | ⟨x, ha, hx⟩
    · -- all of `d` is in the prefix
      have hal : a.flatten.length = d.length + x.flatten.length := by rw [ha, List.flatten_append, List.length_append, hfl]
      cases c₁ with
      | nil =>
        simp only [List.nil_append, List.cons.injEq] at ec
        rw [← ec.1]
        right
        simp only [List.flatten_nil, List.length_nil]
        omega
      | cons d' c₁ =>
        simp only [List.cons_append, List.cons.injEq] at ec
        have := ih x b hx c₁ c c₂ ec.2
        rw [← ec.1]
        simp only [List.flatten_cons, List.length_append]
        omega
    · -- the prefix ends in `d`
      have hdl : d.length = a.flatten.length + x.flatten.length := by rw [← hfl, ha, List.flatten_append, List.length_append]
      cases c₁ with
      | nil =>
        simp only [List.nil_append, List.cons.injEq] at ec
        rw [← ec.1]
        cases a with
        | nil => left; simp
        | cons r a =>
          cases x with
          | nil =>
            right
            simp only [List.flatten_nil, List.length_nil] at hdl ⊢
            omega
          | cons y x =>
            right
            have hr : r.length = MAX_IN := by
              apply hfull
              rw [ha, List.dropLast_append_of_ne_nil (by simp)]
              simp
            simp only [List.flatten_cons, List.length_append, hr, List.flatten_nil, List.length_nil]
            omega
      | cons d' c₁ =>
        simp only [List.cons_append, List.cons.injEq] at ec
        left
        rw [← ec.1]
        simp only [List.flatten_cons, List.length_append]
        omega

theorem groups_prefix {gs : List (List (List UInt8))} {ps₁ ps₂ : List (List UInt8)} (h : gs.map List.flatten = ps₁ ++ ps₂) :
    ∃ a b, gs.flatten = a ++ b ∧ ps₁.flatten = a.flatten := by
  obtain ⟨g1, g2, rfl, h1, h2⟩ := List.map_eq_append_iff.mp h
  refine ⟨g1.flatten, g2.flatten, by simp, ?_⟩
  rw [← h1]
  exact List.flatten_flatten.symm

/-- Containers sent as one transfer each are cut in allowed places only. -/
theorem cuts_kept {cs : List (List UInt8 × Nat)} {reads ps : List (List UInt8)} (ht : Transfers (cs.map (·.1)) reads)
    (hg : Grouped reads ps) (hk : ∀ c ∈ cs, c.2 ≤ MAX_IN ∧ c.2 ≤ c.1.length) : CutsKept cs ps := by
  obtain ⟨gs, rfl, rfl⟩ := hg
  intro ps₁ ps₂ c₁ c c₂ e ec
  obtain ⟨a, b, e1, e2⟩ := groups_prefix e
  have := transfers_prefix ht a b e1 (c₁.map (·.1)) c.1 (c₂.map (·.1)) (by rw [ec]; simp)
  rw [e2]
  have := hk c (by rw [ec]; simp)
  omega

theorem transfers_flatten {cs reads : List (List UInt8)} (h : Transfers cs reads) : reads.flatten = cs.flatten := by
  induction h with
  | nil => rfl
  | cons c rs cs reads hc h ih => rw [List.flatten_append, List.flatten_cons, ih, hc.1]

theorem grouped_flatten {reads ps : List (List UInt8)} (h : Grouped reads ps) : ps.flatten = reads.flatten := by
  obtain ⟨gs, rfl, rfl⟩ := h
  exact List.flatten_flatten.symm

/-- The stream of the transactions `ts` as packets. -/
theorem stream_packets (dv : Dev D) (ts : List Turn) (m : Nat) (ps : List (List UInt8)) (hs : ∀ c ∈ containers ts, Sized c.1)
    (hm : ∀ p ∈ ps, p.length ≤ m) (hfl : ps.flatten = ((containers ts).map (·.1)).flatten) (hc : CutsKept (containers ts) ps) :
    ∃ is, Conveys m ts is ∧ Rsp.Packets is ∧ ∀ (E : Nat) (r r' : Rsp D), r.RsInv E → r.run dv is = .ok r' → r'.RsInv E →
      pieces dv ⟨r, 0⟩ ps = .done ⟨r', 0⟩ := by
  have good : ∀ c ∈ containers ts, Good c := by
    intro c h
    have h1 := hs c h
    obtain ⟨t, _, ht⟩ := List.mem_flatMap.mp h
    have h12 := h1.1
    refine ⟨h1, ?_⟩
    cases t with
    | ask q =>
      rcases List.mem_singleton.mp ht with rfl
      simp only at h12
      exact ⟨by simp only; omega, Nat.le_refl _⟩
    | give q c =>
      rcases List.mem_cons.mp ht with rfl | ht
      · simp only at h12
        exact ⟨by simp only; omega, Nat.le_refl _⟩
      · rcases List.mem_singleton.mp ht with rfl
        exact ⟨by simp only; omega, h12⟩
  obtain ⟨is, h1, h2⟩ := pieces_spec dv m ps 0 none (containers ts) hm (by rw [hfl]; exact Rest.closed _ good) (by
    intro ps₁ ps₂ e pre c post ec
    have := hc ps₁ ps₂ pre c post e ec
    have hl := congrArg List.length hfl
    rw [e, ec, List.flatten_append, List.map_append, List.flatten_append, List.length_append, List.length_append] at hl
    omega)
  exact ⟨is, Covers.conveys ts is good h1, h1.packets, h2⟩

end Link
end Mtp
