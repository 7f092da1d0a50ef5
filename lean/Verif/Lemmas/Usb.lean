import Verif.Spec.Usb
namespace Mtp
open Spec

/-- Cut position `L` (counted from the end of the stream) is not inside a length field. -/
def okCut (pend : List (List UInt8)) (L : Nat) : Prop :=
  ∀ pre c post, pend = pre ++ c :: post →
    ¬ (L < (c :: post).flatten.length ∧ (c :: post).flatten.length < L + 4)

inductive Pend (o : Nat) : Nat → Option (List UInt8) → List UInt8 → List (List UInt8) → Prop
  | closed (pend) (g : ∀ c ∈ pend, WellFormed o c) : Pend o 0 none pend.flatten pend
  | opened (a t rest) (ht : t ≠ []) (g : ∀ c ∈ rest, WellFormed o c) :
      Pend o t.length (some a) (t ++ rest.flatten) ((a ++ t) :: rest)

theorem announced_wf {o : Nat} {c data : List UInt8} (h : WellFormed o c)
    (e : data.take 4 = c.take 4) : announced o data = c.length := by
  unfold announced
  obtain ⟨h1, ⟨h2, h3⟩ | ⟨h2, h3, h4, h5⟩⟩ := h
  · simp only [e, h2]
    rw [if_neg (by omega)]
  · simp only [e, h2, true_and]
    rw [if_pos h4, h3]
    unfold u64; omega

theorem okCut_tail {c : List UInt8} {rest : List (List UInt8)} {L : Nat}
    (h : okCut (c :: rest) L) : okCut rest L := fun pre d post e =>
  h (c :: pre) d post (by rw [e]; rfl)

theorem append_split {a b c d : List UInt8} (h : a ++ b = c ++ d) (hl : c.length ≤ a.length) :
    ∃ x, a = c ++ x ∧ d = x ++ b := by
  refine ⟨a.drop c.length, ?_, ?_⟩
  · have := congrArg (List.take c.length) h
    rw [List.take_append_of_le_length hl, List.take_left] at this
    have h2 : a.take c.length ++ a.drop c.length = a := List.take_append_drop _ _
    rw [this] at h2
    exact h2.symm
  · have := congrArg (List.drop c.length) h
    rw [List.drop_append_of_le_length hl, List.drop_left] at this
    exact this.symm

theorem splitData_spec (o : Nat) : ∀ (fuel : Nat) (m : Nat) (op : Option (List UInt8))
    (data L : List UInt8) (pend : List (List UInt8)), data.length < fuel →
    Pend o m op (data ++ L) pend → okCut pend L.length →
    ∃ pkts m' op' pend', splitData o fuel m data = .done pkts m' ∧ Pend o m' op' L pend' ∧
      (∀ K, okCut pend K → okCut pend' K) ∧
      (∀ more, regroup op' more = some pend' → regroup op (pkts ++ more) = some pend) := by
  intro fuel
  induction fuel with
  | zero => intro m op data L pend h; omega
  | succ fuel ih =>
    intro m op data L pend hf hp hc
    by_cases hd : data = []
    · subst hd
      exact ⟨[], m, op, pend, by simp [splitData], hp, fun _ h => h, fun _ h => h⟩
    · have hpos : 0 < data.length := List.length_pos_iff.mpr hd
      have hd0 : ¬ data.length = 0 := by omega
      generalize hR : data ++ L = R at hp
      cases hp with
      | closed _ g =>
        cases pend with
        | nil => simp [hd] at hR
        | cons c rest =>
          have hw := g c (by simp)
          have hlen := congrArg List.length hR
          have h4 : 4 ≤ data.length := by
            have := hc [] c rest rfl
            simp only [List.length_append] at hlen
            omega
          have htake : data.take 4 = c.take 4 := by
            have := congrArg (List.take 4) hR
            rwa [List.take_append_of_le_length h4, List.flatten_cons,
              List.take_append_of_le_length hw.1] at this
          have han := announced_wf hw htake
          by_cases hlt : data.length < c.length
          · obtain ⟨x, hx1, hx2⟩ := append_split (a := c) (b := rest.flatten) (c := data) (d := L)
              (by rw [hR]; rfl) (by omega)
            have hxl : x.length = c.length - data.length := by rw [hx1]; simp
            refine ⟨[⟨data, true, false⟩], c.length - data.length, some data, c :: rest, ?_, ?_,
              fun _ h => h, ?_⟩
            · cases fuel with
              | zero => omega
              | succ fuel =>
                simp only [splitData, hd0, if_false, if_true, List.take_length, List.drop_length, han, hlt]
                have : ¬ (c.length - data.length = 0) := by omega
                have h5 : ¬ data.length < 4 := by omega
                simp [this, h5]
            · have := Pend.opened (o := o) data x rest (by
                intro e; rw [e] at hxl; simp at hxl; omega) (fun d hd => g d (by simp [hd]))
              rw [hxl, ← hx1] at this
              rw [hx2]
              exact this
            · intro more hm
              simp [regroup, hm]
          · obtain ⟨x, hx1, hx2⟩ := append_split (a := data) (b := L) (c := c) (d := rest.flatten)
              (by rw [hR]; rfl) (by omega)
            have hc4 := hw.1
            have hxl : x.length < fuel := by rw [hx1, List.length_append] at hf; omega
            obtain ⟨pkts, m', op', pend', e1, e2, e3, e4⟩ := ih 0 none x L rest hxl
              (by rw [← hx2]; exact Pend.closed rest (fun d hd => g d (by simp [hd]))) (okCut_tail hc)
            refine ⟨⟨c, true, true⟩ :: pkts, m', op', pend', ?_, e2, fun K h => e3 K (okCut_tail h), ?_⟩
            · have h5 : ¬ data.length < 4 := by omega
              simp only [splitData, hd0, if_false, if_true, han, hlt, h5, and_false, Nat.sub_self]
              rw [hx1, List.take_left, List.drop_left, e1]
              simp
            · intro more hm
              simp [regroup, e4 more hm]
      | opened a t rest ht g =>
        have htp : 0 < t.length := List.length_pos_iff.mpr ht
        have ht0 : ¬ t.length = 0 := by omega
        by_cases hlt : data.length < t.length
        · obtain ⟨x, hx1, hx2⟩ := append_split (a := t) (b := rest.flatten) (c := data) (d := L)
            hR.symm (by omega)
          have hxl : x.length = t.length - data.length := by rw [hx1]; simp
          refine ⟨[⟨data, false, false⟩], t.length - data.length, some (a ++ data), (a ++ t) :: rest, ?_, ?_,
            fun _ h => h, ?_⟩
          · cases fuel with
            | zero => omega
            | succ fuel =>
              simp only [splitData, hd0, if_false, List.take_length, List.drop_length, hlt, if_true, ht0,
                false_and]
              have : ¬ (t.length - data.length = 0) := by omega
              simp [this]
          · have := Pend.opened (o := o) (a ++ data) x rest (by
              intro e; rw [e] at hxl; simp at hxl; omega) g
            rw [hxl, List.append_assoc, ← hx1] at this
            rw [hx2]
            exact this
          · intro more hm
            simp [regroup, hm]
        · obtain ⟨x, hx1, hx2⟩ := append_split (a := data) (b := L) (c := t) (d := rest.flatten)
            hR (by omega)
          have hxl : x.length < fuel := by rw [hx1, List.length_append] at hf; omega
          obtain ⟨pkts, m', op', pend', e1, e2, e3, e4⟩ := ih 0 none x L rest hxl
            (by rw [← hx2]; exact Pend.closed rest g) (okCut_tail hc)
          refine ⟨⟨t, false, true⟩ :: pkts, m', op', pend', ?_, e2, fun K h => e3 K (okCut_tail h), ?_⟩
          · simp only [splitData, hd0, if_false, hlt, ht0, false_and, Nat.sub_self]
            rw [hx1, List.take_left, List.drop_left, e1]
            simp
          · intro more hm
            simp [regroup, e4 more hm]

theorem splitPieces_spec (o : Nat) : ∀ (pieces : List (List UInt8)) (m : Nat)
    (op : Option (List UInt8)) (pend : List (List UInt8)),
    Pend o m op pieces.flatten pend →
    (∀ ps₁ ps₂, pieces = ps₁ ++ ps₂ → okCut pend ps₂.flatten.length) →
    ∃ pkts, splitPieces o m pieces = .done pkts 0 ∧ regroup op pkts = some pend := by
  intro pieces
  induction pieces with
  | nil =>
    intro m op pend hp hc
    generalize hR : ([] : List (List UInt8)).flatten = R at hp
    cases hp with
    | closed _ g =>
      cases pend with
      | nil => exact ⟨[], rfl, rfl⟩
      | cons c rest =>
        have := (g c (by simp)).1
        have e := congrArg List.length hR
        simp at e
        omega
    | opened a t rest ht g =>
      simp at hR
      exact absurd hR.1 ht
  | cons p ps ih =>
    intro m op pend hp hc
    obtain ⟨pkts, m', op', pend', e1, e2, e3, e4⟩ := splitData_spec o (p.length + 1) m op p
      ps.flatten pend (by omega) (by simpa using hp) (hc [p] ps rfl)
    obtain ⟨pkts', e5, e6⟩ := ih m' op' pend' e2
      (fun ps₁ ps₂ e => e3 _ (hc (p :: ps₁) ps₂ (by rw [e]; rfl)))
    exact ⟨pkts ++ pkts', by simp only [splitPieces, e1, e5], e4 _ e6⟩

end Mtp
