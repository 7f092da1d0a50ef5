import Verif.Model.Thumb
import Verif.Lemmas.AMap
/-! Property theorems C55: thumbnail requests. -/
namespace Props
open Mtp

/-- Everything handed over for thumbnailing so far, in order: sent, then still queued. -/
def thLog (t : Thumb) : List Txt := t.sent.flatten ++ t.queue

/-- A command is being handled: the last `commandPending`/`commandFinished` was `commandPending`. -/
def thBusy (h : List ThOp) : Bool :=
  h.foldl (fun b o => match o with | .pending => true | .finished => false | _ => b) false

/-- Thumbnailing was switched on. -/
def thEnabled (h : List ThOp) : Bool := h.any (fun o => match o with | .enable => true | _ => false)

/-- The reply reports a thumbnail for `u`. -/
def ThOp.reports (u : Txt) : ThOp → Prop
  | .ready es => ∃ e ∈ es, e.1 = u
  | _ => False

/-- What a step adds to the log. -/
def thAdds (t : Thumb) : ThOp → List Txt
  | .request p => if AMap.get t.paths p = none ∧ fileIri p ∉ t.requested then [fileIri p] else []
  | _ => []

theorem readyOne_keeps (t : Thumb) (e : Txt × Txt) :
    (t.readyOne e).sent = t.sent ∧ (t.readyOne e).queue = t.queue ∧ (t.readyOne e).timer = t.timer ∧
    (t.readyOne e).enabled = t.enabled ∧ (t.readyOne e).suspended = t.suspended := by
  unfold Thumb.readyOne; split <;> simp

theorem readyAll_keeps (es : List (Txt × Txt)) : ∀ (t : Thumb),
    (t.readyAll es).sent = t.sent ∧ (t.readyAll es).queue = t.queue ∧ (t.readyAll es).timer = t.timer ∧
    (t.readyAll es).enabled = t.enabled ∧ (t.readyAll es).suspended = t.suspended := by
  induction es with
  | nil => intro t; exact ⟨rfl, rfl, rfl, rfl, rfl⟩
  | cons e es ih =>
    intro t
    obtain ⟨a, b, c, d, f⟩ := ih (t.readyOne e)
    obtain ⟨a', b', c', d', f'⟩ := readyOne_keeps t e
    exact ⟨a.trans a', b.trans b', c.trans c', d.trans d', f.trans f'⟩

theorem thLog_step (t : Thumb) (o : ThOp) : thLog (t.step o) = thLog t ++ thAdds t o := by
  cases o with
  | enable => simp only [Thumb.step, Thumb.enable, thAdds]; split <;> simp [thLog, Thumb.schedule]
  | pending => simp only [Thumb.step, Thumb.suspend, thAdds]; split <;> simp [thLog, Thumb.schedule]
  | finished => simp only [Thumb.step, Thumb.resume, thAdds]; split <;> simp [thLog, Thumb.schedule]
  | tick =>
    simp only [Thumb.step, thAdds, List.append_nil]
    split
    · unfold Thumb.timeout
      split
      · simp [thLog]
      · simp [thLog]
    · rfl
  | request p =>
    simp only [Thumb.step, Thumb.request, thAdds]
    cases hp : AMap.get t.paths p with
    | some v => simp
    | none =>
      by_cases hr : fileIri p ∈ t.requested <;> simp [hr, thLog, Thumb.schedule]
  | ready es =>
    obtain ⟨a, b, _⟩ := readyAll_keeps es t
    simp [Thumb.step, thLog, thAdds, a, b]
  | failed us => simp [Thumb.step, thAdds]

theorem thRun_append (h1 h2 : List ThOp) : Thumb.run (h1 ++ h2) = h2.foldl Thumb.step (Thumb.run h1) := by
  unfold Thumb.run; rw [List.foldl_append]

/-- C55. Nothing is lost and the order is kept: what was handed over for thumbnailing (sent or queued) only ever grows at
the end, over every schedule. -/
theorem C55_order (h1 h2 : List ThOp) : thLog (Thumb.run h1) <+: thLog (Thumb.run (h1 ++ h2)) := by
  rw [thRun_append]
  generalize Thumb.run h1 = t
  induction h2 generalizing t with
  | nil => exact List.prefix_refl _
  | cons o h ih =>
    rw [List.foldl_cons]
    exact List.IsPrefix.trans ⟨_, (thLog_step t o).symm⟩ (ih _)

/-- Every outstanding request has been handed over. -/
theorem requested_in_log (h : List ThOp) : ∀ u ∈ (Thumb.run h).requested, u ∈ thLog (Thumb.run h) := by
  have key : ∀ (h : List ThOp) (t : Thumb), (∀ u ∈ t.requested, u ∈ thLog t) →
      ∀ u ∈ (h.foldl Thumb.step t).requested, u ∈ thLog (h.foldl Thumb.step t) := by
    intro h
    induction h with
    | nil => intro t ht; exact ht
    | cons o h ih =>
      intro t ht
      rw [List.foldl_cons]
      apply ih
      intro u hu
      rw [thLog_step]
      have hsub : u ∈ t.requested ∨ u ∈ thAdds t o := by
        cases o with
        | enable => simp only [Thumb.step, Thumb.enable] at hu; split at hu <;> exact Or.inl hu
        | pending => simp only [Thumb.step, Thumb.suspend] at hu; split at hu <;> exact Or.inl hu
        | finished => simp only [Thumb.step, Thumb.resume] at hu; split at hu <;> exact Or.inl hu
        | tick =>
          simp only [Thumb.step, Thumb.timeout] at hu
          split at hu
          · split at hu <;> exact Or.inl hu
          · exact Or.inl hu
        | request p =>
          simp only [Thumb.step, Thumb.request] at hu
          simp only [thAdds]
          cases hp : AMap.get t.paths p with
          | some v => rw [hp] at hu; exact Or.inl hu
          | none =>
            rw [hp] at hu
            by_cases hr : fileIri p ∈ t.requested
            · simp only [hr, if_true] at hu; exact Or.inl hu
            · simp only [hr, if_false, Thumb.schedule, List.mem_cons] at hu
              simp only [hr, not_false_eq_true, and_self, if_true, List.mem_singleton]
              exact hu.symm
        | ready es =>
          left
          simp only [Thumb.step, Thumb.readyAll] at hu
          clear ih ht
          induction es generalizing t with
          | nil => exact hu
          | cons e es ihe =>
            rw [List.foldl_cons] at hu
            have := ihe _ hu
            unfold Thumb.readyOne at this
            split at this
            · exact (List.mem_filter.mp this).1
            · exact this
        | failed us => exact Or.inl hu
      rcases hsub with g | g
      · exact List.mem_append_left _ (ht u g)
      · exact List.mem_append_right _ g
  exact key h {} (fun u hu => by cases hu)

/-- C55. A request for an image without a thumbnail is handed over. -/
theorem C55_request_queued (h : List ThOp) (p : Txt) (hk : AMap.get (Thumb.run h).paths p = none) :
    fileIri p ∈ thLog (Thumb.run (h ++ [.request p])) := by
  rw [thRun_append, List.foldl_cons, List.foldl_nil, thLog_step]
  by_cases hr : fileIri p ∈ (Thumb.run h).requested
  · exact List.mem_append_left _ (requested_in_log h _ hr)
  · apply List.mem_append_right
    simp [thAdds, hk, hr]

/-- An image with a known thumbnail or an outstanding request. -/
def Settled (t : Thumb) (p : Txt) : Prop := (AMap.get t.paths p).isSome ∨ fileIri p ∈ t.requested

theorem fileIri_inj {p q : Txt} (h : fileIri p = fileIri q) : p = q := List.append_cancel_left h

theorem settled_step {t : Thumb} {p : Txt} (hs : Settled t p) (o : ThOp) (ho : ¬ ThOp.reports (fileIri p) o) :
    Settled (t.step o) p ∧ (thAdds t o).count (fileIri p) = 0 := by
  constructor
  · cases o with
    | enable => simp only [Thumb.step, Thumb.enable]; split <;> exact hs
    | pending => simp only [Thumb.step, Thumb.suspend]; split <;> exact hs
    | finished => simp only [Thumb.step, Thumb.resume]; split <;> exact hs
    | tick =>
      simp only [Thumb.step, Thumb.timeout]
      split
      · split <;> exact hs
      · exact hs
    | request q =>
      simp only [Thumb.step, Thumb.request]
      cases AMap.get t.paths q with
      | some v => exact hs
      | none =>
        by_cases hr : fileIri q ∈ t.requested
        · simp only [hr, if_true]; exact hs
        · simp only [hr, if_false]
          rcases hs with g | g
          · exact Or.inl g
          · exact Or.inr (List.mem_cons_of_mem _ g)
    | ready es =>
      simp only [Thumb.step, Thumb.readyAll]
      have hes : ∀ e ∈ es, e.1 ≠ fileIri p := fun e he hc => ho ⟨e, he, hc⟩
      clear ho
      induction es generalizing t with
      | nil => exact hs
      | cons e es ihe =>
        rw [List.foldl_cons]
        apply ihe _ (fun e he => hes e (List.mem_cons_of_mem _ he))
        unfold Thumb.readyOne
        split
        · rcases hs with g | g
          · left
            rw [AMap.get_insert]
            split
            · rfl
            · exact g
          · right
            exact List.mem_filter.mpr ⟨g, by simpa using (hes e List.mem_cons_self).symm⟩
        · exact hs
    | failed us => exact hs
  · cases o with
    | request q =>
      simp only [thAdds]
      split
      · next hq =>
        have hne : fileIri q ≠ fileIri p := by
          intro he
          have := fileIri_inj he
          subst this
          rcases hs with g | g
          · rw [hq.1] at g; cases g
          · exact hq.2 g
        rw [List.count_singleton]
        simp [hne]
      · rfl
    | _ => rfl

/-- C55. An image is handed over at most once until its thumbnail is reported: after a request for it, whatever happens
short of such a report, the number of times it was handed over stays what it was right after the request, which is at most
one more than before it. -/
theorem C55_once (h1 h2 : List ThOp) (p : Txt) (hn : ∀ o ∈ h2, ¬ ThOp.reports (fileIri p) o) :
    (thLog (Thumb.run (h1 ++ .request p :: h2))).count (fileIri p) =
      (thLog (Thumb.run (h1 ++ [.request p]))).count (fileIri p) ∧
    (thLog (Thumb.run (h1 ++ [.request p]))).count (fileIri p) ≤
      (thLog (Thumb.run h1)).count (fileIri p) + 1 := by
  constructor
  · rw [show h1 ++ .request p :: h2 = (h1 ++ [ThOp.request p]) ++ h2 by simp, thRun_append (h1 ++ [ThOp.request p]) h2]
    have hs : Settled (Thumb.run (h1 ++ [.request p])) p := by
      rw [thRun_append, List.foldl_cons, List.foldl_nil]
      simp only [Thumb.step, Thumb.request]
      cases hp : AMap.get (Thumb.run h1).paths p with
      | some v => left; simp only [hp]; rfl
      | none =>
        by_cases hr : fileIri p ∈ (Thumb.run h1).requested
        · simp only [hr, if_true]; exact Or.inr hr
        · simp only [hr, if_false]; exact Or.inr List.mem_cons_self
    generalize Thumb.run (h1 ++ [.request p]) = t at hs
    induction h2 generalizing t with
    | nil => rfl
    | cons o h ih =>
      obtain ⟨a, b⟩ := settled_step hs o (hn o List.mem_cons_self)
      rw [List.foldl_cons, ih (fun o ho => hn o (List.mem_cons_of_mem _ ho)) _ a, thLog_step, List.count_append, b]
      rfl
  · rw [thRun_append, List.foldl_cons, List.foldl_nil, thLog_step, List.count_append]
    simp only [thAdds]
    split <;> simp

/-- The flags in terms of the history, and the timer. -/
theorem thumb_inv (h : List ThOp) : (Thumb.run h).enabled = thEnabled h ∧ (Thumb.run h).suspended = thBusy h ∧
    ((Thumb.run h).timer = true → (Thumb.run h).enabled = true ∧ (Thumb.run h).suspended = false) ∧
    ((Thumb.run h).enabled = true → (Thumb.run h).suspended = false → (Thumb.run h).queue ≠ [] →
      (Thumb.run h).timer = true) := by
  have key : ∀ (h : List ThOp) (t : Thumb),
      ((t.timer = true → t.enabled = true ∧ t.suspended = false) ∧
        (t.enabled = true → t.suspended = false → t.queue ≠ [] → t.timer = true)) →
      (h.foldl Thumb.step t).enabled = (t.enabled || thEnabled h) ∧
      (h.foldl Thumb.step t).suspended =
        h.foldl (fun b o => match o with | .pending => true | .finished => false | _ => b) t.suspended ∧
      (((h.foldl Thumb.step t).timer = true →
          (h.foldl Thumb.step t).enabled = true ∧ (h.foldl Thumb.step t).suspended = false) ∧
        ((h.foldl Thumb.step t).enabled = true → (h.foldl Thumb.step t).suspended = false →
          (h.foldl Thumb.step t).queue ≠ [] → (h.foldl Thumb.step t).timer = true)) := by
    intro h
    induction h with
    | nil => intro t ht; exact ⟨by simp [thEnabled], rfl, ht⟩
    | cons o h ih =>
      intro t ht
      have hstep : (t.step o).enabled = (t.enabled || (match o with | .enable => true | _ => false)) ∧
          (t.step o).suspended = (match o with | .pending => true | .finished => false | _ => t.suspended) ∧
          (((t.step o).timer = true → (t.step o).enabled = true ∧ (t.step o).suspended = false) ∧
          ((t.step o).enabled = true → (t.step o).suspended = false → (t.step o).queue ≠ [] →
            (t.step o).timer = true)) := by
        obtain ⟨en, su, ti, rq, qu, pa, se, re⟩ := t
        simp only at ht
        cases o with
        | enable => cases en <;> simp_all [Thumb.step, Thumb.enable, Thumb.schedule]
        | pending => cases su <;> simp_all [Thumb.step, Thumb.suspend, Thumb.schedule]
        | finished => cases su <;> simp_all [Thumb.step, Thumb.resume, Thumb.schedule]
        | tick =>
          cases ti
          · simp_all [Thumb.step]
          · cases qu <;> simp_all [Thumb.step, Thumb.timeout]
        | request p =>
          simp only [Thumb.step, Thumb.request]
          cases AMap.get pa p with
          | some v => simpa using ht
          | none =>
            by_cases hr : fileIri p ∈ rq
            · simp only [hr, if_true]; simpa using ht
            · simp only [hr, if_false, Thumb.schedule]; simp_all
        | ready es =>
          obtain ⟨a, b, c, d, f⟩ := readyAll_keeps es ⟨en, su, ti, rq, qu, pa, se, re⟩
          simp only [Thumb.step, a, b, c, d, f, Bool.or_false, true_and]
          exact ht
        | failed us => simpa [Thumb.step] using ht
      obtain ⟨s1, s2, s3⟩ := hstep
      obtain ⟨i1, i2, i3⟩ := ih (t.step o) s3
      rw [List.foldl_cons]
      refine ⟨?_, ?_, i3⟩
      · rw [i1, s1, Bool.or_assoc]; rfl
      · rw [i2, s2]; rfl
  obtain ⟨a, b, c, d⟩ := key h {} (by simp)
  exact ⟨by simpa [Thumb.run] using a, b, c, d⟩

/-- C55. Nothing is sent while a command is being handled, nor before thumbnailing is switched on. -/
theorem C55_not_while_busy (h : List ThOp) (o : ThOp) (hs : (Thumb.run (h ++ [o])).sent ≠ (Thumb.run h).sent) :
    thBusy h = false ∧ thEnabled h = true := by
  obtain ⟨i1, i2, i3, _⟩ := thumb_inv h
  rw [thRun_append, List.foldl_cons, List.foldl_nil] at hs
  have ht : (Thumb.run h).timer = true := by
    cases o with
    | tick =>
      apply Classical.byContradiction
      intro hc
      apply hs
      simp [Thumb.step, hc]
    | enable => exact absurd (by simp only [Thumb.step, Thumb.enable]; split <;> rfl) hs
    | pending => exact absurd (by simp only [Thumb.step, Thumb.suspend]; split <;> rfl) hs
    | finished => exact absurd (by simp only [Thumb.step, Thumb.resume]; split <;> rfl) hs
    | request p =>
      exact absurd (by
        simp only [Thumb.step, Thumb.request]
        split
        · rfl
        · split <;> rfl) hs
    | ready es => exact absurd (readyAll_keeps es _).1 hs
    | failed us => exact absurd rfl hs
  obtain ⟨a, b⟩ := i3 ht
  rw [i1] at a; rw [i2] at b
  exact ⟨b, a⟩

/-- C55. Every request sent carries between 1 and 128 images. -/
theorem C55_batches (h : List ThOp) : ∀ b ∈ (Thumb.run h).sent, 0 < b.length ∧ b.length ≤ 128 := by
  have key : ∀ (h : List ThOp) (t : Thumb), (∀ b ∈ t.sent, 0 < b.length ∧ b.length ≤ 128) →
      ∀ b ∈ (h.foldl Thumb.step t).sent, 0 < b.length ∧ b.length ≤ 128 := by
    intro h
    induction h with
    | nil => intro t ht; exact ht
    | cons o h ih =>
      intro t ht
      rw [List.foldl_cons]
      apply ih
      cases o with
      | tick =>
        simp only [Thumb.step]
        split
        · unfold Thumb.timeout
          split
          · exact ht
          · next hq =>
            intro b hb
            rcases List.mem_append.mp hb with g | g
            · exact ht b g
            · rw [List.mem_singleton] at g
              subst g
              rw [List.length_take]
              have : 0 < t.queue.length := by
                cases hqq : t.queue with
                | nil => rw [hqq] at hq; exact absurd rfl hq
                | cons a l => simp
              unfold maxBatch; omega
        · exact ht
      | enable => simp only [Thumb.step, Thumb.enable]; split <;> exact ht
      | pending => simp only [Thumb.step, Thumb.suspend]; split <;> exact ht
      | finished => simp only [Thumb.step, Thumb.resume]; split <;> exact ht
      | request p =>
        simp only [Thumb.step, Thumb.request]
        split
        · exact ht
        · split <;> exact ht
      | ready es => rw [show (t.step (.ready es)).sent = t.sent from (readyAll_keeps es t).1]; exact ht
      | failed us => exact ht
  exact key h {} (fun b hb => by cases hb)

/-- C55. Nothing gets stuck: once switched on and with no command being handled, everything handed over so far is sent by
the time the main loop has come round `k` times, if at most 128·k images are queued. -/
theorem C55_all_sent (h : List ThOp) (he : thEnabled h = true) (hb : thBusy h = false) (k : Nat)
    (hk : (Thumb.run h).queue.length ≤ 128 * k) :
    (Thumb.run (h ++ List.replicate k .tick)).sent.flatten = thLog (Thumb.run h) ∧
    (Thumb.run (h ++ List.replicate k .tick)).queue = [] := by
  obtain ⟨i1, i2, i3, i4⟩ := thumb_inv h
  rw [he] at i1; rw [hb] at i2
  rw [thRun_append]
  have key : ∀ (k : Nat) (t : Thumb), (t.queue ≠ [] → t.timer = true) → t.queue.length ≤ 128 * k →
      ((List.replicate k ThOp.tick).foldl Thumb.step t).sent.flatten = thLog t ∧
      ((List.replicate k ThOp.tick).foldl Thumb.step t).queue = [] := by
    intro k
    induction k with
    | zero =>
      intro t _ hl
      have : t.queue = [] := List.length_eq_zero_iff.mp (by omega)
      simp [thLog, this]
    | succ k ih =>
      intro t ht hl
      rw [List.replicate_succ, List.foldl_cons]
      by_cases hq : t.queue = []
      · have hs : thLog (t.step .tick) = thLog t ∧ (t.step .tick).queue = [] := by
          simp only [Thumb.step, Thumb.timeout]
          cases t.timer <;> simp [hq, thLog]
        rw [← hs.1]
        exact ih _ (fun hc => absurd hs.2 hc) (by rw [hs.2]; simp)
      · have hlog := thLog_step t .tick
        have hs : (t.step .tick).timer = true ∧ (t.step .tick).queue = t.queue.drop maxBatch := by
          have hqe : t.queue.isEmpty = false := by cases hqq : t.queue with | nil => exact absurd hqq hq | cons a l => rfl
          simp [Thumb.step, Thumb.timeout, ht hq, hqe]
        have := ih (t.step .tick) (fun _ => hs.1) (by rw [hs.2, List.length_drop]; unfold maxBatch; omega)
        rw [hlog] at this
        simpa [thAdds] using this
  exact key k _ (fun hq => i4 i1 i2 hq) hk

/-- A path that is its own URI path: no '#', '?' or '%'. -/
def PlainPath (p : Txt) : Prop := ∀ c ∈ p, c ≠ '#' ∧ c ≠ '?' ∧ c ≠ '%'

theorem pctDecode_plain : ∀ (p : Txt), (∀ c ∈ p, c ≠ '%') → pctDecode p = p := by
  intro p
  induction p with
  | nil => intro _; rfl
  | cons c r ih =>
    intro h
    have hc := h c List.mem_cons_self
    have hr := ih (fun c hc => h c (List.mem_cons_of_mem _ hc))
    unfold pctDecode
    split
    · next heq => injection heq with h1 _; exact absurd h1 hc
    · next heq => injection heq with h1 h2; subst h1; subst h2; rw [hr]
    · next heq => cases heq

theorem urlPath_plain {p : Txt} (h : PlainPath p) : urlPath (fileIri p) = p := by
  unfold urlPath fileIri
  rw [List.drop_left]
  have : p.takeWhile (fun c => c ≠ '#' && c ≠ '?') = p := by
    induction p with
    | nil => rfl
    | cons c r ih =>
      have hc := h c List.mem_cons_self
      rw [List.takeWhile_cons, ih (fun c hc => h c (List.mem_cons_of_mem _ hc))]
      simp [hc.1, hc.2.1]
  rw [this, pctDecode_plain p (fun c hc => (h c hc).2.2)]

theorem outstanding_step {t : Thumb} {p : Txt} (hs : fileIri p ∈ t.requested) (o : ThOp)
    (ho : ¬ ThOp.reports (fileIri p) o) : fileIri p ∈ (t.step o).requested := by
  cases o with
  | enable => simp only [Thumb.step, Thumb.enable]; split <;> exact hs
  | pending => simp only [Thumb.step, Thumb.suspend]; split <;> exact hs
  | finished => simp only [Thumb.step, Thumb.resume]; split <;> exact hs
  | tick =>
    simp only [Thumb.step, Thumb.timeout]
    split
    · split <;> exact hs
    · exact hs
  | request q =>
    simp only [Thumb.step, Thumb.request]
    split
    · exact hs
    · split
      · exact hs
      · exact List.mem_cons_of_mem _ hs
  | ready es =>
    simp only [Thumb.step, Thumb.readyAll]
    have hes : ∀ e ∈ es, e.1 ≠ fileIri p := fun e he hc => ho ⟨e, he, hc⟩
    clear ho
    induction es generalizing t with
    | nil => exact hs
    | cons e es ihe =>
      rw [List.foldl_cons]
      apply ihe _ (fun e he => hes e (List.mem_cons_of_mem _ he))
      unfold Thumb.readyOne
      split
      · exact List.mem_filter.mpr ⟨hs, by simpa using (hes e List.mem_cons_self).symm⟩
      · exact hs
  | failed us => exact hs

/-- C55. The thumbnail reported for a requested image is the one returned afterwards, for paths without '#', '?' and '%'.
Missing: other paths (`C55_hash_violated`). -/
theorem C55_reply_partial (h1 h2 : List ThOp) (p th : Txt) (hp : PlainPath p)
    (hk : AMap.get (Thumb.run h1).paths p = none) (hn : ∀ o ∈ h2, ¬ ThOp.reports (fileIri p) o) :
    (Thumb.run (h1 ++ .request p :: h2 ++ [.ready [(fileIri p, th)]])).reply p = th := by
  have hs : ∀ (h2 : List ThOp) (t : Thumb), fileIri p ∈ t.requested → (∀ o ∈ h2, ¬ ThOp.reports (fileIri p) o) →
      fileIri p ∈ (h2.foldl Thumb.step t).requested := by
    intro h2
    induction h2 with
    | nil => intro t hs _; exact hs
    | cons o h ih =>
      intro t hs hn
      exact ih _ (outstanding_step hs o (hn o List.mem_cons_self)) (fun o ho => hn o (List.mem_cons_of_mem _ ho))
  have h0 : fileIri p ∈ ((Thumb.run h1).step (.request p)).requested := by
    simp only [Thumb.step, Thumb.request, hk]
    split
    · next hr => exact hr
    · exact List.mem_cons_self
  have g := hs h2 _ h0 hn
  rw [← List.foldl_cons, ← thRun_append] at g
  rw [thRun_append _ [.ready [(fileIri p, th)]], List.foldl_cons, List.foldl_nil]
  simp only [Thumb.step, Thumb.readyAll, List.foldl_cons, List.foldl_nil, Thumb.readyOne, if_pos g, Thumb.reply,
    urlPath_plain hp, AMap.get_insert, if_true, Option.getD_some]

/-- C55 is violated for names with '#': the thumbnail of "/s/a#1" is recorded for "/s/a": a request for that other image
returns the wrong thumbnail, and the image itself is queued again on each request. -/
theorem C55_hash_violated :
    let h : List ThOp := [.request "/s/a#1".toList, .ready [(fileIri "/s/a#1".toList, "t".toList)]]
    (Thumb.run h).reply "/s/a".toList = "t".toList ∧ (Thumb.run h).reply "/s/a#1".toList = [] ∧
    thLog (Thumb.run (h ++ [.request "/s/a#1".toList])) = [fileIri "/s/a#1".toList, fileIri "/s/a#1".toList] := by
  decide +kernel

/-- What is requested was asked for by somebody. -/
theorem requested_asked (h : List ThOp) : ∀ u ∈ (Thumb.run h).requested, ∃ p, ThOp.request p ∈ h ∧ u = fileIri p := by
  have key : ∀ (h : List ThOp) (t : Thumb) (u : Txt), u ∈ (h.foldl Thumb.step t).requested →
      u ∈ t.requested ∨ ∃ p, ThOp.request p ∈ h ∧ u = fileIri p := by
    intro h
    induction h with
    | nil => intro t u hu; exact Or.inl hu
    | cons o h ih =>
      intro t u hu
      rw [List.foldl_cons] at hu
      rcases ih _ u hu with hu | ⟨p, hp, e⟩
      · cases o with
        | enable => simp only [Thumb.step, Thumb.enable] at hu; split at hu <;> exact Or.inl hu
        | pending => simp only [Thumb.step, Thumb.suspend] at hu; split at hu <;> exact Or.inl hu
        | finished => simp only [Thumb.step, Thumb.resume] at hu; split at hu <;> exact Or.inl hu
        | tick =>
          simp only [Thumb.step, Thumb.timeout] at hu
          split at hu
          · split at hu <;> exact Or.inl hu
          · exact Or.inl hu
        | request p =>
          simp only [Thumb.step, Thumb.request] at hu
          split at hu
          · exact Or.inl hu
          · split at hu
            · exact Or.inl hu
            · rcases List.mem_cons.mp hu with rfl | hu
              · exact Or.inr ⟨p, List.mem_cons_self, rfl⟩
              · exact Or.inl hu
        | ready es =>
          left
          simp only [Thumb.step, Thumb.readyAll] at hu
          clear ih
          induction es generalizing t with
          | nil => exact hu
          | cons e es ihe =>
            rw [List.foldl_cons] at hu
            have := ihe _ (by assumption) hu
            unfold Thumb.readyOne at this
            split at this
            · exact (List.mem_filter.mp this).1
            · exact this
        | failed us => exact Or.inl hu
      · exact Or.inr ⟨p, List.mem_cons_of_mem _ hp, e⟩
  intro u hu
  rcases key h {} u hu with g | g
  · cases g
  · exact g

/-- C55. Thumbnails announced for images nobody asked for (the thumbnailer broadcasts what it does for others) change
nothing: no reply, no notification, no request. -/
theorem C55_unrequested_ignored (h : List ThOp) (es : List (Txt × Txt))
    (hn : ∀ e ∈ es, ∀ p, ThOp.request p ∈ h → e.1 ≠ fileIri p) : Thumb.run (h ++ [.ready es]) = Thumb.run h := by
  rw [thRun_append, List.foldl_cons, List.foldl_nil]
  show (Thumb.run h).readyAll es = Thumb.run h
  have hr : ∀ e ∈ es, e.1 ∉ (Thumb.run h).requested := by
    intro e he hm
    obtain ⟨p, hp, e1⟩ := requested_asked h _ hm
    exact hn e he p hp e1
  generalize Thumb.run h = t at hr
  unfold Thumb.readyAll
  clear hn
  induction es with
  | nil => rfl
  | cons e es ih =>
    rw [List.foldl_cons]
    have : t.readyOne e = t := by
      unfold Thumb.readyOne
      rw [if_neg (hr e List.mem_cons_self)]
    rw [this]
    exact ih (fun e' he' => hr e' (List.mem_cons_of_mem _ he'))

/-- C55, consequence: an image for which thumbnailing failed is never tried again, unless some thumbnail for it is
reported. -/
theorem C55_failed_not_retried (h1 h2 : List ThOp) (p : Txt) (us : List Txt)
    (hn : ∀ o ∈ h2, ¬ ThOp.reports (fileIri p) o) :
    (thLog (Thumb.run (h1 ++ .request p :: .failed us :: h2))).count (fileIri p) =
      (thLog (Thumb.run (h1 ++ [.request p]))).count (fileIri p) :=
  (C55_once h1 (.failed us :: h2) p (by
    intro o ho
    rcases List.mem_cons.mp ho with rfl | ho
    · exact fun h => h
    · exact hn o ho)).1

/-- Witness: requests during a command wait for its end and go out together. -/
theorem C55_witness :
    (Thumb.run [.enable, .pending, .request ['/', 'a'], .request ['/', 'b'], .request ['/', 'a'], .tick]).sent = [] ∧
    (Thumb.run [.enable, .pending, .request ['/', 'a'], .request ['/', 'b'], .request ['/', 'a'], .tick, .finished,
      .tick]).sent = [[fileIri ['/', 'a'], fileIri ['/', 'b']]] := by decide +kernel

/-- Witness for `C55_unrequested_ignored`: a broadcast about a foreign image. -/
theorem C55_unrequested_witness :
    Thumb.run ([.enable, .request ['/', 'a']] ++ [.ready [(fileIri ['/', 'b'], ['t'])]]) =
      Thumb.run [.enable, .request ['/', 'a']] := by
  refine C55_unrequested_ignored _ _ (fun e he p hp => ?_)
  rw [List.mem_singleton] at he
  subst he
  rcases List.mem_cons.mp hp with h | h
  · cases h
  · rw [List.mem_singleton] at h
    cases h
    decide +kernel

end Props
