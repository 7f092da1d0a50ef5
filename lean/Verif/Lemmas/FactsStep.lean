import Verif.Lemmas.Facts
/-! The invariant of Verif.Lemmas.Facts is kept by every step. -/
namespace Mtp
open Spec

/-- As `Local.inv`, when only what is said may have become wrong. -/
theorem Local.inv' {k : Aspect} {s s' : FactSt} {p : Path} {l : List Note} (x : Local s s' p l) (i : FInv k s)
    (hp : ∀ f, Agrees k s p f → Agrees k s' p f) : FInv k s' :=
  x.inv i fun h f g => by
    rcases i.right h p f g with r | r | r | ⟨pos, e⟩
    · exact .inl (hp f r)
    · exact .inr (.inl (x.touch.owed r))
    · exact .inr (.inr (.inl (by rw [x.dirty]; exact r)))
    · exact .inr (.inr (.inr ⟨pos, x.dataFile.trans e⟩))

theorem FBase.inj {s : FactSt} (b : FBase s) {h h' : Nat} {p : Path} {f f' : Facts} (g : AMap.get s.objs h = some (p, f))
    (g' : AMap.get s.objs h' = some (p, f')) : h = h' := by
  have := b.toPath _ _ _ g
  rw [b.toPath _ _ _ g'] at this
  cases this; rfl

theorem inv_close {k : Aspect} {s : FactSt} (i : FInv k s) (p : Path) : FInv k (s.step (.close p)) := by
  simp only [FactSt.step]
  split
  · have x : Touch s ({ s with dirty := s.dirty.filter (· ≠ p) }.note (.closed p)) [.closed p] :=
      ⟨rfl, rfl, rfl, rfl, fun _ => rfl, fun _ h => h, rfl, fun _ h => .inr ⟨p, List.mem_singleton.1 h⟩⟩
    refine ⟨x.base i.toFBase i.writ i.isOpen, fun h q f g => ?_, fun q f e g c => i.target q f e g (by rw [← x.chase]; exact c)⟩
    · by_cases e : q = p
      · subst e
        exact .inr (.inl (.inl (List.mem_append_right _ (List.mem_singleton.2 rfl))))
      · rcases i.right h q f g with r | r | r | ⟨pos, e⟩
        · exact .inl (agrees_same (s := s) rfl rfl rfl r)
        · exact .inr (.inl (x.owed r))
        · exact .inr (.inr (.inl (List.mem_filter.2 ⟨r, by simpa using e⟩)))
        · exact .inr (.inr (.inr ⟨pos, e⟩))
  · exact i

theorem inv_change {k : Aspect} {s : FactSt} (i : FInv k s) (p : Path) (n : FileNode) : FInv k (s.step (.change p n)) := by
  have main : ∀ l : List Note, (∀ m ∈ l, m = .created p) → FInv k
      { zone := s.zone, other := s.other, disk := AMap.insert s.disk p n, objs := s.objs, paths := s.paths, next := s.next,
        dataFile := s.dataFile, writing := s.writing, pending := s.pending ++ l,
        dirty := if p ∈ s.dirty then s.dirty else p :: s.dirty, evs := s.evs } := by
    intro l hl
    have x : Touch s
      { zone := s.zone, other := s.other, disk := AMap.insert s.disk p n, objs := s.objs, paths := s.paths, next := s.next,
        dataFile := s.dataFile, writing := s.writing, pending := s.pending ++ l,
        dirty := if p ∈ s.dirty then s.dirty else p :: s.dirty, evs := s.evs } l :=
      ⟨rfl, rfl, rfl, rfl, fun _ => rfl, fun q h => by
        show AMap.get (AMap.insert s.disk p n) q ≠ none
        rw [AMap.get_insert]; split
        · exact nofun
        · exact h, rfl, fun m hm => .inl ⟨p, hl m hm, by
        show AMap.get (AMap.insert s.disk p n) p ≠ none
        rw [AMap.get_insert, if_pos rfl]; exact nofun⟩⟩
    refine ⟨x.base i.toFBase i.writ fun q r => x.disk q (i.isOpen q r), fun h q f g => ?_,
      fun q f e g c => i.target q f e g (by rw [← x.chase]; exact c)⟩
    · by_cases e : q = p
      · subst e
        refine .inr (.inr (.inl ?_))
        show q ∈ if q ∈ s.dirty then s.dirty else q :: s.dirty
        split
        · assumption
        · exact List.mem_cons_self
      · rcases i.right h q f g with r | r | r | ⟨pos, e⟩
        · refine .inl (agrees_same (s := s) rfl rfl ?_ r)
          show AMap.get (AMap.insert s.disk p n) q = _
          rw [AMap.get_insert, if_neg e]
        · exact .inr (.inl (x.owed r))
        · refine .inr (.inr (.inl ?_))
          show q ∈ if p ∈ s.dirty then s.dirty else p :: s.dirty
          split
          · assumption
          · exact List.mem_cons_of_mem _ r
        · exact .inr (.inr (.inr ⟨pos, e⟩))
  simp only [FactSt.step]
  split
  · have := main [] (fun _ h => (nomatch h))
    rw [List.append_nil] at this
    exact this
  · exact main [.created p] (fun m h => List.mem_singleton.1 h)

theorem inv_byName {k : Aspect} {s : FactSt} (i : FInv k s) (p : Path) (n : FileNode) (ok : FOk k s (.byName p n)) :
    FInv k (s.step (.byName p n)) := by
  simp only [FactSt.step]
  split
  · next h =>
    obtain ⟨old, ho⟩ := Option.isSome_iff_exists.1 h
    have c := ok old ho
    refine (local_put s p n).inv' i fun f r => ?_
    cases k
    · intro m e
      rw [put_get, if_pos rfl] at e
      cases e
      rw [r old ho]; exact c.symm
    · intro m e
      rw [put_get, if_pos rfl] at e
      cases e
      have r' := r old ho
      rw [show n.mtime = old.mtime from c]
      exact r'
    · exact r
  · exact i

theorem inv_truncate {k : Aspect} {s : FactSt} (i : FInv k s) (h n : Nat) (ok : Bool) (now : Int) (hk : k ≠ .dates) :
    FInv k (s.step (.truncate h n ok now)) := by
  simp only [FactSt.step, FactSt.truncate]
  split
  · exact i
  · next p f hf =>
    split
    · next old hd =>
      have x : Touch s { s.put p ⟨n, now⟩ with objs := AMap.insert s.objs h (p, { f with size := n }) } [] := by
        refine ⟨rfl, rfl, rfl, rfl, fun j => ?_, (put_touch s p ⟨n, now⟩).disk, (List.append_nil _).symm, fun _ h => (nomatch h)⟩
        show (AMap.get (AMap.insert s.objs h (p, { f with size := n })) j).map (·.1) = _
        rw [AMap.get_insert]
        split
        · next e => subst e; rw [hf]; rfl
        · rfl
      refine ⟨x.base i.toFBase i.writ fun q r => x.disk q (i.isOpen q r), fun j q f' g => ?_, fun q f' e g c => ?_⟩
      · rw [show AMap.get (AMap.insert s.objs h (p, { f with size := n })) j = _ from AMap.get_insert ..] at g
        split at g
        · next e =>
          subst e
          simp only [Option.some.injEq, Prod.mk.injEq] at g
          obtain ⟨e1, e2⟩ := g
          subst e1; subst e2
          rcases i.right j p f hf with r | r | r | ⟨pos, e⟩
          · left
            cases k
            · intro m e
              have e : AMap.get (AMap.insert s.disk p ⟨n, now⟩) p = some m := e
              rw [AMap.get_insert, if_pos rfl] at e
              cases e; rfl
            · exact absurd rfl hk
            · exact r
          · exact .inr (.inl (x.owed r))
          · exact .inr (.inr (.inl r))
          · exact .inr (.inr (.inr ⟨pos, e⟩))
        · next hne =>
          have hq : q ≠ p := fun e => by subst e; exact hne (i.inj g hf)
          rcases i.right j q f' g with r | r | r | ⟨pos, e⟩
          · refine .inl (agrees_same (s := s) rfl rfl ?_ r)
            show AMap.get (AMap.insert s.disk p _) q = _
            rw [AMap.get_insert, if_neg hq]
          · exact .inr (.inl (x.owed r))
          · exact .inr (.inr (.inl r))
          · exact .inr (.inr (.inr ⟨pos, e⟩))
      · obtain ⟨f₀, g₀⟩ := x.back g
        exact i.target q f₀ e g₀ (by rw [← x.chase]; exact c)
    · exact i

/-! ### Sending contents -/

/-- Other values of `m_writeObjectHandle` and `m_dataFile`. -/
theorem inv_writing {k : Aspect} {s : FactSt} (i : FInv k s) (h : Nat) (d : Option (Option Path × Nat)) (hw : h < s.next)
    (hs : ∀ p, Sending s p → ∃ pos, d = some (some p, pos))
    (ho : ∀ p pos, d = some (some p, pos) → AMap.get s.disk p ≠ none)
    (ht : ∀ p f e, AMap.get s.objs h = some (p, f) → chase s.pending p = some e → ∃ pos, d = some (some e, pos)) :
    FInv k { s with writing := h, dataFile := d } where
  toFBase := ⟨i.toPath, i.ofPath, i.small, hw, i.here, i.adds, fun p ⟨pos, e⟩ => ho p pos e⟩
  right j q f g := by
    rcases i.right j q f g with r | r | r | r
    · exact .inl (agrees_same (s := s) rfl rfl rfl r)
    · exact .inr (.inl r)
    · exact .inr (.inr (.inl r))
    · exact .inr (.inr (.inr (hs q r)))
  target q f e g c := ht q f e g c

/-- Storing bytes in the file being sent. -/
theorem inv_store {k : Aspect} {s : FactSt} (i : FInv k s) (q : Option Path) (pos n : Nat) (now : Int)
    (hd : s.dataFile = some (q, pos)) : FInv k { s.store q pos n now with dataFile := some (q, pos + n) } := by
  have step : FInv k (s.store q pos n now) := by
    cases q with
    | none => exact i
    | some p =>
      exact (local_store s p pos n now).inv i fun h f g =>
        .inr (.inr (.inr ⟨pos, (local_store s p pos n now).dataFile.trans hd⟩))
  have same : (s.store q pos n now).dataFile = some (q, pos) := by
    cases q with
    | none => exact hd
    | some p => rw [(local_store s p pos n now).dataFile]; exact hd
  have w := inv_writing step (s.store q pos n now).writing (some (q, pos + n)) step.writ
    (fun p ⟨pos', e⟩ => by rw [same] at e; cases e; exact ⟨_, rfl⟩)
    (fun p pos' e => step.isOpen p ⟨pos, by rw [same]; cases e; rfl⟩)
    (fun p f e g c => by
      obtain ⟨pos', e⟩ := step.target p f e g c
      rw [same] at e; cases e; exact ⟨_, rfl⟩)
  exact w

theorem inv_writeSeg {k : Aspect} {s : FactSt} (i : FInv k s) (h : Nat) (first opened ut : Bool) (n : Nat) (now : Int)
    (ok : FOk k s (.writeSeg h first opened ut n now)) : FInv k (s.step (.writeSeg h first opened ut n now)) := by
  simp only [FactSt.step, FactSt.writeSeg]
  split
  · exact i
  · next p f hf =>
    cases first with
    | false =>
      have hw : s.writing = h := ok
      simp only [Bool.false_eq_true, false_and, if_false]
      have e : ({ s with writing := h } : FactSt) = s := by rw [← hw]
      rw [e]
      split
      · exact i
      · next q pos hd => exact inv_store i q pos n now hd
    | true =>
      obtain ⟨ho, hn, hg⟩ : opened = true ∧ (∀ p, ¬ Sending s p) ∧ ∀ p f, AMap.get s.objs h = some (p, f) → ¬ GoneIn s.pending p := ok
      subst ho
      simp only [Bool.true_eq_false, and_false, if_false, if_true]
      obtain ⟨⟨l, x⟩, hex⟩ := local_open { s with writing := h } p now
      have hex := (local_mtime (({ s with writing := h } : FactSt).openFile p now) p (parseDate s.zone f.modified) ut).touch.disk _ hex
      have x := x.trans (local_mtime (({ s with writing := h } : FactSt).openFile p now) p (parseDate s.zone f.modified) ut)
      generalize (({ s with writing := h } : FactSt).openFile p now).setMtime p (parseDate s.zone f.modified) ut = s1 at *
      have i1 : FInv k { s1 with dataFile := some (some p, 0) } := by
        have t : Touch s s1 (l ++ []) := ⟨x.touch.zone, x.touch.other, x.touch.paths, x.touch.next, x.touch.objs, x.touch.disk,
          x.touch.pending, x.touch.notes⟩
        have b := t.base i.toFBase (by rw [x.writing, t.next]; exact (i.small h _ hf).2)
          (fun q r => absurd r (by rintro ⟨pos, e⟩; exact hn q ⟨pos, x.dataFile.symm.trans e⟩))
        refine ⟨⟨b.toPath, b.ofPath, b.small, b.writ, b.here, b.adds, ?_⟩, fun j q f' g => ?_, fun q f' e g c => ?_⟩
        · rintro q ⟨pos, e⟩; cases e; exact hex
        · by_cases e : q = p
          · subst e; exact .inr (.inr (.inr ⟨0, rfl⟩))
          · have g : AMap.get s.objs j = some (q, f') := by rw [← show s1.objs = s.objs from x.objs]; exact g
            rcases i.right j q f' g with r | r | r | r
            · exact .inl (agrees_same (s := s) x.touch.zone x.touch.other (x.away q e) r)
            · exact .inr (.inl (t.owed r))
            · exact .inr (.inr (.inl (by rw [show s1.dirty = s.dirty from x.dirty]; exact r)))
            · exact absurd r (hn q)
        · have g : AMap.get s.objs h = some (q, f') := by
            rw [← show s1.objs = s.objs from x.objs, ← show s1.writing = h from x.writing]; exact g
          rw [show ({ s1 with dataFile := some (some p, 0) } : FactSt).pending = s1.pending from rfl, t.chase,
            chase_stay (hg q f' g)] at c
          rw [hf] at g
          cases g
          cases c
          exact ⟨0, rfl⟩
      exact inv_store i1 (some p) 0 n now rfl

theorem local_cut (s : FactSt) (p : Path) (pos : Nat) (now : Int) : ∃ l, Local s (s.cut (some p) pos now) p l ∧
    (AMap.get s.disk p ≠ none → .closed p ∈ l) := by
  simp only [FactSt.cut]
  split
  · next h => exact ⟨[], .refl s p, fun g => absurd h g⟩
  · exact ⟨_, (local_put s p _).trans (local_closed _ p p), fun _ => List.mem_append_right _ (List.mem_singleton.2 rfl)⟩

/-- The end of a write of the host: a change of the file at `p`, and the object there now says `f'`. -/
theorem Local.said {k : Aspect} {s s1 : FactSt} {p : Path} {l : List Note} (x : Local s s1 p l) (i : FInv k s) (h : Nat)
    (f f' : Facts) (hf : AMap.get s.objs h = some (p, f)) (hp : Agrees k s1 p f' ∨ Owed s1 p ∨ p ∈ s1.dirty ∨ Sending s1 p) :
    FInv k { s1 with objs := AMap.insert s1.objs h (p, f') } := by
  have t : Touch s { s1 with objs := AMap.insert s1.objs h (p, f') } l := by
    refine ⟨x.touch.zone, x.touch.other, x.touch.paths, x.touch.next, fun j => ?_, x.touch.disk, x.touch.pending, x.touch.notes⟩
    show (AMap.get (AMap.insert s1.objs h (p, f')) j).map (·.1) = _
    rw [AMap.get_insert, x.objs]
    split
    · next e => subst e; rw [hf]; rfl
    · rfl
  refine ⟨t.base i.toFBase (by rw [t.next]; show s1.writing < _; rw [x.writing]; exact i.writ)
    (fun q ⟨pos, e⟩ => x.touch.disk q (i.isOpen q ⟨pos, x.dataFile.symm.trans e⟩)), fun j q f₁ g => ?_, fun q f₁ e g c => ?_⟩
  · rw [show AMap.get (AMap.insert s1.objs h (p, f')) j = _ from AMap.get_insert ..] at g
    split at g
    · next e =>
      subst e
      simp only [Option.some.injEq, Prod.mk.injEq] at g
      obtain ⟨e1, e2⟩ := g
      subst e1; subst e2
      rcases hp with r | r
      · exact .inl (agrees_same (s := s1) rfl rfl rfl r)
      · exact .inr r
    · next hne =>
      rw [x.objs] at g
      have hq : q ≠ p := fun e => by subst e; exact hne (i.inj g hf)
      rcases x.right hq (i.right j q f₁ g) with r | r
      · exact .inl (agrees_same (s := s1) rfl rfl rfl r)
      · exact .inr r
  · obtain ⟨f₀, g₀⟩ := t.back g
    rw [show ({ s1 with objs := AMap.insert s1.objs h (p, f') } : FactSt).writing = s.writing from x.writing] at g₀
    obtain ⟨pos, d⟩ := i.target q f₀ e g₀ (by rw [← t.chase]; exact c)
    exact ⟨pos, x.dataFile.trans d⟩

theorem mtime_len (s : FactSt) (p : Path) (t : Int) (ok : Bool) (n : FileNode)
    (e : AMap.get (s.setMtime p t ok).disk p = some n) : ∃ m, AMap.get s.disk p = some m ∧ m.len = n.len := by
  revert e
  simp only [FactSt.setMtime]
  split
  · exact fun e => ⟨n, e, rfl⟩
  · split
    · exact fun e => ⟨n, e, rfl⟩
    · next m hm =>
      intro e
      rw [put_get, if_pos rfl] at e
      cases e
      exact ⟨m, hm, rfl⟩

theorem dates_agree (s : FactSt) (p : Path) (f : Facts) :
    Agrees .dates s p { f with modified := dateOf s.zone (AMap.get s.disk p), created := dateOf s.zone (AMap.get s.disk p) } := by
  intro n e
  simp only [e, dateOf]
  exact ⟨trivial, trivial⟩

theorem inv_writeEnd {k : Aspect} {s : FactSt} (i : FInv k s) (h : Nat) (ut : Bool) (now : Int) :
    FInv k (s.step (.writeEnd h ut now)) := by
  simp only [FactSt.step, FactSt.writeEnd]
  split
  · exact i
  · next p f hf =>
    have i0 : ∀ p f, AMap.get s.objs 0 ≠ some (p, f) := fun p f g => absurd (i.small 0 _ g).1 (Nat.lt_irrefl 0)
    have hn : 0 < s.next := Nat.lt_of_le_of_lt (Nat.zero_le _) i.writ
    split
    · next hd =>
      have hd : s.dataFile = none := hd
      have := inv_writing i 0 s.dataFile hn (fun p r => r) (fun p pos e => i.isOpen p ⟨pos, e⟩) (fun p f e g => absurd g (i0 p f))
      exact this
    · next q pos hd =>
      have hd : s.dataFile = some (q, pos) := hd
      -- the state after cut and close
      have ic : FInv k (({ s with writing := 0, dataFile := none } : FactSt).cut q pos now) ∧
          (({ s with writing := 0, dataFile := none } : FactSt).cut q pos now).objs = s.objs := by
        cases q with
        | none =>
          exact ⟨inv_writing i 0 none hn (fun p ⟨pos', e⟩ => by rw [hd] at e; cases e) nofun (fun p f e g => absurd g (i0 p f)), rfl⟩
        | some q =>
          obtain ⟨l, x, hl⟩ := local_cut ({ s with writing := 0, dataFile := none } : FactSt) q pos now
          generalize ({ s with writing := 0, dataFile := none } : FactSt).cut (some q) pos now = s1 at *
          have t : Touch s s1 l := ⟨x.touch.zone, x.touch.other, x.touch.paths, x.touch.next, x.touch.objs, x.touch.disk,
            x.touch.pending, x.touch.notes⟩
          refine ⟨⟨t.base i.toFBase (by rw [x.writing, t.next]; exact hn) (fun r ⟨pos', e⟩ => ?_), fun j r f' g => ?_,
            fun r f' e g => ?_⟩, x.objs⟩
          · rw [show s1.dataFile = none from x.dataFile] at e; cases e
          · have g : AMap.get s.objs j = some (r, f') := by rw [← show s1.objs = s.objs from x.objs]; exact g
            by_cases e : r = q
            · subst e
              rcases i.here j r f' g with c | c
              · exact .inr (.inl (.inl (by rw [t.pending]; exact List.mem_append_right _ (hl c))))
              · exact .inr (.inl (t.owed (.inr c)))
            · rcases i.right j r f' g with c | c | c | ⟨pos', c⟩
              · exact .inl (agrees_same (s := s) x.touch.zone x.touch.other (x.away r e) c)
              · exact .inr (.inl (t.owed c))
              · exact .inr (.inr (.inl (by rw [show s1.dirty = s.dirty from x.dirty]; exact c)))
              · rw [hd] at c; cases c; exact absurd rfl e
          · rw [show s1.writing = 0 from x.writing, show s1.objs = s.objs from x.objs] at g
            exact absurd g (i0 r f')
      obtain ⟨ic, ho⟩ := ic
      generalize ({ s with writing := 0, dataFile := none } : FactSt).cut q pos now = s1 at *
      have x := local_mtime s1 p (parseDate s1.zone f.modified) ut
      have hf1 : AMap.get s1.objs h = some (p, f) := by rw [ho]; exact hf
      refine x.said ic h f _ hf1 ?_
      rcases ic.right h p f hf1 with r | r | r | ⟨pos', e⟩
      · left
        cases k with
        | size =>
          intro n e
          obtain ⟨m, hm, e⟩ := mtime_len s1 p _ ut n e
          exact (r m hm).trans e
        | dates => exact dates_agree _ p f
        | format => unfold Agrees at *; rw [x.touch.other]; exact r
      · exact .inr (.inl (x.touch.owed r))
      · exact .inr (.inr (.inl (by rw [x.dirty]; exact r)))
      · exact .inr (.inr (.inr ⟨pos', x.dataFile.trans e⟩))

theorem inv_editWrite {k : Aspect} {s : FactSt} (i : FInv k s) (h off n : Nat) (opened ut : Bool) (now : Int)
    (ok : FOk k s (.editWrite h off n opened ut now)) : FInv k (s.step (.editWrite h off n opened ut now)) := by
  have hn : ∀ p, ¬ Sending s p := ok
  have i0 : ∀ p f, AMap.get s.objs 0 ≠ some (p, f) := fun p f g => absurd (i.small 0 _ g).1 (Nat.lt_irrefl 0)
  have h0 : 0 < s.next := Nat.lt_of_le_of_lt (Nat.zero_le _) i.writ
  have iw : FInv k { s with writing := 0, dataFile := none } :=
    inv_writing i 0 none h0 (fun p r => absurd r (hn p)) nofun (fun p f e g => absurd g (i0 p f))
  simp only [FactSt.step, FactSt.editWrite]
  split
  · exact i
  · next p f hf =>
    split
    · exact iw
    · obtain ⟨⟨l, x⟩, hex⟩ := local_open s p now
      have x2 := (x.trans (local_store _ p off n now)).trans (local_closed _ p p)
      have hin : .closed p ∈ l ++ [] ++ [Note.closed p] := List.mem_append_right _ (List.mem_singleton.2 rfl)
      generalize l ++ [] ++ [Note.closed p] = l' at *
      generalize (((s.openFile p now).store (some p) off n now).note (.closed p)) = s1 at *
      have x3 := x2.trans (local_mtime s1 p (parseDate s.zone f.modified) ut)
      generalize s1.setMtime p (parseDate s.zone f.modified) ut = s2 at *
      have ow : Owed s2 p := .inl (by rw [x3.touch.pending]; exact List.mem_append_right _ (List.mem_append_left _ hin))
      have r := x3.said i h f
        { f with size := sizeOf' (AMap.get s2.disk p), modified := dateOf s2.zone (AMap.get s2.disk p),
                 created := dateOf s2.zone (AMap.get s2.disk p) } hf (.inr (.inl ow))
      have := inv_writing r 0 none (by rw [show _ = s.next from x3.touch.next]; exact h0)
        (fun q ⟨pos, e⟩ => absurd ⟨pos, x3.dataFile.symm.trans e⟩ (hn q)) nofun
        (fun q f' e g => absurd (r.small 0 _ g).1 (Nat.lt_irrefl 0))
      exact this

/-! ### Objects come and go -/

theorem FBase.free {s : FactSt} (b : FBase s) : AMap.get s.objs s.next = none := by
  cases e : AMap.get s.objs s.next with
  | none => rfl
  | some v => exact absurd (b.small _ _ e).2 (Nat.lt_irrefl _)

theorem unknown_iff {s : FactSt} {p : Path} : s.known p = false ↔ AMap.get s.paths p = none := by
  unfold FactSt.known
  cases AMap.get s.paths p <;> simp

/-- A new object at a path without one. -/
theorem inv_addObj {k : Aspect} {s : FactSt} (i : FInv k s) (p : Path) (f : Facts) (hk : AMap.get s.paths p = none)
    (hd : AMap.get s.disk p ≠ none ∨ GoneIn s.pending p)
    (hr : Agrees k s p f ∨ Owed s p ∨ p ∈ s.dirty ∨ Sending s p) : FInv k (s.addObj p f) := by
  have none_at : ∀ h f, AMap.get s.objs h ≠ some (p, f) := fun h f g => by
    have := i.toPath h p f g; rw [hk] at this; cases this
  have get : ∀ j, AMap.get (s.addObj p f).objs j = if j = s.next then some (p, f) else AMap.get s.objs j :=
    fun j => AMap.get_insert ..
  have getp : ∀ q, AMap.get (s.addObj p f).paths q = if q = p then some s.next else AMap.get s.paths q :=
    fun j => AMap.get_insert ..
  refine ⟨⟨fun h q f' g => ?_, fun q h g => ?_, fun h e g => ?_, Nat.lt_succ_of_lt i.writ, fun h q f' g => ?_, i.adds, i.isOpen⟩,
    fun h q f' g => ?_, fun q f' e g c => ?_⟩
  · rw [get] at g
    rw [getp]
    split at g
    · next e => cases g; rw [if_pos rfl, e]
    · rw [if_neg (fun e => by subst e; exact none_at h f' g)]; exact i.toPath h q f' g
  · rw [getp] at g
    split at g
    · next e => cases g; subst e; exact ⟨f, by rw [get, if_pos rfl]⟩
    · obtain ⟨f', g'⟩ := i.ofPath q h g
      refine ⟨f', ?_⟩
      rw [get, if_neg]
      · exact g'
      · intro e; subst e; rw [i.free] at g'; cases g'
  · rw [get] at g
    split at g
    · next e =>
      subst e
      exact ⟨Nat.lt_of_le_of_lt (Nat.zero_le _) i.writ, Nat.lt_succ_self _⟩
    · exact ⟨(i.small h e g).1, Nat.lt_succ_of_lt (i.small h e g).2⟩
  · rw [get] at g
    split at g
    · cases g; exact hd
    · exact i.here h q f' g
  · rw [get] at g
    split at g
    · cases g
      rcases hr with r | r
      · exact .inl (agrees_same (s := s) rfl rfl rfl r)
      · exact .inr r
    · rcases i.right h q f' g with r | r
      · exact .inl (agrees_same (s := s) rfl rfl rfl r)
      · exact .inr r
  · rw [get] at g
    split at g
    · next e => exact absurd i.writ (by rw [show s.writing = s.next from e]; exact Nat.lt_irrefl _)
    · exact i.target q f' e g c

/-- An object disappears. -/
theorem inv_dropObj {k : Aspect} {s : FactSt} (i : FInv k s) (h : Nat) (p : Path) (hk : AMap.get s.paths p = some h) :
    FInv k (s.dropObj h p) := by
  obtain ⟨f₀, hf⟩ := i.ofPath p h hk
  have get : ∀ j, AMap.get (s.dropObj h p).objs j = if j = h then none else AMap.get s.objs j := fun j => AMap.get_erase ..
  have getp : ∀ q, AMap.get (s.dropObj h p).paths q = if q = p then none else AMap.get s.paths q := fun j => AMap.get_erase ..
  have back : ∀ {j q f}, AMap.get (s.dropObj h p).objs j = some (q, f) → AMap.get s.objs j = some (q, f) ∧ j ≠ h := by
    intro j q f g
    rw [get] at g
    split at g
    · cases g
    · next e => exact ⟨g, e⟩
  refine ⟨⟨fun j q f g => ?_, fun q j g => ?_, fun j e g => ?_, i.writ, fun j q f g => i.here j q f (back g).1, i.adds, i.isOpen⟩,
    fun j q f g => ?_, fun q f e g c => i.target q f e (back g).1 c⟩
  · obtain ⟨g', e⟩ := back g
    rw [getp, if_neg]
    · exact i.toPath j q f g'
    · intro e'; subst e'; exact e (i.inj g' hf)
  · rw [getp] at g
    split at g
    · cases g
    · next e =>
      obtain ⟨f, g'⟩ := i.ofPath q j g
      refine ⟨f, ?_⟩
      rw [get, if_neg]
      · exact g'
      · intro e'; subst e'; rw [hf] at g'; cases g'; exact e rfl
  · rw [get] at g
    split at g
    · cases g
    · exact i.small j e g
  · rcases i.right j q f (back g).1 with r | r
    · exact .inl (agrees_same (s := s) rfl rfl rfl r)
    · exact .inr r

theorem inv_announce {k : Aspect} {s : FactSt} (i : FInv k s) (a : FactSt.Announced) (opened fal ut : Bool) (now : Int) :
    FInv k (s.step (.announce a opened fal ut now)) := by
  simp only [FactSt.step, FactSt.announce]
  split
  · exact i
  · next hk =>
    have hk : AMap.get s.paths a.path = none := unknown_iff.1 (by simpa using hk)
    have none_at : ∀ h f, AMap.get s.objs h ≠ some (a.path, f) := fun h f g => by
      have := i.toPath h _ f g; rw [hk] at this; cases this
    split
    · refine ⟨⟨i.toPath, i.ofPath, fun h e g => ⟨(i.small h e g).1, Nat.lt_succ_of_lt (i.small h e g).2⟩,
        Nat.lt_succ_of_lt i.writ, i.here, i.adds, i.isOpen⟩, fun h q f g => ?_, i.target⟩
      rcases i.right h q f g with r | r
      · exact .inl (agrees_same (s := s) rfl rfl rfl r)
      · exact .inr r
    · obtain ⟨⟨l, x⟩, hex⟩ := local_open s a.path now
      generalize s.openFile a.path now = s1 at *
      generalize (if a.facts.size = 0 then 0 else if fal = true then max (sizeOf' (AMap.get s1.disk a.path)) a.facts.size
        else sizeOf' (AMap.get s1.disk a.path)) = len
      have x2 := (x.trans (local_put s1 a.path ⟨len, now⟩)).trans (local_closed _ a.path a.path)
      have hex2 : AMap.get ((s1.put a.path ⟨len, now⟩).note (.closed a.path)).disk a.path ≠ none := by
        show AMap.get (s1.put a.path ⟨len, now⟩).disk a.path ≠ none
        rw [put_get, if_pos rfl]; exact nofun
      have hin : .closed a.path ∈ l ++ [] ++ [Note.closed a.path] := List.mem_append_right _ (List.mem_singleton.2 rfl)
      generalize l ++ [] ++ [Note.closed a.path] = l' at *
      generalize (s1.put a.path ⟨len, now⟩).note (.closed a.path) = s2 at *
      have y := local_mtime s2 a.path (parseDate s2.zone a.facts.modified) ut
      have x3 := x2.trans y
      have hex3 := y.touch.disk _ hex2
      generalize s2.setMtime a.path (parseDate s2.zone a.facts.modified) ut = s3 at *
      have i3 : FInv k s3 := x3.inv i fun h f g => absurd g (none_at h f)
      refine inv_addObj i3 a.path _ (by rw [x3.touch.paths]; exact hk) (.inl hex3) (.inr (.inl (.inl ?_)))
      rw [x3.touch.pending]
      exact List.mem_append_right _ (List.mem_append_left _ hin)

/-! ### Files come and go -/

theorem inv_diskDelete {k : Aspect} {s : FactSt} (i : FInv k s) (p : Path) : FInv k (s.diskDelete p) := by
  have gp : GoneIn (s.diskDelete p).pending p := .inl (List.mem_append_right _ (List.mem_singleton.2 rfl))
  have gone : ∀ {q}, GoneIn s.pending q → GoneIn (s.diskDelete p).pending q := fun g => goneIn_append.2 (.inl g)
  have owed : ∀ {q}, Owed s q → Owed (s.diskDelete p) q := by
    rintro q (g | g)
    · exact .inl (List.mem_append_left _ g)
    · exact .inr (gone g)
  have disk : ∀ q, q ≠ p → AMap.get (s.diskDelete p).disk q = AMap.get s.disk q := fun q e => by
    show AMap.get (AMap.erase s.disk p) q = _
    rw [AMap.get_erase, if_neg e]
  have send : ∀ q, q ≠ p → Sending s q → Sending (s.diskDelete p) q := by
    rintro q e ⟨pos, g⟩
    refine ⟨pos, ?_⟩
    show FactSt.detach s.dataFile p = _
    rw [g]
    simp only [FactSt.detach, Option.map_some, Option.some.injEq]
    rw [if_neg e]
  have unsend : ∀ q, Sending (s.diskDelete p) q → q ≠ p ∧ Sending s q := by
    rintro q ⟨pos, g⟩
    have g : FactSt.detach s.dataFile p = some (some q, pos) := g
    cases hd : s.dataFile with
    | none => rw [hd] at g; cases g
    | some v =>
      obtain ⟨a, b⟩ := v
      rw [hd] at g
      simp only [FactSt.detach, Option.map_some, Option.some.injEq, Prod.mk.injEq] at g
      obtain ⟨g1, g2⟩ := g
      split at g1
      · cases g1
      · next h => exact ⟨fun e => h (by rw [g1, e]), b, by rw [hd, g1]⟩
  have here : ∀ q, AMap.get s.disk q ≠ none → AMap.get (s.diskDelete p).disk q ≠ none ∨ GoneIn [.deleted p] q := by
    intro q h
    by_cases e : q = p
    · subst e; exact .inr (.inl (List.mem_singleton.2 rfl))
    · exact .inl (by rw [disk q e]; exact h)
  refine ⟨⟨i.toPath, i.ofPath, i.small, i.writ, fun h q f g => ?_, ?_, fun q r => ?_⟩, fun h q f g => ?_, fun q f e g c => ?_⟩
  · rcases i.here h q f g with r | r
    · rcases here q r with c | c
      · exact .inl c
      · exact .inr (goneIn_append.2 (.inr c))
    · exact .inr (gone r)
  · refine addOk_append i.adds here ⟨fun q a => ?_, trivial⟩
    rcases a with a | ⟨_, a⟩ <;> cases a
  · obtain ⟨e, r⟩ := unsend q r
    rw [disk q e]; exact i.isOpen q r
  · by_cases e : q = p
    · subst e; exact .inr (.inl (.inr gp))
    · rcases i.right h q f g with r | r | r | r
      · exact .inl (agrees_same (s := s) rfl rfl (disk q e) r)
      · exact .inr (.inl (owed r))
      · exact .inr (.inr (.inl (List.mem_filter.2 ⟨r, by simpa using e⟩)))
      · exact .inr (.inr (.inr (send q e r)))
  · rw [show (s.diskDelete p).pending = s.pending ++ [.deleted p] from rfl, chase_append] at c
    cases h : chase s.pending q with
    | none => rw [h] at c; cases c
    | some x =>
      rw [h] at c
      simp only [Option.bind_some, chase] at c
      split at c
      · cases c
      · next e' =>
        cases c
        exact send e (fun h => e' h.symm) (i.target q f e g h)

theorem inv_unlink {k : Aspect} {s : FactSt} (i : FInv k s) (p : Path) : FInv k (s.step (.unlink p)) := by
  simp only [FactSt.step]
  split
  · exact inv_diskDelete i p
  · exact i

theorem inv_hostDelete {k : Aspect} {s : FactSt} (i : FInv k s) (h : Nat) (ok : Bool) : FInv k (s.step (.hostDelete h ok)) := by
  simp only [FactSt.step, FactSt.hostDelete]
  split
  · exact i
  · next p f hf =>
    split
    · exact i
    · exact inv_dropObj (inv_diskDelete i p) h p (i.toPath h p f hf)

/-- What a renaming on disk does. -/
structure Moved (s s' : FactSt) (p q : Path) : Prop where
  zone : s'.zone = s.zone
  other : s'.other = s.other
  objs : s'.objs = s.objs
  paths : s'.paths = s.paths
  next : s'.next = s.next
  writing : s'.writing = s.writing
  pending : s'.pending = s.pending ++ [.moved p q]
  disk : ∀ x, AMap.get s'.disk x = if x = q then AMap.get s.disk p else if x = p then none else AMap.get s.disk x
  dirty : ∀ x, x ≠ p → x ≠ q → x ∈ s.dirty → x ∈ s'.dirty
  dirtyTo : p ∈ s.dirty → q ∈ s'.dirty
  send : ∀ x, x ≠ p → x ≠ q → Sending s x → Sending s' x
  sendTo : Sending s p → Sending s' q
  unsend : ∀ x, Sending s' x → (x = q ∧ Sending s p) ∨ (x ≠ p ∧ x ≠ q ∧ Sending s x)

theorem diskMove_moved (s : FactSt) (p q : Path) (hpq : p ≠ q) (n : FileNode) (hn : AMap.get s.disk p = some n) :
    Moved s (s.diskMove p q) p q := by
  have e : s.diskMove p q =
      ({ s with disk := AMap.insert (AMap.erase s.disk p) q n, dirty := FactSt.follow s.dirty p q, dataFile := FactSt.followFile s.dataFile p q } : FactSt).note (.moved p q) := by
    simp only [FactSt.diskMove, hn]
  rw [e]
  refine ⟨rfl, rfl, rfl, rfl, rfl, rfl, rfl, fun x => ?_, fun x h1 h2 hx => ?_, fun hx => ?_, fun x h1 h2 hx => ?_, fun hx => ?_, fun x hx => ?_⟩
  · show AMap.get (AMap.insert (AMap.erase s.disk p) q n) x = _
    rw [AMap.get_insert, AMap.get_erase, hn]
  · refine List.mem_map.2 ⟨x, List.mem_filter.2 ⟨hx, by simpa using h2⟩, by simp [h1]⟩
  · refine List.mem_map.2 ⟨p, List.mem_filter.2 ⟨hx, by simpa using hpq⟩, by simp⟩
  · obtain ⟨pos, g⟩ := hx
    refine ⟨pos, ?_⟩
    show FactSt.followFile s.dataFile p q = _
    rw [g]
    simp [FactSt.followFile, h1, h2]
  · obtain ⟨pos, g⟩ := hx
    refine ⟨pos, ?_⟩
    show FactSt.followFile s.dataFile p q = _
    rw [g]
    simp [FactSt.followFile]
  · obtain ⟨pos, g⟩ := hx
    have g : FactSt.followFile s.dataFile p q = some (some x, pos) := g
    cases hd : s.dataFile with
    | none => rw [hd] at g; cases g
    | some v =>
      obtain ⟨a, b⟩ := v
      rw [hd] at g
      simp only [FactSt.followFile, Option.map_some, Option.some.injEq, Prod.mk.injEq] at g
      obtain ⟨g1, g2⟩ := g
      split at g1
      · next h => cases g1; exact .inl ⟨rfl, b, by rw [hd, h]⟩
      · next h =>
        split at g1
        · cases g1
        · next h' => exact .inr ⟨fun e => h (by rw [g1, e]), fun e => h' (by rw [g1, e]), b, by rw [hd, g1]⟩

theorem Moved.adds {s s' : FactSt} {p q : Path} (m : Moved s s' p q) (hq : AMap.get s.disk q = none) (hp : AMap.get s.disk p ≠ none)
    (i : FBase s) : AddOk (AMap.get s'.disk) s'.pending := by
  rw [m.pending]
  refine addOk_append i.adds (fun x hx => ?_) ⟨fun x a => ?_, trivial⟩
  · rw [m.disk]
    by_cases e : x = p
    · subst e; exact .inr (.inr ⟨q, List.mem_singleton.2 rfl⟩)
    · left
      rw [if_neg e]
      split
      · exact hp
      · exact hx
  · rcases a with a | ⟨_, a⟩
    · cases a
    · cases a; left; rw [m.disk, if_pos rfl]; exact hp

theorem Moved.isOpen {s s' : FactSt} {p q : Path} (m : Moved s s' p q) (hp : AMap.get s.disk p ≠ none)
    (i : FBase s) (x : Path) (h : Sending s' x) : AMap.get s'.disk x ≠ none := by
  rw [m.disk]
  rcases m.unsend x h with ⟨e, _⟩ | ⟨e1, e2, r⟩
  · rw [if_pos e]; exact hp
  · rw [if_neg e2, if_neg e1]; exact i.isOpen x r

theorem Moved.target {k : Aspect} {s s' : FactSt} {p q : Path} (m : Moved s s' p q) (hq : AMap.get s.disk q = none)
    (i : FInv k s) (x e : Path) (f : Facts) (g : AMap.get s.objs s.writing = some (x, f)) (c : chase s'.pending x = some e) :
    Sending s' e := by
  rw [m.pending, chase_append] at c
  cases h : chase s.pending x with
  | none => rw [h] at c; cases c
  | some y =>
    rw [h] at c
    have r := i.target x f y g h
    simp only [Option.bind_some, chase] at c
    split at c
    · next e' => cases c; subst e'; exact m.sendTo r
    · next e' =>
      cases c
      exact m.send e (fun h => e' h.symm) (fun h => i.isOpen e r (by rw [h]; exact hq)) r

theorem inv_rename {k : Aspect} {s : FactSt} (i : FInv k s) (p q : Path) (hq : AMap.get s.disk q = none) :
    FInv k (s.step (.rename p q)) := by
  simp only [FactSt.step]
  split
  · exact i
  · next hpq =>
    cases hn : AMap.get s.disk p with
    | none =>
      have : s.diskMove p q = s := by simp only [FactSt.diskMove, hn]
      rw [this]; exact i
    | some n =>
      have m := diskMove_moved s p q hpq n hn
      have hp : AMap.get s.disk p ≠ none := by rw [hn]; exact nofun
      have adds := m.adds hq hp i.toFBase
      have isOp := m.isOpen hp i.toFBase
      generalize s.diskMove p q = s' at *
      have gone : ∀ {x}, GoneIn s.pending x → GoneIn s'.pending x := fun g => by
        rw [m.pending]; exact goneIn_append.2 (.inl g)
      have gp : GoneIn s'.pending p := by rw [m.pending]; exact .inr ⟨q, List.mem_append_right _ (List.mem_singleton.2 rfl)⟩
      have owed : ∀ {x}, Owed s x → Owed s' x := by
        rintro x (g | g)
        · exact .inl (by rw [m.pending]; exact List.mem_append_left _ g)
        · exact .inr (gone g)
      have goneq : ∀ h f, AMap.get s.objs h = some (q, f) → GoneIn s'.pending q := fun h f g => by
        rcases i.here h q f g with r | r
        · exact absurd hq r
        · exact gone r
      refine ⟨⟨?_, ?_, ?_, ?_, fun h x f g => ?_, adds, isOp⟩, fun h x f g => ?_,
        fun x f e g c => m.target hq i x e f (by rw [← m.objs, ← m.writing]; exact g) c⟩
      · rw [m.objs, m.paths]; exact i.toPath
      · rw [m.objs, m.paths]; exact i.ofPath
      · rw [m.objs, m.next]; exact i.small
      · rw [m.writing, m.next]; exact i.writ
      · rw [m.objs] at g
        by_cases e : x = p
        · subst e; exact .inr gp
        · rcases i.here h x f g with r | r
          · left
            rw [m.disk, if_neg e]
            split
            · exact hp
            · exact r
          · exact .inr (gone r)
      · rw [m.objs] at g
        by_cases e : x = p
        · subst e; exact .inr (.inl (.inr gp))
        · by_cases e' : x = q
          · subst e'; exact .inr (.inl (.inr (goneq h f g)))
          · rcases i.right h x f g with r | r | r | r
            · refine .inl (agrees_same m.zone m.other ?_ r)
              rw [m.disk, if_neg e', if_neg e]
            · exact .inr (.inl (owed r))
            · exact .inr (.inr (.inl (m.dirty x e e' r)))
            · exact .inr (.inr (.inr (m.send x e e' r)))

theorem inv_hostMove {k : Aspect} {s : FactSt} (i : FInv k s) (h : Nat) (q : Path) (ok : Bool) (hok : FOk k s (.hostMove h q ok)) :
    FInv k (s.step (.hostMove h q ok)) := by
  simp only [FactSt.step, FactSt.hostMove]
  split
  · exact i
  · next p f hf =>
    obtain ⟨hnw, hno, hfm⟩ := hok p f hf
    split
    · exact i
    · next hc =>
      have hk : AMap.get s.paths q = none := unknown_iff.1 (by cases e : s.known q <;> simp [e] at hc ⊢)
      have hp : AMap.get s.disk p ≠ none := fun e => hc (.inr (.inr (.inl e)))
      have hq : AMap.get s.disk q = none := by
        cases e : AMap.get s.disk q with
        | none => rfl
        | some v => exact absurd (.inr (.inr (.inr (by rw [e]; exact nofun)))) hc
      have hpq : p ≠ q := fun e => by subst e; exact hp hq
      obtain ⟨n, hn⟩ := Option.ne_none_iff_exists'.1 hp
      have m := diskMove_moved s p q hpq n hn
      have adds := m.adds hq hp i.toFBase
      have isOp := m.isOpen hp i.toFBase
      generalize s.diskMove p q = s' at *
      have gone : ∀ {x}, GoneIn s.pending x → GoneIn s'.pending x := fun g => by
        rw [m.pending]; exact goneIn_append.2 (.inl g)
      have owed : ∀ {x}, Owed s x → Owed s' x := by
        rintro x (g | g)
        · exact .inl (by rw [m.pending]; exact List.mem_append_left _ g)
        · exact .inr (gone g)
      have noq : ∀ h f, AMap.get s.objs h ≠ some (q, f) := fun h f g => by
        have := i.toPath h q f g; rw [hk] at this; cases this
      have back : ∀ {j x f'}, AMap.get (AMap.insert s.objs h (q, f)) j = some (x, f') →
          (j = h ∧ x = q ∧ f' = f) ∨ (AMap.get s.objs j = some (x, f') ∧ j ≠ h ∧ x ≠ p ∧ x ≠ q) := by
        intro j x f' g
        rw [AMap.get_insert] at g
        split at g
        · next e =>
          simp only [Option.some.injEq, Prod.mk.injEq] at g
          exact .inl ⟨e, g.1.symm, g.2.symm⟩
        · next e =>
          exact .inr ⟨g, e, fun e' => by subst e'; exact e (i.inj g hf), fun e' => by subst e'; exact noq j f' g⟩
      have getp : ∀ x, AMap.get (AMap.insert (AMap.erase s.paths p) q h) x =
          if x = q then some h else if x = p then none else AMap.get s.paths x := fun x => by
        rw [AMap.get_insert, AMap.get_erase]
      have fresh : Agrees k s p f → ∀ s'' : FactSt, s''.zone = s.zone → s''.other = s.other →
          AMap.get s''.disk q = AMap.get s.disk p → Agrees k s'' q f := by
        intro r s'' hz ho hd
        cases k with
        | size => intro n e; rw [hd] at e; exact r n e
        | dates => intro n e; rw [hd] at e; rw [hz]; exact r n e
        | format =>
          obtain ⟨a, b⟩ := hfm rfl
          unfold Agrees at *
          rw [ho, a, b]
          exact r
      refine ⟨⟨fun j x f' g => ?_, fun x j g => ?_, fun j e g => ?_, ?_, fun j x f' g => ?_, adds, isOp⟩, fun j x f' g => ?_,
        fun x f' e g c => ?_⟩
      · show AMap.get (AMap.insert (AMap.erase s.paths p) q h) x = _
        rw [getp]
        rcases back g with ⟨e1, e2, e3⟩ | ⟨g, e1, e2, e3⟩
        · subst e1; subst e2; rw [if_pos rfl]
        · rw [if_neg e3, if_neg e2]; exact i.toPath j x f' g
      · have g : AMap.get (AMap.insert (AMap.erase s.paths p) q h) x = some j := g
        rw [getp] at g
        show ∃ f', AMap.get (AMap.insert s.objs h (q, f)) j = some (x, f')
        split at g
        · next e => cases g; subst e; exact ⟨f, by rw [AMap.get_insert, if_pos rfl]⟩
        · split at g
          · cases g
          · next e =>
            obtain ⟨f', g'⟩ := i.ofPath x j g
            refine ⟨f', ?_⟩
            rw [AMap.get_insert, if_neg]
            · exact g'
            · intro e'; subst e'; rw [hf] at g'; cases g'; exact e rfl
      · obtain ⟨x, f'⟩ := e
        show 0 < j ∧ j < s'.next
        rw [m.next]
        rcases back g with ⟨e1, e2, e3⟩ | ⟨g, _⟩
        · subst e1; exact i.small j _ hf
        · exact i.small j _ g
      · show s'.writing < s'.next
        rw [m.writing, m.next]; exact i.writ
      · show AMap.get s'.disk x ≠ none ∨ GoneIn s'.pending x
        rcases back g with ⟨e1, e2, e3⟩ | ⟨g, e1, e2, e3⟩
        · subst e2; left; rw [m.disk, if_pos rfl]; exact hp
        · rcases i.here j x f' g with r | r
          · left; rw [m.disk, if_neg e3, if_neg e2]; exact r
          · exact .inr (gone r)
      · rcases back g with ⟨e1, e2, e3⟩ | ⟨g, e1, e2, e3⟩
        · subst e1; subst e2; subst e3
          rcases i.right j p f' hf with r | r | r | r
          · refine .inl (fresh r _ m.zone m.other ?_)
            show AMap.get s'.disk x = _
            rw [m.disk, if_pos rfl]
          · exact absurd r hno
          · exact .inr (.inr (.inl (m.dirtyTo r)))
          · exact .inr (.inr (.inr (m.sendTo r)))
        · rcases i.right j x f' g with r | r | r | r
          · refine .inl (agrees_same (s := s) m.zone m.other ?_ r)
            show AMap.get s'.disk x = _
            rw [m.disk, if_neg e3, if_neg e2]
          · exact .inr (.inl (owed r))
          · exact .inr (.inr (.inl (m.dirty x e2 e3 r)))
          · exact .inr (.inr (.inr (m.send x e2 e3 r)))
      · have g : AMap.get (AMap.insert s.objs h (q, f)) s.writing = some (x, f') := by rw [← m.writing]; exact g
        rcases back g with ⟨e1, e2, e3⟩ | ⟨g, _⟩
        · exact absurd e1 hnw
        · exact m.target hq i x e f' g c

/-! ### Notifications -/

/-- The oldest notification is taken from the queue, when it settles nothing that is still open. -/
theorem inv_take {k : Aspect} {s : FactSt} (i : FInv k s) (n : Note) (r : List Note) (hpend : s.pending = n :: r)
    (h1 : ∀ h x f, AMap.get s.objs h = some (x, f) → n ≠ .deleted x ∧ ∀ y, n ≠ .moved x y)
    (h2 : ∀ h x f, AMap.get s.objs h = some (x, f) → n = .closed x → Agrees k s x f ∨ Sending s x ∨ GoneIn r x) :
    FInv k { s with pending := r } := by
  have adds : AddOk (AMap.get s.disk) (n :: r) := by rw [← hpend]; exact i.adds
  have gone : ∀ x, GoneIn s.pending x → (n = .deleted x ∨ ∃ y, n = .moved x y) ∨ GoneIn r x := by
    intro x g
    rw [hpend] at g
    exact goneIn_cons.1 g
  refine ⟨⟨i.toPath, i.ofPath, i.small, i.writ, fun h x f g => ?_, adds.2, i.isOpen⟩, fun h x f g => ?_, fun x f e g c => ?_⟩
  · rcases i.here h x f g with c | c
    · exact .inl c
    · rcases gone x c with (c | ⟨y, c⟩) | c
      · exact absurd c (h1 h x f g).1
      · exact absurd c ((h1 h x f g).2 y)
      · exact .inr c
  · rcases i.right h x f g with c | c | c | c
    · exact .inl (agrees_same (s := s) rfl rfl rfl c)
    · rcases c with c | c
      · rw [hpend] at c
        rcases List.mem_cons.1 c with c | c
        · rcases h2 h x f g c.symm with d | d | d
          · exact .inl (agrees_same (s := s) rfl rfl rfl d)
          · exact .inr (.inr (.inr d))
          · exact .inr (.inl (.inr d))
        · exact .inr (.inl (.inl c))
      · rcases gone x c with (c | ⟨y, c⟩) | c
        · exact absurd c (h1 h x f g).1
        · exact absurd c ((h1 h x f g).2 y)
        · exact .inr (.inl (.inr c))
    · exact .inr (.inr (.inl c))
    · exact .inr (.inr (.inr c))
  · refine i.target x f e g ?_
    rw [hpend]
    have := h1 _ x f g
    cases n <;> simp only [chase]
    · exact c
    · rw [if_neg (fun e => this.1 (by rw [e]))]; exact c
    · rw [if_neg (fun e => this.2 _ (by rw [e]))]; exact c
    · exact c

theorem inv_evs {k : Aspect} {s : FactSt} (i : FInv k s) (e : List TEvent) : FInv k { s with evs := e } := by
  refine ⟨⟨i.toPath, i.ofPath, i.small, i.writ, i.here, i.adds, i.isOpen⟩, fun h x f g => ?_, i.target⟩
  rcases i.right h x f g with r | r
  · exact .inl (agrees_same (s := s) rfl rfl rfl r)
  · exact .inr r

theorem inv_deliver {k : Aspect} {s : FactSt} (i : FInv k s) : FInv k (s.step .deliver) := by
  simp only [FactSt.step, FactSt.deliver]
  split
  · exact i
  · next n r hpend =>
    have adds : AddOk (AMap.get s.disk) (n :: r) := by rw [← hpend]; exact i.adds
    cases n with
    | created p =>
      have i' := inv_take i _ r hpend (fun _ _ _ _ => ⟨nofun, nofun⟩) (fun _ _ _ _ e => by cases e)
      simp only [FactSt.process]
      split
      · exact i'
      · next hk =>
        have hk : AMap.get s.paths p = none := unknown_iff.1 (Bool.eq_false_iff.2 (show s.known p ≠ true from hk))
        exact inv_evs (inv_addObj i' p _ hk (adds.1 p (.inl rfl)) (.inl (fresh_agrees k _ p))) _
    | deleted p =>
      simp only [FactSt.process]
      split
      · next hk =>
        refine inv_take i _ r hpend (fun h x f g => ⟨fun e => ?_, nofun⟩) (fun _ _ _ _ e => by cases e)
        cases e
        have := i.toPath h p f g
        rw [show AMap.get s.paths p = none from hk] at this
        cases this
      · next h hk =>
        have hk : AMap.get s.paths p = some h := hk
        have i' := inv_dropObj i h p hk
        have i2 := inv_take i' (.deleted p) r hpend (fun j x f g => ⟨fun e => ?_, nofun⟩) (fun _ _ _ _ e => by cases e)
        · exact inv_evs i2 _
        · cases e
          have := i'.toPath j p f g
          rw [show AMap.get (s.dropObj h p).paths p = _ from AMap.get_erase .., if_pos rfl] at this
          cases this
    | moved p q =>
      simp only [FactSt.process]
      split
      · next hk =>
        refine inv_take i _ r hpend (fun h x f g => ⟨nofun, fun y e => ?_⟩) (fun _ _ _ _ e => by cases e)
        cases e
        have := i.toPath h p f g
        rw [show AMap.get s.paths p = none from hk] at this
        cases this
      · next h hk =>
        have hk : AMap.get s.paths p = some h := hk
        have i' := inv_dropObj i h p hk
        have i2 := inv_take i' (.moved p q) r hpend (fun j x f g => ⟨nofun, fun y e => by
          cases e
          have := i'.toPath j p f g
          rw [show AMap.get (s.dropObj h p).paths p = _ from AMap.get_erase .., if_pos rfl] at this
          cases this⟩) (fun _ _ _ _ e => by cases e)
        split
        · exact inv_evs i2 _
        · next hq =>
          have hq : AMap.get s.paths q = none := unknown_iff.1 (Bool.eq_false_iff.2 (show s.known q ≠ true from hq))
          have hpq : p ≠ q := fun e => by subst e; rw [hk] at hq; cases hq
          obtain ⟨f₀, hf⟩ := i.ofPath p h hk
          have noq : ∀ j f, AMap.get s.objs j ≠ some (q, f) := fun j f g => by
            have := i.toPath j q f g; rw [hq] at this; cases this
          have back : ∀ {j x f'} {F : Facts}, AMap.get (AMap.insert s.objs h (q, F)) j = some (x, f') →
              (j = h ∧ x = q ∧ f' = F) ∨ (AMap.get (s.dropObj h p).objs j = some (x, f') ∧ j ≠ h ∧ x ≠ p ∧ x ≠ q) := by
            intro j x f' F g
            rw [AMap.get_insert] at g
            split at g
            · next e =>
              simp only [Option.some.injEq, Prod.mk.injEq] at g
              exact .inl ⟨e, g.1.symm, g.2.symm⟩
            · next e =>
              refine .inr ⟨?_, e, fun e' => by subst e'; exact e (i.inj g hf), fun e' => by subst e'; exact noq j f' g⟩
              rw [show AMap.get (s.dropObj h p).objs j = _ from AMap.get_erase .., if_neg e]
              exact g
          have getp : ∀ x, AMap.get (AMap.insert (AMap.erase s.paths p) q h) x =
              if x = q then some h else if x = p then none else AMap.get s.paths x := fun x => by
            rw [AMap.get_insert, AMap.get_erase]
          refine ⟨⟨fun j x f' g => ?_, fun x j g => ?_, fun j e g => ?_, i.writ, fun j x f' g => ?_, adds.2, i.isOpen⟩,
            fun j x f' g => ?_, fun x f' e g c => ?_⟩
          · show AMap.get (AMap.insert (AMap.erase s.paths p) q h) x = _
            rw [getp]
            rcases back g with ⟨e1, e2, e3⟩ | ⟨g, e1, e2, e3⟩
            · subst e1; subst e2; rw [if_pos rfl]
            · rw [if_neg e3, if_neg e2]
              have := i2.toPath j x f' g
              rw [show AMap.get (s.dropObj h p).paths x = _ from AMap.get_erase .., if_neg e2] at this
              exact this
          · have g : AMap.get (AMap.insert (AMap.erase s.paths p) q h) x = some j := g
            rw [getp] at g
            show ∃ f', AMap.get (AMap.insert s.objs h (q, _)) j = some (x, f')
            split at g
            · next e => cases g; subst e; exact ⟨_, by rw [AMap.get_insert, if_pos rfl]⟩
            · split at g
              · cases g
              · next e =>
                obtain ⟨f', g'⟩ := i.ofPath x j g
                refine ⟨f', ?_⟩
                rw [AMap.get_insert, if_neg]
                · exact g'
                · intro e'; subst e'; rw [hf] at g'; cases g'; exact e rfl
          · obtain ⟨x, f'⟩ := e
            rcases back g with ⟨e1, e2, e3⟩ | ⟨g, _⟩
            · subst e1; exact i.small j _ hf
            · exact i2.small j _ g
          · rcases back g with ⟨e1, e2, e3⟩ | ⟨g, _⟩
            · subst e2; exact adds.1 x (.inr ⟨p, rfl⟩)
            · exact i2.here j x f' g
          · rcases back g with ⟨e1, e2, e3⟩ | ⟨g, _⟩
            · subst e2; subst e3; exact .inl (agrees_same (s := s) rfl rfl rfl (fresh_agrees k s x))
            · rcases i2.right j x f' g with c | c
              · exact .inl (agrees_same (s := s) rfl rfl rfl c)
              · exact .inr c
          · rcases back g with ⟨e1, e2, e3⟩ | ⟨g, _⟩
            · subst e2
              refine i.target p f₀ e (by rw [show s.writing = h from e1]; exact hf) ?_
              rw [hpend]
              simp only [chase, if_true]
              exact c
            · exact i2.target x f' e g c
    | closed p =>
      simp only [FactSt.process]
      split
      · next hk =>
        refine inv_take i _ r hpend (fun _ _ _ _ => ⟨nofun, nofun⟩) (fun h x f g e => ?_)
        cases e
        have := i.toPath h p f g
        rw [show AMap.get s.paths p = none from hk] at this
        cases this
      · next h hk =>
        have hk : AMap.get s.paths p = some h := hk
        obtain ⟨f₀, hf⟩ := i.ofPath p h hk
        split
        · next hn => rw [hf] at hn; cases hn
        · next y f hf' =>
          have hf' : AMap.get s.objs h = some (y, f) := hf'
          rw [hf] at hf'
          cases hf'
          split
          · next hw =>
            refine inv_take i _ r hpend (fun _ _ _ _ => ⟨nofun, nofun⟩) (fun j x f g e => ?_)
            cases e
            by_cases c : GoneIn r p
            · exact .inr (.inr c)
            · refine .inr (.inl (i.target p f₀ p (by rw [← show h = s.writing from hw]; exact hf) ?_))
              rw [hpend]
              simp only [chase]
              exact chase_stay c
          · -- facts are renewed
            have x : Local s s p [] := .refl s p
            have i1 := x.said i h f₀ (s.fresh p) hf (.inl (fresh_agrees k s p))
            have i2 := inv_take i1 (.closed p) r hpend (fun _ _ _ _ => ⟨nofun, nofun⟩) (fun j y f' g e => by
              cases e
              left
              have g : AMap.get (AMap.insert s.objs h (p, s.fresh p)) j = some (p, f') := g
              rw [AMap.get_insert] at g
              split at g
              · cases g; exact agrees_same (s := s) rfl rfl rfl (fresh_agrees k s p)
              · next e => exact absurd (i.inj g hf) e)
            exact inv_evs i2 _

theorem inv_step {k : Aspect} {s : FactSt} (i : FInv k s) (o : FactSt.FOp) (ok : FOk k s o) : FInv k (s.step o) := by
  cases o with
  | announce a o fa u n => exact inv_announce i a o fa u n
  | writeSeg h f o u k' n => exact inv_writeSeg i h f o u k' n ok
  | writeEnd h u n => exact inv_writeEnd i h u n
  | editWrite h off k' o u n => exact inv_editWrite i h off k' o u n ok
  | truncate h k' o n => exact inv_truncate i h k' o n ok
  | hostMove h q o => exact inv_hostMove i h q o ok
  | hostDelete h o => exact inv_hostDelete i h o
  | change p n => exact inv_change i p n
  | close p => exact inv_close i p
  | unlink p => exact inv_unlink i p
  | rename p q => exact inv_rename i p q ok
  | byName p n => exact inv_byName i p n ok
  | deliver => exact inv_deliver i

theorem inv_run {k : Aspect} {s : FactSt} (i : FInv k s) (ops : List FactSt.FOp) (ok : FHist k s ops) : FInv k (s.run ops) := by
  induction ops generalizing s with
  | nil => exact i
  | cons o os ih => exact ih (inv_step i o ok.1) ok.2

theorem inv_start (k : Aspect) (z : Zone) (other : Char → List Char) (disk : AMap Path FileNode) :
    FInv k (FactSt.start z other disk) := by
  have fold : ∀ (l : List Path) (s : FactSt), FInv k s → (∀ p ∈ l, AMap.get s.disk p ≠ none) →
      FInv k (l.foldl (fun s p => if s.known p then s else s.addObj p (s.fresh p)) s) := by
    intro l
    induction l with
    | nil => exact fun s i _ => i
    | cons p l ih =>
      intro s i h
      simp only [List.foldl_cons]
      split
      · exact ih s i fun q hq => h q (List.mem_cons_of_mem _ hq)
      · next hk =>
        refine ih _ (inv_addObj i p _ (unknown_iff.1 (by simpa using hk)) (.inl (h p List.mem_cons_self)) (.inl (fresh_agrees k s p)))
          fun q hq => h q (List.mem_cons_of_mem _ hq)
  refine fold _ _ ⟨⟨nofun, nofun, nofun, Nat.zero_lt_one, nofun, trivial, ?_⟩, nofun, nofun⟩ fun p hp => ?_
  · rintro p ⟨pos, e⟩; cases e
  · obtain ⟨e, he, rfl⟩ := List.mem_map.1 hp
    show AMap.get disk e.1 ≠ none
    have := AMap.get_isSome_iff.2 ⟨e.2, he⟩
    intro h; rw [h] at this; cases this

end Mtp
