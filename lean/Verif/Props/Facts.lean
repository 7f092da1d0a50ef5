import Verif.Lemmas.FactsKnown
import Verif.Props.Datasets
import Verif.Props.Dates
/-!
C76–C81: what a storage says about the files it offers, and which files it offers, while programs on the device and the
host change them.
-/
namespace Props
open Mtp Spec

/-! ### C76: sizes and dates -/

/-- C76 (size). Whatever the host and the programs on the device do, once nothing is going on any more every object is a file
and the size the storage says is the file's. Missing: the steps excluded by `FOk .size`; see the violations below. -/
theorem C76_size_once_settled_partial (z : Zone) (other : Char → List Char) (disk : AMap Path FileNode) (ops : List FactSt.FOp)
    (hist : FHist .size (FactSt.start z other disk) ops) (set : Settled ((FactSt.start z other disk).run ops))
    (h : Nat) (p : Path) (f : Facts) (obj : AMap.get ((FactSt.start z other disk).run ops).objs h = some (p, f)) :
    ∃ n, AMap.get ((FactSt.start z other disk).run ops).disk p = some n ∧ f.size = n.len := by
  have i := inv_run (inv_start .size z other disk) ops hist
  generalize (FactSt.start z other disk).run ops = s at *
  obtain ⟨s1, s2, s3⟩ := set
  have hd : AMap.get s.disk p ≠ none := by
    rcases i.here h p f obj with c | c
    · exact c
    · rw [s1] at c; rcases c with c | ⟨_, c⟩ <;> cases c
  cases e : AMap.get s.disk p with
  | none => exact absurd e hd
  | some n =>
    refine ⟨n, rfl, ?_⟩
    rcases i.right h p f obj with c | (c | c | ⟨_, c⟩) | c | ⟨_, c⟩
    · exact c n e
    · rw [s1] at c; cases c
    · rw [s1] at c; cases c
    · rw [s1] at c; cases c
    · rw [s2] at c; cases c
    · rw [s3] at c; cases c

/-- C76 (dates). Likewise for the two dates: both are the file's modification time. -/
theorem C76_dates_once_settled_partial (z : Zone) (other : Char → List Char) (disk : AMap Path FileNode) (ops : List FactSt.FOp)
    (hist : FHist .dates (FactSt.start z other disk) ops) (set : Settled ((FactSt.start z other disk).run ops))
    (h : Nat) (p : Path) (f : Facts) (obj : AMap.get ((FactSt.start z other disk).run ops).objs h = some (p, f)) :
    ∃ n, AMap.get ((FactSt.start z other disk).run ops).disk p = some n ∧
      f.modified = formatDate ((FactSt.start z other disk).run ops).zone n.mtime ∧
      f.created = formatDate ((FactSt.start z other disk).run ops).zone n.mtime := by
  have i := inv_run (inv_start .dates z other disk) ops hist
  generalize (FactSt.start z other disk).run ops = s at *
  obtain ⟨s1, s2, s3⟩ := set
  have hd : AMap.get s.disk p ≠ none := by
    rcases i.here h p f obj with c | c
    · exact c
    · rw [s1] at c; rcases c with c | ⟨_, c⟩ <;> cases c
  cases e : AMap.get s.disk p with
  | none => exact absurd e hd
  | some n =>
    refine ⟨n, rfl, ?_⟩
    rcases i.right h p f obj with c | (c | c | ⟨_, c⟩) | c | ⟨_, c⟩
    · exact c n e
    · rw [s1] at c; cases c
    · rw [s1] at c; cases c
    · rw [s1] at c; cases c
    · rw [s2] at c; cases c
    · rw [s3] at c; cases c

/-- C76. At any moment: where size or dates are not the file's, a notification about that file is waiting, a program has the
file open, or the host is sending it. -/
theorem C76_wrong_only_meanwhile_partial (k : Aspect) (z : Zone) (other : Char → List Char) (disk : AMap Path FileNode)
    (ops : List FactSt.FOp) (hist : FHist k (FactSt.start z other disk) ops)
    (h : Nat) (p : Path) (f : Facts) (obj : AMap.get ((FactSt.start z other disk).run ops).objs h = some (p, f))
    (wrong : ¬ Agrees k ((FactSt.start z other disk).run ops) p f) :
    Owed ((FactSt.start z other disk).run ops) p ∨ p ∈ ((FactSt.start z other disk).run ops).dirty ∨
      Sending ((FactSt.start z other disk).run ops) p :=
  ((inv_run (inv_start k z other disk) ops hist).right h p f obj).resolve_left wrong

/-- C76. The host is told of every difference a notification makes to what is said about an object, and is told nothing else. For
every history. -/
theorem C76_host_is_told (z : Zone) (other : Char → List Char) (disk : AMap Path FileNode) (ops : List FactSt.FOp) :
    ∃ es, (((FactSt.start z other disk).run ops).step .deliver).evs = ((FactSt.start z other disk).run ops).evs ++ es ∧
    ∀ h, Told es h (AMap.get ((FactSt.start z other disk).run ops).objs h)
      (AMap.get (((FactSt.start z other disk).run ops).step .deliver).objs h) := by
  have m := maps_run (start_maps z other disk).1 ops
  generalize (FactSt.start z other disk).run ops = s at *
  have same : ∀ s' : FactSt, s'.evs = s.evs → s'.objs = s.objs → ∃ es, s'.evs = s.evs ++ es ∧
      ∀ h, Told es h (AMap.get s.objs h) (AMap.get s'.objs h) := by
    intro s' e e'
    refine ⟨[], by rw [e, List.append_nil], fun h => ?_⟩
    rw [e']
    exact .same _ nofun
  have one : ∀ {e : TEvent} {j h : Nat}, eventObject e = j → h ≠ j → ∀ x ∈ [e], eventObject x ≠ h := by
    intro e j h he hj x hx
    rw [List.mem_singleton.1 hx, he]; exact fun c => hj c.symm
  have gone : ∀ (s' : FactSt) (j : Nat) (p : Path), AMap.get s.paths p = some j → s'.evs = s.evs ++ [.removed j] →
      s'.objs = AMap.erase s.objs j → ∃ es, s'.evs = s.evs ++ es ∧ ∀ h, Told es h (AMap.get s.objs h) (AMap.get s'.objs h) := by
    intro s' j p hk e e'
    refine ⟨_, e, fun h => ?_⟩
    rw [e', AMap.get_erase]
    by_cases c : h = j
    · subst c
      rw [if_pos rfl]
      have hk := (m.both h p).2 hk
      unfold whereIs at hk
      cases c : AMap.get s.objs h with
      | none => rw [c] at hk; cases hk
      | some a => exact .vanished a rfl
    · rw [if_neg c]; exact .same _ (one rfl c)
  simp only [FactSt.step]
  unfold FactSt.deliver
  split
  · exact same s rfl rfl
  · next n r hr =>
    cases n with
    | created p =>
      simp only [FactSt.process]
      split
      · exact same _ rfl rfl
      · refine ⟨[.added s.next], rfl, fun h => ?_⟩
        show Told _ h _ (AMap.get (AMap.insert s.objs s.next (p, s.fresh p)) h)
        rw [AMap.get_insert]
        by_cases e : h = s.next
        · rw [if_pos e]
          cases c : AMap.get s.objs h with
          | none => exact .appeared _ (by rw [e])
          | some v => have := m.small h v.1 (by unfold whereIs; rw [c]; rfl); omega
        · rw [if_neg e]; exact .same _ (one rfl e)
    | deleted p =>
      simp only [FactSt.process]
      split
      · exact same _ rfl rfl
      · next j hk => exact gone _ j p hk rfl rfl
    | moved p q =>
      simp only [FactSt.process]
      split
      · exact same _ rfl rfl
      · next j hk =>
        split
        · exact gone _ j p hk rfl rfl
        · next hq =>
          have hkp : AMap.get s.paths p = some j := hk
          have hk := (m.both j p).2 hk
          have hq : AMap.get s.paths q = none := unknown_iff.1 (Bool.eq_false_iff.2 (show s.known q ≠ true from hq))
          refine ⟨[.infoChanged j], rfl, fun h => ?_⟩
          show Told _ h _ (AMap.get (AMap.insert s.objs j (q, s.fresh q)) h)
          rw [AMap.get_insert]
          by_cases e : h = j
          · subst e
            rw [if_pos rfl]
            unfold whereIs at hk
            cases c : AMap.get s.objs h with
            | none => rw [c] at hk; cases hk
            | some a =>
              refine .changed _ _ (fun c' => ?_) rfl
              rw [c, c'] at hk
              cases hk
              rw [hq] at hkp; cases hkp
          · rw [if_neg e]; exact .same _ (one rfl e)
    | closed p =>
      simp only [FactSt.process]
      split
      · exact same _ rfl rfl
      · next j hk =>
        have hk := (m.both j p).2 hk
        split
        · exact same _ rfl rfl
        · next y f hf =>
          have hf : AMap.get s.objs j = some (y, f) := hf
          have hy : y = p := by unfold whereIs at hk; rw [hf] at hk; cases hk; rfl
          subst hy
          split
          · exact same _ rfl rfl
          · by_cases e' : f = s.fresh y
            · refine ⟨[], ?_, fun h => ?_⟩
              · rw [List.append_nil]; exact if_pos e'
              · show Told _ h _ (AMap.get (AMap.insert s.objs j (y, s.fresh y)) h)
                rw [AMap.get_insert, ← e']
                split
                · next e => subst e; rw [hf]; exact .same _ nofun
                · exact .same _ nofun
            · refine ⟨[.infoChanged j], if_neg e', fun h => ?_⟩
              show Told _ h _ (AMap.get (AMap.insert s.objs j (y, s.fresh y)) h)
              rw [AMap.get_insert]
              by_cases e : h = j
              · subst e
                rw [if_pos rfl, hf]
                exact .changed _ _ (fun c => e' (by cases c; rfl)) rfl
              · rw [if_neg e]; exact .same _ (one rfl e)

/-- A name in the demonstration storage. -/
private def at' (n : String) : Path := ("/s/" ++ n).toList

/-- Two files. -/
def factsDisk : AMap Path FileNode := [(at' "doc.txt", ⟨10, 1000⟩), (at' "a.JPG", ⟨77, 2000⟩)]

/-- A storage with them, in a zone two hours east of Greenwich. -/
def factsStart : FactSt := FactSt.start (fixedZone 7200) (fun c => [c]) factsDisk

/-- What the storage says about an object. -/
def said (s : FactSt) (h : Nat) : Option (Path × Facts) := AMap.get s.objs h

/-- The host uploads a file while a program edits another one and renames a third; everything is notified in the end. -/
def factsOps : List FactSt.FOp :=
  [.change (at' "new.txt") ⟨5, 3000⟩, .announce ⟨at' "up.png", ⟨0x380B, 20, [], "20240101T120000".toList, 0x3000, 0, 0⟩⟩ true true true 3100,
   .deliver, .writeSeg 3 true true true 12 3200, .change (at' "doc.txt") ⟨11, 3300⟩, .writeSeg 3 false true true 8 3400, .deliver,
   .writeEnd 3 true 3500, .close (at' "doc.txt"), .rename (at' "new.txt") (at' "old.txt"), .deliver, .deliver, .close (at' "old.txt"),
   .deliver, .deliver, .deliver, .editWrite 1 11 4 true true 3600, .hostMove 2 (at' "b.JPG") true, .deliver, .deliver]

/-- The list of notifications waiting is known, so the questions about it are decided. -/
private theorem goneIn_iff (a : List Note) (p : Path) :
    GoneIn a p ↔ a.any (fun n => match n with | .deleted x => x = p | .moved x _ => x = p | _ => false) = true := by
  constructor
  · rintro (c | ⟨q, c⟩)
    · exact List.any_eq_true.2 ⟨_, c, by simp⟩
    · exact List.any_eq_true.2 ⟨_, c, by simp⟩
  · intro h
    obtain ⟨n, hn, h⟩ := List.any_eq_true.1 h
    cases n with
    | created _ => simp at h
    | deleted x => simp at h; subst h; exact .inl hn
    | moved x y => simp at h; subst h; exact .inr ⟨y, hn⟩
    | closed _ => simp at h

private instance (a : List Note) (p : Path) : Decidable (GoneIn a p) := decidable_of_iff _ (goneIn_iff a p).symm

private instance (s : FactSt) : Decidable (∀ p, ¬ Sending s p) :=
  match h : s.dataFile with
  | some (some p, n) => .isFalse fun c => c p ⟨n, h⟩
  | some (none, n) => .isTrue (by rintro p ⟨k, c⟩; rw [h] at c; cases c)
  | none => .isTrue (by rintro p ⟨k, c⟩; rw [h] at c; cases c)

private instance (s : FactSt) (h : Nat) (P : Path → Facts → Prop) [∀ p f, Decidable (P p f)] :
    Decidable (∀ p f, AMap.get s.objs h = some (p, f) → P p f) :=
  match e : AMap.get s.objs h with
  | none => .isTrue (by rintro p f c; cases c)
  | some (p, f) => if c : P p f then .isTrue (by rintro _ _ ⟨⟩; exact c) else .isFalse fun k => c (k p f rfl)

private instance (s : FactSt) (p : Path) : Decidable (Owed s p) := inferInstanceAs (Decidable (_ ∨ _))

private instance (d : AMap Path FileNode) (p : Path) (P : FileNode → Prop) [∀ n, Decidable (P n)] :
    Decidable (∀ n, AMap.get d p = some n → P n) :=
  match e : AMap.get d p with
  | none => .isTrue (by rintro p c; cases c)
  | some n => if c : P n then .isTrue (by rintro _ ⟨⟩; exact c) else .isFalse fun k => c (k n rfl)

private instance decOk (s : FactSt) (o : FactSt.FOp) (k : Aspect) : Decidable (FOk k s o) := by
  cases o <;> cases k <;> (dsimp only [FOk]; infer_instance)

private instance decHist (k : Aspect) : (s : FactSt) → (l : List FactSt.FOp) → Decidable (FHist k s l)
  | _, [] => .isTrue trivial
  | s, o :: os => have := decHist k (s.step o) os; inferInstanceAs (Decidable (_ ∧ _))

private instance (a : List Note) (p : Path) : Decidable (∀ y, .moved p y ∉ a) :=
  decidable_of_iff (a.all (fun n => match n with | .moved x _ => x ≠ p | _ => true) = true) (by
    rw [List.all_eq_true]
    constructor
    · intro h y c
      simpa using h _ c
    · intro h n hn
      cases n with
      | moved x y =>
        have : x ≠ p := fun e => h y (by rw [← e]; exact hn)
        simpa using this
      | _ => rfl)

private instance decKOk (s : FactSt) (o : FactSt.FOp) : Decidable (KOk s o) := by
  cases o <;> (dsimp only [KOk]; infer_instance)

private instance decKHist : (s : FactSt) → (l : List FactSt.FOp) → Decidable (KHist s l)
  | _, [] => .isTrue trivial
  | s, o :: os => have := decKHist (s.step o) os; inferInstanceAs (Decidable (_ ∧ _))

private instance (s : FactSt) : Decidable (Settled s) := inferInstanceAs (Decidable (_ ∧ _ ∧ _))

/-- Witness: the demonstration history meets the hypotheses of the theorems of C76, C77 and C81, and in the end four objects with
other sizes than at first are offered. -/
theorem C76_witness : FHist .size factsStart factsOps ∧ FHist .dates factsStart factsOps ∧ FHist .format factsStart factsOps ∧
    KHist factsStart factsOps ∧ Settled (factsStart.run factsOps) ∧
    (said (factsStart.run factsOps) 1).map (fun e => (e.1, e.2.size)) = some (at' "doc.txt", 15) ∧
    (said (factsStart.run factsOps) 2).map (fun e => (e.1, e.2.size)) = some (at' "b.JPG", 77) ∧
    (said (factsStart.run factsOps) 3).map (fun e => (e.1, e.2.size)) = some (at' "up.png", 20) ∧
    (said (factsStart.run factsOps) 4).map (fun e => (e.1, e.2.size)) = some (at' "old.txt", 5) := by
  decide +kernel


/-- C76 is violated when a program saves a file the careful way, writing a new file and renaming it over the old one: the new
name is known, so nothing is looked at again, and the object keeps the old size (and date) for good. -/
theorem C76_saved_by_renaming_violated :
    let s := factsStart.run [.change (at' "doc.tmp") ⟨25, 5000⟩, .close (at' "doc.tmp"), .rename (at' "doc.tmp") (at' "doc.txt"),
      .deliver, .deliver, .deliver]
    Settled s ∧ AMap.get s.disk (at' "doc.txt") = some ⟨25, 5000⟩ ∧ AMap.get s.paths (at' "doc.txt") = some 1 ∧
    (said s 1).map (fun e => e.2.size) = some 10 ∧
    (said s 1).map (fun e => e.2.modified) = some (formatDate (fixedZone 7200) 1000) := by
  decide +kernel

/-- C76 is violated when the host renames an object before the notification of a change of its file is handled. -/
theorem C76_renamed_meanwhile_violated :
    let s := factsStart.run [.change (at' "doc.txt") ⟨25, 5000⟩, .close (at' "doc.txt"), .hostMove 1 (at' "renamed.txt") true,
      .deliver, .deliver]
    Settled s ∧ AMap.get s.disk (at' "renamed.txt") = some ⟨25, 5000⟩ ∧ AMap.get s.paths (at' "renamed.txt") = some 1 ∧
    (said s 1).map (fun e => e.2.size) = some 10 := by
  decide +kernel

/-- C76 is violated by TruncateObject, for every storage: the file's time becomes the present, the date said stays. -/
theorem C76_truncated_date_violated (s : FactSt) (h : Nat) (p : Path) (f : Facts) (n : FileNode) (size : Nat) (now : Int)
    (ho : AMap.get s.objs h = some (p, f)) (hd : AMap.get s.disk p = some n) :
    AMap.get (s.step (.truncate h size true now)).disk p = some ⟨size, now⟩ ∧
    AMap.get (s.step (.truncate h size true now)).objs h = some (p, { f with size := size }) ∧
    (s.step (.truncate h size true now)).pending = s.pending := by
  simp only [FactSt.step, FactSt.truncate, ho, hd]
  refine ⟨?_, ?_, rfl⟩
  · show AMap.get (AMap.insert s.disk p _) p = _
    rw [AMap.get_insert, if_pos rfl]
  · rw [AMap.get_insert, if_pos rfl]

/-- C76 is violated by a program that truncates a file or sets its time by name: no notification is asked for that. -/
theorem C76_changed_by_name_violated (s : FactSt) (p : Path) (n n' : FileNode) (hd : AMap.get s.disk p = some n) :
    AMap.get (s.step (.byName p n')).disk p = some n' ∧ (s.step (.byName p n')).objs = s.objs ∧
    (s.step (.byName p n')).pending = s.pending := by
  simp only [FactSt.step, hd, Option.isSome_some, if_true]
  refine ⟨?_, rfl, rfl⟩
  show AMap.get (AMap.insert s.disk p _) p = _
  rw [AMap.get_insert, if_pos rfl]

/-! ### C77: formats -/

private theorem lastSection_ext (a ext : Path) (h : '.' ∉ ext) : lastSection (a ++ '.' :: ext) = ext := by
  have e : (a ++ '.' :: ext).reverse = ext.reverse ++ '.' :: a.reverse := by simp
  unfold lastSection
  rw [e, List.takeWhile_append_of_pos]
  · simp
  · intro c hc
    have : c ≠ '.' := fun e => h (by rw [← e]; exact List.mem_reverse.1 hc)
    simpa using this

private theorem lastSection_none (d name : Path) (h : '.' ∉ name) : '/' ∈ lastSection (d ++ '/' :: name) := by
  have e : (d ++ '/' :: name).reverse = (name.reverse ++ ['/']) ++ d.reverse := by simp
  unfold lastSection
  rw [e, List.takeWhile_append_of_pos]
  · simp
  · intro c hc
    have : c ≠ '.' := by
      rcases List.mem_append.1 hc with hc | hc
      · exact fun e => h (by rw [← e]; exact List.mem_reverse.1 hc)
      · rw [List.mem_singleton.1 hc]; decide
    simpa using this

private theorem lower_slash {other : Char → List Char} {p : Path} (h : '/' ∈ p) : '/' ∈ lowerWith other p := by
  unfold lowerWith
  refine List.mem_flatMap.2 ⟨'/', h, ?_⟩
  rw [if_pos (by decide)]
  decide

private theorem hasExt_dot {name ext : Path} (h : HasExt name ext) : ∃ a, name = a ++ '.' :: ext ∧ '.' ∉ ext := by
  cases h with
  | intro stem _ h => exact ⟨stem, rfl, h⟩

private theorem ext_cases (name : Path) : '.' ∉ name ∨ ∃ a ext, name = a ++ '.' :: ext ∧ '.' ∉ ext := by
  induction name with
  | nil => exact .inl nofun
  | cons c r ih =>
    rcases ih with h | ⟨a, ext, e, h⟩
    · by_cases hc : c = '.'
      · exact .inr ⟨[], r, by rw [hc]; rfl, h⟩
      · left
        intro k
        rcases List.mem_cons.1 k with k | k
        · exact hc k.symm
        · exact h k
    · exact .inr ⟨c :: a, ext, by rw [e]; rfl, h⟩

/-- C77. The format computed for a file is the one its name stands for: that of the extension, in whatever case, and Undefined
for an extension that is not in the table or a name without one. -/
theorem C77_by_extension (other : Char → List Char) (folder name : Path) (v : Nat) :
    formatOf other (folder ++ '/' :: name) = v ↔ NamedFormat other name v := by
  have noslash : ∀ e ∈ extTable, '/' ∉ e.1.toList := by decide +kernel
  have uniq : ∀ e ∈ extTable, ∀ e' ∈ extTable, e.1 = e'.1 → e = e' := by decide +kernel
  have one : NamedFormat other name (formatOf other (folder ++ '/' :: name)) := by
    unfold formatOf
    rcases ext_cases name with h | ⟨a, ext, e, h⟩
    · have : extTable.find? (fun e => decide (e.1.toList = lowerWith other (lastSection (folder ++ '/' :: name)))) = none := by
        rw [List.find?_eq_none]
        intro e he c
        exact noslash e he (by rw [of_decide_eq_true c]; exact lower_slash (lastSection_none folder name h))
      rw [this]
      refine .unlisted name fun ext e v hx => ?_
      obtain ⟨a, e', _⟩ := hasExt_dot hx
      exact absurd (by rw [e']; simp) h
    · have ls : lastSection (folder ++ '/' :: name) = ext := by
        have : folder ++ '/' :: name = (folder ++ '/' :: a) ++ '.' :: ext := by rw [e]; simp
        rw [this]; exact lastSection_ext _ _ h
      rw [ls]
      split
      · next x hx =>
        obtain ⟨x1, x2⟩ := x
        refine .listed name ext x1 x2 (by rw [e]; exact .intro a ext h) (List.mem_of_find?_eq_some hx) ?_
        have := List.find?_some hx
        exact (of_decide_eq_true this).symm
      · next hx =>
        refine .unlisted name fun ext' s v hx' hm he => ?_
        obtain ⟨a', e', h'⟩ := hasExt_dot hx'
        have : ext' = ext := by
          have h1 := lastSection_ext a' ext' h'
          rw [← e', e, lastSection_ext a ext h] at h1
          exact h1.symm
        rw [this] at he
        exact List.find?_eq_none.1 hx (s, v) hm (decide_eq_true he.symm)
  constructor
  · intro e; rw [← e]; exact one
  · intro h
    have det : ∀ v w, NamedFormat other name v → NamedFormat other name w → v = w := by
      intro v w hv hw
      cases hv with
      | listed ext e _ a b c =>
        cases hw with
        | listed ext' e' _ a' b' c' =>
          obtain ⟨x, x1, x2⟩ := hasExt_dot a
          obtain ⟨y, y1, y2⟩ := hasExt_dot a'
          have h1 := lastSection_ext x ext x2
          rw [← x1, y1, lastSection_ext y ext' y2] at h1
          rw [h1, c] at c'
          have := uniq _ b _ b' (String.toList_inj.1 c')
          simp only [Prod.mk.injEq] at this
          exact this.2
        | unlisted k => exact absurd c (k _ _ _ a b)
      | unlisted k =>
        cases hw with
        | listed ext' e' _ a' b' c' => exact absurd c' (k _ _ _ a' b')
        | unlisted _ => rfl
    exact det _ _ one h

/-- C77. Two files whose extensions differ only in the case of their (ASCII) letters have the same format. -/
theorem C77_case_does_not_matter (other : Char → List Char) (d1 d2 n1 n2 x1 x2 : Path) (h1 : HasExt n1 x1) (h2 : HasExt n2 x2)
    (a1 : ∀ c ∈ x1, c.toNat < 128) (a2 : ∀ c ∈ x2, c.toNat < 128) (same : x1.map Char.toLower = x2.map Char.toLower) :
    formatOf other (d1 ++ '/' :: n1) = formatOf other (d2 ++ '/' :: n2) := by
  have low : ∀ x : Path, (∀ c ∈ x, c.toNat < 128) → lowerWith other x = x.map Char.toLower := by
    intro x
    induction x with
    | nil => intro _; rfl
    | cons c r ih =>
      intro h
      show (if c.toNat < 128 then [c.toLower] else other c) ++ lowerWith other r = _
      rw [if_pos (h c List.mem_cons_self), ih fun k hk => h k (List.mem_cons_of_mem _ hk)]
      rfl
  have ls : ∀ d n x, HasExt n x → lastSection (d ++ '/' :: n) = x := by
    intro d n x h
    obtain ⟨a, e, k⟩ := hasExt_dot h
    have : d ++ '/' :: n = (d ++ '/' :: a) ++ '.' :: x := by rw [e]; simp
    rw [this]; exact lastSection_ext _ _ k
  unfold formatOf
  rw [ls d1 n1 x1 h1, ls d2 n2 x2 h2, low x1 a1, low x2 a2, same]

/-- Witness: both kinds of name. -/
theorem C77_witness : NamedFormat (fun c => [c]) "holiday.2024.JpeG".toList 0x3801 ∧ NamedFormat (fun c => [c]) "README".toList 0x3000 ∧
    NamedFormat (fun c => [c]) "archive.tar.gz".toList 0x3000 := by
  refine ⟨?_, ?_, ?_⟩ <;> rw [← C77_by_extension _ "/s".toList] <;> decide +kernel

/-- C77. Whatever happened, once nothing is going on any more the format the storage says for an object is the one its present
name stands for, and the thumbnail fields go with the name as well. Missing: renaming by the host to a name that stands for
another format. -/
theorem C77_once_settled_partial (z : Zone) (other : Char → List Char) (disk : AMap Path FileNode) (ops : List FactSt.FOp)
    (hist : FHist .format (FactSt.start z other disk) ops) (set : Settled ((FactSt.start z other disk).run ops))
    (h : Nat) (folder name : Path) (f : Facts)
    (obj : AMap.get ((FactSt.start z other disk).run ops).objs h = some (folder ++ '/' :: name, f)) :
    NamedFormat ((FactSt.start z other disk).run ops).other name f.fmt ∧
    (thumbnailable (folder ++ '/' :: name) = true → f.thumbFmt = 0x3808 ∧ f.thumbW = 100 ∧ f.thumbH = 100) ∧
    (thumbnailable (folder ++ '/' :: name) = false → f.thumbFmt = 0x3000 ∧ f.thumbW = 0 ∧ f.thumbH = 0) := by
  have i := inv_run (inv_start .format z other disk) ops hist
  generalize (FactSt.start z other disk).run ops = s at *
  obtain ⟨s1, s2, s3⟩ := set
  have ag : Agrees .format s (folder ++ '/' :: name) f := by
    rcases i.right h _ f obj with c | (c | c | ⟨_, c⟩) | c | ⟨_, c⟩
    · exact c
    · rw [s1] at c; cases c
    · rw [s1] at c; cases c
    · rw [s1] at c; cases c
    · rw [s2] at c; cases c
    · rw [s3] at c; cases c
  obtain ⟨a1, a2, a3, a4⟩ := ag
  refine ⟨(C77_by_extension _ _ _ _).1 a1.symm, fun c => ?_, fun c => ?_⟩
  · rw [a2, a3, a4, c]; exact ⟨rfl, rfl, rfl⟩
  · rw [a2, a3, a4, c]; exact ⟨rfl, rfl, rfl⟩

/-- C77 is violated, for every storage, when the host renames or moves an object: its format stays as it was, whatever the
new name stands for. -/
theorem C77_renamed_by_host_violated (s : FactSt) (h : Nat) (p q : Path) (f : Facts) (n : FileNode)
    (ho : AMap.get s.objs h = some (p, f)) (hd : AMap.get s.disk p = some n) (hq : AMap.get s.disk q = none) (hk : s.known q = false) :
    AMap.get (s.step (.hostMove h q true)).objs h = some (q, f) := by
  simp only [FactSt.step, FactSt.hostMove, ho, hd, hq, hk]
  rw [if_neg (by simp)]
  show AMap.get (AMap.insert s.objs h (q, f)) h = _
  rw [AMap.get_insert, if_pos rfl]

/-- Instance: a text file that becomes a picture. No later notification mends it. -/
theorem C77_text_called_jpg_violated :
    let s := factsStart.run [.hostMove 1 (at' "doc.jpg") true, .deliver]
    Settled s ∧ (said s 1).map (fun e => (e.1, e.2.fmt, e.2.thumbFmt)) = some (at' "doc.jpg", 0x3004, 0x3000) ∧
    NamedFormat (fun c => [c]) "doc.jpg".toList 0x3801 := by
  refine ⟨by decide +kernel, by decide +kernel, ?_⟩
  rw [← C77_by_extension _ "/s".toList]
  decide +kernel

/-! ### C78: the format the host announced -/

/-- C78. An object the host announces has the announced format and size at first. -/
theorem C78_at_first (s : FactSt) (a : FactSt.Announced) (fal ut : Bool) (now : Int) (new : s.known a.path = false) :
    ∃ f, AMap.get (s.step (.announce a true fal ut now)).objs s.next = some (a.path, f) ∧ f.fmt = a.facts.fmt ∧ f.size = a.facts.size ∧
      (s.step (.announce a true fal ut now)).paths = AMap.insert s.paths a.path s.next := by
  simp only [FactSt.step, FactSt.announce, new]
  rw [if_neg (by simp), if_neg (by simp)]
  have nx : ∀ t : FactSt, t.next = s.next → t.paths = s.paths → ∀ F : Facts,
      AMap.get (t.addObj a.path F).objs s.next = some (a.path, F) ∧ (t.addObj a.path F).paths = AMap.insert s.paths a.path s.next := by
    intro t ht hp F
    refine ⟨?_, ?_⟩
    · show AMap.get (AMap.insert t.objs t.next _) _ = _
      rw [AMap.get_insert, if_pos ht.symm]
    · show AMap.insert t.paths a.path t.next = _
      rw [ht, hp]
  have gr : ∀ len, Grow s ((((s.openFile a.path now).put a.path ⟨len, now⟩).note (.closed a.path)).setMtime a.path
      (parseDate (((s.openFile a.path now).put a.path ⟨len, now⟩).note (.closed a.path)).zone a.facts.modified) ut) := fun len =>
    (((grow_open s a.path now).1.trans (grow_put _ _ _ (grow_open s a.path now).2)).trans (grow_closed _ _)).trans (grow_mtime _ _ _ _)
  obtain ⟨l, gr⟩ := gr (if a.facts.size = 0 then 0 else if fal = true then max (sizeOf' (AMap.get (s.openFile a.path now).disk a.path)) a.facts.size
    else sizeOf' (AMap.get (s.openFile a.path now).disk a.path))
  have := nx _ gr.next gr.paths
  exact ⟨_, (this _).1, rfl, rfl, (this _).2⟩

/-- C78 is violated, for every storage: as soon as the notification that the file was closed is handled (and no contents are
being sent), the format is the one the name stands for, whatever the host announced. -/
theorem C78_forgotten_violated (s : FactSt) (h : Nat) (p : Path) (f : Facts) (r : List Note) (ho : AMap.get s.objs h = some (p, f))
    (hp : AMap.get s.paths p = some h) (hn : s.pending = .closed p :: r) (hw : s.writing ≠ h) :
    ∃ f', AMap.get (s.step .deliver).objs h = some (p, f') ∧ f'.fmt = formatOf s.other p := by
  simp only [FactSt.step, FactSt.deliver, hn, FactSt.process]
  have hp' : AMap.get ({ s with pending := r } : FactSt).paths p = some h := hp
  simp only [hp', ho]
  rw [if_neg fun c => hw c.symm]
  refine ⟨s.fresh p, ?_, rfl⟩
  show AMap.get (AMap.insert s.objs h _) h = _
  rw [AMap.get_insert, if_pos rfl]; rfl

/-- Instance: the host sends a song without an extension as MP3; after the transfer the device says the format is undefined. -/
theorem C78_song_violated :
    let up : List FactSt.FOp := [.announce ⟨at' "song", ⟨0x3009, 5, [], [], 0x3000, 0, 0⟩⟩ true true true 3000,
      .writeSeg 3 true true true 5 3001, .writeEnd 3 true 3002]
    (said (factsStart.run up) 3).map (fun e => e.2.fmt) = some 0x3009 ∧
    Settled (factsStart.run (up ++ [.deliver, .deliver, .deliver])) ∧
    (said (factsStart.run (up ++ [.deliver, .deliver, .deliver])) 3).map (fun e => e.2.fmt) = some 0x3000 := by
  decide +kernel

/-! ### C79: formats said are formats advertised -/

private theorem format_range (other : Char → List Char) (p : Path) : formatOf other p ∈ UNDEF :: extTable.map (·.2) := by
  unfold formatOf
  split
  · next e h => exact List.mem_cons_of_mem _ (List.mem_map.2 ⟨e, List.mem_of_find?_eq_some h, rfl⟩)
  · exact List.mem_cons_self

/-- C79. With the shipped configuration every format the storage can compute for a file is one GetDeviceInfo advertises. -/
theorem C79_shipped (other : Char → List Char) (p : Path) : formatOf other p ∈ (loadInfo shippedConf true).formats := by
  have : ∀ v ∈ UNDEF :: extTable.map (·.2), v ∈ (loadInfo shippedConf true).formats := by decide +kernel
  exact this _ (format_range other p)

/-- C79. With any configuration, readable or not, that holds for every format but OGG. -/
theorem C79_any_configuration_partial (ls : List ConfLeaf) (wf : Bool) (other : Char → List Char) (p : Path)
    (h : formatOf other p ≠ 0xB902) : formatOf other p ∈ (loadInfo ls wf).formats := by
  have key : ∀ v ∈ UNDEF :: extTable.map (·.2), v ≠ 0xB902 → v ∈ imageTable ∨ v ∈ audioTable ∨ v ∈ videoTable ∨ v ∈ commonTable := by
    decide +kernel
  have k := key _ (format_range other p) h
  generalize formatOf other p = v at *
  unfold loadInfo InfoState.formats
  dsimp only
  generalize (if ((initialInfo.leaves ls).2 && wf) = true then (initialInfo.leaves ls).1 else _) = s
  simp only [List.mem_append]
  rcases k with k | k | k | k
  · exact .inl (.inl (.inl ((mem_augment _ _ _).2 (.inr k))))
  · exact .inl (.inl (.inr ((mem_augment _ _ _).2 (.inr k))))
  · exact .inl (.inr ((mem_augment _ _ _).2 (.inr k)))
  · exact .inr ((mem_augment _ _ _).2 (.inr k))

/-- C79 is violated with a configuration that cannot be read: files are said to be OGG, which is not advertised. -/
theorem C79_unreadable_violated : 0xB902 ∉ (loadInfo [] false).formats ∧ formatOf (fun c => [c]) (at' "tune.ogg") = 0xB902 := by
  decide +kernel

/-! ### C80: thumbnails of pictures -/

/-- C80. A file with one of the five extensions for which there are thumbnails, in lower case, is said to have one. -/
theorem C80_lower_case_partial (z : Zone) (other : Char → List Char) (folder stem : Path) (n : Option FileNode) (e : String)
    (h : e ∈ ["bmp", "gif", "jpeg", "jpg", "png"]) :
    (factsOf z other (folder ++ '/' :: stem ++ '.' :: e.toList) n).thumbFmt = 0x3808 ∧
    (factsOf z other (folder ++ '/' :: stem ++ '.' :: e.toList) n).thumbW = 100 ∧
    (factsOf z other (folder ++ '/' :: stem ++ '.' :: e.toList) n).thumbH = 100 := by
  have : thumbnailable (folder ++ '/' :: stem ++ '.' :: e.toList) = true := by
    unfold thumbnailable
    rw [List.any_eq_true]
    refine ⟨"." ++ e, ?_, ?_⟩
    · simp only [List.mem_cons, List.not_mem_nil, or_false] at h ⊢
      rcases h with h | h | h | h | h <;> subst h <;> decide
    · rw [List.isSuffixOf_iff_suffix]
      refine ⟨folder ++ '/' :: stem, ?_⟩
      rw [String.toList_append]
      rfl
  simp only [factsOf, this, if_true]
  exact ⟨trivial, trivial, trivial⟩

/-- C80 is violated for names in upper case, as cameras write them: the format is that of a picture, but the storage says there is
no thumbnail. -/
theorem C80_upper_case_violated (z : Zone) (n : Option FileNode) :
    (factsOf z (fun c => [c]) (at' "DSC0001.JPG") n).fmt = 0x3801 ∧ (factsOf z (fun c => [c]) (at' "DSC0001.JPG") n).thumbFmt = 0x3000 ∧
    (factsOf z (fun c => [c]) (at' "DSC0001.jpg") n).fmt = 0x3801 ∧ (factsOf z (fun c => [c]) (at' "DSC0001.jpg") n).thumbFmt = 0x3808 := by
  refine ⟨?_, ?_, ?_, ?_⟩ <;> (simp only [factsOf]; decide +kernel)

/-! ### C81: the objects are the files -/

/-- C81 (nothing invented). For every history without exception: every object is a file, at the path the storage says, or the
notification that the file went is waiting; and no two objects are the same file. -/
theorem C81_objects_are_files (z : Zone) (other : Char → List Char) (disk : AMap Path FileNode) (ops : List FactSt.FOp)
    (h : Nat) (p : Path) (f : Facts) (obj : AMap.get ((FactSt.start z other disk).run ops).objs h = some (p, f)) :
    (AMap.get ((FactSt.start z other disk).run ops).disk p ≠ none ∨ GoneIn ((FactSt.start z other disk).run ops).pending p) ∧
    ∀ h' f', AMap.get ((FactSt.start z other disk).run ops).objs h' = some (p, f') → h' = h := by
  have m := maps_run (start_maps z other disk).1 ops
  generalize (FactSt.start z other disk).run ops = s at *
  have k := (m.both h p).1 (where_eq obj)
  refine ⟨m.here p (by rw [k]; exact nofun), fun h' f' c => ?_⟩
  have := (m.both h' p).1 (where_eq c)
  rw [k] at this
  exact (Option.some.inj this).symm

/-- C81 (nothing lost). Whatever the host and the programs on the device do and however long the notifications take, once all
notifications are handled every file is an object. Missing: the races excluded by `KOk`; see the violations below. -/
theorem C81_files_are_objects_partial (z : Zone) (other : Char → List Char) (disk : AMap Path FileNode) (ops : List FactSt.FOp)
    (hist : KHist (FactSt.start z other disk) ops) (handled : ((FactSt.start z other disk).run ops).pending = [])
    (p : Path) (file : AMap.get ((FactSt.start z other disk).run ops).disk p ≠ none) :
    ∃ h f, AMap.get ((FactSt.start z other disk).run ops).objs h = some (p, f) := by
  have m := maps_run (start_maps z other disk).1 ops
  have a := all_run (start_maps z other disk).1 (start_all z other disk) ops hist
  generalize (FactSt.start z other disk).run ops = s at *
  have k := a p file
  rw [handled] at k
  cases e : AMap.get s.paths p with
  | none => exact absurd e k
  | some h =>
    have := (m.both h p).2 e
    unfold whereIs at this
    cases c : AMap.get s.objs h with
    | none => rw [c] at this; cases this
    | some v =>
      obtain ⟨q, f⟩ := v
      rw [c] at this
      cases this
      exact ⟨h, f, c⟩

/-- C81 is violated when a program renames a file and recreates it, and the host deletes the object before it is told: the
renamed file is never offered again. -/
theorem C81_deleted_meanwhile_violated :
    let s := factsStart.run [.rename (at' "doc.txt") (at' "doc.bak"), .change (at' "doc.txt") ⟨12, 4000⟩, .close (at' "doc.txt"),
      .hostDelete 1 true, .deliver, .deliver, .deliver, .deliver]
    Settled s ∧ AMap.get s.disk (at' "doc.bak") = some ⟨10, 1000⟩ ∧ AMap.get s.paths (at' "doc.bak") = none := by
  decide +kernel

/-- C81 is violated when the host renames an object to a name that a program has just freed: the notification of that makes the
storage forget the object, although its file is there. -/
theorem C81_renamed_meanwhile_violated :
    let s := factsStart.run [.change (at' "t.txt") ⟨1, 4000⟩, .unlink (at' "t.txt"), .hostMove 1 (at' "t.txt") true,
      .deliver, .deliver, .deliver]
    Settled s ∧ AMap.get s.disk (at' "t.txt") = some ⟨10, 1000⟩ ∧ AMap.get s.paths (at' "t.txt") = none ∧ said s 1 = none := by
  decide +kernel

/-- C81 is violated the same way by an upload: the object the host has just created vanishes and its file comes back as
another object. -/
theorem C81_uploaded_meanwhile_violated :
    let s := factsStart.run [.change (at' "t.txt") ⟨1, 4001⟩, .unlink (at' "t.txt"), .announce ⟨at' "t.txt", ⟨0x3004, 5, [], [], 0x3000, 0, 0⟩⟩ true true true 4002,
      .writeSeg 3 true true true 5 4003, .writeEnd 3 true 4004, .deliver, .deliver, .deliver, .deliver, .deliver]
    Settled s ∧ said s 3 = none ∧ AMap.get s.disk (at' "t.txt") = some ⟨5, 4002⟩ ∧ AMap.get s.paths (at' "t.txt") = some 4 := by
  decide +kernel

end Props
