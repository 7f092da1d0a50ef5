import Verif.Spec.Facts
import Verif.Lemmas.AMap
/-! The invariant behind C76: what a storage says about a file is right, or a notification about it is still to come. -/
namespace Mtp
open Spec

/-- The notification makes the storage believe there is a file `p`. -/
def Adds (n : Note) (p : Path) : Prop := n = .created p ∨ ∃ q, n = .moved q p

/-- Whatever the waiting notifications will make appear exists, or a later one of them makes it disappear. -/
def AddOk (d : Path → Option FileNode) : List Note → Prop
  | [] => True
  | n :: r => (∀ p, Adds n p → d p ≠ none ∨ GoneIn r p) ∧ AddOk d r

theorem goneIn_append {a b : List Note} {p : Path} : GoneIn (a ++ b) p ↔ GoneIn a p ∨ GoneIn b p := by
  unfold GoneIn
  simp only [List.mem_append]
  constructor
  · rintro (h | ⟨q, h⟩)
    · rcases h with h | h
      · exact .inl (.inl h)
      · exact .inr (.inl h)
    · rcases h with h | h
      · exact .inl (.inr ⟨q, h⟩)
      · exact .inr (.inr ⟨q, h⟩)
  · rintro ((h | ⟨q, h⟩) | (h | ⟨q, h⟩))
    · exact .inl (.inl h)
    · exact .inr ⟨q, .inl h⟩
    · exact .inl (.inr h)
    · exact .inr ⟨q, .inr h⟩

theorem addOk_append {d d' : Path → Option FileNode} {ns l : List Note} (h : AddOk d ns)
    (hd : ∀ p, d p ≠ none → d' p ≠ none ∨ GoneIn l p) (hl : AddOk d' l) : AddOk d' (ns ++ l) := by
  induction ns with
  | nil => exact hl
  | cons n r ih =>
    refine ⟨fun p a => ?_, ih h.2⟩
    rcases h.1 p a with g | g
    · rcases hd p g with g | g
      · exact .inl g
      · exact .inr (goneIn_append.2 (.inr g))
    · exact .inr (goneIn_append.2 (.inl g))

/-- Where the waiting notifications will take what is now at `p`; `none`: away. -/
def chase : List Note → Path → Option Path
  | [], p => some p
  | .moved x y :: r, p => if x = p then chase r y else chase r p
  | .deleted x :: r, p => if x = p then none else chase r p
  | .created _ :: r, p => chase r p
  | .closed _ :: r, p => chase r p

theorem chase_append (a b : List Note) (p : Path) : chase (a ++ b) p = (chase a p).bind (chase b) := by
  induction a generalizing p with
  | nil => rfl
  | cons n r ih =>
    cases n <;> simp only [List.cons_append, chase]
    · exact ih p
    · split
      · rfl
      · exact ih p
    · split
      · exact ih _
      · exact ih p
    · exact ih p

theorem goneIn_cons {n : Note} {r : List Note} {p : Path} : GoneIn (n :: r) p ↔ (n = .deleted p ∨ ∃ q, n = .moved p q) ∨ GoneIn r p := by
  have := goneIn_append (a := [n]) (b := r) (p := p)
  rw [List.singleton_append] at this
  rw [this]
  unfold GoneIn
  simp only [List.mem_singleton]
  constructor
  · rintro ((h | ⟨q, h⟩) | h)
    · exact .inl (.inl h.symm)
    · exact .inl (.inr ⟨q, h.symm⟩)
    · exact .inr h
  · rintro ((h | ⟨q, h⟩) | h)
    · exact .inl (.inl h.symm)
    · exact .inl (.inr ⟨q, h.symm⟩)
    · exact .inr h

theorem chase_stay {ns : List Note} {p : Path} (h : ¬ GoneIn ns p) : chase ns p = some p := by
  induction ns with
  | nil => rfl
  | cons n r ih =>
    rw [goneIn_cons] at h
    have ih := ih (fun g => h (.inr g))
    cases n <;> simp only [chase]
    · exact ih
    · rw [if_neg (fun e => h (.inl (.inl (by rw [e]))))]; exact ih
    · rw [if_neg (fun e => h (.inl (.inr ⟨_, by rw [e]⟩)))]; exact ih
    · exact ih

/-- The part of the invariant that does not depend on what is said. -/
structure FBase (s : FactSt) : Prop where
  toPath : ∀ h p f, AMap.get s.objs h = some (p, f) → AMap.get s.paths p = some h
  ofPath : ∀ p h, AMap.get s.paths p = some h → ∃ f, AMap.get s.objs h = some (p, f)
  small : ∀ h e, AMap.get s.objs h = some e → 0 < h ∧ h < s.next
  writ : s.writing < s.next
  here : ∀ h p f, AMap.get s.objs h = some (p, f) → AMap.get s.disk p ≠ none ∨ GoneIn s.pending p
  adds : AddOk (AMap.get s.disk) s.pending
  isOpen : ∀ p, Sending s p → AMap.get s.disk p ≠ none

/-- The invariant. -/
structure FInv (k : Aspect) (s : FactSt) : Prop extends FBase s where
  right : ∀ h p f, AMap.get s.objs h = some (p, f) → Agrees k s p f ∨ Owed s p ∨ p ∈ s.dirty ∨ Sending s p
  target : ∀ p f e, AMap.get s.objs s.writing = some (p, f) → chase s.pending p = some e → Sending s e

/-- A step in which objects stay what and where they are, no file goes away, and the new notifications are of the creation
of existing files and of closed files. -/
structure Touch (s s' : FactSt) (l : List Note) : Prop where
  zone : s'.zone = s.zone
  other : s'.other = s.other
  paths : s'.paths = s.paths
  next : s'.next = s.next
  objs : ∀ h, (AMap.get s'.objs h).map (·.1) = (AMap.get s.objs h).map (·.1)
  disk : ∀ p, AMap.get s.disk p ≠ none → AMap.get s'.disk p ≠ none
  pending : s'.pending = s.pending ++ l
  notes : ∀ n ∈ l, (∃ p, n = .created p ∧ AMap.get s'.disk p ≠ none) ∨ ∃ p, n = .closed p

theorem Touch.refl (s : FactSt) : Touch s s [] :=
  ⟨rfl, rfl, rfl, rfl, fun _ => rfl, fun _ h => h, (List.append_nil _).symm, fun _ h => (nomatch h)⟩

theorem Touch.trans {a b c : FactSt} {l m : List Note} (x : Touch a b l) (y : Touch b c m) : Touch a c (l ++ m) where
  zone := y.zone.trans x.zone
  other := y.other.trans x.other
  paths := y.paths.trans x.paths
  next := y.next.trans x.next
  objs h := (y.objs h).trans (x.objs h)
  disk p h := y.disk p (x.disk p h)
  pending := by rw [y.pending, x.pending, List.append_assoc]
  notes n hn := by
    rcases List.mem_append.1 hn with hn | hn
    · rcases x.notes n hn with ⟨p, e, g⟩ | g
      · exact .inl ⟨p, e, y.disk p g⟩
      · exact .inr g
    · exact y.notes n hn

theorem addOk_touch {d : Path → Option FileNode} {l : List Note}
    (hl : ∀ n ∈ l, (∃ p, n = .created p ∧ d p ≠ none) ∨ ∃ p, n = .closed p) : AddOk d l := by
  induction l with
  | nil => trivial
  | cons n r ih =>
    refine ⟨fun p a => ?_, ih fun m hm => hl m (List.mem_cons_of_mem _ hm)⟩
    rcases hl n List.mem_cons_self with ⟨q, e, g⟩ | ⟨q, e⟩
    · subst e
      rcases a with a | ⟨_, a⟩
      · cases a; exact .inl g
      · cases a
    · subst e
      rcases a with a | ⟨_, a⟩ <;> cases a

theorem Touch.back {s s' : FactSt} {l : List Note} (x : Touch s s' l) {h : Nat} {p : Path} {f : Facts}
    (g : AMap.get s'.objs h = some (p, f)) : ∃ f₀, AMap.get s.objs h = some (p, f₀) := by
  have := x.objs h
  rw [g] at this
  cases e : AMap.get s.objs h with
  | none => rw [e] at this; cases this
  | some v => rw [e] at this; obtain ⟨a, b⟩ := v; cases this; exact ⟨b, rfl⟩

theorem Touch.forth {s s' : FactSt} {l : List Note} (x : Touch s s' l) {h : Nat} {p : Path} {f : Facts}
    (g : AMap.get s.objs h = some (p, f)) : ∃ f₁, AMap.get s'.objs h = some (p, f₁) := by
  have := x.objs h
  rw [g] at this
  cases e : AMap.get s'.objs h with
  | none => rw [e] at this; cases this
  | some v => rw [e] at this; obtain ⟨a, b⟩ := v; cases this; exact ⟨b, rfl⟩

theorem Touch.chase {s s' : FactSt} {l : List Note} (x : Touch s s' l) (p : Path) : chase s'.pending p = chase s.pending p := by
  have : ∀ p, Mtp.chase l p = some p := fun p => chase_stay (by
    rintro (g | ⟨q, g⟩)
    · rcases x.notes _ g with ⟨_, e, _⟩ | ⟨_, e⟩ <;> cases e
    · rcases x.notes _ g with ⟨_, e, _⟩ | ⟨_, e⟩ <;> cases e)
  rw [x.pending, chase_append]
  cases Mtp.chase s.pending p with
  | none => rfl
  | some e => exact this e

theorem Touch.base {s s' : FactSt} {l : List Note} (x : Touch s s' l) (b : FBase s) (hw : s'.writing < s'.next)
    (hs : ∀ p, Sending s' p → AMap.get s'.disk p ≠ none) : FBase s' where
  isOpen := hs
  toPath h p f g := by
    obtain ⟨f₀, g₀⟩ := x.back g
    rw [x.paths]; exact b.toPath h p f₀ g₀
  ofPath p h g := by
    rw [x.paths] at g
    obtain ⟨f, g⟩ := b.ofPath p h g
    exact x.forth g
  small h e g := by
    obtain ⟨p, f⟩ := e
    obtain ⟨f₀, g₀⟩ := x.back g
    rw [x.next]; exact b.small h _ g₀
  writ := hw
  here h p f g := by
    obtain ⟨f₀, g₀⟩ := x.back g
    rcases b.here h p f₀ g₀ with d | d
    · exact .inl (x.disk p d)
    · rw [x.pending]; exact .inr (goneIn_append.2 (.inl d))
  adds := by
    rw [x.pending]
    exact addOk_append b.adds (fun p h => .inl (x.disk p h)) (addOk_touch x.notes)

theorem Touch.gone {s s' : FactSt} {l : List Note} (x : Touch s s' l) {p : Path} (g : GoneIn s.pending p) : GoneIn s'.pending p := by
  rw [x.pending]; exact goneIn_append.2 (.inl g)

theorem Touch.owed {s s' : FactSt} {l : List Note} (x : Touch s s' l) {p : Path} (g : Owed s p) : Owed s' p := by
  rcases g with g | g
  · exact .inl (by rw [x.pending]; exact List.mem_append_left _ g)
  · exact .inr (x.gone g)

/-- What is said stays right where neither it nor the file changes. -/
theorem agrees_same {k : Aspect} {s s' : FactSt} {p : Path} {f : Facts} (hz : s'.zone = s.zone) (ho : s'.other = s.other)
    (hd : AMap.get s'.disk p = AMap.get s.disk p) (h : Agrees k s p f) : Agrees k s' p f := by
  cases k
  · intro n g; rw [hd] at g; exact h n g
  · intro n g; rw [hd] at g; rw [hz]; exact h n g
  · unfold Agrees at *; rw [ho]; exact h

theorem fresh_agrees (k : Aspect) (s : FactSt) (p : Path) : Agrees k s p (s.fresh p) := by
  cases k
  · intro n g
    show sizeOf' (AMap.get s.disk p) = _
    rw [g]; rfl
  · intro n g
    show dateOf s.zone (AMap.get s.disk p) = _ ∧ dateOf s.zone (AMap.get s.disk p) = _
    rw [g]; exact ⟨rfl, rfl⟩
  · exact ⟨rfl, rfl, rfl, rfl⟩

/-! ### The building blocks are touches -/

theorem put_touch (s : FactSt) (p : Path) (n : FileNode) : Touch s (s.put p n) [] where
  zone := rfl
  other := rfl
  paths := rfl
  next := rfl
  objs _ := rfl
  disk q h := by
    show AMap.get (AMap.insert s.disk p n) q ≠ none
    rw [AMap.get_insert]
    split
    · exact nofun
    · exact h
  pending := (List.append_nil _).symm
  notes _ h := (nomatch h)

theorem put_get (s : FactSt) (p : Path) (n : FileNode) (q : Path) :
    AMap.get (s.put p n).disk q = if q = p then some n else AMap.get s.disk q := AMap.get_insert ..

theorem closed_touch (s : FactSt) (p : Path) : Touch s (s.note (.closed p)) [.closed p] :=
  ⟨rfl, rfl, rfl, rfl, fun _ => rfl, fun _ h => h, rfl, fun _ h => .inr ⟨p, List.mem_singleton.1 h⟩⟩

theorem created_touch (s : FactSt) (p : Path) (h : AMap.get s.disk p ≠ none) : Touch s (s.note (.created p)) [.created p] :=
  ⟨rfl, rfl, rfl, rfl, fun _ => rfl, fun _ h => h, rfl, fun _ g => .inl ⟨p, List.mem_singleton.1 g, h⟩⟩

/-- A block that changes at most the file `p` and the notifications. -/
structure Local (s s' : FactSt) (p : Path) (l : List Note) : Prop where
  touch : Touch s s' l
  objs : s'.objs = s.objs
  dataFile : s'.dataFile = s.dataFile
  writing : s'.writing = s.writing
  dirty : s'.dirty = s.dirty
  away : ∀ q, q ≠ p → AMap.get s'.disk q = AMap.get s.disk q

theorem Local.refl (s : FactSt) (p : Path) : Local s s p [] := ⟨.refl s, rfl, rfl, rfl, rfl, fun _ _ => rfl⟩

theorem Local.trans {a b c : FactSt} {p : Path} {l m : List Note} (x : Local a b p l) (y : Local b c p m) : Local a c p (l ++ m) :=
  ⟨x.touch.trans y.touch, y.objs.trans x.objs, y.dataFile.trans x.dataFile, y.writing.trans x.writing, y.dirty.trans x.dirty,
    fun q h => (y.away q h).trans (x.away q h)⟩

theorem local_put (s : FactSt) (p : Path) (n : FileNode) : Local s (s.put p n) p [] :=
  ⟨put_touch s p n, rfl, rfl, rfl, rfl, fun q h => by rw [put_get, if_neg h]⟩

theorem local_closed (s : FactSt) (p q : Path) : Local s (s.note (.closed q)) p [.closed q] :=
  ⟨closed_touch s q, rfl, rfl, rfl, rfl, fun _ _ => rfl⟩

theorem local_open (s : FactSt) (p : Path) (now : Int) : (∃ l, Local s (s.openFile p now) p l) ∧
    AMap.get (s.openFile p now).disk p ≠ none := by
  unfold FactSt.openFile
  split
  · next n h => exact ⟨⟨[], .refl s p⟩, by rw [h]; exact nofun⟩
  · have e : AMap.get (s.put p ⟨0, now⟩).disk p ≠ none := by rw [put_get, if_pos rfl]; exact nofun
    exact ⟨⟨[] ++ [.created p], (local_put s p ⟨0, now⟩).trans
      ⟨created_touch _ p e, rfl, rfl, rfl, rfl, fun _ _ => rfl⟩⟩, e⟩

theorem local_mtime (s : FactSt) (p : Path) (t : Int) (ok : Bool) : Local s (s.setMtime p t ok) p [] := by
  unfold FactSt.setMtime
  split
  · exact .refl s p
  · split
    · exact .refl s p
    · exact local_put ..

theorem local_store (s : FactSt) (p : Path) (pos n : Nat) (now : Int) : Local s (s.store (some p) pos n now) p [] := by
  simp only [FactSt.store]
  split
  · exact .refl s p
  · split
    · exact .refl s p
    · exact local_put ..

/-- After a local change of `p`, everything said about other files is as right as before. -/
theorem Local.right {k : Aspect} {s s' : FactSt} {p : Path} {l : List Note} (x : Local s s' p l) {q : Path} {f : Facts}
    (hq : q ≠ p) (r : Agrees k s q f ∨ Owed s q ∨ q ∈ s.dirty ∨ Sending s q) :
    Agrees k s' q f ∨ Owed s' q ∨ q ∈ s'.dirty ∨ Sending s' q := by
  rcases r with r | r | r | ⟨pos, g⟩
  · exact .inl (agrees_same x.touch.zone x.touch.other (x.away q hq) r)
  · exact .inr (.inl (x.touch.owed r))
  · exact .inr (.inr (.inl (by rw [x.dirty]; exact r)))
  · exact .inr (.inr (.inr ⟨pos, x.dataFile.trans g⟩))

/-- A local change of a file that is being sent, or open in another program, or about which a notification is waiting. -/
theorem Local.inv {k : Aspect} {s s' : FactSt} {p : Path} {l : List Note} (x : Local s s' p l) (i : FInv k s)
    (hp : ∀ h f, AMap.get s.objs h = some (p, f) →
      Agrees k s' p f ∨ Owed s' p ∨ p ∈ s'.dirty ∨ Sending s' p) : FInv k s' where
  toFBase := x.touch.base i.toFBase (by rw [x.writing, x.touch.next]; exact i.writ)
    fun q ⟨pos, e⟩ => x.touch.disk q (i.isOpen q ⟨pos, x.dataFile.symm.trans e⟩)
  right h q f g := by
    rw [x.objs] at g
    by_cases e : q = p
    · subst e; exact hp h f g
    · exact x.right e (i.right h q f g)
  target q f e g c := by
    rw [x.objs, x.writing] at g
    rw [x.touch.chase] at c
    obtain ⟨pos, d⟩ := i.target q f e g c
    exact ⟨pos, x.dataFile.trans d⟩

end Mtp
