import Verif.Model.ServerProps
import Verif.Lemmas.ServerPlace
import Verif.Lemmas.ServerSpare
import Verif.Lemmas.Factory
import Verif.Lemmas.PropPod
/-! Values of object properties: what the operations do to them. -/
namespace Mtp
open Spec
namespace Server

/-- Object `x` has the same information and persistent id. -/
def Alike (s s' : Server) (x : Nat) : Prop :=
  s'.infoOf x = s.infoOf x ∧ (s'.tree.get x).map (·.puoid) = (s.tree.get x).map (·.puoid)

theorem Alike.prop {s s' : Server} {x : Nat} (h : Alike s s' x) (p : Nat) : s'.prop x p = s.prop x p := by
  unfold Server.prop; rw [h.1, h.2]

/-- From one state to a later one: handles of new objects are new, and the properties in `T` of the objects that are still there
have the values they had. -/
def Steady (T : Nat → Nat → Prop) (s s' : Server) : Prop :=
  s.tree.asked ≤ s'.tree.asked ∧ (ServerOk s → s'.tree.asked < 0xFFFFFFFF → ServerOk s' ∧ ∀ x, s'.tree.has x = true →
    s.tree.asked < x ∨ (s.tree.has x = true ∧ ∀ p, T x p → s'.prop x p = s.prop x p))

theorem Steady.refl (T : Nat → Nat → Prop) (s : Server) : Steady T s s :=
  ⟨Nat.le_refl _, fun w _ => ⟨w, fun _ h => Or.inr ⟨h, fun _ _ => rfl⟩⟩⟩

theorem Quiet.alike {s s' : Server} (q : Quiet s s') (x : Nat) : Alike s s' x :=
  ⟨q.infoOf x, by rw [q.get]⟩

theorem Quiet.has' {s s' : Server} (q : Quiet s s') (x : Nat) : s'.tree.has x = s.tree.has x := by
  unfold Tree.has; rw [q.get]

theorem Steady.of {T : Nat → Nat → Prop} {s s' : Server} (l : Later s s')
    (h : ServerOk s → s'.tree.asked < 0xFFFFFFFF → ∀ x, s'.tree.has x = true →
      s.tree.asked < x ∨ (s.tree.has x = true ∧ ∀ p, T x p → s'.prop x p = s.prop x p)) : Steady T s s' :=
  ⟨l.1, fun w hb => ⟨l.2 w hb, h w hb⟩⟩

theorem Quiet.rest {T : Nat → Nat → Prop} {s s' : Server} (q : Quiet s s') (x : Nat) (hx : s'.tree.has x = true) :
    s.tree.asked < x ∨ (s.tree.has x = true ∧ ∀ p, T x p → s'.prop x p = s.prop x p) :=
  Or.inr ⟨by rw [← q.has' x]; exact hx, fun p _ => (q.alike x).prop p⟩

theorem New.alike {s s' : Server} {p : Nat} {o : ObjInfo} {y : Nat} (n : New s s' p o y) (w : ServerOk s) {x : Nat} (hx : x ≠ y) :
    Alike s s' x := by
  refine ⟨(n.old w x hx).2, ?_⟩
  obtain ⟨pit, hp, _, _, ⟨v, hget⟩, _⟩ := n.parent
  rw [hget, if_neg hx]
  split
  · next e => rw [e, hp]; rfl
  · rfl

theorem New.rest {T : Nat → Nat → Prop} {s s' : Server} {p : Nat} {o : ObjInfo} {y : Nat} (n : New s s' p o y) (w : ServerOk s) (x : Nat)
    (hx : s'.tree.has x = true) :
    s.tree.asked < x ∨ (s.tree.has x = true ∧ ∀ p, T x p → s'.prop x p = s.prop x p) := by
  by_cases e : x = y
  · left; rw [e]; exact n.later
  · right
    refine ⟨?_, fun p _ => (n.alike w e).prop p⟩
    have := (n.alike w e).2
    unfold Tree.has at hx ⊢
    cases h1 : s.tree.get x with
    | some i => rfl
    | none =>
      rw [h1] at this
      cases h2 : s'.tree.get x with
      | none => rw [h2] at hx; exact hx
      | some i => rw [h2] at this; cases this

theorem announce_steady (T : Nat → Nat → Prop) (s : Server) (sid par : Nat) (o : ObjInfo) : Steady T s (s.announce sid par o).1 := by
  refine Steady.of (announce_later ..) fun w hb x hx => ?_
  rcases announce_split s sid par o with e | ⟨o', s', r, h, i, hsl, ha, e⟩
  · rw [e] at hx ⊢; exact Or.inr ⟨hx, fun _ _ => rfl⟩
  · have hs : (s.announce sid par o).1 = s' := by
      rcases e with ⟨_, p, e⟩ | ⟨_, e⟩ <;> rw [e]
    rw [hs] at hx hb ⊢
    rcases addItem_cases w o' par hsl ha hb with ⟨q, _⟩ | ⟨_, n⟩
    · exact q.rest x hx
    · exact n.rest w x hx

theorem addItem_steady (T : Nat → Nat → Prop) (s : Server) (o : ObjInfo) (p : Nat) (hn : plain o.fileName = true) :
    Steady T s (s.addItem o p).1 := by
  refine Steady.of (addItem_later s o p hn) fun w hb x hx => ?_
  cases ha : s.addItem o p with
  | mk s' rh =>
    obtain ⟨r, h⟩ := rh
    rw [ha] at hb hx
    rcases addItem_cases w o p (plain_slash hn) ha hb with ⟨q, _⟩ | ⟨_, n⟩
    · exact q.rest x hx
    · exact n.rest w x hx

theorem addInfo_steady (T : Nat → Nat → Prop) (s : Server) (ps : List Nat) (b : List UInt8) : Steady T s (s.addInfo ps b).1 := by
  unfold addInfo
  split
  · exact Steady.refl T s
  · exact announce_steady ..

theorem addList_steady (T : Nat → Nat → Prop) (s : Server) (ps : List Nat) (b : List UInt8) : Steady T s (s.addList ps b).1 := by
  rcases addList_split s ps b with ⟨c, qs, _, e⟩ | ⟨n, i, _, _, e, _⟩
  · rw [e]; exact Steady.refl T s
  · rw [e]; exact announce_steady ..

theorem Shifted.alike {s s' : Server} {h p : Nat} {P Q : Path} (m : Shifted s s' h p P Q) (w : ServerOk s) {x : Nat} (hx : x ≠ h) :
    Alike s s' x := by
  refine ⟨m.info w x hx, ?_⟩
  cases e : s.tree.get x with
  | none =>
    have : s'.tree.get x = none := by
      cases e1 : s'.tree.get x with
      | none => rfl
      | some iy => obtain ⟨ix, e2⟩ := m.old e1; rw [e] at e2; cases e2
    rw [this]
  | some ix =>
    by_cases hu : Under P ix.path
    · rw [m.rel.below x ix e hu hx]; rfl
    · obtain ⟨ks, e1, _⟩ := m.rel.out x ix e hu
      rw [e1]; rfl

/-- A property of an object whose name or parent changed. -/
theorem Shifted.prop {s s' : Server} {h p : Nat} {P Q : Path} (m : Shifted s s' h p P Q) (w : ServerOk s) {n : Path}
    (hn : ∃ it', s'.tree.get h = some it' ∧ it'.name = n) (c : Nat)
    (hc : c = 0xDC07 → fromPath n = (s.infoOf h).2.fileName) (hp : c = 0xDC0B → p = (s.infoOf h).2.parent) :
    s'.prop h c = s.prop h c := by
  obtain ⟨it, e, _⟩ := m.item
  obtain ⟨h1, h2⟩ := m.told w e hn
  have hid : (s'.tree.get h).map (·.puoid) = (s.tree.get h).map (·.puoid) := by
    obtain ⟨nm, f, e1, _⟩ := m.rel.self it e
    rw [e1, e]; rfl
  unfold Server.prop
  rw [h2, hid]
  revert h1 hc hp
  generalize s.infoOf h = ro
  obtain ⟨r, o⟩ := ro
  intro hc hp h1
  simp only at h1 hc hp ⊢
  subst h1
  simp only
  generalize ((s.tree.get h).map (·.puoid)).getD 0 = id
  unfold ObjInfo.prop
  by_cases a : c = 0xDC07
  · subst a
    simp [hc rfl]
  · by_cases b : c = 0xDC0B
    · subst b
      simp [hp rfl]
    · simp [a, b]

theorem move_steady (s : Server) (h sid p : Nat) :
    Steady (fun x c => (s.move h sid p).2 = .ok → ¬ (x = h ∧ c = 0xDC0B)) s (s.move h sid p).1 := by
  refine Steady.of (move_later ..) fun w hb x hx => ?_
  rcases move_cases' w h sid p with ⟨q, _⟩ | ⟨hok, _, it, pit, e1, e2, m, it', e3, e4, e5, e6⟩
  · exact (q.rest (T := fun _ _ => True) x hx).imp id fun g => ⟨g.1, fun p _ => g.2 p trivial⟩
  · refine Or.inr ⟨by rw [← m.has x]; exact hx, fun c hc => ?_⟩
    by_cases hxh : x = h
    · subst hxh
      refine m.prop w ⟨it', e3, e5⟩ c (fun _ => ?_) (fun e => absurd ⟨rfl, e⟩ (hc hok))
      have hk := w.known x
      rw [has_iff.mpr ⟨_, e1⟩] at hk
      obtain ⟨o, ho⟩ := Option.isSome_iff_exists.mp hk
      unfold infoOf
      rw [e1, ho]
    · exact (m.alike w hxh).prop c

theorem rename_steady (s : Server) (h : Nat) (n : QStr) :
    Steady (fun _ c => c ≠ 0xDC07) s (s.rename h n).1 := by
  refine Steady.of (rename_later ..) fun w hb x hx => ?_
  rcases rename_cases' w h n with q | ⟨hok, it, p, pit, e1, e2, e3, m, it', e4, e5, e6, e7, e8⟩
  · exact (q.rest (T := fun _ _ => True) x hx).imp id fun g => ⟨g.1, fun p _ => g.2 p trivial⟩
  · refine Or.inr ⟨by rw [← m.has x]; exact hx, fun c hc => ?_⟩
    by_cases hxh : x = h
    · subst hxh
      refine m.prop w ⟨it', e4, e6⟩ c (fun e => absurd e hc) (fun _ => ?_)
      have hk := w.known x
      rw [has_iff.mpr ⟨_, e1⟩] at hk
      obtain ⟨o, ho⟩ := Option.isSome_iff_exists.mp hk
      obtain ⟨p', pit', q1, q2, _⟩ := w.wf.parent x it e1 m.notRoot
      rw [e2] at q1
      cases q1
      unfold infoOf
      rw [e1, ho]
      exact q2.symm
    · exact (m.alike w hxh).prop c

theorem delete_steady (T : Nat → Nat → Prop) (s : Server) (h fmt : Nat) : Steady T s (s.delete h fmt).1 := by
  refine Steady.of (Later.of (delete_asked ..) fun w => delete_ok w _ _) fun w hb x hx => ?_
  unfold delete at hx ⊢
  split at hx
  · next hc => rw [if_pos hc]; exact Or.inr ⟨hx, fun _ _ => rfl⟩
  · next hc =>
    rw [if_neg hc]
    obtain ⟨h1, h2⟩ := deleteItem_spec w.wf h fmt
    have hx' : (s.tree.deleteItem h fmt).1.has x = true := hx
    refine Or.inr ⟨?_, fun p _ => Alike.prop ⟨((dropGone_ok w h1 h2).2 x hx').2, ?_⟩ p⟩
    · obtain ⟨i, e⟩ := has_iff.mp hx'
      rcases h2.item x with g | ⟨ix, e1, _⟩
      · rw [g] at e; cases e
      · exact has_iff.mpr ⟨_, e1⟩
    · obtain ⟨i, e⟩ := has_iff.mp hx'
      show ((s.tree.deleteItem h fmt).1.get x).map (·.puoid) = _
      rcases h2.item x with g | ⟨ix, e1, e2⟩
      · rw [g] at e; cases e
      · rw [e1, e2]; rfl

/-- The properties that writing to a file changes. -/
def written (p : Nat) : Prop := p = 0xDC04 ∨ p = 0xDC08 ∨ p = 0xDC09 ∨ p = 0xDC4E

/-- Only sizes and dates may be different. -/
def Touched (s s' : Server) : Prop :=
  s'.tree = s.tree ∧ ∀ x, AMap.get s'.infos x = AMap.get s.infos x ∨
    ∃ o a b c, AMap.get s.infos x = some o ∧ AMap.get s'.infos x = some { o with size := a, captureDate := b, modDate := c }

theorem Touched.refl (s : Server) : Touched s s := ⟨rfl, fun _ => Or.inl rfl⟩

theorem Touched.trans {a b c : Server} (h1 : Touched a b) (h2 : Touched b c) : Touched a c := by
  refine ⟨h2.1.trans h1.1, fun x => ?_⟩
  rcases h1.2 x with e1 | ⟨o, s1, b1, c1, e1, f1⟩
  · rcases h2.2 x with e2 | ⟨o, s1, b1, c1, e2, f2⟩
    · exact Or.inl (e2.trans e1)
    · exact Or.inr ⟨o, s1, b1, c1, e1 ▸ e2, f2⟩
  · rcases h2.2 x with e2 | ⟨o2, s2, b2, c2, e2, f2⟩
    · exact Or.inr ⟨o, s1, b1, c1, e1, e2.trans f1⟩
    · rw [f1] at e2
      cases e2
      exact Or.inr ⟨o, s2, b2, c2, e1, f2⟩

theorem Touched.prop {s s' : Server} (t : Touched s s') (x : Nat) {p : Nat} (hp : ¬ written p) : s'.prop x p = s.prop x p := by
  unfold written at hp
  unfold Server.prop infoOf
  rw [t.1]
  rcases t.2 x with e | ⟨o, a, b, c, e1, e2⟩
  · rw [e]
  · rw [e1, e2]
    cases s.tree.get x with
    | none => rfl
    | some it =>
      simp only [ObjInfo.prop]
      simp only [not_or] at hp
      simp [hp.1, hp.2.1, hp.2.2.1, hp.2.2.2]

theorem absorb_touched (s : Server) (f : FStore) (h : Nat) : Touched s (s.absorb f h) := by
  refine ⟨rfl, fun x => ?_⟩
  unfold absorb
  simp only
  split
  · next o it e1 e2 =>
    rw [AMap.get_insert]
    by_cases hx : x = h
    · subst hx
      exact Or.inr ⟨o, it.size, o.captureDate, o.modDate, e1, by simp⟩
    · simp [hx]
  · exact Or.inl rfl

theorem tick_touched (s : Server) : Touched s s.tickCall := ⟨rfl, fun _ => Or.inl rfl⟩

theorem redate_touched (s : Server) (h : Nat) (c : Bool) : Touched s (s.redate h c) := by
  unfold redate
  split
  · next o e =>
    refine ⟨rfl, fun x => ?_⟩
    rw [AMap.get_insert]
    by_cases hx : x = h
    · subst hx
      exact Or.inr ⟨o, o.size, s.times.stamp s.calls o.modDate, s.times.stamp s.calls o.modDate, e, by simp⟩
    · simp [hx]
  · exact Touched.refl s

theorem write_touched (s : Server) (h : Nat) (b : Option (List UInt8)) (f l : Bool) : Touched s (s.write h b f l).1 := by
  unfold write
  split
  · exact Touched.refl s
  · exact ((absorb_touched ..).trans (tick_touched _)).trans (redate_touched ..)

theorem truncate_touched (s : Server) (h n : Nat) : Touched s (s.truncate h n).1 := by
  unfold truncate
  split
  · exact Touched.refl s
  · exact (absorb_touched ..).trans (tick_touched _)

theorem writePartial_touched (s : Server) (h o : Nat) (b : List UInt8) (f l : Bool) : Touched s (s.writePartial h o b f l).1 := by
  unfold writePartial
  split
  · exact Touched.refl s
  · split
    · exact ((absorb_touched ..).trans (tick_touched _)).trans (redate_touched ..)
    · exact Touched.refl s

theorem Touched.steady {s s' : Server} (t : Touched s s') (l : Later s s') : Steady (fun _ p => ¬ written p) s s' :=
  Steady.of l fun _ _ x hx => Or.inr ⟨by rw [← t.1]; exact hx, fun _ hp => t.prop x hp⟩

theorem Steady.mono {T U : Nat → Nat → Prop} {s s' : Server} (h : Steady T s s') (hu : ∀ x p, U x p → T x p) : Steady U s s' :=
  ⟨h.1, fun w hb => ⟨(h.2 w hb).1, fun x hx => (h.2 w hb).2 x hx |>.imp id fun g => ⟨g.1, fun p hp => g.2 p (hu x p hp)⟩⟩⟩

theorem Steady.trans {T : Nat → Nat → Prop} {a b c : Server} (h1 : Steady T a b) (h2 : Steady T b c) :
    Steady T a c := by
  refine ⟨Nat.le_trans h1.1 h2.1, fun w hb => ?_⟩
  obtain ⟨w1, k1⟩ := h1.2 w (Nat.lt_of_le_of_lt h2.1 hb)
  obtain ⟨w2, k2⟩ := h2.2 w1 hb
  refine ⟨w2, fun x hx => ?_⟩
  rcases k2 x hx with g | ⟨g1, g2⟩
  · exact Or.inl (Nat.lt_of_le_of_lt h1.1 g)
  · rcases k1 x g1 with g | ⟨g3, g4⟩
    · exact Or.inl g
    · exact Or.inr ⟨g3, fun p hp => (g2 p hp).trans (g4 p hp)⟩

/-- A copy changes sizes and dates only. -/
theorem steps_steady : Steps (Steady fun _ p => ¬ written p) where
  refl := Steady.refl _
  trans _ _ _ := Steady.trans
  tick s := Steady.of (tick_later s) fun _ _ x hx => Or.inr ⟨hx, fun _ _ => rfl⟩
  add := addItem_steady _
  write s y b f l := (write_touched s y b f l).steady (write_later s y b f l)
  delete s y := delete_steady _ s y _

end Server
end Mtp
