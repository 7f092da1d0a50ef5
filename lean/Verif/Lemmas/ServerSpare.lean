import Verif.Lemmas.Spare
import Verif.Lemmas.ServerUpload
import Verif.Lemmas.ServerMove
import Verif.Lemmas.ServerRun
import Verif.Props.Delete
/-! An object of the storage that is not addressed is left alone (for C88). -/
namespace Mtp
open Spec
namespace Server

/-- The file of `x` is not the open one. -/
def Away (x : Nat) (s : Server) : Prop :=
  ∀ ix p n, s.tree.get x = some ix → ix.fmt ≠ ASSOC → s.dataFile = some (p, n) → p ≠ String.ofList ix.path

/-- `x` is the same object before and after. -/
structure Safe (x : Nat) (s s' : Server) : Prop where
  item : ∀ ix, s.tree.get x = some ix → ∃ iy, s'.tree.get x = some iy ∧ iy.fmt = ix.fmt
  away : Away x s → Away x s'
  contents : Away x s → Spec.contents s' x = Spec.contents s x
  infos : AMap.get s'.infos x = AMap.get s.infos x

theorem Safe.has {x : Nat} {s s' : Server} (h : Safe x s s') (hx : s.tree.has x = true) : s'.tree.has x = true := by
  obtain ⟨ix, e⟩ := has_iff.mp hx
  obtain ⟨iy, e', _⟩ := h.item ix e
  exact has_iff.mpr ⟨iy, e'⟩

theorem Safe.refl (x : Nat) (s : Server) : Safe x s s := ⟨fun ix e => ⟨ix, e, rfl⟩, id, fun _ => rfl, rfl⟩

theorem Safe.trans {x : Nat} {a b c : Server} (h1 : Safe x a b) (h2 : Safe x b c) : Safe x a c := by
  refine ⟨fun ix e => ?_, fun h => h2.away (h1.away h), fun h => (h2.contents (h1.away h)).trans (h1.contents h),
    h2.infos.trans h1.infos⟩
  obtain ⟨iy, e1, f1⟩ := h1.item ix e
  obtain ⟨iz, e2, f2⟩ := h2.item iy e1
  exact ⟨iz, e2, f2.trans f1⟩

/-- From one state to a later one, in which `x` is still the same. -/
structure Survives (x : Nat) (s s' : Server) : Prop where
  later : Later s s'
  ios : s'.ios = s.ios
  sid : s'.sid = s.sid
  safe : ServerOk s → s'.tree.asked < 0xFFFFFFFF → s.tree.has x = true → Safe x s s'

theorem Survives.refl (x : Nat) (s : Server) : Survives x s s := ⟨Later.refl s, rfl, rfl, fun _ _ _ => Safe.refl x s⟩

theorem Survives.trans {x : Nat} {a b c : Server} (h1 : Survives x a b) (h2 : Survives x b c) : Survives x a c := by
  refine ⟨⟨Nat.le_trans h1.later.1 h2.later.1, fun w hb => h2.later.2 (h1.later.2 w (Nat.lt_of_le_of_lt h2.later.1 hb)) hb⟩,
    h2.ios.trans h1.ios, h2.sid.trans h1.sid, fun w hb hx => ?_⟩
  have hb' := Nat.lt_of_le_of_lt h2.later.1 hb
  have s1 := h1.safe w hb' hx
  exact s1.trans (h2.safe (h1.later.2 w hb') hb (s1.has hx))

theorem Quiet.safe {s s' : Server} (q : Quiet s s') (x : Nat) : Safe x s s' := by
  refine ⟨fun ix e => ⟨ix, (q.get x).trans e, rfl⟩, fun h ix p n e f d => ?_, fun _ => q.contents x, by rw [q.infos]⟩
  exact h ix p n ((q.get x).symm.trans e) f (by rw [← q.dataFile]; exact d)

theorem path_nonempty {t : Tree} (w : TreeWF t) {x : Nat} {ix : Item} (e : t.get x = some ix) (h0 : x ≠ 0) :
    String.ofList ix.path ≠ "" := by
  obtain ⟨p, pit, _, _, _, _, hp, _⟩ := w.parent x ix e h0
  intro h
  have : ix.path = [] := ofList_inj (b := []) h
  rw [hp] at this
  simp [join] at this

theorem Shifted.safe {s s' : Server} {h p : Nat} {P Q : Path} (m : Shifted s s' h p P Q) (w : ServerOk s) {x : Nat}
    (h0 : x ≠ 0) : Safe x s s' := by
  refine ⟨fun ix e => ?_, fun ha ix' p' n e' f' d' => ?_, fun _ => (m.contents w x).1, by rw [m.infos]⟩
  · obtain ⟨iy, e1, e2, _⟩ := m.new e
    exact ⟨iy, e1, e2⟩
  · obtain ⟨ix, e⟩ := m.old e'
    obtain ⟨iy, g1, g2, g3, _⟩ := m.new e
    rw [e'] at g1
    cases g1
    rw [g3]
    rw [m.dataFile] at d'
    cases hd : s.dataFile with
    | none => rw [hd] at d'; cases d'
    | some pn =>
      rw [hd] at d'
      obtain ⟨p0, n0⟩ := pn
      simp only [Option.map_some, Option.some.injEq, Prod.mk.injEq] at d'
      obtain ⟨d1, _⟩ := d'
      have hne := ha ix p0 n0 e (by rw [← g2]; exact f') hd
      split at d1
      · next hp0 =>
        rw [← d1, hp0]
        intro h
        rw [← g3] at h
        exact path_nonempty m.wf e' h0 h.symm
      · next hp0 =>
        rw [← d1]
        intro h
        rcases w.openFile p0 n0 hd with h1 | h1
        · exact hp0 h1
        · exact hne (m.inj w h1 (file_of w e (by rw [← g2]; exact f')) h)

theorem New.safe {s s' : Server} {p : Nat} {o : ObjInfo} {y : Nat} (n : New s s' p o y) (w : ServerOk s) {x : Nat}
    (hx : s.tree.has x = true) : Safe x s s' := by
  have hxy : x ≠ y := by rintro rfl; rw [has_false.mpr n.fresh] at hx; cases hx
  obtain ⟨pit, hp, hpf, hfree, ⟨v, hget⟩, hfiles⟩ := n.parent
  have hg := hget x
  rw [if_neg hxy] at hg
  have item : ∀ ix, s.tree.get x = some ix → ∃ iy, s'.tree.get x = some iy ∧ iy.fmt = ix.fmt ∧ iy.path = ix.path := by
    intro ix e
    rw [hg]
    by_cases h : x = p
    · subst h
      rw [e] at hp
      cases hp
      exact ⟨_, if_pos rfl, rfl, rfl⟩
    · exact ⟨ix, by rw [if_neg h]; exact e, rfl, rfl⟩
  refine ⟨fun ix e => ?_, fun ha ix' p' n' e' f' d' => ?_, fun _ => (n.old w x hxy).1, ?_⟩
  · obtain ⟨iy, a, b, _⟩ := item ix e
    exact ⟨iy, a, b⟩
  · obtain ⟨ix, e⟩ := has_iff.mp hx
    obtain ⟨iy, a, b, c⟩ := item ix e
    rw [e'] at a
    cases a
    rw [c]
    exact ha ix p' n' e (by rw [← b]; exact f') (by rw [← n.dataFile]; exact d')
  · rw [n.infos, AMap.get_insert, if_neg hxy]

theorem absorb_safe {s : Server} (w : ServerOk s) {f : FStore} {h : Nat} {it : Item} (e : s.tree.get h = some it)
    (sm : FStore.Same s.view f h (String.ofList it.path)) {x : Nat} (hx : x ≠ h) : Safe x s (s.absorb f h).tickCall := by
  refine ⟨fun ix e => ⟨ix, e, rfl⟩, fun ha ix p n ex hf hd => ?_, fun ha => ?_, ?_⟩
  · rcases sm.open_ p n hd with ⟨k, hk⟩ | ⟨hk, _⟩
    · exact ha ix p k ex hf hk
    · rw [hk]; exact path_ne w e ex (Ne.symm hx)
  · unfold Spec.contents
    show (match s.tree.get x with
      | some it => if it.fmt = ASSOC then none else AMap.get f.files (String.ofList it.path)
      | none => none) = _
    cases ex : s.tree.get x with
    | some ix =>
      simp only
      split
      · rfl
      · next hf => exact sm.other _ (path_ne w ex e hx) fun n ed => ha ix _ n ex hf ed rfl
    | none => rfl
  · show AMap.get (match AMap.get s.infos h, AMap.get f.items h with
      | some o, some it => AMap.insert s.infos h { o with size := it.size }
      | _, _ => s.infos) x = _
    split
    · rw [AMap.get_insert, if_neg hx]
    · rfl

theorem Safe.redate {s s' : Server} {x h : Nat} (a : Safe x s s') (hx : x ≠ h) (c : Bool) : Safe x s (s'.redate h c) := by
  obtain ⟨i, e, e1, _⟩ := redate_spec s' h c
  rw [e]
  exact ⟨a.1, a.2, a.3, (e1 x hx).trans a.4⟩

theorem write_same (s : Server) (h : Nat) (b : Option (List UInt8)) (f l : Bool) :
    (s.write h b f l).1.ios = s.ios ∧ (s.write h b f l).1.sid = s.sid := by
  unfold write
  split
  · exact ⟨rfl, rfl⟩
  · generalize hS : (s.absorb (s.view.writeData (s.ioFor h) h b f l).1 h).tickCall = S
    obtain ⟨i, e, _⟩ := redate_spec S h (l && b.isNone && s.dataFile.isSome)
    rw [e, ← hS]
    exact ⟨rfl, rfl⟩

theorem writePartial_same (s : Server) (h o : Nat) (b : List UInt8) (f l : Bool) :
    (s.writePartial h o b f l).1.ios = s.ios ∧ (s.writePartial h o b f l).1.sid = s.sid := by
  unfold writePartial
  split
  · exact ⟨rfl, rfl⟩
  · split
    · next F r _ =>
      generalize hS : (s.absorb F h).tickCall = S
      obtain ⟨i, e, _⟩ := redate_spec S h (F.dataFile.isNone && if f = true then (s.ioFor h).openOk else s.dataFile.isSome)
      rw [e, ← hS]
      exact ⟨rfl, rfl⟩
    · exact ⟨rfl, rfl⟩

theorem write_safe {s : Server} (w : ServerOk s) (h : Nat) (b : Option (List UInt8)) (f l : Bool) {x : Nat} (hx : h ≠ x) :
    Safe x s (s.write h b f l).1 := by
  unfold write
  split
  · exact Safe.refl x s
  · next hh =>
    obtain ⟨it, e⟩ := has_iff.mp (by simpa using hh)
    have hv := view_item s h
    rw [e] at hv
    exact (absorb_safe w e (FStore.writeData_same _ _ _ _ _ _ _ hv (fun ho => ioFor_open w e ho)) (Ne.symm hx)).redate (Ne.symm hx) _

theorem truncate_safe {s : Server} (w : ServerOk s) (h n : Nat) {x : Nat} (hx : h ≠ x) : Safe x s (s.truncate h n).1 := by
  unfold truncate
  split
  · exact Safe.refl x s
  · next hh =>
    obtain ⟨it, e⟩ := has_iff.mp (by simpa using hh)
    have hv := view_item s h
    rw [e] at hv
    exact absorb_safe w e (FStore.truncateItem_same _ _ _ _ _ hv) (Ne.symm hx)

theorem writePartial_safe {s : Server} (w : ServerOk s) (h off : Nat) (d : List UInt8) (f l : Bool) {x : Nat} (hx : h ≠ x) :
    Safe x s (s.writePartial h off d f l).1 := by
  unfold writePartial
  split
  · exact Safe.refl x s
  · next hh =>
    obtain ⟨it, e⟩ := has_iff.mp (by simpa using hh)
    have hv := view_item s h
    rw [e] at hv
    split
    · next f' r he =>
      exact (absorb_safe w e (FStore.writePartial_same _ _ _ _ _ _ _ _ _ _ hv (fun ho => ioFor_open w e ho) he) (Ne.symm hx)).redate (Ne.symm hx) _
    · exact Safe.refl x s

theorem delete_kept {s : Server} (w : ServerOk s) (h fmt : Nat) {x : Nat} (h0 : x ≠ 0)
    (hx' : (s.tree.deleteItem h fmt).1.has x = true) : Safe x s (s.delete h fmt).1 := by
  unfold delete
  split
  · exact Safe.refl x s
  · obtain ⟨h1, h2⟩ := deleteItem_spec w.wf h fmt
    obtain ⟨d1, d2⟩ := dropGone_ok w h1 h2
    obtain ⟨iy, ey⟩ := has_iff.mp hx'
    rcases h2.item x with hn | ⟨ix, e, hg⟩
    · rw [hn] at ey; cases ey
    refine ⟨fun iz ez => ?_, fun ha iy p n ey hf hd => ?_, fun _ => (d2 x hx').1, ?_⟩
    · rw [e] at ez; cases ez
      exact ⟨_, hg, rfl⟩
    · have ey' : (s.tree.deleteItem h fmt).1.get x = some iy := ey
      rw [hg] at ey'
      cases ey'
      have hd' : (s.dataFile.map fun e => if (AMap.get (s.tree.deleteItem h fmt).1.paths e.1.toList).isSome then e else ("", e.2)) =
        some (p, n) := hd
      cases hs : s.dataFile with
      | none => rw [hs] at hd'; cases hd'
      | some pn =>
        rw [hs] at hd'
        simp only [Option.map_some, Option.some.injEq] at hd'
        split at hd'
        · subst hd'
          exact ha ix p n e hf hs
        · cases hd'
          exact (path_nonempty w.wf e h0).symm
    · show AMap.get (s.infos.filter fun e => (s.tree.deleteItem h fmt).1.has e.1) x = _
      rw [AMap.get_filterKey (fun k => (s.tree.deleteItem h fmt).1.has k), if_pos hx']

theorem delete_safe {s : Server} (w : ServerOk s) (h fmt : Nat) (hall : h ≠ ALL) {x : Nat} (h0 : x ≠ 0)
    (hx : s.tree.has x = true) (hb : ¬ Below s.tree h x) : Safe x s (s.delete h fmt).1 := by
  obtain ⟨ix, e⟩ := has_iff.mp hx
  exact delete_kept w h fmt h0 (has_iff.mpr ⟨_, (Props.C19_others_unchanged w.wf h fmt hall).1 x ix e hb⟩)

theorem announce_split (s : Server) (sid par : Nat) (o : ObjInfo) :
    s.announce sid par o = (s, .generalError, [], 0) ∨
    ∃ o' s' r h i, '/' ∉ toPath o'.fileName ∧ s.addItem o' par = (s', r, h) ∧
      ((r = .ok ∧ ∃ p, s.announce sid par o = (s', .ok, [i, p, h], h)) ∨ (r ≠ .ok ∧ s.announce sid par o = (s', r, [], 0))) := by
  unfold announce
  simp only
  generalize (if sid = 0 then 0x00010001 else sid) = sid
  by_cases hc : sid ≠ s.sid ∨ plain o.fileName = false
  · rw [if_pos hc]; exact Or.inl rfl
  · have hpl : plain o.fileName = true := by
      cases hp : plain o.fileName with
      | true => rfl
      | false => exact absurd (Or.inr hp) hc
    right
    have hsl := plain_slash hpl
    generalize ho : ({ o with parent := par } : ObjInfo) = o'
    have hsl' : '/' ∉ toPath o'.fileName := by rw [← ho]; exact hsl
    cases ha : s.addItem o' par with
    | mk s' rh =>
      obtain ⟨r, h⟩ := rh
      refine ⟨o', s', r, h, sid, hsl', ha, ?_⟩
      rw [if_neg hc]
      by_cases hr : r = .ok
      · subst hr
        exact Or.inl ⟨rfl, _, rfl⟩
      · refine Or.inr ⟨hr, ?_⟩
        split
        · next e => cases e; exact absurd rfl hr
        · next e => cases e; rfl

theorem announce_safe {s : Server} (w : ServerOk s) (sid par : Nat) (o : ObjInfo) {x : Nat} (hx : s.tree.has x = true)
    (hb : (s.announce sid par o).1.tree.asked < 0xFFFFFFFF) : Safe x s (s.announce sid par o).1 := by
  rcases announce_split s sid par o with e | ⟨o', s', r, h, i, hs, ha, e⟩
  · rw [e]; exact Safe.refl x s
  · have e1 : (s.announce sid par o).1 = s' := by rcases e with ⟨_, p, e⟩ | ⟨_, e⟩ <;> rw [e]
    rw [e1] at hb ⊢
    rcases addItem_cases w _ _ hs ha hb with ⟨q, _⟩ | ⟨_, n⟩
    · exact q.safe x
    · exact n.safe w hx

theorem announce_same (s : Server) (sid par : Nat) (o : ObjInfo) :
    (s.announce sid par o).1.ios = s.ios ∧ (s.announce sid par o).1.sid = s.sid := by
  have key : ∀ o par, (s.addItem o par).1.ios = s.ios ∧ (s.addItem o par).1.sid = s.sid := by
    intro o par
    unfold addItem
    simp only
    split
    · split
      · exact ⟨rfl, rfl⟩
      · split <;> exact ⟨rfl, rfl⟩
    · exact ⟨rfl, rfl⟩
  rcases announce_split s sid par o with e | ⟨o', s', r, h, i, hs, ha, e⟩
  · rw [e]; exact ⟨rfl, rfl⟩
  · have e1 : (s.announce sid par o).1 = s' := by rcases e with ⟨_, p, e⟩ | ⟨_, e⟩ <;> rw [e]
    have := key o' par
    rw [ha] at this
    rw [e1]
    exact this

theorem announce_named (s : Server) (sid par : Nat) (o : ObjInfo) (h : (s.announce sid par o).2.1 = .ok) :
    ∃ i p, (s.announce sid par o).2.2.1 = [i, p, (s.announce sid par o).2.2.2] := by
  rcases announce_split s sid par o with e | ⟨o', s', r, x, i, hs, ha, ⟨_, p, e⟩ | ⟨hr, e⟩⟩
  · rw [e] at h; cases h
  · rw [e]; exact ⟨i, p, rfl⟩
  · rw [e] at h; exact absurd h hr

theorem addInfo_safe {s : Server} (w : ServerOk s) (ps : List Nat) (b : List UInt8) {x : Nat} (hx : s.tree.has x = true)
    (hb : (s.addInfo ps b).1.tree.asked < 0xFFFFFFFF) : Safe x s (s.addInfo ps b).1 := by
  unfold addInfo at hb ⊢
  split
  · exact Safe.refl x s
  · next h => rw [h] at hb; exact announce_safe w _ _ _ hx hb

theorem addInfo_same (s : Server) (ps : List Nat) (b : List UInt8) : (s.addInfo ps b).1.ios = s.ios ∧ (s.addInfo ps b).1.sid = s.sid := by
  unfold addInfo
  split
  · exact ⟨rfl, rfl⟩
  · exact announce_same ..

theorem addInfo_named (s : Server) (ps : List Nat) (b : List UInt8) (h : (s.addInfo ps b).2.1 = .ok) :
    ∃ i p, (s.addInfo ps b).2.2.1 = [i, p, (s.addInfo ps b).2.2.2] := by
  unfold addInfo at h ⊢
  split
  · next e => rw [e] at h; cases h
  · next e => rw [e] at h; exact announce_named _ _ _ _ h

theorem addList_safe {s : Server} (w : ServerOk s) (ps : List Nat) (b : List UInt8) {x : Nat} (hx : s.tree.has x = true)
    (hb : (s.addList ps b).1.tree.asked < 0xFFFFFFFF) : Safe x s (s.addList ps b).1 := by
  rcases addList_split s ps b with ⟨c, qs, _, e⟩ | ⟨name, i, _, _, e, _⟩
  · rw [e]; exact Safe.refl x s
  · rw [e] at hb ⊢; exact announce_safe w _ _ _ hx hb

theorem addList_same (s : Server) (ps : List Nat) (b : List UInt8) : (s.addList ps b).1.ios = s.ios ∧ (s.addList ps b).1.sid = s.sid := by
  rcases addList_split s ps b with ⟨c, qs, _, e⟩ | ⟨name, i, _, _, e, _⟩
  · rw [e]; exact ⟨rfl, rfl⟩
  · rw [e]; exact announce_same ..

theorem addList_named (s : Server) (ps : List Nat) (b : List UInt8) :
    (s.addList ps b).2.2.2 = 0 ∨ ∃ i p, (s.addList ps b).2.2.1 = [i, p, (s.addList ps b).2.2.2] := by
  rcases addList_split s ps b with ⟨c, qs, _, e⟩ | ⟨name, i, _, _, _, _, e⟩
  · rw [e]; exact Or.inl rfl
  · split at e
    · next hc => right; rw [e]; exact announce_named _ _ _ _ hc
    · left; rw [e]

/-- `x` is there, and not in the place `D` or below it. -/
structure Far (x : Nat) (D : Path) (s : Server) : Prop where
  ok : ServerOk s
  there : ∃ ix, s.tree.get x = some ix ∧ ¬ Under D ix.path

/-- `x` is the same, and all objects are where they were, unless they are gone. -/
structure Left (x : Nat) (s s' : Server) : Prop where
  safe : Safe x s s'
  paths : ∀ z iz', z ≤ s.tree.asked → s'.tree.get z = some iz' → ∃ iz, s.tree.get z = some iz ∧ iz'.path = iz.path

/-- If `y` is there it is in the place `D` or below it. -/
def Within (D : Path) (y : Nat) (s : Server) : Prop := y ≤ s.tree.asked ∧ ∀ iy, s.tree.get y = some iy → Under D iy.path

theorem Left.refl (x : Nat) (s : Server) : Left x s s := ⟨Safe.refl x s, fun _ iz _ e => ⟨iz, e, rfl⟩⟩

theorem Left.trans {x : Nat} {a b c : Server} (h1 : Left x a b) (hl : Later a b) (h2 : Left x b c) : Left x a c := by
  refine ⟨h1.safe.trans h2.safe, fun z iz hz e => ?_⟩
  obtain ⟨i1, e1, p1⟩ := h2.paths z iz (Nat.le_trans hz hl.1) e
  obtain ⟨i2, e2, p2⟩ := h1.paths z i1 hz e1
  exact ⟨i2, e2, p1.trans p2⟩

theorem Far.le {x : Nat} {D : Path} {s : Server} (f : Far x D s) : x ≤ s.tree.asked := by
  obtain ⟨ix, e, _⟩ := f.there
  exact f.ok.issued x ix e

theorem Far.next {x : Nat} {D : Path} {s s' : Server} (f : Far x D s) (hl : Later s s') (h : Left x s s')
    (hb : s'.tree.asked < 0xFFFFFFFF) : Far x D s' := by
  obtain ⟨ix, e, hu⟩ := f.there
  obtain ⟨iy, e', _⟩ := h.safe.item ix e
  obtain ⟨iz, e2, hp⟩ := h.paths x iy f.le e'
  rw [e] at e2
  cases e2
  exact ⟨hl.2 f.ok hb, iy, e', by rw [hp]; exact hu⟩

theorem Within.next {x : Nat} {D : Path} {y : Nat} {s s' : Server} (f : Within D y s) (hl : Later s s') (h : Left x s s') :
    Within D y s' := by
  refine ⟨Nat.le_trans f.1 hl.1, fun iy e => ?_⟩
  obtain ⟨iz, e1, hp⟩ := h.paths y iy f.1 e
  rw [hp]
  exact f.2 iz e1

theorem Within.ne {x : Nat} {D : Path} {y : Nat} {s : Server} (f : Within D y s) (g : Far x D s) : y ≠ x := by
  rintro rfl
  obtain ⟨ix, e, hu⟩ := g.there
  exact hu (f.2 ix e)

theorem tick_left (x : Nat) (s : Server) : Left x s s.tickCall :=
  ⟨Quiet.safe (s := s) (s' := s.tickCall) ⟨rfl, rfl, rfl, rfl, Nat.le_refl _, rfl, rfl, rfl, rfl⟩ x, fun _ iz _ e => ⟨iz, e, rfl⟩⟩

theorem write_left {x : Nat} {s : Server} (w : ServerOk s) (y : Nat) (hy : y ≠ x) (b : Option (List UInt8)) (f l : Bool) :
    Left x s (s.write y b f l).1 :=
  ⟨write_safe w y b f l hy, fun z iz _ e => ⟨iz, by rw [write_tree] at e; exact e, rfl⟩⟩

theorem delete_paths {s : Server} (w : ServerOk s) (h fmt z : Nat) (iz : Item) (e : (s.delete h fmt).1.tree.get z = some iz) :
    ∃ i, s.tree.get z = some i ∧ iz.path = i.path := by
  unfold delete at e
  split at e
  · exact ⟨iz, e, rfl⟩
  · rcases (deleteItem_spec w.wf h fmt).2.item z with hn | ⟨i, e1, e2⟩
    · have e' : (s.tree.deleteItem h fmt).1.get z = some iz := e
      rw [hn] at e'; cases e'
    · have e' : (s.tree.deleteItem h fmt).1.get z = some iz := e
      rw [e2] at e'; cases e'
      exact ⟨i, e1, rfl⟩

theorem delete_left {x : Nat} (h0 : x ≠ 0) {D : Path} {s : Server} (g : Far x D s) {y : Nat} (f : Within D y s)
    (hb : s.tree.asked < 0xFFFFFFFF) (fmt : Nat) : Left x s (s.delete y fmt).1 := by
  obtain ⟨ix, e, hu⟩ := g.there
  have hy : y ≠ ALL := by have := f.1; unfold ALL; omega
  refine ⟨?_, fun z iz _ e => delete_paths g.ok _ _ _ _ e⟩
  cases hh : s.tree.get y with
  | none =>
    unfold delete
    rw [if_pos ⟨hy, has_false.mpr hh⟩]
    exact Safe.refl x s
  | some iy => exact delete_safe g.ok y fmt hy h0 (has_iff.mpr ⟨ix, e⟩) fun hbl => hu ((f.2 iy hh).trans ((g.ok.wf.below_iff hh e).mp hbl))

theorem delete_root_left {x : Nat} (h0 : x ≠ 0) {D : Path} {s : Server} (g : Far x D s) (fmt : Nat) : Left x s (s.delete 0 fmt).1 := by
  obtain ⟨ix, e, hu⟩ := g.there
  refine ⟨delete_kept g.ok 0 fmt h0 ?_, fun z iz _ e => delete_paths g.ok _ _ _ _ e⟩
  have hd : (s.tree.deleteItem 0 fmt).1 = s.tree := by
    unfold Tree.deleteItem
    rw [if_neg (by decide)]
    unfold Tree.del
    split
    · rfl
    · split
      · rfl
      · rw [if_pos rfl]
  rw [hd]
  exact has_iff.mpr ⟨ix, e⟩

theorem add_left {x : Nat} {D : Path} {s : Server} (g : Far x D s) (o : ObjInfo) (p : Nat) (hs : '/' ∉ toPath o.fileName)
    (hp : ∀ pit, s.tree.get (if p = ALL then 0 else p) = some pit → Under D (join pit.path (toPath o.fileName)))
    (hb : (s.addItem o p).1.tree.asked < 0xFFFFFFFF) :
    Left x s (s.addItem o p).1 ∧ ((s.addItem o p).2.1 = .ok → Within D (s.addItem o p).2.2 (s.addItem o p).1) := by
  have hbb := addItem_asked s o p
  cases ha : s.addItem o p with
  | mk s' rh =>
    obtain ⟨r, y⟩ := rh
    rw [ha] at hb hbb
    rcases addItem_cases g.ok _ _ hs ha hb with ⟨q, hq⟩ | ⟨hr, n⟩
    · refine ⟨⟨q.safe x, fun z iz _ e => ⟨iz, (q.get z).symm.trans e, rfl⟩⟩, fun hr => ?_⟩
      obtain ⟨h1, pit, h2, h3⟩ := hq hr
      obtain ⟨iy, ey⟩ := has_iff.mp h1
      refine ⟨Nat.le_trans (g.ok.issued y iy ey) hbb, fun iz ez => ?_⟩
      have e1 : s.tree.get y = some iz := (q.get y).symm.trans ez
      obtain ⟨i2, e2, hp2⟩ := g.ok.wf.ofPath _ _ h3
      rw [e1] at e2
      cases e2
      rw [hp2]
      exact hp pit h2
    · obtain ⟨ix, e, hu⟩ := g.there
      generalize (if p = ALL then 0 else p) = p at n hp
      refine ⟨⟨n.safe g.ok (has_iff.mpr ⟨ix, e⟩), fun z iz hz ez => ?_⟩, fun _ => ⟨?_, fun iz ez => ?_⟩⟩
      · obtain ⟨pit, hp', _, _, ⟨v, hget⟩, _⟩ := n.parent
        have hz' := n.later
        rw [hget z, if_neg (by omega)] at ez
        split at ez
        · next hzp => subst hzp; cases ez; exact ⟨pit, hp', rfl⟩
        · exact ⟨iz, ez, rfl⟩
      · obtain ⟨pit, hp', _, _, ⟨v, hget⟩, _⟩ := n.parent
        exact n.issued y _ ((hget y).trans (if_pos rfl))
      · obtain ⟨pit, hp', _, _, ⟨v, hget⟩, _⟩ := n.parent
        have e2 : s'.tree.get y = some iz := ez
        rw [hget y, if_pos rfl] at e2
        cases e2
        exact hp pit hp'

theorem loop_left {x : Nat} (h0 : x ≠ 0) {D : Path} (c : Bool) (a y : Nat) : ∀ (n : Nat) (s : Server) (off rem : Nat),
    Far x D s → Within D y s → s.tree.asked < 0xFFFFFFFF → Left x s (copyLoop c a y n s off rem).1
  | 0, s, _, _, _, _, _ => Left.refl x s
  | n + 1, s, off, rem, g, f, hb => by
    unfold copyLoop
    split
    · exact Left.refl x s
    · simp only
      generalize (if rem ≥ COPY_CHUNK then COPY_CHUNK else rem) = len
      generalize s.view.readData (s.ios s.calls 0) a len off = d
      have t := tick_left x s
      have g1 := g.next (tick_later s) t hb
      have f1 := f.next (tick_later s) t
      split
      · exact t.trans (tick_later s) (delete_left h0 g1 f1 hb _)
      · split
        · exact t
        · have h1 := t.trans (tick_later s) (write_left g1.ok y (f1.ne g1) (some d.2) (decide (off = 0)) false)
          have l1 : Later s _ := (tick_later s).trans (write_later s.tickCall y (some d.2) (decide (off = 0)) false)
          have hb1 : (s.tickCall.write y (some d.2) (decide (off = 0)) false).1.tree.asked < 0xFFFFFFFF := by
            rw [write_tree]; exact hb
          have g2 := g.next l1 h1 hb1
          have f2 := f.next l1 h1
          split
          · exact h1.trans l1 (write_left g2.ok y (f2.ne g2) _ _ _)
          · split
            · exact h1
            · exact h1.trans l1 (loop_left h0 c a y n _ _ _ g2 f2 hb1)

theorem kids_left {x : Nat} {D : Path} {y : Nat} {f : Server → Nat → Server × Resp × Nat}
    (hl : ∀ s k, Later s (f s k).1)
    (hf : ∀ s k, Far x D s → Within D y s → (f s k).1.tree.asked < 0xFFFFFFFF → Left x s (f s k).1) :
    ∀ (ks : List Nat) (s : Server), Far x D s → Within D y s → (copyKids f ks s).1.tree.asked < 0xFFFFFFFF →
      Left x s (copyKids f ks s).1
  | [], s, _, _, _ => Left.refl x s
  | k :: ks, s, g, w, hb => by
    unfold copyKids at hb ⊢
    split
    · next h =>
      rw [if_pos h] at hb
      have hb1 := Nat.lt_of_le_of_lt (steps_later.kids hl ks (f s k).1).1 hb
      have h1 := hf s k g w hb1
      exact h1.trans (hl s k) (kids_left hl hf ks _ (g.next (hl s k) h1 hb1) (w.next (hl s k) h1) hb)
    · next h =>
      rw [if_neg h] at hb
      exact hf s k g w hb

theorem to_left {x : Nat} (h0 : x ≠ 0) {D : Path} (c : Bool) : ∀ (n : Nat) (s : Server) (h p : Nat) (top : Bool) (out : Nat),
    Far x D s → (∀ it pit, s.tree.get h = some it → s.tree.get p = some pit → Under D (join pit.path it.name)) →
    (copyTo c n s h p top out).1.tree.asked < 0xFFFFFFFF →
    Left x s (copyTo c n s h p top out).1 ∧
      ((copyTo c n s h p top out).2.2 = out ∨ Within D (copyTo c n s h p top out).2.2 (copyTo c n s h p top out).1)
  | 0, s, _, _, _, _, _, _, _ => ⟨Left.refl x s, Or.inl rfl⟩
  | n + 1, s, h, p, top, out, g, hd, hb => by
    have hb0 := Nat.lt_of_le_of_lt (steps_later.to c (n + 1) s h p top out).1 hb
    unfold copyTo at hb ⊢
    split
    · exact ⟨Left.refl x s, Or.inl rfl⟩
    · exact ⟨Left.refl x s, Or.inl rfl⟩
    · next it pit hh hp =>
      simp only [hh, hp] at hb
      split
      · exact ⟨Left.refl x s, Or.inl rfl⟩
      · next hi =>
        rw [if_neg hi] at hb
        have hn := info_name (Decidable.of_not_not hi) hh
        split
        · exact ⟨tick_left x s, Or.inl rfl⟩
        · next hroom =>
          rw [if_neg hroom] at hb
          split
          · exact ⟨Left.refl x s, Or.inl rfl⟩
          · next ht =>
            rw [if_neg ht] at hb
            split
            · exact ⟨Left.refl x s, Or.inl rfl⟩
            · next hc =>
              rw [if_neg hc] at hb
              have hc : copyable it.name = true := by simpa using hc
              have hpl : plain ({ (s.infoOf h).2 with parent := p } : ObjInfo).fileName = true := by
                show plain (s.infoOf h).2.fileName = true
                rw [hn]
                exact (copyable_name hc).1
              have hnm : toPath ({ (s.infoOf h).2 with parent := p } : ObjInfo).fileName = it.name := by
                show toPath (s.infoOf h).2.fileName = it.name
                rw [hn]
                exact (copyable_name hc).2
              have hla := addItem_later s { (s.infoOf h).2 with parent := p } p hpl
              have hall : p ≠ ALL := by
                have h1 := g.ok.issued p pit hp
                unfold ALL
                omega
              have hadd := add_left (x := x) (D := D) g { (s.infoOf h).2 with parent := p } p (plain_slash hpl) (by
                intro pit' e
                rw [if_neg hall, hp] at e
                cases e
                rw [hnm]
                exact hd it pit hh hp)
              generalize s.addItem { (s.infoOf h).2 with parent := p } p = a at hadd hla hb ⊢
              simp only at hb ⊢
              split
              · next hok =>
                rw [if_pos hok] at hb
                split
                · next hf =>
                  rw [if_pos hf] at hb
                  have hlk := steps_later.kids (fun s k => steps_later.to c n s k a.2.2 false a.2.2)
                    (((a.1.tree.get h).map (·.kids)).getD []) a.1
                  have hb1 := Nat.lt_of_le_of_lt hlk.1 hb
                  obtain ⟨k1, k2⟩ := hadd hb1
                  have k2 := k2 hok
                  have g1 := g.next hla k1 hb1
                  have hk := kids_left (x := x) (D := D) (y := a.2.2) (fun s k => steps_later.to c n s k a.2.2 false a.2.2)
                    (fun s k g w hb => (to_left h0 c n s k a.2.2 false a.2.2 g (fun it pit _ e =>
                      (w.2 pit e).trans (Under.join ..)) hb).1) _ _ g1 k2 hb
                  exact ⟨k1.trans hla hk, Or.inr (k2.next hlk hk)⟩
                · next hf =>
                  rw [if_neg hf] at hb
                  have hlk := steps_later.data a.1 c h a.2.2
                  have hb1 := Nat.lt_of_le_of_lt hlk.1 hb
                  obtain ⟨k1, k2⟩ := hadd hb1
                  have k2 := k2 hok
                  have g1 := g.next hla k1 hb1
                  have hk : Left x a.1 (a.1.copyData c h a.2.2).1 := by
                    unfold copyData
                    split
                    · exact Left.refl x _
                    · exact loop_left h0 c h _ _ _ _ _ g1 k2 hb1
                  exact ⟨k1.trans hla hk, Or.inr (k2.next hlk hk)⟩
              · next hok =>
                rw [if_neg hok] at hb
                exact ⟨(hadd hb).1, Or.inl rfl⟩

/-- A copy to another place leaves `x` alone. -/
theorem copy_left {x : Nat} (h0 : x ≠ 0) {D : Path} {s : Server} (g : Far x D s) (ps : List Nat) (c : Bool)
    (hd : ∀ it pit, s.tree.get (ps.getD 0 0) = some it → s.tree.get (ps.getD 2 0) = some pit → Under D (join pit.path it.name))
    (hb : (s.copy ps c).1.tree.asked < 0xFFFFFFFF) : Left x s (s.copy ps c).1 := by
  unfold Server.copy at hb ⊢
  split
  · exact Left.refl x s
  · next h1 =>
    rw [if_neg h1] at hb
    split
    · exact Left.refl x s
    · next h2 =>
      rw [if_neg h2] at hb
      split
      · exact Left.refl x s
      · next h3 =>
        rw [if_neg h3] at hb
        simp only at hb ⊢
        have hl := steps_later.to c (Tree.maxLen s.tree.items + 1) s (ps.getD 0 0) (ps.getD 2 0) true 0
        have key := to_left h0 (D := D) c (Tree.maxLen s.tree.items + 1) s (ps.getD 0 0) (ps.getD 2 0) true 0 g hd
        generalize copyTo c (Tree.maxLen s.tree.items + 1) s (ps.getD 0 0) (ps.getD 2 0) true 0 = a at key hl hb ⊢
        split
        · next hf =>
          rw [if_pos hf] at hb
          have hb1 : a.1.tree.asked < 0xFFFFFFFF := by
            have := (delete_later a.1 a.2.2 UNDEF).1
            exact Nat.lt_of_le_of_lt this hb
          obtain ⟨k1, k2⟩ := key hb1
          refine k1.trans hl ?_
          rcases k2 with k2 | k2
          · rw [k2]
            exact delete_root_left h0 (g.next hl k1 hb1) _
          · exact delete_left h0 (g.next hl k1 hb1) k2 hb1 _
        · next hf =>
          rw [if_neg hf] at hb
          exact (key hb).1

theorem steps_same : Steps fun s s' => s'.ios = s.ios ∧ s'.sid = s.sid where
  refl _ := ⟨rfl, rfl⟩
  trans _ _ _ h1 h2 := ⟨h2.1.trans h1.1, h2.2.trans h1.2⟩
  tick _ := ⟨rfl, rfl⟩
  add s o p _ := by
    unfold addItem
    simp only
    split
    · split
      · exact ⟨rfl, rfl⟩
      · split <;> exact ⟨rfl, rfl⟩
    · exact ⟨rfl, rfl⟩
  write := write_same
  delete s y := by unfold delete; split <;> exact ⟨rfl, rfl⟩

/-- A deletion that does not concern `x`. -/
def Other (x : Nat) (s : Server) (h : Nat) : Prop := h ≠ ALL ∧ ¬ Below s.tree h x

/-- A request that does not concern `x`: it neither deletes it nor edits it, nor copies something onto it or a folder it is in. -/
def Elsewhere (x : Nat) (s : Server) (q : List UInt8) : Prop :=
  (cCode q = 0x100B → Other x s (cParam q 0)) ∧ (cCode q = 0x95C4 → cParam q 0 ≠ x) ∧ (cCode q = 0x101A → CopiedElsewhere s q x)

theorem Survives.quiet {x : Nat} {s s' : Server} (h1 : Later s s') (h2 : s'.ios = s.ios) (h3 : s'.sid = s.sid)
    (q : ServerOk s → Safe x s s') : Survives x s s' := ⟨h1, h2, h3, fun w _ _ => q w⟩

theorem tick_survives (x : Nat) (s : Server) : Survives x s s.tickCall :=
  Survives.quiet (tick_later s) rfl rfl fun _ => Quiet.safe (s := s) (s' := s.tickCall) ⟨rfl, rfl, rfl, rfl, Nat.le_refl _, rfl, rfl, rfl, rfl⟩ x

theorem move_survives {x : Nat} (h0 : x ≠ 0) (s : Server) (h sid p : Nat) : Survives x s (s.move h sid p).1 := by
  refine Survives.quiet (move_later ..) (move_same ..).2.2.1 (move_same ..).1 fun w => ?_
  rcases move_cases' w h sid p with ⟨q, _⟩ | ⟨_, _, it, pit, _, _, m, _⟩
  · exact q.safe x
  · exact m.safe w h0

theorem delete_survives {x : Nat} (h0 : x ≠ 0) (s : Server) (h fmt : Nat) (ho : Other x s h) :
    Survives x s (s.delete h fmt).1 := by
  refine ⟨Later.of (delete_asked ..) fun w => delete_ok w _ _, ?_, ?_, fun w _ hx => delete_safe w _ _ ho.1 h0 hx ho.2⟩ <;>
    (unfold delete; split <;> rfl)

theorem sparing (x : Nat) (h0 : x ≠ 0) :
    Rsp.Sparing dev (Elsewhere x) (· ≠ x) (Other x) (fun ps => ∃ i p, ps = [i, p, x]) (Survives x) where
  refl := Survives.refl x
  trans _ _ _ := Survives.trans
  zero := Ne.symm h0
  edit _ _ h e := h.2.1 e
  query s q hq := by
    show Survives x s (query s (cCode q) (cParams q)).1
    unfold query
    simp only
    repeat' split
    all_goals first
      | exact Survives.refl x s
      | exact tick_survives x s
      | exact move_survives h0 s ..
      | exact delete_survives h0 s _ _ (hq.1 (by assumption))
  copy s q b hq hc := by
    show Survives x s (s.copy (cParams q) b).1
    obtain ⟨h1, h2⟩ := steps_same.whole s (cParams q) b
    refine ⟨steps_later.whole s _ _, h1, h2, fun w hb hx => ?_⟩
    obtain ⟨ix, e⟩ := has_iff.mp hx
    cases hh : s.tree.get ((cParams q).getD 0 0) with
    | none =>
      have : s.copy (cParams q) b = (s, .invalidObjectHandle, 0) := by
        unfold Server.copy
        rw [if_pos (has_false.mpr hh)]
      rw [this]
      exact Safe.refl x s
    | some it =>
      cases hp : s.tree.get ((cParams q).getD 2 0) with
      | none =>
        have h0 : (cParams q).getD 2 0 ≠ 0 := by
          intro e0
          obtain ⟨r, hr, _⟩ := w.wf.root
          rw [e0, hr] at hp
          cases hp
        have : (s.copy (cParams q) b).1 = s := by
          unfold Server.copy
          rw [if_neg (by rw [has_iff.mpr ⟨it, hh⟩]; simp)]
          split
          · rfl
          · rw [if_pos ⟨h0, has_false.mpr hp⟩]
        rw [this]
        exact Safe.refl x s
      | some pit =>
        refine (copy_left h0 (D := join pit.path it.name) ⟨w, ix, e, hq.2.2 hc it pit ix hh hp e⟩ (cParams q) b ?_ hb).safe
        intro it' pit' e1 e2
        rw [hh] at e1
        rw [hp] at e2
        cases e1
        cases e2
        exact Under.refl _
  store s c ps b := by
    show Survives x s (store s c ps b).1
    unfold store
    split
    · split
      · exact Survives.refl x s
      · next n _ =>
        refine Survives.quiet (rename_later ..) (rename_same ..).2.2.1 (rename_same ..).1 fun w => ?_
        rcases rename_cases' w (ps.getD 0 0) n with q | ⟨_, it, p, pit, _, _, _, m, _⟩
        · exact q.safe x
        · exact m.safe w h0
    · exact Survives.refl x s
  addInfo s ps b := ⟨addInfo_later s ps b, (addInfo_same s ps b).1, (addInfo_same s ps b).2,
    fun w hb hx => addInfo_safe w ps b hx hb⟩
  announced s ps b h := by
    by_cases hx : (s.addInfo ps b).2.2.2 = x
    · right
      obtain ⟨i, p, e⟩ := addInfo_named s ps b h
      exact ⟨i, p, by rw [← hx]; exact e⟩
    · exact Or.inl hx
  addList s ps b := ⟨addList_later s ps b, (addList_same s ps b).1, (addList_same s ps b).2,
    fun w hb hx => addList_safe w ps b hx hb⟩
  listed s ps b := by
    by_cases hx : (s.addList ps b).2.2.2 = x
    · rcases addList_named s ps b with h | ⟨i, p, e⟩
      · exact absurd (hx.symm.trans h) h0
      · exact Or.inr ⟨i, p, by rw [← hx]; exact e⟩
    · exact Or.inl hx
  write s h b f l hw := ⟨Later.of (congrArg Tree.asked (write_tree s h b f l)) fun w => write_ok w _ _ _ _,
    by show (s.write h b f l).1.ios = _; exact (write_same s h b f l).1,
    by show (s.write h b f l).1.sid = _; exact (write_same s h b f l).2, fun w _ _ => write_safe w h b f l hw⟩
  cut s h n hw := ⟨Later.of (congrArg Tree.asked (truncate_tree s h n)) fun w => truncate_ok w _ _,
    by show (s.truncate h n).1.ios = _; unfold truncate; split <;> rfl,
    by show (s.truncate h n).1.sid = _; unfold truncate; split <;> rfl, fun w _ _ => truncate_safe w h n hw⟩
  setProps s _ _ _ := Survives.refl x s
  writePartial s h o b f l hw := ⟨Later.of (congrArg Tree.asked (writePartial_tree s h o b f l)) fun w => writePartial_ok w _ _ _ _ _,
    (writePartial_same s h o b f l).1, (writePartial_same s h o b f l).2,
    fun w _ _ => writePartial_safe w h o b f l hw⟩
  delete s h ho := delete_survives h0 s h 0 ho
  flush s _ := Survives.refl x s
  setEvents s _ _ := Survives.refl x s
  eventsOff s := Survives.refl x s

end Server
end Mtp
