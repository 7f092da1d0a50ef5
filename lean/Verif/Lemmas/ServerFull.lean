import Verif.Lemmas.ServerLeft
import Verif.Spec.ServerAcross
import Verif.Lemmas.ServerCopiedX
import Verif.Props.Copy
/-! Copies that run out of space: what was made is deleted again, and nothing else is different. -/
namespace Mtp
open Spec
namespace Server

theorem infoOf_same {s s' : Server} {z : Nat} {i i' : Item} (e : s.tree.get z = some i) (e' : s'.tree.get z = some i')
    (h1 : i'.name = i.name) (h2 : i'.fmt = i.fmt) (h3 : i'.par = i.par) (h : AMap.get s'.infos z = AMap.get s.infos z) :
    s'.infoOf z = s.infoOf z := by
  unfold infoOf
  rw [e, e', h]
  cases AMap.get s.infos z with
  | none => rfl
  | some o => simp only [h1, h2, h3]

theorem _root_.Spec.AsBefore.trans {a b c : Server} (h1 : AsBefore a b) (h2 : AsBefore b c) : AsBefore a c :=
  ⟨fun z => (h2.has z).trans (h1.has z), fun z h0 hz => by
    obtain ⟨u1, u2⟩ := h1.told z h0 hz
    obtain ⟨v1, v2⟩ := h2.told z h0 ((h1.has z).trans hz)
    exact ⟨v1.trans u1, v2.trans u2⟩⟩

/-- Nothing happened. -/
theorem Quiet.before {s s' : Server} (q : Quiet s s') : AsBefore s s' := by
  refine ⟨fun z => ?_, fun z _ _ => ⟨?_, ?_⟩⟩
  · unfold Tree.has; rw [q.get]
  · exact q.contents z
  · exact q.infoOf z

theorem deleteItem_root (t : Tree) (fmt : Nat) : (t.deleteItem 0 fmt).1 = t := by
  unfold Tree.deleteItem
  rw [if_neg (by decide)]
  unfold Tree.del
  split
  · rfl
  · split
    · rfl
    · rw [if_pos rfl]

theorem delete_root {s : Server} (w : ServerOk s) (fmt : Nat) : AsBefore s (s.delete 0 fmt).1 := by
  unfold delete
  split
  · exact ⟨fun _ => rfl, fun _ _ _ => ⟨rfl, rfl⟩⟩
  · obtain ⟨h1, h2⟩ := deleteItem_spec w.wf 0 fmt
    obtain ⟨_, k⟩ := dropGone_ok w h1 h2
    rw [deleteItem_root] at k ⊢
    exact ⟨fun _ => rfl, fun z _ hz => k z hz⟩

/-- What was made in a free place is deleted again. -/
theorem undone {s s1 s2 : Server} {D : Path} {y : Nat} {iy : Item} (w : ServerOk s) (l1 : Later s s1) (i1 : Into false D s s1)
    (l2 : Later s1 s2) (i2 : Into false D s1 s2) (hb : s2.tree.asked < 0xFFFFFFFF)
    (free : ∀ x ix, s.tree.get x = some ix → ¬ Under D ix.path) (gy : s1.tree.get y = some iy) (py : iy.path = D)
    (left : ∀ x, x ≠ 0 → s.tree.has x = true → Left x s s2) (hd : s.dataFile = none) (hfs : ∀ k, s.tree.fs k = true) :
    AsBefore s (s2.delete y UNDEF).1 := by
  have i := i1.trans l1 i2
  have l := l1.trans l2
  have w2 := l.2 w hb
  obtain ⟨ks, ey⟩ := i2.stay rfl y iy gy
  have hyA : y ≠ ALL := by
    have := w2.issued y _ ey
    unfold ALL; omega
  have hy0 : y ≠ 0 := by
    rintro rfl
    obtain ⟨r, r1, _⟩ := w.wf.root
    obtain ⟨k1, e1⟩ := i1.stay rfl 0 r r1
    rw [gy] at e1
    cases e1
    exact free 0 r r1 (by rw [← py]; exact Under.refl _)
  have hy2 := has_iff.mpr ⟨_, ey⟩
  obtain ⟨c1, c2⟩ := Props.C19_exactly_subtree w2.wf y UNDEF hyA hy0 hy2 (fun k _ _ => by rw [i.fs]; exact hfs k)
  have hdel : (s2.delete y UNDEF).1 = s2.dropGone (s2.tree.deleteItem y UNDEF).1 := by
    unfold delete
    rw [if_neg (by rintro ⟨_, e⟩; rw [hy2] at e; cases e)]
  obtain ⟨t1, t2⟩ := deleteItem_spec w2.wf y UNDEF
  obtain ⟨_, k⟩ := dropGone_ok w2 t1 t2
  rw [hdel]
  have below : ∀ z iz, s2.tree.get z = some iz → (Below s2.tree y z ↔ Under D iz.path) := fun z iz e => by
    rw [w2.wf.below_iff ey e]
    simp only
    rw [py]
  have old : ∀ z iz, s.tree.get z = some iz → (s2.tree.deleteItem y UNDEF).1.has z = true := by
    intro z iz e
    obtain ⟨k', e'⟩ := i.stay rfl z iz e
    refine (c2 z).mpr ⟨has_iff.mpr ⟨_, e'⟩, fun hbl => free z iz e ((below z _ e').mp hbl)⟩
  refine ⟨fun z => ?_, fun z h0 hz => ?_⟩
  · show (s2.tree.deleteItem y UNDEF).1.has z = _
    cases hz : s.tree.has z with
    | true =>
      obtain ⟨iz, e⟩ := has_iff.mp hz
      exact old z iz e
    | false =>
      cases hz2 : (s2.tree.deleteItem y UNDEF).1.has z with
      | false => rfl
      | true =>
        obtain ⟨u1, u2⟩ := (c2 z).mp hz2
        obtain ⟨iz, e⟩ := has_iff.mp u1
        rcases i.all z iz e with ⟨ix, e1, _⟩ | ⟨_, hu⟩
        · rw [has_iff.mpr ⟨ix, e1⟩] at hz; cases hz
        · exact absurd ((below z iz e).mpr hu) u2
  · obtain ⟨iz, e⟩ := has_iff.mp hz
    obtain ⟨a1, a2⟩ := k z (old z iz e)
    have L := (left z h0 hz).safe
    obtain ⟨k', e'⟩ := i.stay rfl z iz e
    refine ⟨a1.trans (L.contents fun ix p n _ _ h => by rw [hd] at h; cases h), a2.trans ?_⟩
    exact infoOf_same e e' rfl rfl rfl L.infos

theorem read_not_full (v : FStore) (io : FileIO) (h len off : Nat) : (v.readData io h len off).1 ≠ .storeFull := by
  unfold FStore.readData
  repeat' split
  all_goals simp

theorem write_not_full (s : Server) (h : Nat) (b : Option (List UInt8)) (f l : Bool) : (s.write h b f l).2 ≠ .storeFull := by
  unfold write
  split
  · simp
  · unfold FStore.writeData
    simp only
    repeat' split
    all_goals simp

theorem fromLoop_not_full (a : Server) (c : Bool) (x y : Nat) : ∀ (n : Nat) (s : Server) (off rem : Nat),
    (fromLoop a c x y n s off rem).2 ≠ .storeFull
  | 0, s, _, _ => by simp [fromLoop]
  | n + 1, s, off, rem => by
    unfold fromLoop
    split
    · simp
    · simp only
      generalize (if rem ≥ COPY_CHUNK then COPY_CHUNK else rem) = len
      split
      · simp
      · split
        · exact read_not_full _ _ _ _ _
        · split
          · exact write_not_full _ _ _ _ _
          · split
            · exact write_not_full _ _ _ _ _
            · exact fromLoop_not_full a c x y n _ _ _

theorem fromData_not_full (a s : Server) (c : Bool) (x y : Nat) : (fromData a s c x y).2 ≠ .storeFull := by
  unfold fromData
  split
  · simp
  · exact fromLoop_not_full _ _ _ _ _ _ _ _

theorem copyLoop_not_full (c : Bool) (x y : Nat) : ∀ (n : Nat) (s : Server) (off rem : Nat),
    (copyLoop c x y n s off rem).2 ≠ .storeFull
  | 0, s, _, _ => by simp [copyLoop]
  | n + 1, s, off, rem => by
    unfold copyLoop
    split
    · simp
    · simp only
      generalize (if rem ≥ COPY_CHUNK then COPY_CHUNK else rem) = len
      split
      · simp
      · split
        · exact read_not_full _ _ _ _ _
        · split
          · exact write_not_full _ _ _ _ _
          · split
            · exact write_not_full _ _ _ _ _
            · exact copyLoop_not_full c x y n _ _ _

theorem copyData_not_full (s : Server) (c : Bool) (x y : Nat) : (s.copyData c x y).2 ≠ .storeFull := by
  unfold copyData
  split
  · simp
  · exact copyLoop_not_full _ _ _ _ _ _ _

/-- Nothing is below a free place. -/
theorem none_below {t : Tree} (w : TreeWF t) {p : Nat} {pit : Item} {n : Path} (hp : t.get p = some pit)
    (hfree : AMap.get t.paths (join pit.path n) = none) : ∀ x ix, t.get x = some ix → ¬ Under (join pit.path n) ix.path :=
  fun x ix e hu => by
    have := ancestor_at w e hu ((w.under_root hp).trans (Under.join ..))
    rw [hfree] at this; cases this

/-- A folder that is there can not be copied to. -/
theorem free_of_not_taken {s : Server} (w : ServerOk s) {p : Nat} {pit : Item} {n : Path} (hp : s.tree.get p = some pit) (hpA : p ≠ ALL)
    (hn : '/' ∉ n) (ht : Cp.taken s.tree p (join pit.path n) = false) : AMap.get s.tree.paths (join pit.path n) = none := by
  cases e : AMap.get s.tree.paths (join pit.path n) with
  | none => rfl
  | some x =>
    obtain ⟨ix, e1, e2⟩ := w.wf.ofPath _ _ e
    have x0 : x ≠ 0 := by
      rintro rfl
      obtain ⟨r, r1, r2, _⟩ := w.wf.root
      rw [e1] at r1; cases r1
      have := (w.wf.under_root hp).length
      rw [← r2, e2, join_length] at this; omega
    obtain ⟨q, qit, q1, q2, q3, q4, q5, q6⟩ := w.wf.parent x ix e1 x0
    have hq := join_inj (e2.symm.trans q5) hn q6
    have hqp : q = p := w.wf.inj q3 hp hq.1.symm
    subst hqp
    have := Props.taken_of_known w.wf hp (w.folders _ _ _ _ e1 q1 hp) hpA hn e1 e2
    rw [ht] at this
    cases this

/-- The folder made for the copy, and what was put into it, go again. -/
theorem folder_undone {s b s2 : Server} (w : ServerOk s) {p y : Nat} {o : ObjInfo} {pit : Item} (hp : s.tree.get p = some pit)
    (n : New s b p o y) (lb : Later s b) (hs : '/' ∉ toPath o.fileName) (hpA : p ≠ ALL)
    (l : Later b s2) (hb : s2.tree.asked < 0xFFFFFFFF)
    (hi : Within (join pit.path (toPath o.fileName)) y b → ServerOk b → Into false (join pit.path (toPath o.fileName)) b s2)
    (hl : ∀ x, x ≠ 0 → Far x (join pit.path (toPath o.fileName)) b → Within (join pit.path (toPath o.fileName)) y b → Left x b s2)
    (ha : Into false (join pit.path (toPath o.fileName)) s b)
    (hal : ∀ x, x ≠ 0 → Far x (join pit.path (toPath o.fileName)) s → Left x s b)
    (hd : s.dataFile = none) (hfs : ∀ k, s.tree.fs k = true) : AsBefore s (s2.delete y UNDEF).1 := by
  obtain ⟨pit', hp', hpf, hfree, ⟨v, hget⟩, _⟩ := n.parent
  rw [hp] at hp'; cases hp'
  have free := none_below w.wf hp hfree
  have gy := (hget y).trans (if_pos rfl)
  have hbb := Nat.lt_of_le_of_lt l.1 hb
  have wb := lb.2 w hbb
  have hw : Within (join pit.path (toPath o.fileName)) y b := by
    refine ⟨wb.issued y _ gy, fun iy e => ?_⟩
    rw [gy] at e; cases e
    exact Under.refl _
  refine undone w lb ha l (hi hw wb) hb free gy rfl (fun x x0 hx => ?_) hd hfs
  obtain ⟨ix, ex⟩ := has_iff.mp hx
  have hf : Far x (join pit.path (toPath o.fileName)) s := ⟨w, ix, ex, free x ix ex⟩
  have h1 := hal x x0 hf
  exact h1.trans lb (hl x x0 (hf.next lb h1 hbb) hw)

/-- A copy from another storage that runs out of space leaves nothing. -/
theorem from_full {a s : Server} (w : ServerOk s) (ps : List Nat) (hd : s.dataFile = none) (hfs : ∀ k, s.tree.fs k = true)
    (hb : (copyFrom a s ps false).1.tree.asked < 0xFFFFFFFF) (he : (copyFrom a s ps false).2.1 = .storeFull) :
    AsBefore s (copyFrom a s ps false).1 := by
  unfold copyFrom at hb he ⊢
  split
  · next h => rw [if_pos h] at he; cases he
  next h1 =>
  rw [if_neg h1] at he hb
  split
  · next h => rw [if_pos h] at he; cases he
  next h2 =>
  rw [if_neg h2] at he hb
  split
  · next h => rw [if_pos h] at he; cases he
  next h3 =>
  rw [if_neg h3] at he hb
  simp only at he hb ⊢
  generalize ps.getD 0 0 = h at *
  generalize ps.getD 2 0 = p at *
  have hlat := steps_later.fromTo a false (Tree.maxLen a.tree.items + 1) s h p true 0
  have hfull : (fromTo a false (Tree.maxLen a.tree.items + 1) s h p true 0).2.1 = .storeFull := by
    split at he
    · assumption
    · exact he
  rw [if_pos hfull] at hb ⊢
  simp only at hb ⊢
  have hb1 : (fromTo a false (Tree.maxLen a.tree.items + 1) s h p true 0).1.tree.asked < 0xFFFFFFFF :=
    Nat.lt_of_le_of_lt (delete_later _ _ _).1 hb
  have hs0 : s.tree.asked < 0xFFFFFFFF := Nat.lt_of_le_of_lt hlat.1 hb1
  clear hb he hlat
  generalize Tree.maxLen a.tree.items = n at *
  unfold fromTo at hfull hb1 ⊢
  split
  · exact delete_root w _
  · exact delete_root w _
  next it pit e1 e2 =>
  simp only [e1, e2] at hfull hb1
  split
  · exact delete_root w _
  next g1 =>
  rw [if_neg g1] at hfull hb1
  split
  · exact (show AsBefore s s.tickCall from ⟨fun _ => rfl, fun _ _ _ => ⟨rfl, rfl⟩⟩).trans (delete_root ((tick_later s).2 w hs0) _)
  next g2 =>
  rw [if_neg g2] at hfull hb1
  split
  · exact delete_root w _
  next g3 =>
  rw [if_neg g3] at hfull hb1
  split
  · exact delete_root w _
  next g4 =>
  rw [if_neg g4] at hfull hb1
  have hc : copyable it.name = true := by simpa using g4
  have hn := info_name (Decidable.of_not_not g1) e1
  have hpl : plain ({ (a.infoOf h).2 with parent := p } : ObjInfo).fileName = true := by
    show plain (a.infoOf h).2.fileName = true
    rw [hn]
    exact (copyable_name hc).1
  have hnm : toPath ({ (a.infoOf h).2 with parent := p } : ObjInfo).fileName = it.name := by
    show toPath (a.infoOf h).2.fileName = it.name
    rw [hn]
    exact (copyable_name hc).2
  have hpA : p ≠ ALL := by
    have h1 := w.issued p pit e2
    unfold ALL; omega
  have hla := addItem_later s { (a.infoOf h).2 with parent := p } p hpl
  have hcase := fun s' r y => addItem_cases w { (a.infoOf h).2 with parent := p } p (plain_slash hpl) (s' := s') (r := r) (h := y)
  have hinto := (into_steps false (join pit.path it.name)).add s { (a.infoOf h).2 with parent := p } p w (plain_slash hpl) (by
    intro pit' e
    rw [if_neg hpA, e2] at e
    cases e
    rw [hnm]; exact Under.refl _)
  have hleft := fun x x0 g => (left_steps (x := x) x0 false (join pit.path it.name)).add s { (a.infoOf h).2 with parent := p } p g
    (plain_slash hpl) (by
    intro pit' e
    rw [if_neg hpA, e2] at e
    cases e
    rw [hnm]; exact Under.refl _)
  generalize ho : ({ (a.infoOf h).2 with parent := p } : ObjInfo) = o at *
  generalize hB : s.addItem o p = B at *
  obtain ⟨b, r, y⟩ := B
  have hcase := hcase b r y rfl
  rw [if_neg hpA] at hcase
  simp only at hfull hb1 hla hinto hleft ⊢
  cases Decidable.em (r = Resp.ok) with
  | inr hr =>
    rw [if_neg hr] at hfull hb1 ⊢
    rcases hcase hb1 with ⟨q, _⟩ | ⟨h, _⟩
    · exact q.before.trans (delete_root (q.ok w) _)
    · exact absurd h hr
  | inl hr =>
    rw [if_pos hr] at hfull hb1 ⊢
    simp only at hfull hb1 ⊢
    by_cases hf : it.fmt = ASSOC
    · rw [if_pos hf] at hfull hb1 ⊢
      have hft := free_of_not_taken w (n := it.name) e2 hpA (hnm ▸ plain_slash hpl) (by
        simpa [hf] using g3)
      have hlk := steps_later.kids (fun s k => steps_later.fromTo a false n s k y false y) it.kids b
      have hbb := Nat.lt_of_le_of_lt hlk.1 hb1
      rcases hcase hbb with ⟨_, hq⟩ | ⟨_, nw⟩
      · obtain ⟨_, pit', c1, c2⟩ := hq hr
        rw [e2] at c1; cases c1
        rw [hnm, hft] at c2; cases c2
      have key : ∀ {G R}, StepsIn false (join pit.path it.name) G R → G b → Within (join pit.path it.name) y b →
          R b (copyKids (fun s k => fromTo a false n s k y false y) it.kids b).1 := fun st g w =>
        st.kids (y := y) (fun s k => steps_later.fromTo a false n s k y false y)
          (fun s k g w hb => (st.fromTo a n s k y false y g (fun it pit _ e => (w.2 pit e).trans (Under.join ..)) hb).1) _ _ g w hb1
      rw [← hnm] at key hinto hleft
      exact folder_undone w e2 nw hla (plain_slash hpl) hpA hlk hb1 (fun w' wb => key (into_steps _ _) wb w')
        (fun x x0 f w' => key (left_steps x0 _ _) f w') (hinto hbb).1 (fun x x0 f => (hleft x x0 f hbb).1) hd hfs
    · rw [if_neg hf] at hfull
      exact absurd hfull (fromData_not_full _ _ _ _ _)

/-- A copy within the storage that runs out of space leaves nothing. -/
theorem copy_full {s : Server} (w : ServerOk s) (ps : List Nat) (hd : s.dataFile = none) (hfs : ∀ k, s.tree.fs k = true)
    (hb : (s.copy ps false).1.tree.asked < 0xFFFFFFFF) (he : (s.copy ps false).2.1 = .storeFull) :
    AsBefore s (s.copy ps false).1 := by
  unfold Server.copy at hb he ⊢
  split
  · next h => rw [if_pos h] at he; cases he
  next h1 =>
  rw [if_neg h1] at he hb
  split
  · next h => rw [if_pos h] at he; cases he
  next h2 =>
  rw [if_neg h2] at he hb
  split
  · next h => rw [if_pos h] at he; cases he
  next h3 =>
  rw [if_neg h3] at he hb
  simp only at he hb ⊢
  generalize ps.getD 0 0 = h at *
  generalize ps.getD 2 0 = p at *
  have hlat := steps_later.to false (Tree.maxLen s.tree.items + 1) s h p true 0
  have hfull : (copyTo false (Tree.maxLen s.tree.items + 1) s h p true 0).2.1 = .storeFull := by
    split at he
    · assumption
    · exact he
  rw [if_pos hfull] at hb ⊢
  simp only at hb ⊢
  have hb1 : (copyTo false (Tree.maxLen s.tree.items + 1) s h p true 0).1.tree.asked < 0xFFFFFFFF :=
    Nat.lt_of_le_of_lt (delete_later _ _ _).1 hb
  have hs0 : s.tree.asked < 0xFFFFFFFF := Nat.lt_of_le_of_lt hlat.1 hb1
  clear hb he hlat
  generalize Tree.maxLen s.tree.items = n at *
  unfold copyTo at hfull hb1 ⊢
  split
  · exact delete_root w _
  · exact delete_root w _
  next it pit e1 e2 =>
  simp only [e1, e2] at hfull hb1
  split
  · exact delete_root w _
  next g1 =>
  rw [if_neg g1] at hfull hb1
  split
  · exact (show AsBefore s s.tickCall from ⟨fun _ => rfl, fun _ _ _ => ⟨rfl, rfl⟩⟩).trans (delete_root ((tick_later s).2 w hs0) _)
  next g2 =>
  rw [if_neg g2] at hfull hb1
  split
  · exact delete_root w _
  next g3 =>
  rw [if_neg g3] at hfull hb1
  split
  · exact delete_root w _
  next g4 =>
  rw [if_neg g4] at hfull hb1
  have hc : copyable it.name = true := by simpa using g4
  have hn := info_name (Decidable.of_not_not g1) e1
  have hpl : plain ({ (s.infoOf h).2 with parent := p } : ObjInfo).fileName = true := by
    show plain (s.infoOf h).2.fileName = true
    rw [hn]
    exact (copyable_name hc).1
  have hnm : toPath ({ (s.infoOf h).2 with parent := p } : ObjInfo).fileName = it.name := by
    show toPath (s.infoOf h).2.fileName = it.name
    rw [hn]
    exact (copyable_name hc).2
  have hpA : p ≠ ALL := by
    have h1 := w.issued p pit e2
    unfold ALL; omega
  have hla := addItem_later s { (s.infoOf h).2 with parent := p } p hpl
  have hcase := fun s' r y => addItem_cases w { (s.infoOf h).2 with parent := p } p (plain_slash hpl) (s' := s') (r := r) (h := y)
  have hinto := (into_steps false (join pit.path it.name)).add s { (s.infoOf h).2 with parent := p } p w (plain_slash hpl) (by
    intro pit' e
    rw [if_neg hpA, e2] at e
    cases e
    rw [hnm]; exact Under.refl _)
  have hleft := fun x x0 g => (left_steps (x := x) x0 false (join pit.path it.name)).add s { (s.infoOf h).2 with parent := p } p g
    (plain_slash hpl) (by
    intro pit' e
    rw [if_neg hpA, e2] at e
    cases e
    rw [hnm]; exact Under.refl _)
  generalize ho : ({ (s.infoOf h).2 with parent := p } : ObjInfo) = o at *
  generalize hB : s.addItem o p = B at *
  obtain ⟨b, r, y⟩ := B
  have hcase := hcase b r y rfl
  rw [if_neg hpA] at hcase
  simp only at hfull hb1 hla hinto hleft ⊢
  cases Decidable.em (r = Resp.ok) with
  | inr hr =>
    rw [if_neg hr] at hfull hb1 ⊢
    rcases hcase hb1 with ⟨q, _⟩ | ⟨h, _⟩
    · exact q.before.trans (delete_root (q.ok w) _)
    · exact absurd h hr
  | inl hr =>
    rw [if_pos hr] at hfull hb1 ⊢
    simp only at hfull hb1 ⊢
    by_cases hf : it.fmt = ASSOC
    · rw [if_pos hf] at hfull hb1 ⊢
      have hft := free_of_not_taken w (n := it.name) e2 hpA (hnm ▸ plain_slash hpl) (by
        simpa [hf] using g3)
      have hlk := steps_later.kids (fun s k => steps_later.to false n s k y false y) (((b.tree.get h).map (·.kids)).getD []) b
      have hbb := Nat.lt_of_le_of_lt hlk.1 hb1
      rcases hcase hbb with ⟨_, hq⟩ | ⟨_, nw⟩
      · obtain ⟨_, pit', c1, c2⟩ := hq hr
        rw [e2] at c1; cases c1
        rw [hnm, hft] at c2; cases c2
      have key : ∀ {G R}, StepsIn false (join pit.path it.name) G R → G b → Within (join pit.path it.name) y b →
          R b (copyKids (fun s k => copyTo false n s k y false y) (((b.tree.get h).map (·.kids)).getD []) b).1 := fun st g w =>
        st.kids (y := y) (fun s k => steps_later.to false n s k y false y)
          (fun s k g w hb => (st.to n s k y false y g (fun it pit _ e => (w.2 pit e).trans (Under.join ..)) hb).1) _ _ g w hb1
      rw [← hnm] at key hinto hleft
      exact folder_undone w e2 nw hla (plain_slash hpl) hpA hlk hb1 (fun w' wb => key (into_steps _ _) wb w')
        (fun x x0 f w' => key (left_steps x0 _ _) f w') (hinto hbb).1 (fun x x0 f => (hleft x x0 f hbb).1) hd hfs
    · rw [if_neg hf] at hfull
      exact absurd hfull (copyData_not_full _ _ _ _)

theorem addItem_room (s : Server) (o : ObjInfo) (p : Nat) : (s.addItem o p).1.room = s.room := by
  unfold addItem
  simp only
  split
  · split
    · rfl
    · split <;> rfl
  · rfl

theorem steps_room : Steps (fun s s' => s'.room = s.room) where
  refl _ := rfl
  trans _ _ _ h1 h2 := h2.trans h1
  tick _ := rfl
  add s o p _ := addItem_room s o p
  write s y b f l := write_room s y b f l
  delete s y := by
    unfold delete
    split <;> rfl

/-- A copy that was made had the space for all of it. -/
theorem from_fits {a : Server} (wa : ServerOk a) (c : Bool) : ∀ (n : Nat) (s : Server) (h p : Nat) (top : Bool) (out : Nat),
    (fromTo a c n s h p top out).2.1 = .ok → ∀ x, Below a.tree h x → ∃ k, a.sizeOf x ≤ s.room k
  | 0, s, h, p, top, out, e, _, _ => by cases e
  | n + 1, s, h, p, top, out, e, x, hx => by
    unfold fromTo at e
    split at e
    · cases e
    · cases e
    next it pit e1 e2 =>
    split at e
    · cases e
    split at e
    · cases e
    next hroom =>
    split at e
    · cases e
    split at e
    · cases e
    by_cases hxh : x = h
    · exact ⟨s.calls, hxh ▸ Nat.le_of_not_lt hroom⟩
    obtain ⟨k, hk, hb⟩ := Below.step_down wa.wf hx hxh e1
    have hf : it.fmt = ASSOC := by
      obtain ⟨ki, k1, k2⟩ := wa.wf.kids h it k e1 hk
      exact wa.folders k ki h it k1 k2 e1
    simp only at e
    generalize ho : ({ (a.infoOf h).2 with parent := p } : ObjInfo) = o at e
    have hr := addItem_room s o p
    generalize s.addItem o p = B at e hr
    by_cases hB : B.2.1 = .ok
    · rw [if_pos hB] at e
      simp only [hf, if_true] at e
      have key : ∀ (ks : List Nat) (b : Server), b.room = s.room →
          (copyKids (fun s k => fromTo a c n s k B.2.2 false B.2.2) ks b).2 = .ok → k ∈ ks → ∃ i, a.sizeOf x ≤ s.room i := by
        intro ks
        induction ks with
        | nil => intro _ _ _ h; cases h
        | cons k' ks ih =>
          intro b hbr e hm
          unfold copyKids at e
          split at e
          · next hok =>
            rcases List.mem_cons.mp hm with rfl | hm
            · obtain ⟨i, hi⟩ := from_fits wa c n b k B.2.2 false B.2.2 hok x hb
              exact ⟨i, hbr ▸ hi⟩
            · exact ih _ ((steps_room.fromTo a c n b k' B.2.2 false B.2.2).trans hbr) e hm
          · next hno => exact absurd e hno
      exact key it.kids B.1 hr e hk
    · rw [if_neg hB] at e
      exact absurd e hB

theorem copyFrom_fits {a s : Server} (wa : ServerOk a) (ps : List Nat) (c : Bool) (e : (copyFrom a s ps c).2.1 = .ok) :
    ∀ x, Below a.tree (ps.getD 0 0) x → ∃ k, a.sizeOf x ≤ s.room k := by
  unfold copyFrom at e
  split at e
  · cases e
  split at e
  · cases e
  split at e
  · cases e
  simp only at e
  split at e
  · cases e
  · exact from_fits wa c _ s _ _ _ _ e

end Server
end Mtp
