import Verif.Lemmas.ServerSpare
import Verif.Lemmas.ServerAcross
/-! Copies, and what is outside of the place they are made in: step by step. -/
namespace Mtp
open Spec
namespace Server

/-- A relation `R` that the steps of a copy (cancelled if `c`) to the place `D` respect, from states with `G`. -/
structure StepsIn (c : Bool) (D : Path) (G : Server → Prop) (R : Server → Server → Prop) : Prop where
  ok : ∀ s, G s → ServerOk s
  refl : ∀ s, R s s
  trans : ∀ a b c, R a b → Later a b → R b c → R a c
  next : ∀ s s', G s → Later s s' → R s s' → s'.tree.asked < 0xFFFFFFFF → G s'
  within : ∀ y s s', Within D y s → Later s s' → R s s' → Within D y s'
  tick : ∀ s : Server, R s s.tickCall
  add : ∀ (s : Server) o p, G s → '/' ∉ toPath o.fileName →
    (∀ pit, s.tree.get (if p = ALL then 0 else p) = some pit → Under D (join pit.path (toPath o.fileName))) →
    (s.addItem o p).1.tree.asked < 0xFFFFFFFF →
    R s (s.addItem o p).1 ∧ ((s.addItem o p).2.1 = .ok → Within D (s.addItem o p).2.2 (s.addItem o p).1)
  write : ∀ (s : Server) y b f l, G s → Within D y s → R s (s.write y b f l).1
  delete : c = true → ∀ (s : Server) y, G s → Within D y s → s.tree.asked < 0xFFFFFFFF → R s (s.delete y UNDEF).1

variable {c : Bool} {D : Path} {G : Server → Prop} {R : Server → Server → Prop}

theorem StepsIn.loop (st : StepsIn c D G R) (a y : Nat) : ∀ (n : Nat) (s : Server) (off rem : Nat),
    G s → Within D y s → s.tree.asked < 0xFFFFFFFF → R s (copyLoop c a y n s off rem).1
  | 0, s, _, _, _, _, _ => st.refl s
  | n + 1, s, off, rem, g, f, hb => by
    unfold copyLoop
    split
    · exact st.refl s
    · simp only
      generalize (if rem ≥ COPY_CHUNK then COPY_CHUNK else rem) = len
      generalize s.view.readData (s.ios s.calls 0) a len off = d
      have t := st.tick s
      have g1 := st.next _ _ g (tick_later s) t hb
      have f1 := st.within _ _ _ f (tick_later s) t
      split
      · next hcan => exact st.trans _ _ _ t (tick_later s) (st.delete hcan _ _ g1 f1 hb)
      · split
        · exact t
        · have h1 := st.trans _ _ _ t (tick_later s) (st.write s.tickCall y (some d.2) (decide (off = 0)) false g1 f1)
          have l1 : Later s _ := (tick_later s).trans (write_later s.tickCall y (some d.2) (decide (off = 0)) false)
          have hb1 : (s.tickCall.write y (some d.2) (decide (off = 0)) false).1.tree.asked < 0xFFFFFFFF := by
            rw [write_tree]; exact hb
          have g2 := st.next _ _ g l1 h1 hb1
          have f2 := st.within _ _ _ f l1 h1
          split
          · exact st.trans _ _ _ h1 l1 (st.write _ _ _ _ _ g2 f2)
          · split
            · exact h1
            · exact st.trans _ _ _ h1 l1 (StepsIn.loop st a y n _ _ _ g2 f2 hb1)

theorem StepsIn.kids (st : StepsIn c D G R) {y : Nat} {f : Server → Nat → Server × Resp × Nat}
    (hl : ∀ s k, Later s (f s k).1)
    (hf : ∀ s k, G s → Within D y s → (f s k).1.tree.asked < 0xFFFFFFFF → R s (f s k).1) :
    ∀ (ks : List Nat) (s : Server), G s → Within D y s → (copyKids f ks s).1.tree.asked < 0xFFFFFFFF →
      R s (copyKids f ks s).1
  | [], s, _, _, _ => st.refl s
  | k :: ks, s, g, w, hb => by
    unfold copyKids at hb ⊢
    split
    · next h =>
      rw [if_pos h] at hb
      have hb1 := Nat.lt_of_le_of_lt (steps_later.kids hl ks (f s k).1).1 hb
      have h1 := hf s k g w hb1
      exact st.trans _ _ _ h1 (hl s k) (StepsIn.kids st hl hf ks _ (st.next _ _ g (hl s k) h1 hb1) (st.within _ _ _ w (hl s k) h1) hb)
    · next h =>
      rw [if_neg h] at hb
      exact hf s k g w hb

theorem StepsIn.to (st : StepsIn c D G R) : ∀ (n : Nat) (s : Server) (h p : Nat) (top : Bool) (out : Nat),
    G s → (∀ it pit, s.tree.get h = some it → s.tree.get p = some pit → Under D (join pit.path it.name)) →
    (copyTo c n s h p top out).1.tree.asked < 0xFFFFFFFF →
    R s (copyTo c n s h p top out).1 ∧
      ((copyTo c n s h p top out).2.2 = out ∨ Within D (copyTo c n s h p top out).2.2 (copyTo c n s h p top out).1)
  | 0, s, _, _, _, _, _, _, _ => ⟨st.refl s, Or.inl rfl⟩
  | n + 1, s, h, p, top, out, g, hd, hb => by
    have hb0 := Nat.lt_of_le_of_lt (steps_later.to c (n + 1) s h p top out).1 hb
    unfold copyTo at hb ⊢
    split
    · exact ⟨st.refl s, Or.inl rfl⟩
    · exact ⟨st.refl s, Or.inl rfl⟩
    · next it pit hh hp =>
      simp only [hh, hp] at hb
      split
      · exact ⟨st.refl s, Or.inl rfl⟩
      · next hi =>
        rw [if_neg hi] at hb
        have hn := info_name (Decidable.of_not_not hi) hh
        split
        · exact ⟨st.tick s, Or.inl rfl⟩
        · next hroom =>
          rw [if_neg hroom] at hb
          split
          · exact ⟨st.refl s, Or.inl rfl⟩
          · next ht =>
            rw [if_neg ht] at hb
            split
            · exact ⟨st.refl s, Or.inl rfl⟩
            · next hc =>
              rw [if_neg hc] at hb
              have hc : copyable it.name = true := by simpa using hc
              have hpl : plain ({ (s.infoOf h).2 with parent := p } : ObjInfo).fileName = true := by
                show plain (s.infoOf h).2.fileName = true
                rw [hn]
                exact (copyable_name hc).1
              have hnm : toPath ({ (s.infoOf h).2 with parent := p } : ObjInfo).fileName = it.name := by
                show toPath (s.infoOf h).2.fileName = it.name
                rw [hn]
                exact (copyable_name hc).2
              have hla := addItem_later s { (s.infoOf h).2 with parent := p } p hpl
              have hall : p ≠ ALL := by
                have h1 := (st.ok s g).issued p pit hp
                unfold ALL
                omega
              have hadd := st.add s { (s.infoOf h).2 with parent := p } p g (plain_slash hpl) (by
                intro pit' e
                rw [if_neg hall, hp] at e
                cases e
                rw [hnm]
                exact hd it pit hh hp)
              generalize s.addItem { (s.infoOf h).2 with parent := p } p = a at hadd hla hb ⊢
              simp only at hb ⊢
              split
              · next hok =>
                rw [if_pos hok] at hb
                split
                · next hf =>
                  rw [if_pos hf] at hb
                  have hlk := steps_later.kids (fun s k => steps_later.to c n s k a.2.2 false a.2.2)
                    (((a.1.tree.get h).map (·.kids)).getD []) a.1
                  have hb1 := Nat.lt_of_le_of_lt hlk.1 hb
                  obtain ⟨k1, k2⟩ := hadd hb1
                  have k2 := k2 hok
                  have g1 := st.next _ _ g hla k1 hb1
                  have hk := st.kids (y := a.2.2) (fun s k => steps_later.to c n s k a.2.2 false a.2.2)
                    (fun s k g w hb => (StepsIn.to st n s k a.2.2 false a.2.2 g (fun it pit _ e =>
                      (w.2 pit e).trans (Under.join ..)) hb).1) _ _ g1 k2 hb
                  exact ⟨st.trans _ _ _ k1 hla hk, Or.inr (st.within _ _ _ k2 hlk hk)⟩
                · next hf =>
                  rw [if_neg hf] at hb
                  have hlk := steps_later.data a.1 c h a.2.2
                  have hb1 := Nat.lt_of_le_of_lt hlk.1 hb
                  obtain ⟨k1, k2⟩ := hadd hb1
                  have k2 := k2 hok
                  have g1 := st.next _ _ g hla k1 hb1
                  have hk : R a.1 (a.1.copyData c h a.2.2).1 := by
                    unfold copyData
                    split
                    · exact st.refl _
                    · exact st.loop h _ _ _ _ _ g1 k2 hb1
                  exact ⟨st.trans _ _ _ k1 hla hk, Or.inr (st.within _ _ _ k2 hlk hk)⟩
              · next hok =>
                rw [if_neg hok] at hb
                exact ⟨(hadd hb).1, Or.inl rfl⟩

theorem StepsIn.fromLoop (st : StepsIn c D G R) (A : Server) (a y : Nat) : ∀ (n : Nat) (s : Server) (off rem : Nat),
    G s → Within D y s → s.tree.asked < 0xFFFFFFFF → R s (Server.fromLoop A c a y n s off rem).1
  | 0, s, _, _, _, _, _ => st.refl s
  | n + 1, s, off, rem, g, f, hb => by
    unfold Server.fromLoop
    split
    · exact st.refl s
    · simp only
      generalize (if rem ≥ COPY_CHUNK then COPY_CHUNK else rem) = len
      generalize A.view.readData (A.ios s.calls 0) a len off = d
      have t := st.tick s
      have g1 := st.next _ _ g (tick_later s) t hb
      have f1 := st.within _ _ _ f (tick_later s) t
      split
      · next hcan => exact st.trans _ _ _ t (tick_later s) (st.delete hcan _ _ g1 f1 hb)
      · split
        · exact t
        · have h1 := st.trans _ _ _ t (tick_later s) (st.write s.tickCall y (some d.2) (decide (off = 0)) false g1 f1)
          have l1 : Later s _ := (tick_later s).trans (write_later s.tickCall y (some d.2) (decide (off = 0)) false)
          have hb1 : (s.tickCall.write y (some d.2) (decide (off = 0)) false).1.tree.asked < 0xFFFFFFFF := by
            rw [write_tree]; exact hb
          have g2 := st.next _ _ g l1 h1 hb1
          have f2 := st.within _ _ _ f l1 h1
          split
          · exact st.trans _ _ _ h1 l1 (st.write _ _ _ _ _ g2 f2)
          · split
            · exact h1
            · exact st.trans _ _ _ h1 l1 (StepsIn.fromLoop st A a y n _ _ _ g2 f2 hb1)

theorem StepsIn.fromTo (st : StepsIn c D G R) (A : Server) : ∀ (n : Nat) (s : Server) (h p : Nat) (top : Bool) (out : Nat),
    G s → (∀ it pit, A.tree.get h = some it → s.tree.get p = some pit → Under D (join pit.path it.name)) →
    (Server.fromTo A c n s h p top out).1.tree.asked < 0xFFFFFFFF →
    R s (Server.fromTo A c n s h p top out).1 ∧
      ((Server.fromTo A c n s h p top out).2.2 = out ∨ Within D (Server.fromTo A c n s h p top out).2.2 (Server.fromTo A c n s h p top out).1)
  | 0, s, _, _, _, _, _, _, _ => ⟨st.refl s, Or.inl rfl⟩
  | n + 1, s, h, p, top, out, g, hd, hb => by
    have hb0 := Nat.lt_of_le_of_lt (steps_later.fromTo A c (n + 1) s h p top out).1 hb
    unfold Server.fromTo at hb ⊢
    split
    · exact ⟨st.refl s, Or.inl rfl⟩
    · exact ⟨st.refl s, Or.inl rfl⟩
    · next it pit hh hp =>
      simp only [hh, hp] at hb
      split
      · exact ⟨st.refl s, Or.inl rfl⟩
      · next hi =>
        rw [if_neg hi] at hb
        have hn := info_name (Decidable.of_not_not hi) hh
        split
        · exact ⟨st.tick s, Or.inl rfl⟩
        · next hroom =>
          rw [if_neg hroom] at hb
          split
          · exact ⟨st.refl s, Or.inl rfl⟩
          · next ht =>
            rw [if_neg ht] at hb
            split
            · exact ⟨st.refl s, Or.inl rfl⟩
            · next hc =>
              rw [if_neg hc] at hb
              have hc : copyable it.name = true := by simpa using hc
              have hpl : plain ({ (A.infoOf h).2 with parent := p } : ObjInfo).fileName = true := by
                show plain (A.infoOf h).2.fileName = true
                rw [hn]
                exact (copyable_name hc).1
              have hnm : toPath ({ (A.infoOf h).2 with parent := p } : ObjInfo).fileName = it.name := by
                show toPath (A.infoOf h).2.fileName = it.name
                rw [hn]
                exact (copyable_name hc).2
              have hla := addItem_later s { (A.infoOf h).2 with parent := p } p hpl
              have hall : p ≠ ALL := by
                have h1 := (st.ok s g).issued p pit hp
                unfold ALL
                omega
              have hadd := st.add s { (A.infoOf h).2 with parent := p } p g (plain_slash hpl) (by
                intro pit' e
                rw [if_neg hall, hp] at e
                cases e
                rw [hnm]
                exact hd it pit hh hp)
              generalize s.addItem { (A.infoOf h).2 with parent := p } p = a at hadd hla hb ⊢
              simp only at hb ⊢
              split
              · next hok =>
                rw [if_pos hok] at hb
                split
                · next hf =>
                  rw [if_pos hf] at hb
                  have hlk := steps_later.kids (fun s k => steps_later.fromTo A c n s k a.2.2 false a.2.2)
                    it.kids a.1
                  have hb1 := Nat.lt_of_le_of_lt hlk.1 hb
                  obtain ⟨k1, k2⟩ := hadd hb1
                  have k2 := k2 hok
                  have g1 := st.next _ _ g hla k1 hb1
                  have hk := st.kids (y := a.2.2) (fun s k => steps_later.fromTo A c n s k a.2.2 false a.2.2)
                    (fun s k g w hb => (StepsIn.fromTo st A n s k a.2.2 false a.2.2 g (fun it pit _ e =>
                      (w.2 pit e).trans (Under.join ..)) hb).1) _ _ g1 k2 hb
                  exact ⟨st.trans _ _ _ k1 hla hk, Or.inr (st.within _ _ _ k2 hlk hk)⟩
                · next hf =>
                  rw [if_neg hf] at hb
                  have hlk := steps_later.fromData A a.1 c h a.2.2
                  have hb1 := Nat.lt_of_le_of_lt hlk.1 hb
                  obtain ⟨k1, k2⟩ := hadd hb1
                  have k2 := k2 hok
                  have g1 := st.next _ _ g hla k1 hb1
                  have hk : R a.1 (Server.fromData A a.1 c h a.2.2).1 := by
                    unfold Server.fromData
                    split
                    · exact st.refl _
                    · exact st.fromLoop A h _ _ _ _ _ g1 k2 hb1
                  exact ⟨st.trans _ _ _ k1 hla hk, Or.inr (st.within _ _ _ k2 hlk hk)⟩
              · next hok =>
                rw [if_neg hok] at hb
                exact ⟨(hadd hb).1, Or.inl rfl⟩

/-- What is outside of the place is left alone. -/
theorem left_steps {x : Nat} (h0 : x ≠ 0) (c : Bool) (D : Path) : StepsIn c D (Far x D) (Left x) where
  ok _ g := g.ok
  refl := Left.refl x
  trans _ _ _ := Left.trans
  next _ _ g l h hb := g.next l h hb
  within _ _ _ f l h := f.next l h
  tick := tick_left x
  add _ o p g hs hp hb := add_left g o p hs hp hb
  write _ _ _ _ _ g f := write_left g.ok _ (f.ne g) _ _ _
  delete _ _ _ g f hb := delete_left h0 g f hb _

/-- What is new is in the place `D`; what is old is where it was, and there, unless the copy was cancelled. -/
structure Into (c : Bool) (D : Path) (s s' : Server) : Prop where
  all : ∀ z iz', s'.tree.get z = some iz' →
    (∃ iz, s.tree.get z = some iz ∧ iz'.path = iz.path) ∨ (s.tree.asked < z ∧ Under D iz'.path)
  stay : c = false → ∀ z iz, s.tree.get z = some iz → ∃ ks, s'.tree.get z = some { iz with kids := ks }
  fs : s'.tree.fs = s.tree.fs

theorem Into.same {c : Bool} {D : Path} {s s' : Server} (e : s'.tree = s.tree) : Into c D s s' :=
  ⟨fun z iz h => by rw [e] at h; exact Or.inl ⟨iz, h, rfl⟩, fun _ z iz h => ⟨iz.kids, by rw [e, h]⟩, by rw [e]⟩

theorem Into.trans {c : Bool} {D : Path} {a b d : Server} (h1 : Into c D a b) (hl : Later a b) (h2 : Into c D b d) : Into c D a d := by
  refine ⟨fun z iz e => ?_, fun hc z iz hz => ?_, h2.fs.trans h1.fs⟩
  rotate_left
  · obtain ⟨k1, e1⟩ := h1.stay hc z iz hz
    obtain ⟨k2, e2⟩ := h2.stay hc z _ e1
    exact ⟨k2, e2⟩
  have := hl.1
  rcases h2.all z iz e with ⟨i1, e1, p1⟩ | ⟨n1, n2⟩
  · rcases h1.all z i1 e1 with ⟨i2, e2, p2⟩ | ⟨n1, n2⟩
    · exact Or.inl ⟨i2, e2, p1.trans p2⟩
    · exact Or.inr ⟨n1, by rw [p1]; exact n2⟩
  · exact Or.inr ⟨by omega, n2⟩

theorem addItem_fs (s : Server) (o : ObjInfo) (p : Nat) : (s.addItem o p).1.tree.fs = s.tree.fs := by
  unfold addItem
  simp only
  split
  · split
    · rfl
    · split <;> rfl
  · rfl

theorem into_steps (c : Bool) (D : Path) : StepsIn c D ServerOk (Into c D) where
  ok _ g := g
  refl _ := Into.same rfl
  trans _ _ _ := Into.trans
  next _ _ g l _ hb := l.2 g hb
  within y s s' f l h := by
    refine ⟨Nat.le_trans f.1 l.1, fun iy e => ?_⟩
    rcases h.all y iy e with ⟨iz, e1, p1⟩ | ⟨_, n2⟩
    · rw [p1]; exact f.2 iz e1
    · exact n2
  tick _ := Into.same rfl
  add s o p g hs hp hb := by
    have hfs := addItem_fs s o p
    have hbb := addItem_asked s o p
    cases ha : s.addItem o p with
    | mk s' rh =>
      obtain ⟨r, y⟩ := rh
      rw [ha] at hb hbb hfs
      rcases addItem_cases g _ _ hs ha hb with ⟨q, hq⟩ | ⟨hr, n⟩
      · refine ⟨⟨fun z iz e => Or.inl ⟨iz, (q.get z).symm.trans e, rfl⟩, fun _ z i e => ⟨i.kids, (q.get z).trans e⟩, hfs⟩, fun hr => ?_⟩
        obtain ⟨h1, pit, h2, h3⟩ := hq hr
        obtain ⟨iy, ey⟩ := has_iff.mp h1
        refine ⟨Nat.le_trans (g.issued y iy ey) hbb, fun iz ez => ?_⟩
        have e1 : s.tree.get y = some iz := (q.get y).symm.trans ez
        obtain ⟨i2, e2, hp2⟩ := g.wf.ofPath _ _ h3
        rw [e1] at e2
        cases e2
        rw [hp2]
        exact hp pit h2
      · generalize (if p = ALL then 0 else p) = p at n hp
        obtain ⟨pit, hp', _, _, ⟨v, hget⟩, _⟩ := n.parent
        refine ⟨⟨fun z iz ez => ?_, fun _ z i e => ?_, hfs⟩, fun _ => ⟨?_, fun iz ez => ?_⟩⟩
        · rw [hget z] at ez
          split at ez
          · next hzy => subst hzy; cases ez; exact Or.inr ⟨n.later, hp pit hp'⟩
          · split at ez
            · next hzp => subst hzp; cases ez; exact Or.inl ⟨pit, hp', rfl⟩
            · exact Or.inl ⟨iz, ez, rfl⟩
        · rw [hget z]
          split
          · next hzy => rw [hzy, n.fresh] at e; cases e
          · split
            · next hzp => rw [hzp, hp'] at e; cases e; exact ⟨_, rfl⟩
            · exact ⟨i.kids, e⟩
        · exact n.issued y _ ((hget y).trans (if_pos rfl))
        · have e2 : s'.tree.get y = some iz := ez
          rw [hget y, if_pos rfl] at e2
          cases e2
          exact hp pit hp'
  write s y b f l _ _ := Into.same (write_tree ..)
  delete hc s y g f hb := by
    refine ⟨fun z iz e => Or.inl (delete_paths g _ _ _ _ e), fun h => absurd (hc.symm.trans h) (by simp), ?_⟩
    unfold delete
    split
    · rfl
    · exact (deleteItem_spec g.wf y UNDEF).2.fs

end Server
end Mtp
