import Verif.Lemmas.Server
/-! A relation that the single steps of a copy respect is respected by CopyObject. -/
namespace Mtp
namespace Server

theorem copyable_name {n : Path} (h : copyable n = true) : plain (fromPath n) = true ∧ toPath (fromPath n) = n := by
  unfold copyable at h
  simpa using h

theorem info_name {s : Server} {h : Nat} {it : Item} (hi : (s.infoOf h).1 = .ok) (hh : s.tree.get h = some it) :
    (s.infoOf h).2.fileName = fromPath it.name := by
  unfold infoOf at hi ⊢
  rw [hh] at hi ⊢
  cases hk : AMap.get s.infos h with
  | none => rw [hk] at hi; cases hi
  | some o => rfl

/-- The steps of a copy. -/
structure Steps (R : Server → Server → Prop) : Prop where
  refl : ∀ s, R s s
  trans : ∀ a b c, R a b → R b c → R a c
  tick : ∀ s : Server, R s s.tickCall
  add : ∀ (s : Server) o p, plain o.fileName = true → R s (s.addItem o p).1
  write : ∀ (s : Server) y b f l, R s (s.write y b f l).1
  delete : ∀ (s : Server) y, R s (s.delete y UNDEF).1

variable {R : Server → Server → Prop}

theorem Steps.loop (st : Steps R) (c : Bool) (x y : Nat) : ∀ (n : Nat) (s : Server) (off rem : Nat), R s (copyLoop c x y n s off rem).1
  | 0, s, _, _ => st.refl s
  | n + 1, s, off, rem => by
    unfold copyLoop
    split
    · exact st.refl s
    · simp only
      generalize (if rem ≥ COPY_CHUNK then COPY_CHUNK else rem) = len
      generalize s.view.readData (s.ios s.calls 0) x len off = d
      split
      · exact st.trans _ _ _ (st.tick s) (st.delete _ _)
      · split
        · exact st.tick s
        · have h1 := st.trans _ _ _ (st.tick s) (st.write s.tickCall y (some d.2) (decide (off = 0)) false)
          split
          · exact st.trans _ _ _ h1 (st.write ..)
          · split
            · exact h1
            · exact st.trans _ _ _ h1 (Steps.loop st c x y n _ _ _)

theorem Steps.data (st : Steps R) (s : Server) (c : Bool) (x y : Nat) : R s (s.copyData c x y).1 := by
  unfold copyData
  split
  · exact st.refl s
  · exact st.loop ..

theorem Steps.kids (st : Steps R) {f : Server → Nat → Server × Resp × Nat} (hf : ∀ s k, R s (f s k).1) :
    ∀ (ks : List Nat) (s : Server), R s (copyKids f ks s).1
  | [], s => st.refl s
  | k :: ks, s => by
    unfold copyKids
    split
    · exact st.trans _ _ _ (hf s k) (Steps.kids st hf ks _)
    · exact hf s k

theorem Steps.to (st : Steps R) (c : Bool) : ∀ (n : Nat) (s : Server) (h p : Nat) (top : Bool) (out : Nat),
    R s (copyTo c n s h p top out).1
  | 0, s, _, _, _, _ => st.refl s
  | n + 1, s, h, p, top, out => by
    unfold copyTo
    split
    · exact st.refl s
    · exact st.refl s
    · next it pit hh hp =>
      split
      · exact st.refl s
      · next hi =>
        have hi := info_name (Decidable.of_not_not hi) hh
        split
        · exact st.tick s
        · split
          · exact st.refl s
          · split
            · exact st.refl s
            · next hc =>
              have hc : copyable it.name = true := by simpa using hc
              simp only
              have ha := st.add s { (s.infoOf h).2 with parent := p } p (by
                show plain (s.infoOf h).2.fileName = true
                rw [hi]
                exact (copyable_name hc).1)
              generalize s.addItem { (s.infoOf h).2 with parent := p } p = a at ha ⊢
              split
              · split
                · exact st.trans _ _ _ ha (st.kids (fun s k => Steps.to st c n s k _ _ _) _ _)
                · exact st.trans _ _ _ ha (st.data ..)
              · exact ha

theorem Steps.whole (st : Steps R) (s : Server) (ps : List Nat) (c : Bool) : R s (s.copy ps c).1 := by
  unfold Server.copy
  split
  · exact st.refl s
  · split
    · exact st.refl s
    · split
      · exact st.refl s
      · simp only
        split
        · exact st.trans _ _ _ (st.to ..) (st.delete ..)
        · exact st.to ..

end Server
end Mtp
