import Verif.Model.ServerAcross
import Verif.Lemmas.ServerCopy
/-! A relation that the single steps of a copy respect is respected by CopyObject from another storage. -/
namespace Mtp
namespace Server

variable {R : Server → Server → Prop}

theorem Steps.fromLoop (st : Steps R) (a : Server) (c : Bool) (x y : Nat) :
    ∀ (n : Nat) (s : Server) (off rem : Nat), R s (Server.fromLoop a c x y n s off rem).1
  | 0, s, _, _ => st.refl s
  | n + 1, s, off, rem => by
    unfold Server.fromLoop
    split
    · exact st.refl s
    · simp only
      generalize (if rem ≥ COPY_CHUNK then COPY_CHUNK else rem) = len
      generalize a.view.readData (a.ios s.calls 0) x len off = d
      split
      · exact st.trans _ _ _ (st.tick s) (st.delete _ _)
      · split
        · exact st.tick s
        · have h1 := st.trans _ _ _ (st.tick s) (st.write s.tickCall y (some d.2) (decide (off = 0)) false)
          split
          · exact st.trans _ _ _ h1 (st.write ..)
          · split
            · exact h1
            · exact st.trans _ _ _ h1 (Steps.fromLoop st a c x y n _ _ _)

theorem Steps.fromData (st : Steps R) (a s : Server) (c : Bool) (x y : Nat) : R s (Server.fromData a s c x y).1 := by
  unfold Server.fromData
  split
  · exact st.refl s
  · exact st.fromLoop ..

theorem Steps.fromTo (st : Steps R) (a : Server) (c : Bool) : ∀ (n : Nat) (s : Server) (h p : Nat) (top : Bool) (out : Nat),
    R s (Server.fromTo a c n s h p top out).1
  | 0, s, _, _, _, _ => st.refl s
  | n + 1, s, h, p, top, out => by
    unfold Server.fromTo
    split
    · exact st.refl s
    · exact st.refl s
    · next it pit hh hp =>
      split
      · exact st.refl s
      · next hi =>
        have hi := info_name (Decidable.of_not_not hi) hh
        split
        · exact st.tick s
        · split
          · exact st.refl s
          · split
            · exact st.refl s
            · next hc =>
              have hc : copyable it.name = true := by simpa using hc
              simp only
              have ha := st.add s { (a.infoOf h).2 with parent := p } p (by
                show plain (a.infoOf h).2.fileName = true
                rw [hi]
                exact (copyable_name hc).1)
              generalize s.addItem { (a.infoOf h).2 with parent := p } p = b at ha ⊢
              split
              · split
                · exact st.trans _ _ _ ha (st.kids (fun s k => Steps.fromTo st a c n s k _ _ _) _ _)
                · exact st.trans _ _ _ ha (st.fromData ..)
              · exact ha

theorem Steps.whole_from (st : Steps R) (a s : Server) (ps : List Nat) (c : Bool) : R s (Server.copyFrom a s ps c).1 := by
  unfold Server.copyFrom
  split
  · exact st.refl s
  · split
    · exact st.refl s
    · split
      · exact st.refl s
      · simp only
        split
        · exact st.trans _ _ _ (st.fromTo ..) (st.delete ..)
        · exact st.fromTo ..

end Server
end Mtp
