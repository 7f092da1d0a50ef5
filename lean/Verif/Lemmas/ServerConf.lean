import Verif.Lemmas.Storages
import Verif.Lemmas.ServerTold
/-! What never changes about a server: which storage it is, its formats and what the device says about its media. -/
namespace Mtp
open Spec
namespace Server

/-- The storage's id, the formats and the limits of the device. -/
def SameSetup (s s' : Server) : Prop := s'.sid = s.sid ∧ s'.fmts = s.fmts ∧ s'.caps = s.caps

theorem SameSetup.refl (s : Server) : SameSetup s s := ⟨rfl, rfl, rfl⟩

theorem SameSetup.trans {a b c : Server} (h1 : SameSetup a b) (h2 : SameSetup b c) : SameSetup a c :=
  ⟨h2.1.trans h1.1, h2.2.1.trans h1.2.1, h2.2.2.trans h1.2.2⟩

theorem addItem_setup (s : Server) (o : ObjInfo) (p : Nat) : SameSetup s (s.addItem o p).1 := by
  unfold addItem
  simp only
  split
  · split
    · exact ⟨rfl, rfl, rfl⟩
    · split <;> exact ⟨rfl, rfl, rfl⟩
  · exact ⟨rfl, rfl, rfl⟩

theorem announce_setup (s : Server) (i p : Nat) (o : ObjInfo) : SameSetup s (s.announce i p o).1 := by
  have h := addItem_setup s { o with parent := p } p
  unfold announce
  simp only
  generalize (if i = 0 then 0x00010001 else i) = j
  by_cases hc : j ≠ s.sid ∨ plain o.fileName = false
  · rw [if_pos hc]; exact SameSetup.refl _
  · rw [if_neg hc]
    split
    · next e => rw [e] at h; exact h
    · next e => rw [e] at h; exact h

theorem addInfo_setup (s : Server) (ps : List Nat) (b : List UInt8) : SameSetup s (s.addInfo ps b).1 := by
  unfold addInfo
  split
  · exact SameSetup.refl _
  · exact announce_setup ..

theorem addList_setup (s : Server) (ps : List Nat) (b : List UInt8) : SameSetup s (s.addList ps b).1 := by
  unfold addList
  split
  · exact SameSetup.refl _
  · exact SameSetup.refl _
  · exact SameSetup.refl _
  · next name _ _ =>
    have h := announce_setup s (ps.getD 0 0) (ps.getD 1 0) (listInfo ps name)
    split
    · exact SameSetup.refl _
    · split
      · next e => rw [e] at h; exact h
      · next e => rw [e] at h; exact h

theorem redate_setup (s : Server) (h : Nat) (c : Bool) : SameSetup s (s.redate h c) := by
  unfold redate
  split <;> exact ⟨rfl, rfl, rfl⟩

theorem write_setup (s : Server) (h : Nat) (b : Option (List UInt8)) (f l : Bool) : SameSetup s (s.write h b f l).1 := by
  unfold write
  split
  · exact SameSetup.refl _
  · exact SameSetup.trans (b := (s.absorb (s.view.writeData (s.ioFor h) h b f l).1 h).tickCall) ⟨rfl, rfl, rfl⟩ (redate_setup ..)

theorem truncate_setup (s : Server) (h n : Nat) : SameSetup s (s.truncate h n).1 := by
  unfold truncate
  split <;> exact ⟨rfl, rfl, rfl⟩

theorem writePartial_setup (s : Server) (h o : Nat) (b : List UInt8) (f l : Bool) : SameSetup s (s.writePartial h o b f l).1 := by
  unfold writePartial
  split
  · exact SameSetup.refl _
  · split
    · next F r' e => exact SameSetup.trans (b := (s.absorb F h).tickCall) ⟨rfl, rfl, rfl⟩ (redate_setup ..)
    · exact SameSetup.refl _

theorem delete_setup (s : Server) (h fmt : Nat) : SameSetup s (s.delete h fmt).1 := by
  unfold delete
  split <;> exact ⟨rfl, rfl, rfl⟩

theorem move_setup (s : Server) (h sid p : Nat) : SameSetup s (s.move h sid p).1 := by
  unfold move
  repeat' split
  all_goals (try simp only)
  all_goals repeat' split
  all_goals exact ⟨rfl, rfl, rfl⟩

theorem rename_setup (s : Server) (h : Nat) (n : QStr) : SameSetup s (s.rename h n).1 := by
  unfold rename
  split
  · exact SameSetup.refl _
  · simp only
    split <;> exact ⟨rfl, rfl, rfl⟩

theorem steps_setup : Steps SameSetup where
  refl := SameSetup.refl
  trans _ _ _ := SameSetup.trans
  tick _ := ⟨rfl, rfl, rfl⟩
  add s o p _ := addItem_setup s o p
  write := write_setup
  delete s y := delete_setup s y _

end Server

namespace PServer
open Server (SameSetup)

theorem set_setup (d : PServer) (h p : Nat) (v : Option Val) : SameSetup d.srv (d.set h p v).1.srv := by
  unfold set
  split
  · exact SameSetup.refl _
  · split
    · exact Server.rename_setup ..
    · exact SameSetup.refl _

theorem setElem_setup {d : PServer} {rx : Rx} {x : PServer × Resp × Rx} (e : d.setElem rx = .ok x) : SameSetup d.srv x.1.srv := by
  unfold setElem at e
  cases h1 : rx.getInt 4 with
  | ub u => rw [h1] at e; cases e
  | ok y =>
    obtain ⟨h, rx1⟩ := y
    rw [h1] at e
    simp only [Res.bind_ok] at e
    split at e
    · cases h2 : rx1.getInt 2 with
      | ub u => rw [h2] at e; cases e
      | ok y =>
        obtain ⟨p, rx2⟩ := y
        rw [h2] at e
        simp only [Res.bind_ok] at e
        split at e
        · split at e
          · cases h3 : rx2.getInt 2 with
            | ub u => rw [h3] at e; cases e
            | ok y =>
              obtain ⟨dt, rx3⟩ := y
              rw [h3] at e
              simp only [Res.bind_ok] at e
              cases h4 : rx3.getVariant dt with
              | ub u => rw [h4] at e; cases e
              | ok y =>
                obtain ⟨v, rx4⟩ := y
                rw [h4] at e
                simp only [Res.bind_ok, Res.pure_eq, Res.ok.injEq] at e
                rw [← e]
                exact set_setup ..
          · simp only [Res.pure_eq, Res.ok.injEq] at e
            rw [← e]; exact SameSetup.refl _
        · simp only [Res.pure_eq, Res.ok.injEq] at e
          rw [← e]; exact SameSetup.refl _
    · simp only [Res.pure_eq, Res.ok.injEq] at e
      rw [← e]; exact SameSetup.refl _

theorem setElems_setup (n : Nat) : ∀ (i : Nat) (d : PServer) (rx : Rx), SameSetup d.srv (setElems n i d rx).1.srv := by
  induction n with
  | zero => intro i d rx; exact SameSetup.refl _
  | succ n ih =>
    intro i d rx
    unfold setElems
    split
    · next e => exact (setElem_setup e).trans (ih _ _ _)
    · next e => exact setElem_setup e
    · exact SameSetup.refl _

theorem closed_setup {ok : Nat → Prop} : Rsp.Closed dev ok (fun d d' => SameSetup d.srv d'.srv) where
  refl d := SameSetup.refl _
  trans _ _ _ := SameSetup.trans
  query d c ps _ := by
    show SameSetup d.srv (d.query c ps).1.srv
    unfold query
    simp only
    split
    · rw [took_srv]; exact SameSetup.refl _
    split
    · rw [took_srv]; exact SameSetup.refl _
    split
    · exact Server.delete_setup ..
    split
    · exact Server.move_setup ..
    · next h1 h2 =>
      show SameSetup d.srv (Server.query d.srv c ps).1
      unfold Server.query
      simp only [if_neg h1, if_neg h2]
      repeat' split
      all_goals exact ⟨rfl, rfl, rfl⟩
  copy _ d ps c := Server.steps_setup.whole d.srv ps c
  store d c ps b _ := by
    show SameSetup d.srv (d.store c ps b).1.srv
    unfold store
    split
    · split
      · unfold setValue
        split
        · split
          · exact set_setup ..
          · exact SameSetup.refl _
        · exact SameSetup.refl _
      · exact SameSetup.refl _
    · split
      · unfold setList
        split
        · exact SameSetup.refl _
        · next n rx _ =>
          have := setElems_setup n 0 d rx
          split
          · next e2 => rw [e2] at this; exact this
          · next e2 => rw [e2] at this; exact this
      · exact SameSetup.refl _
  addInfo _ d ps b := Server.addInfo_setup ..
  addList _ d ps b := Server.addList_setup ..
  write _ d h b f' l := Server.write_setup d.srv h b f' l
  cut _ d h n := Server.truncate_setup d.srv h n
  setProps _ _ d h b := by
    show SameSetup d.srv (d.setProps h b).srv
    unfold setProps
    split
    · split <;> exact SameSetup.refl _
    · exact SameSetup.refl _
  writePartial _ d h o b f' l := Server.writePartial_setup d.srv h o b f' l
  delete _ d h := Server.delete_setup ..
  flush _ d h := SameSetup.refl _
  setEvents _ d _ _ := SameSetup.refl _
  eventsOff _ d := SameSetup.refl _

end PServer
end Mtp
