import Verif.Lemmas.ServerConf
import Verif.Lemmas.TreeIds
/-! What the server's steps do to the persistent ids: unless objects are moved or folders renamed, they stay in order. -/
namespace Mtp
open Spec

theorem IdsInv.same {t t' : Tree} (i : IdsInv t) (h1 : t'.puoids = t.puoids) (h2 : t'.idsAsked = t.idsAsked) (h3 : t'.items = t.items) :
    IdsInv t' :=
  i.congr h1 h2 fun h it e => ⟨it, h, by unfold Tree.get at e ⊢; rw [← h3]; exact e, rfl, rfl⟩

theorem rename_file_ids {t : Tree} (i : IdsInv t) (w : TreeWF t) (h : Nat) (n : Path)
    (hk : ∀ it, t.get h = some it → it.kids = []) : IdsInv (t.rename h n).1 := by
  unfold Tree.rename
  split
  · exact i
  · next it e =>
    split
    · exact i
    · next pit ep =>
      split
      · exact i
      · next hv =>
        simp only
        have hp : (if '/' ∈ it.path then join (dirOf it.path) n else n) = join pit.path n ∧ AMap.get t.paths (join pit.path n) = none := by
          have hv : (AMap.get t.paths (join pit.path n)).isNone = true := by
            unfold Tree.nameValid at hv
            cases hc : (AMap.get t.paths (join pit.path n)).isNone with
            | true => rfl
            | false => rw [hc] at hv; simp at hv
          refine ⟨?_, Option.isNone_iff_eq_none.mp hv⟩
          have h0 : h ≠ 0 := by
            rintro rfl
            obtain ⟨r, e1, _, e2⟩ := w.root
            rw [e] at e1; cases e1
            rw [e2] at ep; cases ep
          obtain ⟨q, qit, f1, _, f3, _, f5, f6⟩ := w.parent h it e h0
          rw [f1] at ep
          have ep : t.get q = some pit := ep
          rw [f3] at ep; cases ep
          rw [f5, dirOf_join f6, if_pos (by unfold join; simp)]
        obtain ⟨hp1, hfree⟩ := hp
        rw [hp1]
        generalize join pit.path n = p at hfree ⊢
        have hu : t.ask.2.items = t.items ∧ t.ask.2.puoids = t.puoids ∧ t.ask.2.idsAsked = t.idsAsked := ⟨rfl, rfl, rfl⟩
        generalize t.ask = u at hu ⊢
        obtain ⟨good, u⟩ := u
        obtain ⟨u1, u2, u3⟩ := hu
        simp only at u1 u2 u3 ⊢
        split
        · exact i.same u2 u3 u1
        · unfold Tree.repath
          simp only [hk it e, List.foldl_nil]
          have hp : ∀ x, AMap.get (AMap.insert (AMap.erase u.puoids it.path) p it.puoid) x =
              if x = p then some it.puoid else if x = it.path then none else AMap.get t.puoids x := by
            intro x
            rw [AMap.get_insert, AMap.get_erase, u2]
          refine ⟨?_, ?_, ?_, AMap.nodup_insert (AMap.nodup_erase (by rw [u2]; exact i.keys) _) _ _⟩
          · intro x ix ex
            have ex : AMap.get (AMap.insert u.items h _) x = some ix := ex
            show AMap.get (AMap.insert (AMap.erase u.puoids it.path) p it.puoid) ix.path = _
            rw [AMap.get_insert, u1] at ex
            by_cases hx : x = h
            · rw [if_pos hx] at ex
              cases ex
              rw [hp, if_pos rfl]
            · rw [if_neg hx] at ex
              have ex : t.get x = some ix := ex
              rw [hp, if_neg, if_neg]
              · exact i.own x ix ex
              · intro e1
                have a := w.pathOf x ix ex
                rw [e1, w.pathOf h it e] at a
                exact hx (Option.some.inj a).symm
              · intro e1
                have a := w.pathOf x ix ex
                rw [e1, hfree] at a
                cases a
          · intro a b v ha hb
            have ha : AMap.get (AMap.insert (AMap.erase u.puoids it.path) p it.puoid) a = some v := ha
            have hb : AMap.get (AMap.insert (AMap.erase u.puoids it.path) p it.puoid) b = some v := hb
            rw [hp] at ha hb
            have old := i.own h it e
            by_cases a1 : a = p
            · by_cases b1 : b = p
              · exact a1.trans b1.symm
              · rw [if_pos a1] at ha
                cases ha
                rw [if_neg b1] at hb
                split at hb
                · cases hb
                · next hn => exact absurd (i.inj _ _ _ hb old) hn
            · rw [if_neg a1] at ha
              by_cases b1 : b = p
              · rw [if_pos b1] at hb
                cases hb
                split at ha
                · cases ha
                · next hn => exact absurd (i.inj _ _ _ ha old) hn
              · rw [if_neg b1] at hb
                split at ha
                · cases ha
                · split at hb
                  · cases hb
                  · exact i.inj _ _ _ ha hb
          · intro q v hq
            have hq : AMap.get (AMap.insert (AMap.erase u.puoids it.path) p it.puoid) q = some v := hq
            show v ≤ u.idsAsked
            rw [u3]
            rw [hp] at hq
            split at hq
            · cases hq; exact i.bound _ _ (i.own h it e)
            · split at hq
              · cases hq
              · exact i.bound _ _ hq

namespace Server

/-- Ids in order stay in order. -/
def InOrder (s s' : Server) : Prop := Later s s' ∧ (ServerOk s → s'.tree.asked < 0xFFFFFFFF → IdsInv s.tree → IdsInv s'.tree)

theorem InOrder.refl (s : Server) : InOrder s s := ⟨Later.refl s, fun _ _ i => i⟩

theorem InOrder.trans {a b c : Server} (h1 : InOrder a b) (h2 : InOrder b c) : InOrder a c :=
  ⟨h1.1.trans h2.1, fun w hb i =>
    have hb1 := Nat.lt_of_le_of_lt h2.1.1 hb
    h2.2 (h1.1.2 w hb1) hb (h1.2 w hb1 i)⟩

theorem InOrder.of {s s' : Server} (h : Later s s') (e : s'.tree = s.tree) : InOrder s s' :=
  ⟨h, fun _ _ i => by rw [e]; exact i⟩

theorem addItem_ids {s : Server} (i : IdsInv s.tree) (o : ObjInfo) (p : Nat) : IdsInv (s.addItem o p).1.tree := by
  have key : ∀ (b : Bool) (inf : Tree.Info) (d : Disk), IdsInv ((grant s.tree b).addItem inf d).1 := fun b inf d => by
    have ig : IdsInv (grant s.tree b) := i.same rfl rfl rfl
    unfold Tree.addItem
    simp only
    split
    · exact ig
    · exact (add_ids ig _ _ _ _ _ _).1
  unfold addItem
  simp only
  have key : ∀ b inf d t h r, (grant s.tree b).addItem inf d = (t, h, r) → IdsInv t := fun b inf d t h r e => by
    have k := key b inf d
    rw [e] at k
    exact k
  split
  · next e =>
    have k := key _ _ _ _ _ _ e
    split
    · exact k.same rfl rfl rfl
    · split
      · exact k.same rfl rfl rfl
      · exact k.same rfl rfl rfl
  · next e => exact (key _ _ _ _ _ _ e).same rfl rfl rfl

theorem delete_ids {s : Server} (w : ServerOk s) (i : IdsInv s.tree) (h fmt : Nat) : IdsInv (s.delete h fmt).1.tree := by
  unfold delete
  split
  · exact i
  · exact (step_ids w.wf i (.delete h fmt) trivial).1

theorem steps_ids : Steps InOrder where
  refl := InOrder.refl
  trans _ _ _ := InOrder.trans
  tick s := .of (tick_later s) rfl
  add s o p hn := ⟨addItem_later s o p hn, fun _ _ i => addItem_ids i o p⟩
  write s y b f l := .of (write_later s y b f l) (write_tree ..)
  delete s y := ⟨delete_later s y _, fun w _ i => delete_ids w i _ _⟩

theorem announce_ids (s : Server) (i p : Nat) (o : ObjInfo) : InOrder s (s.announce i p o).1 := by
  refine ⟨announce_later s i p o, fun _ _ ids => ?_⟩
  have h := addItem_ids ids { o with parent := p } p
  unfold announce
  simp only
  generalize (if i = 0 then 0x00010001 else i) = j
  by_cases hc : j ≠ s.sid ∨ plain o.fileName = false
  · rw [if_pos hc]; exact ids
  · rw [if_neg hc]
    split
    · next e => rw [e] at h; exact h
    · next e => rw [e] at h; exact h

theorem addInfo_ids (s : Server) (ps : List Nat) (b : List UInt8) : InOrder s (s.addInfo ps b).1 := by
  unfold addInfo
  split
  · exact InOrder.refl _
  · exact announce_ids ..

theorem addList_ids (s : Server) (ps : List Nat) (b : List UInt8) : InOrder s (s.addList ps b).1 := by
  rcases addList_split s ps b with ⟨c, qs, _, e⟩ | ⟨name, i, _, _, e, _⟩
  · rw [e]; exact InOrder.refl s
  · rw [e]; exact announce_ids ..

theorem no_kids {s : Server} (w : ServerOk s) {h : Nat} {it : Item} (e : s.tree.get h = some it) (hf : it.fmt ≠ ASSOC) : it.kids = [] := by
  cases hk : it.kids with
  | nil => rfl
  | cons c l =>
    obtain ⟨ci, e1, e2⟩ := w.wf.kids h it c e (by rw [hk]; exact List.mem_cons_self ..)
    exact absurd (w.folders c ci h it e1 e2 e) hf

theorem rename_ids (s : Server) (h : Nat) (n : QStr) (hf : ∀ it, s.tree.get h = some it → it.fmt ≠ ASSOC) :
    InOrder s (s.rename h n).1 := by
  refine ⟨rename_later s h n, fun w _ i => ?_⟩
  have ig : IdsInv (grant s.tree (plain n)) := i.same rfl rfl rfl
  have k := rename_file_ids ig (WF_congr w.wf rfl rfl rfl) h (toPath n) (fun it e => no_kids w e (hf it e))
  unfold rename
  split
  · exact i
  · simp only
    split
    · exact k.same rfl rfl rfl
    · exact k.same rfl rfl rfl

end Server

namespace PServer
open Server (InOrder)

/-- The commands that move objects or set their properties. -/
def moving : List Nat := [0x1019, 0x9804, 0x9806]

theorem closed_ids : Rsp.Closed dev (· ∉ moving) (fun d d' => InOrder d.srv d'.srv) where
  refl d := InOrder.refl _
  trans _ _ _ := InOrder.trans
  query d c ps h := by
    show InOrder d.srv (d.query c ps).1.srv
    unfold query
    simp only
    split
    · rw [took_srv]; exact InOrder.refl _
    split
    · rw [took_srv]; exact InOrder.refl _
    split
    · exact ⟨Server.delete_later .., fun w _ i => Server.delete_ids w i _ _⟩
    split
    · next e => exact absurd (by rw [e]; decide) h
    · next h1 h2 =>
      show InOrder d.srv (Server.query d.srv c ps).1
      unfold Server.query
      simp only [if_neg h1, if_neg h2]
      repeat' split
      all_goals first
        | exact InOrder.refl _
        | exact InOrder.of (Server.tick_later _) rfl
  copy _ d ps c := Server.steps_ids.whole d.srv ps c
  store d c ps b h := by
    show InOrder d.srv (d.store c ps b).1.srv
    unfold store
    split
    · next e => exact absurd (by rw [e]; decide) h
    · split
      · next e => exact absurd (by rw [e]; decide) h
      · exact InOrder.refl _
  addInfo _ d ps b := Server.addInfo_ids ..
  addList _ d ps b := Server.addList_ids ..
  write _ d h b f' l := .of (Server.write_later d.srv h b f' l) (Server.write_tree ..)
  cut _ d h n := .of (Server.Later.of (congrArg Tree.asked (Server.truncate_tree ..)) fun w => Server.truncate_ok w _ _)
    (Server.truncate_tree ..)
  setProps _ _ d h b := by
    show InOrder d.srv (d.setProps h b).srv
    unfold setProps
    split
    · split <;> exact InOrder.refl _
    · exact InOrder.refl _
  writePartial _ d h o b f' l := .of (Server.Later.of (congrArg Tree.asked (Server.writePartial_tree ..))
    fun w => Server.writePartial_ok w _ _ _ _ _) (Server.writePartial_tree ..)
  delete _ d h := ⟨Server.delete_later .., fun w _ i => Server.delete_ids w i _ _⟩
  flush _ d h := InOrder.refl _
  setEvents _ d _ _ := InOrder.refl _
  eventsOff _ d := InOrder.refl _

end PServer
end Mtp
