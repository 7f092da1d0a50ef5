import Verif.Spec.ServerMoveAcross
import Verif.Lemmas.ServerMoveAcross
import Verif.Props.Across
/-! What MoveObject to another storage does to both storages. -/
namespace Mtp
open Spec
namespace Server

theorem apart_ok {s t : Server} (e : apart s = apart t) (w : ServerOk t) (h : t.tree.asked ≤ s.tree.asked) : ServerOk s := by
  have : s = { t with calls := s.calls, tree := { t.tree with asked := s.tree.asked, idsAsked := s.tree.idsAsked } } := by
    obtain ⟨a1, a2, a3, a4, a5, a6, a7, a8, a9, a10, a11, a12, a13⟩ := s
    obtain ⟨b1, b2, b3, b4, b5, b6, b7, b8, b9, b10, b11, b12, b13⟩ := t
    obtain ⟨t1, t2, t3, t4, t5, t6, t7, t8, t9, t10, t11⟩ := a4
    obtain ⟨u1, u2, u3, u4, u5, u6, u7, u8, u9, u10, u11⟩ := b4
    simp only [apart, Server.mk.injEq, Tree.mk.injEq, and_true, true_and] at e
    obtain ⟨rfl, rfl, rfl, ⟨rfl, rfl, rfl, rfl, rfl, rfl, rfl, rfl, rfl⟩, rfl, rfl, rfl, rfl, rfl, rfl, rfl, rfl⟩ := e
    rfl
  rw [this]
  exact Storages.ok_more w h

theorem apart_has {s t : Server} (e : apart s = apart t) (x : Nat) : s.tree.has x = t.tree.has x := by
  unfold Tree.has
  rw [(Props.apart_get e x).1]

theorem apart_sid {s t : Server} (e : apart s = apart t) : s.sid = t.sid ∧ s.fmts = t.fmts ∧ s.tree.fs = t.tree.fs :=
  ⟨(congrArg (·.sid) e : (apart s).sid = (apart t).sid), (congrArg (·.fmts) e : (apart s).fmts = (apart t).fmts),
    (congrArg (·.tree.fs) e : (apart s).tree.fs = (apart t).tree.fs)⟩

theorem apart_below {s t : Server} (e : apart s = apart t) {h x : Nat} : Below s.tree h x ↔ Below t.tree h x := by
  have key : ∀ {s t : Server}, apart s = apart t → Below s.tree h x → Below t.tree h x := by
    intro s t e b
    induction b with
    | self => exact .self
    | child g1 g2 _ ih => exact .child ((Props.apart_get e _).1 ▸ g1) g2 ih
  exact ⟨key e, key e.symm⟩

/-- What deleting does to what is left. -/
theorem delete_rest {s : Server} (w : ServerOk s) (h fmt : Nat) (x : Nat) (hx : (s.delete h fmt).1.tree.has x = true) :
    s.tree.has x = true ∧ contents (s.delete h fmt).1 x = contents s x ∧ (s.delete h fmt).1.infoOf x = s.infoOf x := by
  by_cases hc : h ≠ ALL ∧ s.tree.has h = false
  · have e : s.delete h fmt = (s, .generalError) := by unfold delete; rw [if_pos hc]
    rw [e] at hx ⊢
    exact ⟨hx, rfl, rfl⟩
  · have e : (s.delete h fmt).1 = s.dropGone (s.tree.deleteItem h fmt).1 := by unfold delete; rw [if_neg hc]
    rw [e] at hx ⊢
    obtain ⟨t1, t2⟩ := deleteItem_spec w.wf h fmt
    exact ⟨t2.has hx, (dropGone_ok w t1 t2).2 x hx⟩

theorem delete_spares {s : Server} (w : ServerOk s) {h : Nat} (fmt : Nat) (hall : h ≠ ALL) (x : Nat) (hx : s.tree.has x = true)
    (hb : ¬ Below s.tree h x) : (s.delete h fmt).1.tree.has x = true := by
  unfold delete
  split
  · exact hx
  · obtain ⟨ix, e⟩ := has_iff.mp hx
    exact has_iff.mpr ⟨_, (Props.C19_others_unchanged w.wf h fmt hall).1 x ix e hb⟩

theorem delete_went {s : Server} (w : ServerOk s) {h : Nat} (fmt : Nat) (hall : h ≠ ALL) (h0 : h ≠ 0) (hh : s.tree.has h = true)
    (hfs : ∀ k, s.tree.fs k = true) : (s.delete h fmt).2 = .ok ∧ WentFrom s (s.delete h fmt).1 h := by
  obtain ⟨c1, c2⟩ := Props.C19_exactly_subtree w.wf h fmt hall h0 hh (fun i _ _ => hfs i)
  have hd : s.delete h fmt = (s.dropGone (s.tree.deleteItem h fmt).1, .ok) := by
    unfold delete
    rw [if_neg (by rintro ⟨_, e⟩; rw [hh] at e; cases e), c1]
  refine ⟨by rw [hd], delete_ok w _ _, by rw [hd]; rfl, fun x => by rw [hd]; exact c2 x, fun x hx => (delete_rest w h fmt x hx).2⟩

end Server

namespace Storages

theorem put_at_other (m : Storages) (j : Nat) (s : Server) {k : Nat} (hk : k ≠ j) : apart ((m.put j s).at k) = apart (m.at k) :=
  Props.put_others m j s hk

theorem below_has {m : Storages} {i h x : Nat} (hh : (m.at i).tree.has h = true) (hb : Below (m.at i).tree h x) :
    (m.at i).tree.has x = true := by
  obtain ⟨it, e⟩ := has_iff.mp hh
  exact has_iff.mpr (below_get e hb)

theorem below_ne {a : Server} (w : ServerOk a) {h x : Nat} (h0 : h ≠ 0) (hb : Below a.tree h x) : x ≠ 0 := by
  rintro rfl
  obtain ⟨r, r1, _, r3⟩ := w.wf.root
  cases hb with
  | self => exact h0 rfl
  | child g1 g2 _ => rw [r1] at g1; cases g1; rw [r3] at g2; cases g2

/-- Whatever happens, nothing is lost. -/
theorem carry_safe {m : Storages} (w : StoragesOk m) {i j h : Nat} (hi : i < m.count) (hj : j < m.count) (hij : i ≠ j) (h0 : h ≠ 0)
    (hh : (m.at i).tree.has h = true) (hb : HandlesLeft m) (par : Nat) (hw : Willing (m.at i) ∧ Willing (m.at j)) :
    NothingLost m (m.carry i j h par).1 i j h ∧
      ((m.carry i j h par).2 = .ok → ∀ x c, Below (m.at i).tree h x → Holds (m.at i) x c → c.length < 2 ^ 32 →
        contents ((m.carry i j h par).1.at j) x = some c) := by
  have wi := w.each i hi
  have hbel : ∀ x, Below (m.at i).tree h x → x ≠ 0 ∧ x ≤ (m.at j).tree.asked := by
    intro x hx
    obtain ⟨ix, e⟩ := has_iff.mp (below_has hh hx)
    exact ⟨below_ne wi h0 hx, wi.issued x ix e⟩
  obtain ⟨g, gf⟩ := Server.adoptTo_adopts (B := Below (m.at i).tree h) wi (fun x ix k hx e hk => by
      obtain ⟨ki, k1, k2, _⟩ := wi.wf.kid e hk
      exact .child k1 k2 hx) (Tree.maxLen (m.at i).tree.items + 1) par (m.at j) h .self (w.each j hj) hb hbel
  dsimp only at g gf
  unfold carry
  simp only
  generalize Server.adoptTo (m.at i) (Tree.maxLen (m.at i).tree.items + 1) (m.at j) h par = b at *
  have hall : h ≠ ALL := by
    obtain ⟨it, e⟩ := has_iff.mp hh
    have := wi.issued h it e
    unfold HandlesLeft at hb
    rw [at_asked] at this
    unfold ALL; omega
  by_cases hok : b.2.1 = .ok
  · rw [if_pos hok]
    have ei : apart ((m.put j b.1).at i) = apart (m.at i) := put_at_other m j b.1 hij
    have ask : (m.at i).tree.asked ≤ ((m.put j b.1).at i).tree.asked := by
      show m.asked ≤ b.1.tree.asked
      have : b.1.tree.asked = m.asked := g.env.asked
      omega
    have wi' := Server.apart_ok ei wi ask
    have ea : (((m.put j b.1).on i fun s => s.delete h UNDEF).1.at i) = (((m.put j b.1).at i).delete h UNDEF).1 := by
      unfold on
      exact put_at ..
    have ej : apart (((m.put j b.1).on i fun s => s.delete h UNDEF).1.at j) = apart b.1 := by
      unfold on
      rw [put_at_other _ _ _ (Ne.symm hij), put_at]
    have eo : ∀ k, k ≠ i → k ≠ j → apart (((m.put j b.1).on i fun s => s.delete h UNDEF).1.at k) = apart (m.at k) := by
      intro k hki hkj
      unfold on
      rw [put_at_other _ _ _ hki, put_at_other _ _ _ hkj]
    have hask : (((m.put j b.1).on i fun s => s.delete h UNDEF).1).asked = m.asked := by
      unfold on
      show (((m.put j b.1).at i).delete h UNDEF).1.tree.asked = m.asked
      rw [Server.delete_asked]
      exact g.env.asked
    generalize ((m.put j b.1).on i fun s => s.delete h UNDEF).2 = rr
    have hcnt : ((m.put j b.1).on i fun s => s.delete h UNDEF).1.count = m.count := rfl
    generalize ((m.put j b.1).on i fun s => s.delete h UNDEF).1 = m' at *
    have hfile : ∀ x c, Below (m.at i).tree h x → Holds (m.at i) x c → c.length < 2 ^ 32 → contents (m'.at j) x = some c := by
      intro x c hx hc hl
      rw [(Props.apart_get ej x).2.1]
      exact gf hw.1 hw.2 hok x c hx hc hl
    refine ⟨⟨hcnt, fun k hk => ?_, eo, fun x hx => ?_, fun x hx hn => ?_, fun x c hx hc hl => Or.inr (hfile x c hx hc hl)⟩,
      fun _ => hfile⟩
    · by_cases hki : k = i
      · subst hki; rw [ea]; exact Server.delete_ok wi' _ _
      · by_cases hkj : k = j
        · subst hkj
          exact Server.apart_ok ej g.ok (by rw [at_asked, hask]; exact Nat.le_of_eq g.env.asked)
        · exact Server.apart_ok (eo k hki hkj) (w.each k hk) (Nat.le_of_eq hask.symm)
    · obtain ⟨a1, a2, a3⟩ := g.old x hx
      obtain ⟨_, b2, _, b4, _⟩ := Props.apart_get ej x
      exact ⟨(Server.apart_has ej x).trans a1, b2.trans a2, b4.trans a3⟩
    · have h1 := Server.delete_spares wi' UNDEF hall x ((Server.apart_has ei x).trans hx) (fun hb => hn ((Server.apart_below ei).mp hb))
      obtain ⟨_, h2, h3⟩ := Server.delete_rest wi' h UNDEF x h1
      obtain ⟨_, b2, _, b4, _⟩ := Props.apart_get ei x
      rw [ea]
      exact ⟨h1, h2.trans b2, h3.trans b4⟩
  · rw [if_neg hok]
    refine ⟨⟨rfl, fun k hk => ?_, fun k _ hk => put_at_other _ _ _ hk, fun x hx => ?_, fun x hx _ => ?_, fun x c hx hc hl => Or.inl ?_⟩,
      fun h => absurd h hok⟩
    · by_cases hkj : k = j
      · subst hkj; simp only [put_at]; exact g.ok
      · exact Server.apart_ok (put_at_other _ _ _ hkj) (w.each k hk) (Nat.le_of_eq g.env.asked.symm)
    · simp only [put_at]; exact g.old x hx
    · have ei := put_at_other m j b.1 hij
      obtain ⟨_, b2, _, b4, _⟩ := Props.apart_get ei x
      exact ⟨(Server.apart_has ei x).trans hx, b2, b4⟩
    · exact ((Props.apart_get (put_at_other m j b.1 hij) x).2.1).trans hc.contents

/-- A copy that was not answered OK leaves the object where it is. -/
theorem carry_failed {m : Storages} {i j h par : Nat} (hij : i ≠ j)
    (hn : (Server.adoptTo (m.at i) (Tree.maxLen (m.at i).tree.items + 1) (m.at j) h par).2.1 ≠ .ok) :
    apart ((m.carry i j h par).1.at i) = apart (m.at i) := by
  unfold carry
  simp only
  rw [if_neg hn]
  exact put_at_other _ _ _ hij

/-- A move to a free place of another storage. -/
theorem carry_done {m : Storages} (w : StoragesOk m) {i j h p : Nat} (hi : i < m.count) (hj : j < m.count) (hij : i ≠ j)
    (hc : MovableAcross (m.at i) (m.at j) h p) :
    (m.carry i j h p).2 = .ok ∧ (m.carry i j h p).1.count = m.count ∧ HandlesLeft (m.carry i j h p).1 ∧ StoragesOk (m.carry i j h p).1 ∧
      (∀ k, k ≠ i → k ≠ j → apart ((m.carry i j h p).1.at k) = apart (m.at k)) ∧ WentFrom (m.at i) ((m.carry i j h p).1.at i) h ∧
      ∃ (b : Server) (M : List (Nat × Nat)), (∀ x y, (x, y) ∈ M → y = x) ∧ (h, h) ∈ M ∧ CopiedAcross (m.at i) (m.at j) b h p M ∧
        apart ((m.carry i j h p).1.at j) = apart b := by
  have wi := w.each i hi
  have wj := w.each j hj
  obtain ⟨it, pit, e1, e2, e3, e4, e5⟩ := hc.place
  have hh : (m.at i).tree.has h = true := has_iff.mpr ⟨it, e1⟩
  have hb := hc.handles
  have hbel : ∀ x, Below (m.at i).tree h x → x ≠ 0 ∧ x ≤ (m.at j).tree.asked := by
    intro x hx
    obtain ⟨ix, e⟩ := has_iff.mp (below_has hh hx)
    exact ⟨below_ne wi hc.notRoot hx, wi.issued x ix e⟩
  have hmv : Server.MovingX (m.at i) (m.at j) (Below (m.at i).tree h) := by
    refine ⟨hc.willing, fun x ix k hx e hk => ?_, fun x xi hx ex => ?_, fun x hx => ?_, fun x xi hx ex hf => ?_, hc.granted.2, hbel, hb⟩
    · obtain ⟨ki, k1, k2, _⟩ := wi.wf.kid e hk
      exact .child k1 k2 hx
    · obtain ⟨a, b⟩ := hc.names x xi hx ex
      unfold Server.copyable
      rw [a, b]
      simp
    · exact Server.info_ok wi (below_has hh hx)
    · obtain ⟨c, a, b⟩ := hc.files x xi hx ex hf
      obtain ⟨o, o1, o2⟩ := a.told
      exact ⟨c, a.contents, by rw [o1]; exact o2, b⟩
  have hall : h ≠ ALL := by have := (hbel h .self).2; unfold ALL; omega
  have hpall : p ≠ ALL := by have := wj.issued p pit e2; unfold ALL; omega
  have hfree := Props.free_path wj.wf e4
  obtain ⟨_, _, _, _, _, _, _, hname⟩ := wi.wf.parent h it e1 hc.notRoot
  obtain ⟨b, M, a1, a2, a3, a4, a5, a6⟩ := Server.adoptTo_done wi hmv (Tree.maxLen (m.at i).tree.items + 1) p p (by rw [if_neg hpall]) (m.at j) h
    pit it .self wj ⟨rfl, rfl, rfl, rfl, rfl, rfl⟩ rfl
    (fun x hx => by
      cases hg : (m.at j).tree.get x with
      | none => rfl
      | some y => exact absurd (w.handles i j x hi hj (hbel x hx).1 (below_has hh hx) (has_iff.mpr ⟨y, hg⟩)) hij)
    e2 e3 e1 hname hfree e5 (fun x ix e => by have := len_le_maxLen e; omega)
  have cp := Server.copied_of_grafts wi wj hc.notRoot e1 e2 a3 a4
  have hid : ∀ x y, (x, y) ∈ (h, h) :: M → y = x := by
    intro x y hm
    rcases List.mem_cons.mp hm with hm | hm
    · cases hm; rfl
    · exact a6 x y hm
  generalize hM : (h, h) :: M = M' at *
  have hhM : (h, h) ∈ M' := by rw [← hM]; exact List.mem_cons_self
  dsimp only at a1 a2
  unfold carry
  simp only
  rw [a2, a1]
  simp only [if_true]
  have ei : apart ((m.put j b).at i) = apart (m.at i) := put_at_other m j b hij
  have wi' := Server.apart_ok ei wi (by show m.asked ≤ b.tree.asked; rw [a5]; exact Nat.le_refl _)
  obtain ⟨d1, d2⟩ := Server.delete_went wi' UNDEF hall hc.notRoot ((Server.apart_has ei h).trans hh)
    (by rw [(Server.apart_sid ei).2.2]; exact hc.granted.1)
  have ea : (((m.put j b).on i fun s => s.delete h UNDEF).1.at i) = (((m.put j b).at i).delete h UNDEF).1 := by
    unfold on
    exact put_at ..
  have ej : apart (((m.put j b).on i fun s => s.delete h UNDEF).1.at j) = apart b := by
    unfold on
    rw [put_at_other _ _ _ (Ne.symm hij), put_at]
  have eo : ∀ k, k ≠ i → k ≠ j → apart (((m.put j b).on i fun s => s.delete h UNDEF).1.at k) = apart (m.at k) := by
    intro k hki hkj
    unfold on
    rw [put_at_other _ _ _ hki, put_at_other _ _ _ hkj]
  have hask : (((m.put j b).on i fun s => s.delete h UNDEF).1).asked = m.asked := by
    unfold on
    show (((m.put j b).at i).delete h UNDEF).1.tree.asked = m.asked
    rw [Server.delete_asked]
    exact a5
  have hr : ((m.put j b).on i fun s => s.delete h UNDEF).2 = .ok := d1
  have hcnt : ((m.put j b).on i fun s => s.delete h UNDEF).1.count = m.count := rfl
  have hfm : ((m.put j b).on i fun s => s.delete h UNDEF).1.fmts = m.fmts := rfl
  have hfi : ((((m.put j b).at i).delete h UNDEF).1).fmts = (m.at i).fmts := by
    rw [(Server.delete_ages _ h UNDEF).1.2]
    exact (Server.apart_sid ei).2.1
  have hfb : b.fmts = (m.at j).fmts := by
    have := (Server.adoptTo_adopts (B := Below (m.at i).tree h) wi (fun x ix k hx e hk => by
      obtain ⟨ki, k1, k2, _⟩ := wi.wf.kid e hk
      exact .child k1 k2 hx) (Tree.maxLen (m.at i).tree.items + 1) p (m.at j) h .self wj hb hbel).1.env.fmts
    dsimp only at this
    rw [a1] at this
    exact this
  generalize ((m.put j b).on i fun s => s.delete h UNDEF).2 = rr at *
  generalize ((m.put j b).on i fun s => s.delete h UNDEF).1 = m' at *
  have went : WentFrom (m.at i) (m'.at i) h := by
    rw [ea]
    refine ⟨d2.ok, d2.sid.trans (Server.apart_sid ei).1, fun x => (d2.gone x).trans ?_, fun x hx => ?_⟩
    · rw [Server.apart_has ei x, Server.apart_below ei]
    · obtain ⟨_, b2, _, b4, _⟩ := Props.apart_get ei x
      obtain ⟨c1, c2⟩ := d2.rest x hx
      exact ⟨c1.trans b2, c2.trans b4⟩
  -- who has what
  have hasj : ∀ x, (m'.at j).tree.has x = true → (m.at j).tree.has x = true ∨ Below (m.at i).tree h x := by
    intro x hx
    rw [Server.apart_has ej x] at hx
    cases ho : (m.at j).tree.has x with
    | true => exact Or.inl rfl
    | false =>
      obtain ⟨x', hx'⟩ := (cp.new x).mp ⟨hx, ho⟩
      have := hid _ _ hx'
      subst this
      exact Or.inr ((cp.source _).mpr ⟨_, hx'⟩)
  have hbi : ∀ x, Below (m.at i).tree h x → (m.at i).tree.has x = true := fun x hx => below_has hh hx
  have sids : ∀ k, (m'.at k).sid = (m.at k).sid := by
    intro k
    by_cases hki : k = i
    · subst hki; exact went.sid
    · by_cases hkj : k = j
      · subst hkj; exact (Server.apart_sid ej).1.trans cp.sid
      · exact (Server.apart_sid (eo k hki hkj)).1
  have owner : ∀ k x, k < m.count → x ≠ 0 → (m'.at k).tree.has x = true →
      ((m.at k).tree.has x = true ∧ (k = i → ¬ Below (m.at i).tree h x)) ∨ (k = j ∧ Below (m.at i).tree h x) := by
    intro k x hk hx hp
    by_cases hki : k = i
    · subst hki
      obtain ⟨g1, g2⟩ := (went.gone x).mp hp
      exact Or.inl ⟨g1, fun _ => g2⟩
    · by_cases hkj : k = j
      · subst hkj
        rcases hasj x hp with g | g
        · exact Or.inl ⟨g, fun e => absurd e hki⟩
        · exact Or.inr ⟨rfl, g⟩
      · rw [Server.apart_has (eo k hki hkj) x] at hp
        exact Or.inl ⟨hp, fun e => absurd e hki⟩
  refine ⟨hr, hcnt, ?_, ⟨by rw [hcnt]; exact w.some, fun k hk => ?_, fun k hk => ?_, fun k l hk hl e => ?_, fun k l x hk hl hx e1 e2 => ?_,
    fun k hk => ?_⟩, eo, went, b, M', hid, hhM, cp, ej⟩
  · unfold HandlesLeft
    rw [hask]
    exact hb
  · rw [hcnt] at hk
    by_cases hki : k = i
    · subst hki; exact went.ok
    · by_cases hkj : k = j
      · subst hkj
        exact Server.apart_ok ej cp.ok (by rw [at_asked, hask]; exact Nat.le_of_eq a5)
      · exact Server.apart_ok (eo k hki hkj) (w.each k hk) (Nat.le_of_eq hask.symm)
  · rw [sids]; exact w.real k (hcnt ▸ hk)
  · rw [sids, sids] at e; exact w.ids k l (hcnt ▸ hk) (hcnt ▸ hl) e
  · rw [hcnt] at hk hl
    rcases owner k x hk hx e1 with ⟨g1, g2⟩ | ⟨g1, g2⟩ <;> rcases owner l x hl hx e2 with ⟨g3, g4⟩ | ⟨g3, g4⟩
    · exact w.handles k l x hk hl hx g1 g3
    · exact absurd g4 (g2 (w.handles k i x hk hi hx g1 (hbi x g4)))
    · exact absurd g2 (g4 (w.handles l i x hl hi hx g3 (hbi x g2)))
    · rw [g1, g3]
  · rw [hcnt] at hk
    rw [hfm]
    by_cases hki : k = i
    · subst hki; rw [ea, hfi]; exact w.fmts k hk
    · by_cases hkj : k = j
      · subst hkj; rw [(Server.apart_sid ej).2.1, hfb]; exact w.fmts k hk
      · rw [(Server.apart_sid (eo k hki hkj)).2.1]; exact w.fmts k hk

end Storages
end Mtp
