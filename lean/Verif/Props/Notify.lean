import Verif.Model.Notify
import Verif.Props.Move
/-! Property theorems C45 (moves on the device), C46 (readiness), C47 (free-space events). -/
namespace Props
open Mtp Spec

/-- What the kernel sends: moves carry a non-zero cookie, other events cookie 0. -/
def KernelEv (e : NEv) : Prop := e.cookie ≠ 0 ↔ e.kind = .movedTo ∨ e.kind = .movedFrom

/-- The notifications a handler call accounts for. -/
def origins : Act → List NEv
  | .create e => [e] | .delete e => [e] | .move a b => [a, b] | .modify e => [e]

/-- A handler call fits the notifications it accounts for. -/
def Fits : Act → Prop
  | .create e => e.kind = .create ∨ e.kind = .movedTo
  | .delete e => e.kind = .delete ∨ e.kind = .movedFrom
  | .move a b => a.kind = .movedFrom ∧ b.kind = .movedTo ∧ a.cookie = b.cookie
  | .modify e => e.kind = .closeWrite

/-- The notification is one the storage reacts to. -/
def relevant (e : NEv) : Bool := decide (e.name ≠ none) && decide (e.kind ≠ .other)

/-- The moved-from waiting for its counterpart. -/
def waiting (c : NCache) : List NEv := if c.ev.cookie ≠ 0 then [c.ev] else []

/-- A cache holding nothing or a moved-from. -/
def CacheOk (c : NCache) : Prop := c = NCache.zero ∨ (c.ev.cookie ≠ 0 ∧ c.ev.kind = .movedFrom ∧ c.ev.name ≠ none)

theorem delAct_origins (e : NEv) (h : e.kind = .delete ∨ e.kind = .movedFrom) : delAct e = [.delete e] := by
  unfold delAct; rw [if_pos h]

/-- One notification: everything waiting or arriving is accounted for exactly once and in order. -/
theorem slot_conserves (c : NCache) (hc : CacheOk c) (e : NEv) (he : KernelEv e) :
    CacheOk (slot c (some e)).1 ∧
    (slot c (some e)).2.flatMap origins ++ waiting (slot c (some e)).1 =
      waiting c ++ (if relevant e then [e] else []) ∧
    ∀ a ∈ (slot c (some e)).2, Fits a := by
  obtain ⟨k, d, ck, nm⟩ := e
  unfold KernelEv at he
  cases nm with
  | none => simp [slot, relevant, hc]
  | some nm =>
    rcases hc with rfl | ⟨h1, h2, h3⟩
    · cases k <;>
        simp_all [slot, relevant, NCache.zero, waiting, delAct, origins, CacheOk, Fits]
    · obtain ⟨⟨k', d', ck', nm'⟩⟩ := c
      simp only at h1 h2 h3
      subst h2
      have h0 : (0 = ck) = (ck = 0) := propext eq_comm
      cases k <;> by_cases hck : ck' = ck <;>
        simp_all [slot, relevant, NCache.zero, waiting, delAct, origins, CacheOk, Fits]

/-- C45. For every sequence of notifications: reading off, in order, the notifications each handler call accounts for,
followed by a moved-from still waiting, gives exactly the relevant notifications received: none is lost and none
is processed twice. A move joins a moved-from with a moved-to of the same cookie; a moved-from treated alone becomes a
deletion, a moved-to treated alone a creation. -/
theorem C45_conservation (es : List NEv) (h : ∀ e ∈ es, KernelEv e) :
    (slots NCache.zero (es.map some)).2.flatMap origins ++ waiting (slots NCache.zero (es.map some)).1 =
      es.filter relevant ∧
    ∀ a ∈ (slots NCache.zero (es.map some)).2, Fits a := by
  have key : ∀ (es : List NEv) (c : NCache), CacheOk c → (∀ e ∈ es, KernelEv e) →
      (slots c (es.map some)).2.flatMap origins ++ waiting (slots c (es.map some)).1 =
        waiting c ++ es.filter relevant ∧ ∀ a ∈ (slots c (es.map some)).2, Fits a := by
    intro es
    induction es with
    | nil => intro c _ _; simp [slots]
    | cons e es ih =>
      intro c hc hk
      obtain ⟨s1, s2, s3⟩ := slot_conserves c hc e (hk e List.mem_cons_self)
      obtain ⟨i1, i2⟩ := ih _ s1 (fun e he => hk e (List.mem_cons_of_mem _ he))
      simp only [List.map_cons, slots, List.flatMap_append, List.append_assoc]
      refine ⟨?_, ?_⟩
      · rw [i1, ← List.append_assoc, s2, List.filter_cons]
        cases relevant e <;> simp
      · intro a ha
        rcases List.mem_append.mp ha with h | h
        · exact s3 a h
        · exact i2 a h
  have := key es NCache.zero (Or.inl rfl) h
  simpa [waiting, NCache.zero] using this

/-- C45. A moved-to coming right after the moved-from with the same cookie (nameless events in between do not count) is
treated as one move, whatever happened before. Missing: other notifications in between
(`C45_interleaved_violated`). -/
theorem C45_pair_is_a_move_partial (c : NCache) (hc : CacheOk c) (a b : NEv) (ns : List NEv)
    (ha : a.kind = .movedFrom) (hb : b.kind = .movedTo) (hna : a.name ≠ none) (hnb : b.name ≠ none)
    (hck : a.cookie = b.cookie) (h0 : a.cookie ≠ 0) (hns : ∀ e ∈ ns, e.name = none) :
    (slots c ((a :: ns ++ [b]).map some)).2 = (waiting c).map .delete ++ [.move a b] ∧
    (slots c ((a :: ns ++ [b]).map some)).1 = NCache.zero := by
  have h1 : slot c (some a) = (⟨a⟩, (waiting c).map .delete) := by
    obtain ⟨ka, da, ca, na⟩ := a
    simp only at ha hna h0
    subst ha
    cases na with
    | none => exact absurd rfl hna
    | some na =>
      rcases hc with rfl | ⟨h1, h2, h3⟩
      · simp [slot, NCache.zero, waiting]
      · obtain ⟨⟨k', d', ck', nm'⟩⟩ := c
        simp only at h1 h2 h3
        subst h2
        by_cases hx : ck' = ca <;> simp_all [slot, NCache.zero, waiting, delAct]
  have h2 : ∀ (ns : List NEv), (∀ e ∈ ns, e.name = none) → ∀ r : List (Option NEv),
      slots ⟨a⟩ (ns.map some ++ r) = slots ⟨a⟩ r := by
    intro ns
    induction ns with
    | nil => intro _ r; rfl
    | cons e ns ih =>
      intro hn r
      have he := hn e List.mem_cons_self
      have hs : slot ⟨a⟩ (some e) = (⟨a⟩, []) := by simp [slot, he]
      simp only [List.map_cons, List.cons_append, slots, hs, List.nil_append]
      rw [ih (fun e he => hn e (List.mem_cons_of_mem _ he))]
  have h3 : slot ⟨a⟩ (some b) = (NCache.zero, [.move a b]) := by
    obtain ⟨kb, db, cb, nb⟩ := b
    simp only at hb hnb hck
    subst hb
    cases nb with
    | none => exact absurd rfl hnb
    | some nb => simp_all [slot]
  simp only [List.map_cons, List.map_append, List.cons_append, slots, h1, List.map_nil]
  rw [h2 ns hns]
  simp [slots, h3]

/-- C45. An unpaired moved-to is a creation; an unpaired moved-from becomes a deletion as soon as another notification
with a name arrives. -/
theorem C45_unpaired (c : NCache) (hc : CacheOk c) (e : NEv) (he : KernelEv e) (hn : e.name ≠ none)
    (hun : ¬ (c.ev.cookie = e.cookie ∧ e.kind = .movedTo)) (hun' : c.ev.cookie = e.cookie → e.cookie = 0) :
    (slot c (some e)).2 = (waiting c).map .delete ++
      (match e.kind with
       | .create => [.create e] | .movedTo => [.create e] | .delete => [.delete e]
       | .closeWrite => [.modify e] | .movedFrom => [] | .other => []) := by
  obtain ⟨k, d, ck, nm⟩ := e
  unfold KernelEv at he
  cases nm with
  | none => exact absurd rfl hn
  | some nm =>
    rcases hc with rfl | ⟨h1, h2, h3⟩
    · cases k <;> simp_all [slot, NCache.zero, waiting, delAct]
    · obtain ⟨⟨k', d', ck', nm'⟩⟩ := c
      simp only at h1 h2 h3
      subst h2
      have h0 : (0 = ck) = (ck = 0) := propext eq_comm
      cases k <;> by_cases hck : ck' = ck <;> simp_all [slot, NCache.zero, waiting, delAct]

/-- C45 is violated when another notification comes between the two halves of a move: a deletion and a creation. -/
theorem C45_interleaved_violated :
    (slots NCache.zero ([⟨.movedFrom, 0, 7, some ['y']⟩, ⟨.closeWrite, 0, 0, some ['q']⟩,
      ⟨.movedTo, 1, 7, some ['y']⟩].map some)).2 =
    [.delete ⟨.movedFrom, 0, 7, some ['y']⟩, .modify ⟨.closeWrite, 0, 0, some ['q']⟩,
     .create ⟨.movedTo, 1, 7, some ['y']⟩] := by decide

/-- C45 is violated for the last moved-from: nothing is done until another notification arrives (the null notification
meant for this is never sent), so an object moved out of the storage stays listed. -/
theorem C45_last_moved_from_violated :
    (slots NCache.zero ([⟨.movedFrom, 0, 7, some ['y']⟩].map some)).2 = [] ∧
    (slots NCache.zero ([⟨.movedFrom, 0, 7, some ['y']⟩].map some ++ [none])).2 =
      [.delete ⟨.movedFrom, 0, 7, some ['y']⟩] := by decide

/-- C45 is violated for a move to another directory under another name: `mv /s/y /s/d/v` leaves the object at
"/s/d/y". -/
theorem C45_move_rename_violated :
    let t := Act.apply (fun _ => .node none 0x3004 []) 0x3004 demoTree
      (.move ⟨.movedFrom, 0, 7, some ['y']⟩ ⟨.movedTo, 1, 7, some ['v']⟩)
    (t.get 3).map (·.path) = some "/s/d/y".toList ∧ t.findByPath "/s/d/v".toList = none := by
  decide +kernel

/-- C45. The effect of a recognised move within one directory (a rename) or to another directory under the same name:
the object keeps its handle and gets the new path with its whole subtree; everything else stays. -/
theorem C45_move_effect_partial {t : Tree} (w : TreeWF t) {d1 d2 h : Nat} {n1 n2 : Path} {i1 i2 it : Item} (fmt : Nat)
    (e1 : t.get d1 = some i1) (e2 : t.get d2 = some i2) (hn1 : '/' ∉ n1) (hn2 : '/' ∉ n2)
    (ep : AMap.get t.paths (join i1.path n1) = some h) (h0 : h ≠ 0) (eh : t.get h = some it)
    (hnb : ¬ Below t h d2) (hfree : AMap.get t.paths (join i2.path n2) = none)
    (hcase : (d1 = d2 ∧ n1 ≠ n2) ∨ (d1 ≠ d2 ∧ n1 = n2)) :
    (t.fsMove d1 n1 d2 n2 fmt).get h = some { it with path := join i2.path n2, name := n2, fmt := fmt, parent := some d2,
                                                      par := d2 } ∧
    (∀ x ix, t.get x = some ix → Below t h x → x ≠ h →
      (t.fsMove d1 n1 d2 n2 fmt).get x = some { ix with path := reprefix it.path (join i2.path n2) ix.path }) ∧
    (∀ x ix, t.get x = some ix → ¬ Below t h x → ∃ ks, (t.fsMove d1 n1 d2 n2 fmt).get x = some { ix with kids := ks } ∧
      ∀ c, ks.count c = if c = h then (if x = d2 then 1 else 0) else ix.kids.count c) := by
  have hnu : ¬ Under it.path i2.path := fun hu => hnb ((w.below_iff eh e2).mpr hu)
  obtain ⟨iy, y1, y2⟩ := w.ofPath _ _ ep
  rw [eh] at y1; cases y1
  obtain ⟨q, qit, q1, q2, q3, q4, q5, q6⟩ := w.parent h it eh h0
  have hqe := join_inj (y2.symm.trans q5) hn1 q6
  have hqd : q = d1 := w.inj q3 e1 hqe.1.symm
  subst hqd
  -- the tree before refreshing the object info
  have core : ∃ t', t.fsMove q n1 d2 n2 fmt = (t'.upd h (fun i => { i with name := baseOf i.path, fmt := fmt, par := i.parent.getD 0 })).emit
        true (.infoChanged h) ∧ TreeWF t' ∧ Relocated t t' h d2 it.path (join i2.path n2) ∧
      t'.get h = some { it with path := join i2.path n2, name := n2, parent := some d2, par := d2 } := by
    rcases fsMove_cases (t := t) q n1 d2 n2 fmt with hs | ⟨j1, j2, h', jt, hne, f1, f2, fp, f0, fh, hc⟩
    · -- the move is not ignored
      exfalso
      have : t.fsMove q n1 d2 n2 fmt ≠ t := by
        unfold Tree.fsMove
        rw [if_neg (by rcases hcase with ⟨a, b⟩ | ⟨a, b⟩; exact fun h => b h.2; exact fun h => a h.1)]
        simp only [e1, e2, ep, Option.getD_some]
        rw [if_neg h0]
        simp only [eh, hfree, Option.isSome_none, Bool.false_eq_true, if_false]
        intro hx
        have := congrArg (fun t => t.evs.length) hx
        simp only [Tree.emit, if_true, List.length_append, List.length_cons, List.length_nil] at this
        have hev : ∀ (t' : Tree) f, (t'.upd h f).evs = t'.evs := by intro t' f; unfold Tree.upd; split <;> rfl
        rw [hev] at this
        have hadj : ∀ n (t' : Tree) a c, (t'.adjust n a c).evs = t'.evs := by
          intro n
          induction n with
          | zero => intro t' a c; rfl
          | succ n ih =>
            intro t' a c
            unfold Tree.adjust
            split
            · rfl
            · next i ei =>
              have : ∀ (l : List Nat) (t'' : Tree) (d : Path), (l.foldl (fun t c => t.adjust n d c) t'').evs = t''.evs := by
                intro l
                induction l with
                | nil => intro t'' d; rfl
                | cons c l ihl => intro t'' d; rw [List.foldl_cons, ihl, ih]
              exact this _ _ _
        have hfold : ∀ (l : List Nat) n (t'' : Tree) (d : Path), (l.foldl (fun t c => t.adjust n d c) t'').evs = t''.evs := by
          intro l n
          induction l with
          | nil => intro t'' d; rfl
          | cons c l ihl => intro t'' d; rw [List.foldl_cons, ihl, hadj]
        split at this
        · rw [show (t.repath h it (join i2.path n2) n2).evs = t.evs from hfold _ _ _ _] at this
          omega
        · have hmv : (t.move h d2 false).1.evs = t.evs := by
            rcases Classical.em ((t.move h d2 false).2 = .ok) with _ | _
            all_goals
              unfold Tree.move
              simp only [eh, e2]
              split
              · rfl
              · simp only [Bool.false_eq_true, if_false, Bool.not_true]
                unfold Tree.relocate
                dsimp only
                have hev' : ∀ (t' : Tree) k f, (t'.upd k f).evs = t'.evs := by
                  intro t' k f; unfold Tree.upd; split <;> rfl
                rw [hev', hev']
                unfold Tree.link
                rw [hev', hfold]
                have hul : ∀ (t' : Tree) c p, (t'.unlink c p).evs = t'.evs := by
                  intro t' c p; unfold Tree.unlink; split
                  · rfl
                  · exact hev' _ _ _
                rw [hul]
          rw [hmv] at this
          omega
      exact this hs
    · rw [e1] at f1; cases f1
      rw [e2] at f2; cases f2
      rw [ep] at fp; cases fp
      rw [eh] at fh; cases fh
      rcases hc with ⟨hs, _⟩ | ⟨_, hc⟩
      · rw [hfree] at hs; cases hs
      · refine ⟨_, hc, ?_⟩
        have hQ : Under t.rootPath (join i2.path n2) := (w.under_root e2).trans (Under.join _ _)
        split
        · next hd =>
          subst hd
          rw [e1] at e2; cases e2
          have R := repath_relocated w eh h0 q1 e1 hn2 hfree
          refine ⟨WF_relocated w eh h0 e1 hnu hfree hQ R.1, R.1, ?_⟩
          rw [R.2.2.2.1, ← q1, ← q2]
        · next hd =>
          have hn : n1 = n2 := by
            rcases hcase with ⟨a, _⟩ | ⟨_, b⟩
            · exact absurd a hd
            · exact b
          have hnm : it.name = n2 := hqe.2.symm.trans hn
          rw [← hnm] at hfree hQ ⊢
          rcases move_cases (t := t) h d2 false with ⟨_, _, _, _, _, h6⟩ | ⟨it', pit, e', ep', hf, hc', _, eq⟩
          · exfalso
            apply h6
            unfold Tree.move
            simp only [eh, e2, hfree, Option.isSome_none, Bool.false_eq_true, and_false, if_false, Bool.not_true]
          · rw [eh] at e'; cases e'
            rw [e2] at ep'; cases ep'
            rw [eq]
            simp only [Bool.false_eq_true, if_false]
            have R := relocate_relocated w eh h0 e2 hnu hfree
            exact ⟨WF_relocated w eh h0 e2 hnu hfree hQ R.1, R.1, R.2.2.2.1⟩
  obtain ⟨t', hfm, w', R, hs⟩ := core
  have hget : ∀ x, (t.fsMove q n1 d2 n2 fmt).get x =
      if x = h then (t'.get x).map (fun i => { i with fmt := fmt }) else t'.get x := by
    intro x
    rw [hfm]
    show AMap.get (Tree.emit _ _ _).items x = _
    rw [(Tree.emit_eq _ _ _).1]
    exact refresh_eq w' h0 fmt x
  refine ⟨?_, ?_, ?_⟩
  · rw [hget, if_pos rfl, hs]; rfl
  · intro x ix ex hb hx
    rw [hget, if_neg hx]
    exact R.below x ix ex ((w.below_iff eh ex).mp hb) hx
  · intro x ix ex hb
    have hx : x ≠ h := by rintro rfl; exact hb .self
    rw [hget, if_neg hx]
    exact R.out x ix ex (fun hu => hb ((w.below_iff eh ex).mpr hu))

/-- Witness: `mv /s/y /s/d/y`. -/
theorem C45_witness : ((demoTree.fsMove 0 ['y'] 1 ['y'] 0x3004).get 3).map (·.path) = some "/s/d/y".toList ∧
    KernelEv ⟨.movedFrom, 0, 7, some ['y']⟩ ∧ KernelEv ⟨.create, 0, 0, some ['y']⟩ := by
  refine ⟨by decide +kernel, by simp [KernelEv], by simp [KernelEv]⟩

/-! ### C46 -/

theorem report_ready (r : Ready) (id : Nat) :
    (r.report id).all = r.all ∧ (r.report id).ready = if id ∈ r.ready then r.ready else id :: r.ready := by
  unfold Ready.report; dsimp only
  generalize (if id ∈ r.ready then r.ready else id :: r.ready) = q
  split <;> exact ⟨rfl, rfl⟩

theorem reports_inv (ids : List Nat) : ∀ (r : Ready), r.ready.Nodup → (∀ x ∈ r.ready, x ∈ r.all) →
    (∀ x ∈ ids, x ∈ r.all) →
    (ids.foldl Ready.report r).all = r.all ∧ (ids.foldl Ready.report r).ready.Nodup ∧
    (∀ x, x ∈ (ids.foldl Ready.report r).ready ↔ x ∈ r.ready ∨ x ∈ ids) := by
  induction ids with
  | nil => intro r hn _ _; exact ⟨rfl, hn, fun x => by simp⟩
  | cons i ids ih =>
    intro r hn hs hi
    obtain ⟨a1, a2⟩ := report_ready r i
    have hn' : (r.report i).ready.Nodup := by
      rw [a2]; split
      · exact hn
      · next h => exact List.nodup_cons.mpr ⟨h, hn⟩
    have hm : ∀ x, x ∈ (r.report i).ready ↔ x ∈ r.ready ∨ x = i := by
      intro x
      rw [a2]; split
      · next h => constructor
                  · exact Or.inl
                  · rintro (g | rfl) <;> assumption
      · rw [List.mem_cons]; exact Or.comm
    obtain ⟨b1, b2, b3⟩ := ih (r.report i) hn'
      (fun x hx => by
        rw [a1]
        rcases (hm x).mp hx with g | rfl
        · exact hs x g
        · exact hi x List.mem_cons_self)
      (fun x hx => by rw [a1]; exact hi x (List.mem_cons_of_mem _ hx))
    refine ⟨b1.trans a1, b2, fun x => (b3 x).trans ?_⟩
    rw [hm x, List.mem_cons]
    constructor
    · rintro ((g | g) | g)
      · exact Or.inl g
      · exact Or.inr (Or.inl g)
      · exact Or.inr (Or.inr g)
    · rintro (g | g | g)
      · exact Or.inl (Or.inl g)
      · exact Or.inl (Or.inr g)
      · exact Or.inr g

theorem nodup_length_le {l l' : List Nat} (hn : l.Nodup) (hs : ∀ x ∈ l, x ∈ l') : l.length ≤ l'.length := by
  induction l generalizing l' with
  | nil => exact Nat.zero_le _
  | cons a l ih =>
    rw [List.nodup_cons] at hn
    have ha := hs a List.mem_cons_self
    have := ih (l' := l'.erase a) hn.2 (fun x hx => by
      have hxa : x ≠ a := by rintro rfl; exact hn.1 hx
      exact (List.mem_erase_of_ne hxa).mpr (hs x (List.mem_cons_of_mem _ hx)))
    rw [List.length_erase_of_mem ha] at this
    have : 0 < l'.length := List.length_pos_of_mem ha
    simp only [List.length_cons]; omega

theorem nodup_same_length {l l' : List Nat} (hn : l.Nodup) (hn' : l'.Nodup) (hs : ∀ x ∈ l, x ∈ l') :
    l.length = l'.length ↔ ∀ x ∈ l', x ∈ l := by
  constructor
  · intro hl x hx
    apply Classical.byContradiction
    intro hc
    have : (x :: l).length ≤ l'.length := nodup_length_le (List.nodup_cons.mpr ⟨hc, hn⟩) (by
      intro y hy
      rcases List.mem_cons.mp hy with rfl | hy
      · exact hx
      · exact hs y hy)
    simp only [List.length_cons] at this; omega
  · intro h
    exact Nat.le_antisymm (nodup_length_le hn hs) (nodup_length_le hn' h)

/-- C46. After any sequence of reports by the storages, in any order and with repetitions, the ready state is true exactly
when every storage has reported. -/
theorem C46_ready_iff_all (all ids : List Nat) (hall : all.Nodup) (hids : ∀ x ∈ ids, x ∈ all) :
    (ids.foldl Ready.report (Ready.init all)).isReady = true ↔ ∀ x ∈ all, x ∈ ids := by
  obtain ⟨h1, h2, h3⟩ := reports_inv ids (Ready.init all) List.nodup_nil (fun x hx => by cases hx) hids
  have h3 : ∀ x, x ∈ (ids.foldl Ready.report (Ready.init all)).ready ↔ x ∈ ids := by
    intro x; rw [h3 x]; simp [Ready.init]
  unfold Ready.isReady
  rw [decide_eq_true_eq, h1]
  show _ = all.length ↔ _
  rw [nodup_same_length h2 hall (fun x hx => hids x ((h3 x).mp hx))]
  exact ⟨fun h x hx => (h3 x).mp (h x hx), fun h x hx => (h3 x).mpr (h x hx)⟩

/-- C46. Once ready, further reports keep the state ready. -/
theorem C46_never_back (all ids more : List Nat) (hall : all.Nodup) (hids : ∀ x ∈ ids ++ more, x ∈ all)
    (h : (ids.foldl Ready.report (Ready.init all)).isReady = true) :
    ((ids ++ more).foldl Ready.report (Ready.init all)).isReady = true := by
  rw [C46_ready_iff_all all _ hall hids]
  rw [C46_ready_iff_all all _ hall (fun x hx => hids x (List.mem_append_left _ hx))] at h
  exact fun x hx => List.mem_append_left _ (h x hx)

/-- C46. If every storage reports once, readiness is announced exactly once, with the last report. -/
theorem C46_announced_once (all : List Nat) (hall : all.Nodup) (ids : List Nat) (hn : ids.Nodup)
    (hids : ∀ x ∈ ids, x ∈ all) (hne : ids ≠ []) :
    (ids.foldl Ready.report (Ready.init all)).signals = if (∀ x ∈ all, x ∈ ids) then 1 else 0 := by
  -- in terms of prefixes
  have key : ∀ (n : Nat) (ids : List Nat), ids.length = n → ids.Nodup → (∀ x ∈ ids, x ∈ all) →
      (ids.foldl Ready.report (Ready.init all)).signals = if (ids ≠ [] ∧ ∀ x ∈ all, x ∈ ids) then 1 else 0 := by
    intro n
    induction n with
    | zero =>
      intro ids hl _ _
      cases ids with
      | nil => rfl
      | cons a l => cases hl
    | succ n ih =>
      intro ids hl hn hids
      rcases List.eq_nil_or_concat ids with rfl | ⟨l, i, rfl⟩
      · cases hl
      · rw [List.concat_eq_append] at *
        have hl' : l.length = n := by simpa using hl
        rw [List.nodup_append] at hn
        have hidl : ∀ x ∈ l, x ∈ all := fun x hx => hids x (List.mem_append_left _ hx)
        have hprev := ih l hl' hn.1 hidl
        have hi : i ∉ l := fun hm => hn.2.2 i hm i (by simp) rfl
        -- before the last report not everything is there
        have hnot : ¬ ∀ x ∈ all, x ∈ l := fun hx => hi (hx i (hids i (by simp)))
        rw [if_neg (fun h => hnot h.2)] at hprev
        have hr := C46_ready_iff_all all (l ++ [i]) hall hids
        rw [List.foldl_append] at hr ⊢
        simp only [List.foldl_cons, List.foldl_nil] at hr ⊢
        have hsig : ∀ r : Ready, (r.report i).signals = if (r.report i).isReady then r.signals + 1 else r.signals := by
          intro r
          unfold Ready.report
          dsimp only
          generalize (if i ∈ r.ready then r.ready else i :: r.ready) = q
          by_cases h : Ready.isReady { all := r.all, ready := q, signals := r.signals } = true
          · have h2 : Ready.isReady { all := r.all, ready := q, signals := r.signals + 1 } = true := h
            simp only [if_pos h, if_pos h2]
          · simp only [if_neg h]
        rw [hsig, hprev]
        by_cases hx : ∀ x ∈ all, x ∈ l ++ [i]
        · rw [if_pos (hr.mpr hx), if_pos ⟨by simp, hx⟩]
        · rw [if_neg (fun h => hx (hr.mp h)), if_neg (fun h => hx h.2)]
  rw [key _ ids rfl hn hids]
  simp [hne]

theorem C46_witness : ([65538, 65537].foldl Ready.report (Ready.init [65537, 65538])).signals = 1 ∧
    ([65538, 65538].foldl Ready.report (Ready.init [65537, 65538])).isReady = false := by decide

/-! ### C47 -/

/-- The values that differ from the one before them (`last` before the first). -/
def changes (last : Nat) : List Nat → List Nat
  | [] => []
  | x :: r => if x = last then changes last r else x :: changes x r

/-- C47. For a storage of fixed capacity (below 184 PB), after any sequence of free-space values: events are sent exactly
for those values whose percentage differs from the percentage last announced (0 before the first event). -/
theorem C47_throttled_partial (cap : Nat) (hc : 0 < cap) (hb : 100 * cap < 2^64) (frees : List Nat)
    (hf : ∀ f ∈ frees, f ≤ cap) :
    (infoRun 0 (frees.map (fun f => (cap, f)))).2.map (fun f => 100 * f / cap) =
      changes 0 (frees.map (fun f => 100 * f / cap)) := by
  have hp : ∀ f, f ≤ cap → percent f cap = 100 * f / cap := by
    intro f hf
    unfold percent
    have h1 : 100 * f < 2^64 := Nat.lt_of_le_of_lt (Nat.mul_le_mul_left 100 hf) hb
    rw [Nat.mod_eq_of_lt h1]
    have h2 : 100 * f / cap ≤ 100 := by
      apply Nat.div_le_of_le_mul
      calc 100 * f ≤ 100 * cap := Nat.mul_le_mul_left 100 hf
        _ = cap * 100 := Nat.mul_comm _ _
    exact Nat.mod_eq_of_lt (Nat.lt_of_le_of_lt h2 (by decide))
  have key : ∀ (frees : List Nat) (rep : Nat), rep ≤ cap → (∀ f ∈ frees, f ≤ cap) →
      (infoRun rep (frees.map (fun f => (cap, f)))).2.map (fun f => 100 * f / cap) =
        changes (100 * rep / cap) (frees.map (fun f => 100 * f / cap)) := by
    intro frees
    induction frees with
    | nil => intro rep _ _; rfl
    | cons f r ih =>
      intro rep hr hf
      have hfc := hf f List.mem_cons_self
      have hfr := fun x hx => hf x (List.mem_cons_of_mem _ hx)
      simp only [List.map_cons, infoRun, changes]
      by_cases he : 100 * f / cap = 100 * rep / cap
      · have hs : infoChanged rep cap f = (rep, false) := by
          unfold infoChanged
          rw [if_neg (by omega : cap ≠ 0), hp rep hr, hp f hfc, if_neg (by rw [he]; simp)]
        rw [if_pos he]
        simp only [hs]
        simpa using ih rep hr hfr
      · have hs : infoChanged rep cap f = (f, true) := by
          unfold infoChanged
          rw [if_neg (by omega : cap ≠ 0), hp rep hr, hp f hfc, if_pos (Ne.symm he)]
        rw [if_neg he]
        simp only [hs]
        simpa using ih f hfc hfr
  have := key frees 0 (Nat.zero_le _) hf
  simpa using this

/-- C47. Not stuck: whenever the percentage now differs from the last announced one, the event is sent, for any state. -/
theorem C47_not_stuck_partial (rep cap free : Nat) (hc : 0 < cap) (hb : 100 * cap < 2^64) (h1 : rep ≤ cap)
    (h2 : free ≤ cap) (h : 100 * rep / cap ≠ 100 * free / cap) : infoChanged rep cap free = (free, true) := by
  have hp : ∀ f, f ≤ cap → percent f cap = 100 * f / cap := by
    intro f hf
    unfold percent
    have h1 : 100 * f < 2^64 := Nat.lt_of_le_of_lt (Nat.mul_le_mul_left 100 hf) hb
    rw [Nat.mod_eq_of_lt h1]
    have h2 : 100 * f / cap ≤ 100 := by
      apply Nat.div_le_of_le_mul
      calc 100 * f ≤ 100 * cap := Nat.mul_le_mul_left 100 hf
        _ = cap * 100 := Nat.mul_comm _ _
    exact Nat.mod_eq_of_lt (Nat.lt_of_le_of_lt h2 (by decide))
  unfold infoChanged
  rw [if_neg (by omega), hp rep h1, hp free h2, if_pos h]

theorem C47_witness : (infoRun 0 [(1000, 500), (1000, 505), (1000, 511), (1000, 500)]).2 = [500, 511, 500] := by decide

/-- C47 is violated when the capacity changes: 50 % was announced (50 of 100); with 50 of 200 free the percentage is 25,
yet no event is sent, because the old value is rated against the new capacity. -/
theorem C47_capacity_change_violated : (infoRun 0 [(100, 50), (200, 50)]).2 = [50] := by decide

/-- C47 is violated beyond 2^64/100 bytes: the multiplication wraps, and a completely free store of that size counts as
empty. -/
theorem C47_overflow_violated : infoChanged 0 (2^64 / 100 + 1) (2^64 / 100 + 1) = (0, false) := by decide +kernel

end Props
