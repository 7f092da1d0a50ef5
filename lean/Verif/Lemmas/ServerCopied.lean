import Verif.Spec.ServerCopy
import Verif.Lemmas.ServerCopy
import Verif.Lemmas.ServerOffer
import Verif.Lemmas.ServerSend
import Verif.Lemmas.ServerAnswers
import Verif.Lemmas.ServerEdit
import Verif.Props.FileIO
import Verif.Props.Copy
/-! What copies make, when nothing is refused. -/
namespace Mtp
open Spec
namespace Server

theorem redate_room (s : Server) (h : Nat) (c : Bool) : (s.redate h c).room = s.room := by
  obtain ⟨i, ei, _⟩ := redate_spec s h c
  rw [ei]

theorem write_room (s : Server) (h : Nat) (b : Option (List UInt8)) (f l : Bool) : (s.write h b f l).1.room = s.room := by
  unfold write
  split
  · rfl
  · exact redate_room _ _ _

/-- Only the contents and the dates of `y` are different, and nothing but its file was opened. -/
structure Filled (s s' : Server) (y : Nat) : Prop where
  tree : s'.tree = s.tree
  sid : s'.sid = s.sid
  ios : s'.ios = s.ios
  room : s'.room = s.room
  times : s'.times = s.times
  ok : ServerOk s'
  other : ∀ x, x ≠ y → contents s' x = contents s x ∧ s'.infoOf x = s.infoOf x

theorem Filled.trans {a b c : Server} {y : Nat} (e1 : Filled a b y) (e2 : Filled b c y) : Filled a c y :=
  ⟨e2.tree.trans e1.tree, e2.sid.trans e1.sid, e2.ios.trans e1.ios, e2.room.trans e1.room, e2.times.trans e1.times, e2.ok,
    fun x hx => ⟨(e2.other x hx).1.trans (e1.other x hx).1, (e2.other x hx).2.trans (e1.other x hx).2⟩⟩

theorem Filled.refl {s : Server} (w : ServerOk s) (y : Nat) : Filled s s y := ⟨rfl, rfl, rfl, rfl, rfl, w, fun _ _ => ⟨rfl, rfl⟩⟩

theorem Edited.filled {s s' : Server} {y : Nat} (e : Edited s s' y) (hr : s'.room = s.room) : Filled s s' y :=
  ⟨e.tree, e.sid, e.ios, hr, e.times, e.ok, e.other⟩

theorem tick_ok {s : Server} (w : ServerOk s) : ServerOk s.tickCall :=
  ⟨w.wf, w.issued, w.root, w.folders, w.files, w.known, w.openFile⟩

theorem tick_filled {s : Server} (w : ServerOk s) (y : Nat) : Filled s s.tickCall y :=
  ⟨rfl, rfl, rfl, rfl, rfl, tick_ok w, fun _ _ => ⟨rfl, rfl⟩⟩

/-- A part of a file is read. -/
theorem read_part {s : Server} (hw : Willing s) {x : Nat} {c : List UInt8} (hc : contents s x = some c) (hl : c.length < 2 ^ 32)
    {off len : Nat} (hr : off + len ≤ c.length) (hp : 0 < len) :
    s.view.readData (s.ios s.calls 0) x len off = (.ok, (c.drop off).take len) := by
  unfold contents at hc
  cases e : s.tree.get x with
  | none => rw [e] at hc; cases hc
  | some it =>
    rw [e] at hc
    simp only at hc
    split at hc
    · cases hc
    · have hv := view_item s x
      rw [e] at hv
      exact Props.C27_read_succeeds s.view _ x len off _ c hv hc (by omega) hr (hw _ _).1 (hw _ _).2.1 hp

/-- `copyLoop` copies the rest of a file. -/
theorem copyLoop_done {x y : Nat} (hxy : x ≠ y) {c : List UInt8} (hl : c.length < 2 ^ 32) {iy : Item} (hn : iy.fmt ≠ ASSOC) (s0 : Server) :
    ∀ (n : Nat) (s : Server) (off rem : Nat), ServerOk s → Willing s → contents s x = some c → s.tree.get y = some iy →
      off + rem = c.length → 0 < rem → rem / COPY_CHUNK < n →
      (off = 0 → AMap.get s.infos y = AMap.get s0.infos y) →
      (off ≠ 0 → Mine s y ∧ Loaded s0 y (String.ofList iy.path) s (c.take off)) →
      ∃ s', copyLoop false x y n s off rem = (s', .ok) ∧ Filled s s' y ∧ contents s' y = some c ∧
        ∃ k, ∀ o, AMap.get s0.infos y = some o →
          AMap.get s'.infos y = some { o with captureDate := s.times.stamp k o.modDate, modDate := s.times.stamp k o.modDate } := by
  intro n
  induction n with
  | zero => intro s off rem _ _ _ _ _ _ h; exact absurd h (Nat.not_lt_zero _)
  | succ n ih =>
    intro s off rem w hw hc hy hsum hpos hfuel h0 h1
    rw [copyLoop, if_neg (by omega)]
    generalize hlen : (if rem ≥ COPY_CHUNK then COPY_CHUNK else rem) = len
    have hcc : COPY_CHUNK = 65536 := rfl
    have hlen1 : 0 < len ∧ len ≤ rem ∧ len ≤ COPY_CHUNK := by
      rw [← hlen, hcc]; split <;> omega
    simp only
    rw [read_part hw hc hl (off := off) (len := len) (by omega) hlen1.1]
    simp only [Bool.false_eq_true, if_false, ne_eq, not_true_eq_false]
    generalize hd : (c.drop off).take len = d
    have hdl : d.length = len := by rw [← hd, List.length_take, List.length_drop]; omega
    have htake : c.take off ++ d = c.take (off + len) := by rw [← hd, List.take_add]
    have w1 := tick_ok w
    have hw1 : Willing s.tickCall := hw
    have hy1 : s.tickCall.tree.get y = some iy := hy
    have hok : ∀ f, (s.tickCall.write y (some d) f false).2 = .ok := fun f =>
      write_taken hy1 hn hw1 d (by omega) f false
    -- after the write
    have key : Edited s.tickCall (s.tickCall.write y (some d) (off = 0) false).1 y ∧
        Loaded s0 y (String.ofList iy.path) (s.tickCall.write y (some d) (off = 0) false).1 (c.take (off + len)) := by
      by_cases ho : off = 0
      · have hd0 : decide (off = 0) = true := by simp [ho]
        rw [hd0]
        refine ⟨write_first_edited w1 hy1 d false, ?_⟩
        have L := write_loaded_first w1 hy1 d false (hok true)
        rw [← htake, ho]
        simp only [List.take_zero, List.nil_append]
        exact ⟨L.pos, L.file, L.info.trans (h0 ho)⟩
      · have hd0 : decide (off = 0) = false := by simp [ho]
        rw [hd0]
        obtain ⟨m, L⟩ := h1 ho
        refine ⟨write_edited w1 hy1 (some d) false false m, ?_⟩
        rw [← htake]
        exact write_loaded hy1 d false (s := s.tickCall) (acc := c.take off) ⟨L.pos, L.file, L.info⟩ (hok false)
    have hokd := hok (decide (off = 0))
    have hroom := write_room s.tickCall y (some d) (decide (off = 0)) false
    generalize hS : s.tickCall.write y (some d) (decide (off = 0)) false = S at *
    obtain ⟨S1, R1⟩ := S
    simp only at key hokd hroom ⊢
    subst hokd
    obtain ⟨e1, L1⟩ := key
    have F1 : Filled s S1 y := (tick_filled w y).trans (e1.filled hroom)
    have hyS : S1.tree.get y = some iy := by rw [F1.tree]; exact hy
    have hwS : Willing S1 := by unfold Willing; rw [F1.ios]; exact hw
    by_cases hend : rem - len = 0
    · rw [if_pos hend]
      have hfull : c.take (off + len) = c := List.take_of_length_le (by omega)
      rw [hfull] at L1
      obtain ⟨c1, c2, c3⟩ := close_loaded hyS hn (fun a b => (hwS a b).2.2.2) L1
      have e2 := write_edited F1.ok hyS none false true e1.mine
      have hok2 : (S1.write y none false true).2 = .ok := by
        rw [write_eq hyS]
        have hv := view_item S1 y
        rw [hyS] at hv
        simp only
        unfold FStore.writeData
        rw [hv]
        rfl
      have hroom2 := write_room S1 y none false true
      generalize S1.write y none false true = T at *
      obtain ⟨T1, R⟩ := T
      simp only at hok2 hroom2 c1 c2 c3 e2
      subst hok2
      refine ⟨T1, rfl, F1.trans (e2.filled hroom2), c1, S1.calls + 1, fun o ho => ?_⟩
      rw [c3 o ho, F1.times]
    · rw [if_neg hend, if_neg (by simp)]
      have hu : u32 (off + len) = off + len := by unfold u32; omega
      rw [hu]
      have hmin : len = COPY_CHUNK := by
        rw [← hlen]; rw [← hlen] at hend
        split
        · rfl
        · next h => rw [if_neg h] at hend; omega
      obtain ⟨s', a1, a2, a3, k, a4⟩ := ih S1 (off + len) (rem - len) F1.ok hwS ((F1.other x hxy).1.trans hc) hyS (by omega)
        (by omega) (by rw [hmin, hcc]; rw [hcc] at hfuel; rw [hmin, hcc] at hlen1; omega) (fun h => absurd h (by omega))
        (fun _ => ⟨e1.mine, L1⟩)
      exact ⟨s', a1, F1.trans a2, a3, k, fun o ho => by rw [a4 o ho, F1.times]⟩

/-- `copyData` copies the contents of a file into another one, which is empty if the first one is. -/
theorem copyData_done {s : Server} (w : ServerOk s) (hw : Willing s) {x y : Nat} (hxy : x ≠ y) {c : List UInt8}
    (hl : c.length < 2 ^ 32) (hc : contents s x = some c) (hs : s.sizeOf x = c.length) {iy : Item} (hy : s.tree.get y = some iy)
    (hn : iy.fmt ≠ ASSOC) (he : c = [] → contents s y = some []) {o : ObjInfo} (ho : AMap.get s.infos y = some o) :
    ∃ s', s.copyData false x y = (s', .ok) ∧ Filled s s' y ∧ contents s' y = some c ∧
      ∃ o', Redated s.times o o' ∧ AMap.get s'.infos y = some o' := by
  have hx : s.tree.has x = true := by
    unfold contents at hc
    cases e : s.tree.get x with
    | none => rw [e] at hc; cases hc
    | some it => exact has_iff.mpr ⟨it, e⟩
  unfold copyData
  rw [hx, has_iff.mpr ⟨iy, hy⟩, if_neg (by simp)]
  have hu : u32 (s.sizeOf x) = c.length := by rw [hs]; unfold u32; omega
  rw [hu]
  by_cases hz : c = []
  · subst hz
    refine ⟨s, rfl, Filled.refl w y, he rfl, o, Or.inl rfl, ho⟩
  · have hpos : 0 < c.length := List.length_pos_iff.mpr hz
    obtain ⟨s', a1, a2, a3, k, a4⟩ := copyLoop_done hxy hl hn s (c.length / COPY_CHUNK + 1) s 0 c.length w hw hc hy (by omega) hpos
      (Nat.lt_succ_self _) (fun _ => rfl) (fun h => absurd rfl h)
    exact ⟨s', a1, a2, a3, _, Or.inr ⟨_, .created k, rfl⟩, a4 o ho⟩

theorem grant_true (t : Tree) : grant t true = t := by
  unfold grant
  simp only [Bool.and_true]

/-- `addItem_granted` and the tree after it. -/
theorem addItem_made {s : Server} (w : ServerOk s) (o : ObjInfo) {p : Nat} (hn : '/' ∉ toPath o.fileName) {pit : Item}
    (hp : s.tree.get p = some pit) (hpf : pit.fmt = ASSOC)
    (hfree : AMap.get s.tree.paths (join pit.path (toPath o.fileName)) = none)
    (hx : join pit.path (toPath o.fileName) ∉ s.tree.excl) (hfs : s.tree.fs s.tree.tick = true)
    (hb : s.tree.asked + 1 < 0xFFFFFFFF) :
    ∃ s' y, s.addItem o p = (s', .ok, y) ∧ New s s' p o y ∧ Made s.tree p pit (toPath o.fileName) o.format y s'.tree ∧
      s'.ios = s.ios ∧ s'.room = s.room ∧ s'.tree.asked ≤ s.tree.asked + 1 := by
  have hpA : p ≠ ALL := by
    have := w.issued p pit hp
    unfold ALL; omega
  have hif : (if p = ALL then 0 else p) = p := if_neg hpA
  obtain ⟨s', y, e, nw, hio⟩ := addItem_granted w o p hn (pit := pit) (by rw [hif]; exact hp) hpf hfree hx hfs hb
  rw [hif] at nw
  have hask : (s.tree.add (join pit.path (toPath o.fileName)) (.node none o.format []) (some ⟨toPath o.fileName, o.format, p⟩)
      false true 0).1.asked ≤ s.tree.asked + 1 := add_node_asked s.tree ..
  have e' := e
  unfold addItem at e'
  simp only [addItem_eq', hif] at e'
  simp only [hp, hpf, decide_true, grant_true] at e'
  generalize ha : s.tree.add (join pit.path (toPath o.fileName)) (.node none o.format [])
    (some ⟨toPath o.fileName, o.format, p⟩) false true 0 = a at e' hask
  obtain ⟨t1, oy, r⟩ := a
  simp only at hask
  obtain ⟨m1, m2, _, _⟩ := add_made (it := ⟨[], toPath o.fileName, o.format, 0, none, [], 0⟩) w.wf w.issued hp hn
    (fun h => absurd rfl h) hfree ha (by omega)
  have fin : ∀ (T : Tree), T = t1 → s'.tree = ({ T with fs := s.tree.fs } : Tree) → Made s.tree p pit (toPath o.fileName) o.format y t1 →
      Made s.tree p pit (toPath o.fileName) o.format y s'.tree := by
    intro T hT h1 mk
    have : s'.tree = t1 := by
      rw [h1, hT, ← mk.fs]
    rw [this]
    exact mk
  by_cases hr : r = .ok
  · obtain ⟨z, rfl, mk, _⟩ := m1 hr
    subst hr
    simp only at e' mk
    have hz : s.tree.has z = false := has_false.mpr mk.fresh
    rw [hz] at e'
    simp only [Bool.false_eq_true, if_false] at e'
    have hres : s'.tree = ({ t1 with fs := s.tree.fs } : Tree) ∧ z = y ∧ s'.room = s.room := by
      split at e'
      · simp only [Prod.mk.injEq, true_and] at e'
        obtain ⟨rfl, rfl⟩ := e'
        exact ⟨rfl, rfl, rfl⟩
      · simp only [Prod.mk.injEq, true_and] at e'
        obtain ⟨rfl, rfl⟩ := e'
        exact ⟨rfl, rfl, rfl⟩
    obtain ⟨h1, rfl, h3⟩ := hres
    exact ⟨s', z, e, nw, fin t1 rfl h1 mk, hio, h3, by rw [h1]; exact hask⟩
  · obtain ⟨rfl, _⟩ := m2 hr
    simp only at e'
    simp only [Prod.mk.injEq] at e'
    exact absurd e'.2.1 hr

theorem folders_only {s : Server} (w : ServerOk s) : FoldersOnly s.tree := by
  intro x ix e hk
  obtain ⟨k, hkm⟩ := List.exists_mem_of_ne_nil _ hk
  obtain ⟨ki, k1, k2, _⟩ := w.wf.kid e hkm
  exact w.folders k ki x ix k1 k2 e

/-- The part `B` of the storage is as it was in `s0`. -/
structure Reading (s0 : Server) (B : Nat → Prop) (s : Server) : Prop where
  dom : ∀ x, B x → ∃ ix, s0.tree.get x = some ix
  closed : ∀ x ix k, B x → s0.tree.get x = some ix → k ∈ ix.kids → B k
  tree : ∀ x, B x → s.tree.get x = s0.tree.get x
  told : ∀ x, B x → contents s x = contents s0 x ∧ s.infoOf x = s0.infoOf x

/-- What the system does is as in `s0`. -/
structure Alike0 (s0 s : Server) : Prop where
  sid : s.sid = s0.sid
  ios : s.ios = s0.ios
  room : s.room = s0.room
  times : s.times = s0.times
  fs : s.tree.fs = s0.tree.fs
  excl : s.tree.excl = s0.tree.excl

/-- From `s` to `s'`, the objects of the pairs `m` were copied: contents and what is told. -/
structure Carry (s0 s s' : Server) (m : List (Nat × Nat)) : Prop where
  ok : ServerOk s'
  env : Alike0 s0 s'
  files : ∀ x y xi, (x, y) ∈ m → s0.tree.get x = some xi → xi.fmt ≠ ASSOC → contents s' y = contents s0 x
  told : ∀ x y xi, (x, y) ∈ m → s0.tree.get x = some xi → ∃ d q, (xi.fmt ≠ ASSOC → Stamped s0.times (s0.infoOf x).2.modDate d) ∧
    s'.infoOf y = (.ok, { (s0.infoOf x).2 with storageId := s0.sid, parent := q, captureDate := d, modDate := d })
  other : ∀ x, (∀ a, (a, x) ∉ m) → contents s' x = contents s x ∧ s'.infoOf x = s.infoOf x

/-- Nothing stands in the way of copying the objects of `B`. -/
structure Copying (s0 : Server) (B : Nat → Prop) : Prop where
  willing : Willing s0
  names : ∀ x xi, B x → s0.tree.get x = some xi → copyable xi.name = true
  known : ∀ x, B x → (s0.infoOf x).1 = .ok
  files : ∀ x xi, B x → s0.tree.get x = some xi → xi.fmt ≠ ASSOC →
    ∃ c, contents s0 x = some c ∧ (s0.infoOf x).2.size = c.length ∧ c.length < 2 ^ 32
  room : ∀ x k, B x → (s0.infoOf x).2.size ≤ s0.room k
  fs : ∀ k, s0.tree.fs k = true

/-- The statement about a function copying one object to folder `p`. -/
def CopyOk (s0 : Server) (B : Nat → Prop) (n : Nat) (f : Server → Nat → Server × Resp × Nat) (p : Nat) : Prop :=
  ∀ (s : Server) (h : Nat) (pit it : Item), Reading s0 B s → B h → ¬ B p → ServerOk s → Alike0 s0 s →
    s.tree.get p = some pit → pit.fmt = ASSOC → s0.tree.get h = some it → '/' ∉ it.name →
    AMap.get s.tree.paths (join pit.path it.name) = none →
    (∀ e ∈ s.tree.excl, ¬ Under (join pit.path it.name) e) →
    (∀ x ix, s0.tree.get x = some ix → ix.path.length < n + it.path.length) →
    s.tree.asked + (pre n s0.tree h).length < 0xFFFFFFFF →
    ∃ s' y m, f s h = (s', .ok, y) ∧ Grafts s0.tree s.tree p [h] s'.tree ((h, y) :: m) ∧ Carry s0 s s' ((h, y) :: m) ∧
      s'.tree.asked ≤ s.tree.asked + (pre n s0.tree h).length

theorem copyKids_done {s0 : Server} (w0 : ServerOk s0) {B : Nat → Prop} {n p : Nat} {f : Server → Nat → Server × Resp × Nat}
    (hf : CopyOk s0 B n f p) : ∀ (ks : List Nat) (s : Server) (pit : Item) (P : Path), Reading s0 B s → (∀ k ∈ ks, B k) → ¬ B p →
      ServerOk s → Alike0 s0 s → s.tree.get p = some pit → pit.fmt = ASSOC → InDir s0.tree P ks →
      (∀ k ∈ ks, ∀ ki, s0.tree.get k = some ki → AMap.get s.tree.paths (join pit.path ki.name) = none) →
      (∀ k ∈ ks, ∀ ki, s0.tree.get k = some ki → ∀ e ∈ s.tree.excl, ¬ Under (join pit.path ki.name) e) →
      (∀ x ix, s0.tree.get x = some ix → ix.path.length < n + P.length + 1) →
      s.tree.asked + (ks.flatMap (pre n s0.tree)).length < 0xFFFFFFFF →
      ∃ s' m, copyKids f ks s = (s', .ok) ∧ Grafts s0.tree s.tree p ks s'.tree m ∧ Carry s0 s s' m ∧
        s'.tree.asked ≤ s.tree.asked + (ks.flatMap (pre n s0.tree)).length := by
  intro ks
  induction ks with
  | nil =>
    intro s pit P r _ _ w env _ _ _ _ _ _ _
    exact ⟨s, [], rfl, .nil _ _, ⟨w, env, fun x y xi hm => (nomatch hm), fun x y xi hm => (nomatch hm), fun _ _ => ⟨rfl, rfl⟩⟩, by simp⟩
  | cons k ks ih =>
    intro s pit P r hB hBp w env hp hpf hd hfree hex hl ha
    rw [List.flatMap_cons, List.length_append] at ha ⊢
    obtain ⟨ki, k1, k2, k3⟩ := hd.2 k List.mem_cons_self
    obtain ⟨s1, z, m1, e, g1, d1, a1⟩ := hf s k pit ki r (hB k List.mem_cons_self) hBp w env hp hpf k1 k3
      (hfree k List.mem_cons_self ki k1) (hex k List.mem_cons_self ki k1) (fun x ix ex => by
        have := hl x ix ex
        rw [k2, join_length]; omega) (by omega)
    have hd1 : InDir s0.tree P [k] := ⟨by simp, fun k' hk' => by
      rw [List.mem_singleton] at hk'; subst hk'; exact ⟨ki, k1, k2, k3⟩⟩
    have hd2 : InDir s0.tree P ks := ⟨(List.nodup_cons.mp hd.1).2, fun k' hk' => hd.2 k' (List.mem_cons_of_mem _ hk')⟩
    have G := grafts_spec w0.wf (folders_only w0) g1 pit P w.wf w.issued hp hd1
    obtain ⟨l, hp1⟩ := G.par
    have r1 : Reading s0 B s1 := by
      have hne : ∀ x, B x → ∀ a, (a, x) ∉ (k, z) :: m1 := by
        intro x hx a hm
        obtain ⟨ix, ex⟩ := r.dom x hx
        have := ((G.new x).mpr ⟨a, hm⟩).2
        rw [r.tree x hx, ex] at this; cases this
      refine ⟨r.dom, r.closed, fun x hx => ?_, fun x hx => ?_⟩
      · obtain ⟨ix, ex⟩ := r.dom x hx
        have hxp : x ≠ p := by rintro rfl; exact hBp hx
        rw [G.old x ix ((r.tree x hx).trans ex) hxp, ex]
      · obtain ⟨o1, o2⟩ := d1.other x (hne x hx)
        exact ⟨o1.trans (r.told x hx).1, o2.trans (r.told x hx).2⟩
    obtain ⟨s', m2, e', g2, d2, a'⟩ := ih s1 _ P r1 (fun k' hk' => hB k' (List.mem_cons_of_mem _ hk')) hBp d1.ok d1.env hp1 hpf hd2
      (fun k' hk' ki' e' => by
        obtain ⟨ki'', f1, f2, f3⟩ := hd2.2 k' hk'
        rw [e'] at f1; cases f1
        refine G.free w0.wf w.wf hp k1 k2 k3 f3 ?_ (hfree k' (List.mem_cons_of_mem _ hk') ki' e')
        intro hn
        have : k' = k := w0.wf.inj e' k1 (by rw [f2, k2, hn])
        subst this
        exact (List.nodup_cons.mp hd.1).1 hk')
      (fun k' hk' ki' e' => by rw [G.excl]; exact hex k' (List.mem_cons_of_mem _ hk') ki' e')
      hl (by omega)
    have G2 := grafts_spec w0.wf (folders_only w0) g2 _ P G.wf G.issued hp1 hd2
    -- what was copied first is not touched by the rest
    have hkeep : ∀ a b, (a, b) ∈ (k, z) :: m1 → ∀ a', (a', b) ∉ m2 := by
      intro a b hm a' hm'
      have h1 := ((G.new b).mpr ⟨a, hm⟩).1
      have h2 := ((G2.new b).mpr ⟨a', hm'⟩).2
      rw [has_false.mpr h2] at h1
      cases h1
    refine ⟨s', ((k, z) :: m1) ++ m2, ?_, ?_, ⟨d2.ok, d2.env, fun x y xi hm ex hfm => ?_, fun x y xi hm ex => ?_, fun x hx => ?_⟩, by omega⟩
    · unfold copyKids
      rw [e]
      exact e'
    · exact g1.append g2
    · rcases List.mem_append.mp hm with hm | hm
      · rw [(d2.other y (hkeep x y hm)).1]
        exact d1.files x y xi hm ex hfm
      · exact d2.files x y xi hm ex hfm
    · rcases List.mem_append.mp hm with hm | hm
      · rw [(d2.other y (hkeep x y hm)).2]
        exact d1.told x y xi hm ex
      · exact d2.told x y xi hm ex
    · obtain ⟨o1, o2⟩ := d1.other x (fun a h => hx a (List.mem_append_left _ h))
      obtain ⟨o3, o4⟩ := d2.other x (fun a h => hx a (List.mem_append_right _ h))
      exact ⟨o3.trans o1, o4.trans o2⟩

theorem copyTo_done {s0 : Server} (w0 : ServerOk s0) {B : Nat → Prop} (hc : Copying s0 B) (n : Nat) :
    ∀ (p : Nat) (top : Bool) (out : Nat), CopyOk s0 B n (fun s h => copyTo false n s h p top out) p := by
  induction n with
  | zero =>
    intro p top out s h pit it _ _ _ _ _ _ _ hs _ _ _ hl _
    have := hl h it hs
    omega
  | succ n ih =>
    intro p top out s h pit it r hB hBp w env hp hpf hs hn hfree hex hl ha
    have hread := (r.tree h hB).trans hs
    have hpre : pre (n+1) s0.tree h = h :: it.kids.flatMap (pre n s0.tree) := by simp only [pre, hs]
    rw [hpre, List.length_cons] at ha ⊢
    have hinfo := (r.told h hB).2
    have hiok : (s.infoOf h).1 = .ok := by rw [hinfo]; exact hc.known h hB
    have hcop := hc.names h it hB hs
    have hname := info_name hiok hread
    have hsize : s.sizeOf h = (s0.infoOf h).2.size := by
      rw [← hinfo]
      exact size_info (o := (s.infoOf h).2) (by rw [← hiok])
    have hroom : ¬ s.room s.calls < s.sizeOf h := by
      rw [env.room, hsize]
      have := hc.room h s.calls hB
      omega
    have htk : (top && decide (it.fmt = ASSOC) && Cp.taken s.tree p (join pit.path it.name)) = false := by
      rw [Cp.taken_free w.wf hfree]; simp
    have hfmt : (s.infoOf h).2.format = it.fmt := by
      unfold infoOf at hiok ⊢
      rw [hread] at hiok ⊢
      cases hk : AMap.get s.infos h with
      | none => rw [hk] at hiok; cases hiok
      | some o => rfl
    generalize hO : ({ (s.infoOf h).2 with parent := p } : ObjInfo) = O
    have hOn : toPath O.fileName = it.name := by
      rw [← hO]; show toPath (s.infoOf h).2.fileName = _; rw [hname]; exact (copyable_name hcop).2
    have hOf : O.format = it.fmt := by rw [← hO]; exact hfmt
    obtain ⟨s1, y, e1, nw, mk, hio, hrm, hask⟩ := addItem_made w O (by rw [hOn]; exact hn) hp hpf (by rw [hOn]; exact hfree)
      (by rw [hOn]; intro hm; exact hex _ hm (Under.refl _)) (by rw [env.fs]; exact hc.fs _) (by omega)
    rw [hOn, hOf] at mk
    have w1 := nw.ok w
    have env1 : Alike0 s0 s1 := ⟨nw.sid.trans env.sid, hio.trans env.ios, hrm.trans env.room, nw.times.trans env.times,
      mk.fs.trans env.fs, mk.excl.trans env.excl⟩
    have hBy : ¬ B y := by
      intro hb
      obtain ⟨iy, ey⟩ := r.dom y hb
      have := r.tree y hb
      rw [nw.fresh, ey] at this
      cases this
    have hne : ∀ x, B x → x ≠ y := fun x hx e => hBy (e ▸ hx)
    obtain ⟨v, hg1⟩ := mk.get
    have r1 : Reading s0 B s1 := by
      refine ⟨r.dom, r.closed, fun x hx => ?_, fun x hx => ?_⟩
      · have hxp : x ≠ p := by rintro rfl; exact hBp hx
        rw [hg1, if_neg (hne x hx), if_neg hxp, r.tree x hx]
      · obtain ⟨o1, o2⟩ := nw.old w x (hne x hx)
        exact ⟨o1.trans (r.told x hx).1, o2.trans (r.told x hx).2⟩
    have hy : s1.tree.get y = some ⟨join pit.path it.name, it.name, it.fmt, p, some p, [], v⟩ := by rw [hg1, if_pos rfl]
    have hiy : AMap.get s1.infos y = some (s.kept O) := by rw [nw.infos, AMap.get_insert, if_pos rfl]
    have hhas : h ≠ y := hne h hB
    -- what is told about the copy
    have told : ∀ (s2 : Server) (iy : Item) (o' : ObjInfo), s2.tree.get y = some iy → iy.name = it.name → iy.fmt = it.fmt → iy.par = p →
        AMap.get s2.infos y = some o' → Redated s.times (s.kept O) o' → ∃ d q,
          (it.fmt ≠ ASSOC → Stamped s0.times (s0.infoOf h).2.modDate d) ∧
          s2.infoOf y = (.ok, { (s0.infoOf h).2 with storageId := s0.sid, parent := q, captureDate := d, modDate := d }) := by
      intro s2 iy o' g1 g2 g3 g4 g5 g6
      have hst : it.fmt ≠ ASSOC → Stamped s0.times (s0.infoOf h).2.modDate (s.newDate O) := by
        intro hf
        unfold newDate
        rw [if_neg (by rw [hOf]; exact hf), ← hO]
        simp only
        rw [hinfo, ← env.times]
        exact .created _
      have hbase : ∃ d, (it.fmt ≠ ASSOC → Stamped s0.times (s0.infoOf h).2.modDate d) ∧
          o' = { (s0.infoOf h).2 with storageId := s0.sid, parent := p, captureDate := d, modDate := d } := by
        have hk : s.kept O = { (s0.infoOf h).2 with storageId := s0.sid, parent := p, captureDate := s.newDate O, modDate := s.newDate O } := by
          unfold kept
          rw [← env.sid, ← hinfo, ← hO]
        rcases g6 with g6 | ⟨d, d1, d2⟩
        · exact ⟨s.newDate O, hst, by rw [g6, hk]⟩
        · refine ⟨d, fun hf => stamped_trans (hst hf) ?_, ?_⟩
          · rw [← env.times]
            rw [hk] at d1
            exact d1
          · rw [d2, hk]
      obtain ⟨d, b1, b2⟩ := hbase
      refine ⟨d, p, b1, ?_⟩
      unfold infoOf
      rw [g1, g5]
      simp only
      rw [g2, g3, g4, b2, ← hname, ← hfmt, hinfo]
      rfl
    dsimp only
    rw [copyTo, hread, hp]
    simp only
    rw [if_neg (by simp [hiok]), if_neg hroom, htk, hcop]
    simp only [Bool.false_eq_true, Bool.true_eq_false, if_false]
    rw [hO, e1]
    simp only [if_true]
    by_cases hf : it.fmt = ASSOC
    · rw [if_pos hf, r1.tree h hB, hs]
      simp only [Option.map_some, Option.getD_some]
      obtain ⟨s2, m, e2, g2, d2, a2⟩ := copyKids_done w0 (ih y false y) it.kids s1 _ it.path r1 (fun k hk => r.closed h it k hB hs hk) hBy
        w1 env1 hy hf (InDir.kids w0.wf hs)
        (fun k hk ki e1 => by
          obtain ⟨ki', f1, f2, f3⟩ := (InDir.kids w0.wf hs).2 k hk
          rw [e1] at f1; cases f1
          exact Cp.made_free mk f3)
        (fun k hk ki e1 e he hu => by
          rw [mk.excl] at he
          exact hex e he (Under.trans (Under.join _ _) hu))
        (fun x ix ex => by have := hl x ix ex; omega) (by omega)
      rw [e2]
      have G2 := grafts_spec w0.wf (folders_only w0) g2 _ it.path mk.wf mk.issued hy (InDir.kids w0.wf hs)
      have hym : ∀ a, (a, y) ∉ m := by
        intro a hm
        have := ((G2.new y).mpr ⟨a, hm⟩).2
        rw [hy] at this; cases this
      refine ⟨s2, y, m, rfl, ?_, ⟨d2.ok, d2.env, fun x z xi hm ex hfm => ?_, fun x z xi hm ex => ?_, fun x hx => ?_⟩, by omega⟩
      · have := Grafts.cons hs hp mk (by rw [if_pos hf]; exact g2) (Grafts.nil s2.tree p)
        simpa using this
      · rcases List.mem_cons.mp hm with hm | hm
        · cases hm; rw [hs] at ex; cases ex; exact absurd hf hfm
        · exact d2.files x z xi hm ex hfm
      · rcases List.mem_cons.mp hm with hm | hm
        · cases hm; rw [hs] at ex; cases ex
          rw [(d2.other _ hym).2]
          exact told s1 _ _ hy rfl rfl rfl hiy (Or.inl rfl)
        · exact d2.told x z xi hm ex
      · have hxy : x ≠ y := by rintro rfl; exact hx h List.mem_cons_self
        obtain ⟨o1, o2⟩ := d2.other x (fun a hm => hx a (List.mem_cons_of_mem _ hm))
        obtain ⟨o3, o4⟩ := nw.old w x hxy
        exact ⟨o1.trans o3, o2.trans o4⟩
    · rw [if_neg hf]
      obtain ⟨c, c1, c2, c3⟩ := hc.files h it hB hs hf
      have hc1 : contents s1 h = some c := (r1.told h hB).1.trans c1
      have hs1 : s1.sizeOf h = c.length := by
        rw [← c2, ← (r1.told h hB).2]
        exact size_info (o := (s1.infoOf h).2) (by rw [(r1.told h hB).2, ← hc.known h hB])
      have hempty : c = [] → contents s1 y = some [] := by
        rintro rfl
        obtain ⟨pit', p1, _, _, _, p5⟩ := nw.parent
        rw [hp] at p1; cases p1
        unfold contents
        rw [hy]
        simp only
        rw [if_neg hf, p5, if_neg (by rw [hOf]; exact hf), hOn, AMap.get_insert, if_pos rfl]
        unfold newFile
        have : O.size = 0 := by rw [← hO]; show (s.infoOf h).2.size = 0; rw [hinfo, c2]; rfl
        rw [this]
        split <;> rfl
      have hw1 : Willing s1 := by unfold Willing; rw [env1.ios]; exact hc.willing
      obtain ⟨s2, e2, F, f3, o', f4, f5⟩ := copyData_done w1 hw1 hhas c3 hc1 hs1 hy hf hempty hiy
      rw [e2]
      refine ⟨s2, y, [], rfl, ?_, ⟨F.ok, ⟨F.sid.trans env1.sid, F.ios.trans env1.ios, F.room.trans env1.room, F.times.trans env1.times,
        by rw [F.tree]; exact env1.fs, by rw [F.tree]; exact env1.excl⟩, fun x z xi hm ex hfm => ?_, fun x z xi hm ex => ?_, fun x hx => ?_⟩,
        by rw [F.tree]; omega⟩
      · have := Grafts.cons (m1 := []) (m2 := []) hs hp mk (by rw [if_neg hf]; exact Grafts.nil s1.tree _) (Grafts.nil s1.tree p)
        rw [F.tree]
        simpa using this
      · rw [List.mem_singleton] at hm; cases hm
        rw [f3, c1]
      · rw [List.mem_singleton] at hm; cases hm; rw [hs] at ex; cases ex
        rw [nw.times] at f4
        have hy2 := hy
        rw [← F.tree] at hy2
        exact told s2 _ o' hy2 rfl rfl rfl f5 f4
      · have hxy : x ≠ y := by rintro rfl; exact hx h List.mem_cons_self
        obtain ⟨o1, o2⟩ := F.other x hxy
        obtain ⟨o3, o4⟩ := nw.old w x hxy
        exact ⟨o1.trans o3, o2.trans o4⟩

theorem info_ok {s : Server} (w : ServerOk s) {x : Nat} (h : s.tree.has x = true) : (s.infoOf x).1 = .ok := by
  have hk := w.known x
  rw [h] at hk
  obtain ⟨o, ho⟩ := Option.isSome_iff_exists.mp hk
  obtain ⟨it, e⟩ := has_iff.mp h
  unfold infoOf
  rw [e, ho]

theorem info_par {s : Server} {x : Nat} {o : ObjInfo} {it : Item} (e : s.infoOf x = (.ok, o)) (hg : s.tree.get x = some it) :
    o.parent = it.par := by
  unfold infoOf at e
  rw [hg] at e
  split at e
  · next e1 e2 =>
    cases e1
    simp only [Prod.mk.injEq, true_and] at e
    rw [← e]
  · cases e

/-- Copying an object to a free place. -/
theorem copy_done {s : Server} (w : ServerOk s) {h p : Nat} (hc : CopyableTo s h p) (ps : List Nat) (h0 : ps.getD 0 0 = h)
    (h1 : ps.getD 1 0 = s.sid) (h2 : ps.getD 2 0 = p) :
    ∃ s' y m, s.copy ps false = (s', .ok, y) ∧ (h, y) ∈ m ∧ Copied s s' h p m := by
  obtain ⟨it, pit, e1, e2, e3, e4, e5⟩ := hc.place
  have hfree := Props.free_path w.wf e4
  obtain ⟨_, _, _, _, _, _, _, hname⟩ := w.wf.parent h it e1 hc.notRoot
  have hpl := Props.pre_length_le w.wf e1 (Tree.maxLen s.tree.items + 1)
  have hh := hc.handles
  have hcp : Copying s (Below s.tree h) := by
    refine ⟨hc.willing, fun x xi hb ex => ?_, fun x hb => ?_, fun x xi hb ex hf => ?_, hc.room, hc.granted⟩
    · obtain ⟨a, b⟩ := hc.names x xi hb ex
      unfold copyable
      rw [a, b]
      simp
    · obtain ⟨ix, ex⟩ := below_get e1 hb
      exact info_ok w (has_iff.mpr ⟨ix, ex⟩)
    · obtain ⟨c, a, b⟩ := hc.files x xi hb ex hf
      obtain ⟨o, o1, o2⟩ := a.told
      exact ⟨c, a.contents, by rw [o1]; exact o2, b⟩
  have hr : Reading s (Below s.tree h) s := by
    refine ⟨fun x hx => below_get e1 hx, fun x ix k hx e hk => ?_, fun _ _ => rfl, fun _ _ => ⟨rfl, rfl⟩⟩
    obtain ⟨ki, k1, k2, _⟩ := w.wf.kid e hk
    exact .child k1 k2 hx
  obtain ⟨s', y, m, a1, a2, a3, _⟩ := copyTo_done w hcp (Tree.maxLen s.tree.items + 1) p true 0 s h pit it hr .self hc.apart w
    ⟨rfl, rfl, rfl, rfl, rfl, rfl⟩ e2 e3 e1 hname hfree e5
    (fun x ix e => by have := len_le_maxLen e; omega) (by omega)
  dsimp only at a1
  refine ⟨s', y, (h, y) :: m, ?_, List.mem_cons_self, ?_⟩
  · unfold copy
    rw [h0, h1, h2, has_iff.mpr ⟨it, e1⟩, has_iff.mpr ⟨pit, e2⟩]
    simp only [Bool.true_eq_false, if_false, ne_eq, not_true_eq_false, and_false]
    rw [a1]
    simp
  obtain ⟨q, qi, q1, _, q3, _, q5, q6⟩ := w.wf.parent h it e1 hc.notRoot
  have G := grafts_spec w.wf (folders_only w) a2 pit qi.path w.wf w.issued e2 (InDir.one w.wf e1 hc.notRoot q1 q3)
  generalize hm : (h, y) :: m = M at *
  have hbel : ∀ x z, (x, z) ∈ M → Below s.tree h x := by
    intro x z hx
    obtain ⟨k, hk, hb, _⟩ := G.pair x z hx
    rw [List.mem_singleton] at hk; subst hk; exact hb
  have hne0 : ∀ z, s.tree.get z = none → z ≠ 0 := by
    rintro z hz rfl
    obtain ⟨r, r1, _⟩ := w.wf.root
    rw [hz] at r1; cases r1
  have hinj : ∀ x z z', (x, z) ∈ M → (x, z') ∈ M → z = z' := by
    intro x z z' h1 h2
    obtain ⟨_, _, _, xi, zi, b1, b2, _, _, _, b3⟩ := G.pair x z h1
    obtain ⟨_, _, _, xi', zi', b1', b2', _, _, _, b3'⟩ := G.pair x z' h2
    rw [b1] at b1'; cases b1'
    exact G.wf.inj b2 b2' (b3.trans b3'.symm)
  -- where the copies are
  have hplace : ∀ x z, (x, z) ∈ M → ∃ xi zi q', s.tree.get x = some xi ∧ s'.tree.get z = some zi ∧ zi.parent = some q' ∧ zi.par = q' ∧
      (if x = h then q' = p else ∃ x', xi.parent = some x' ∧ (x', q') ∈ M) := by
    intro x z hx
    obtain ⟨k, hk, hb, xi, zi, b1, b2, b3, b4, b5, b6⟩ := G.pair x z hx
    rw [List.mem_singleton] at hk; subst hk
    have hz0 := hne0 z ((G.new z).mpr ⟨x, hx⟩).2
    obtain ⟨q', qi', c1, c2, c3, _, c5, c6⟩ := G.wf.parent z zi b2 hz0
    refine ⟨xi, zi, q', b1, b2, c1, c2, ?_⟩
    obtain ⟨l, hl⟩ := G.par
    have hx0 : x ≠ 0 := by
      rintro rfl
      obtain ⟨r, r1, _, r3⟩ := w.wf.root
      cases hb with
      | self => exact hc.notRoot rfl
      | child g1 g2 _ => rw [r1] at g1; cases g1; rw [r3] at g2; cases g2
    obtain ⟨xp, xpi, x1, _, x3, _, x5, x6⟩ := w.wf.parent x xi b1 hx0
    by_cases hxk : x = k
    · rw [if_pos hxk]
      subst hxk
      rw [e1] at b1; cases b1
      rw [b6, q5, reprefix_child] at c5
      rw [b3] at c5 c6
      obtain ⟨d1, _⟩ := join_inj c5 q6 c6
      exact G.wf.inj c3 hl d1.symm
    · rw [if_neg hxk]
      refine ⟨xp, x1, ?_⟩
      have hbp : Below s.tree k xp := by
        cases hb with
        | self => exact absurd rfl hxk
        | child g1 g2 g3 => rw [b1] at g1; cases g1; rw [x1] at g2; cases g2; exact g3
      obtain ⟨zp, hzp⟩ := G.all k (by simp) xp hbp
      obtain ⟨_, _, _, xpi', zpi, f1, f2, _, _, f5, f6⟩ := G.pair xp zp hzp
      rw [x3] at f1; cases f1
      rw [b6, x5, reprefix_join f5, ← f6, b3] at c5
      rw [b3] at c6
      obtain ⟨d1, _⟩ := join_inj c5 x6 c6
      have : zp = q' := G.wf.inj f2 c3 d1
      rw [← this]
      exact hzp
  refine ⟨a3.env.sid, a3.ok, fun x => ⟨fun hb => G.all h (by simp) x hb, fun ⟨z, hz⟩ => hbel x z hz⟩, fun z => ?_,
    ⟨G.nodup1, G.nodup2⟩, fun x z hx => ?_, fun x z hx => ?_, fun x z hx => ?_, fun x hx => ?_, a3.env.ios, a3.env.times⟩
  · rw [has_false]; exact G.new z
  · obtain ⟨xi, zi, q', b1, b2, b3, _, b5⟩ := hplace x z hx
    exact ⟨xi, zi, q', b1, b2, b3, b5⟩
  · obtain ⟨k, hk, hb, xi, zi, b1, b2, b3, b4, b5, b6⟩ := G.pair x z hx
    by_cases hf : xi.fmt = ASSOC
    · unfold contents
      rw [b1, b2]
      simp only
      rw [if_pos hf, if_pos (b4.trans hf)]
    · exact a3.files x z xi hx b1 hf
  · obtain ⟨xi, zi, q', b1, b2, b3, b4, _⟩ := hplace x z hx
    obtain ⟨d, q'', d1, d2⟩ := a3.told x z xi hx b1
    have := info_par d2 b2
    simp only at this
    rw [this, b4] at d2
    exact ⟨xi, zi, q', d, b1, b2, b3, d1, d2⟩
  · obtain ⟨ix, ex⟩ := has_iff.mp hx
    have hnm : ∀ a, (a, x) ∉ M := by
      intro a ha
      have := ((G.new x).mpr ⟨a, ha⟩).2
      rw [ex] at this; cases this
    obtain ⟨o1, o2⟩ := a3.other x hnm
    refine ⟨?_, o1, o2⟩
    by_cases hxp : x = p
    · obtain ⟨l, hl⟩ := G.par
      rw [hxp]; exact has_iff.mpr ⟨_, hl⟩
    · exact has_iff.mpr ⟨_, G.old x ix ex hxp⟩

/-- CopyObject, while nothing else happens. -/
theorem copy_answer (r : Rsp Server) (ho : Open r) (q : List UInt8) (hq : Asking q 0x101A) :
    ∃ r', Answered r r' (ask q) q (r.dev.copy (cParams q) false).2.1 [(r.dev.copy (cParams q) false).2.2] ∧
      r'.dev = (r.dev.copy (cParams q) false).1 ∧ dataOf r'.out = dataOf r.out := by
  have hpc : Rsp.preCheck (r.accept q).session (cTid q) = .ok := by rw [Rsp.accept_session, Rsp.preCheck_ok ho.session hq.tid]
  have hst : (r.accept q).st = .waitResp := by rw [Rsp.accept_st, hq.code]; rfl
  have h1 : r.run dev (ask q) = (r.accept q).handle dev q [] .copy := by
    unfold ask
    simp only [Rsp.run, Rsp.step]
    rw [Rsp.receive_idle dev r q [] ho.idle, Rsp.command_accept dev r q [] (Or.inl ho.ready), hq.code,
      show opKind 0x101A = some .copy from rfl]
    simp only [Res.bind_ok]
    cases (r.accept q).handle dev q [] .copy <;> rfl
  have h2 : (r.accept q).handle dev q [] .copy =
      ({ (r.accept q) with dev := (r.dev.copy (cParams q) false).1 } : Rsp Server).replyP (r.dev.copy (cParams q) false).2.1
        [(r.dev.copy (cParams q) false).2.2] := by
    simp only [Rsp.handle, Rsp.copyReq, hpc, List.foldl_nil]
    have hcan : decide ((r.accept q).st = .txCancel) = false := by rw [hst]; rfl
    show ({ (r.accept q) with dev := (copy (r.accept q).dev (cParams q) (decide ((r.accept q).st = .txCancel))).1 } : Rsp Server).copyEnd
      (copy (r.accept q).dev (cParams q) (decide ((r.accept q).st = .txCancel))).2.1
      (copy (r.accept q).dev (cParams q) (decide ((r.accept q).st = .txCancel))).2.2 = _
    rw [hcan, Rsp.accept_dev]
    unfold Rsp.copyEnd
    rw [if_neg (by show (r.accept q).st ≠ _; rw [hst]; simp)]
    rfl
  generalize r.dev.copy (cParams q) false = x at *
  obtain ⟨r', b1, b2, b3, b4, b5⟩ := replyP_spec ({ (r.accept q) with dev := x.1 } : Rsp Server) q (Rsp.accept_req ..) (Or.inl hst)
    ((Rsp.accept_ready ..).trans ho.ready) (by show (r.accept q).session ≠ 0; rw [Rsp.accept_session]; exact ho.session) x.2.1 [x.2.2]
  refine ⟨r', ⟨h1.trans (h2.trans b1), ⟨u16 (cTid q), ?_, ?_⟩, b3⟩, b2, b5.trans (dataOf_accept ..)⟩
  · unfold u16; omega
  · rw [b4]
    show responses (r.accept q).out ++ _ = _
    rw [Rsp.responses_accept]
    rfl

end Server
end Mtp
