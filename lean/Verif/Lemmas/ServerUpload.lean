import Verif.Lemmas.ServerAsk
import Verif.Lemmas.FileIO
/-! Uploads to the server. -/
namespace Mtp
open Spec
namespace Rsp
variable {D : Type}

/-- Uploads, with whatever is known about the storages on the way: `F0` before, `F` from the first packet on, `P` while the packets
so far were taken, `Q` after closing. -/
theorem upload_inv (dv : Dev D) (q : List UInt8) (h n : Nat) (F0 F : D → Prop) (P Q : D → List UInt8 → Prop)
    (hw0 : ∀ d b l, F0 d → F (dv.write d h (some b) true l).1 ∧
      ((dv.write d h (some b) true l).2 = .ok → P (dv.write d h (some b) true l).1 b))
    (hw : ∀ d b l acc, F d → P d acc → F (dv.write d h (some b) false l).1 ∧
      ((dv.write d h (some b) false l).2 = .ok → P (dv.write d h (some b) false l).1 (acc ++ b)))
    (hcl : ∀ d, F d → F (dv.write d h none false true).1) (hct : ∀ d, F d → F (dv.truncate d h 0).1)
    (hps : ∀ d ds, F d → F (dv.setProps d h ds)) (hpp : ∀ d ds acc, P d acc → P (dv.setProps d h ds) acc)
    (hq : ∀ d acc, F d → P d acc → Q (dv.write d h none false true).1 acc)
    (bs : List (List UInt8)) (hne : bs ≠ []) :
    ∀ (r : Rsp D) (f : Bool) (w : Nat) (acc : List UInt8), Going r q h n w →
    (f = true → F0 r.dev ∧ acc = []) → (f = false → F r.dev ∧ P r.dev acc) →
    (f = true → ∀ b ∈ bs.head?, 12 ≤ b.length) →
    ∃ (r' : Rsp D) (c : Resp) (k : Nat), r.run dv (Spec.dataPhase f bs) = .ok r' ∧ Verdict r r' q c ∧ F r'.dev ∧
      (c = .ok → n ≤ w + ((bodies f bs).take k).flatten.length ∧ Q r'.dev (acc ++ ((bodies f bs).take k).flatten)) ∧
      ((∀ d b f' l, F0 d ∨ F d → b ∈ bodies f bs → (dv.write d h (some b) f' l).2 = .ok) →
        n ≤ w + (bodies f bs).flatten.length → w + (bodies f bs).flatten.length < 2 ^ 32 → c = .ok) := by
  induction bs with
  | nil => exact absurd rfl hne
  | cons b bs ih =>
    intro r f w acc g h0 h1 hb
    obtain ⟨r1, e1, m⟩ := upload_packet dv r q b _ h n w f bs.isEmpty g (fun hf => hb hf b rfl) rfl
    generalize hd : (if f = true then List.drop 12 b else b) = d at m
    have hbod : bodies f (b :: bs) = d :: bodies false bs := by simp [bodies, hd]
    have hrun : r.run dv (Spec.dataPhase f (b :: bs)) = r1.run dv (Spec.dataPhase false bs) := by
      simp only [Spec.dataPhase, Rsp.run, Rsp.step, e1, Res.bind_ok]
    rw [hrun, hbod]
    have fin : ∀ c, Verdict r r1 q c → ∃ r', r1.run dv (Spec.dataPhase false bs) = .ok r' ∧ Verdict r r' q c ∧
        r'.dev = r1.dev := by
      intro c v
      obtain ⟨r', e, i1, i2, kk, o⟩ := stray dv bs r1 v.st v.req
      exact ⟨r', e, ⟨i1, i2, kk.sendSeq.trans v.sendSeq, kk.propList.trans v.propList, kk.session.trans v.session,
        kk.ready.trans v.ready, kk.edit.trans v.edit, o.trans v.out⟩, kk.dev⟩
    have hlen : (d :: bodies false bs).flatten.length = d.length + (bodies false bs).flatten.length := by simp
    have hF : F (dv.write r.dev h (some d) f bs.isEmpty).1 ∧ ((dv.write r.dev h (some d) f bs.isEmpty).2 = .ok →
        P (dv.write r.dev h (some d) f bs.isEmpty).1 (acc ++ d)) := by
      cases f with
      | true =>
        obtain ⟨a, b⟩ := h0 rfl
        rw [b]
        exact hw0 _ _ _ a
      | false =>
        obtain ⟨a, b⟩ := h1 rfl
        exact hw _ _ _ _ a b
    have hdev : F0 r.dev ∨ F r.dev := by
      cases f with
      | true => exact Or.inl (h0 rfl).1
      | false => exact Or.inr (h1 rfl).1
    rcases m with ⟨m1, m2, m3⟩ | ⟨m1, m2, m3, m4⟩ | ⟨m1, m2, m3, m4, m5⟩ | ⟨m1, m2, m3, m4, m5, m6, m7, m8, m9⟩
    · obtain ⟨r', e, v, hdv⟩ := fin _ m2
      refine ⟨r', _, 1, e, v, ?_, fun hc => absurd hc m1, fun hu => absurd (hu _ _ _ _ hdev (by simp)) m1⟩
      rw [hdv, m3]
      exact hcl _ hF.1
    · obtain ⟨r', e, v, hdv⟩ := fin _ m3
      have hPd := hF.2 m1
      refine ⟨r', .ok, 1, e, v, ?_, fun _ => ⟨by simpa using m2, ?_⟩, fun _ _ _ => rfl⟩
      · rw [hdv]
        rcases m4 with m4 | ⟨ds, m4⟩
        · rw [m4]; exact hcl _ hF.1
        · rw [m4]; exact hcl _ (hps _ _ hF.1)
      · rw [hdv]
        simp only [List.take_succ_cons, List.take_zero, List.flatten_cons, List.flatten_nil, List.append_nil]
        rcases m4 with m4 | ⟨ds, m4⟩
        · rw [m4]; exact hq _ _ hF.1 hPd
        · rw [m4]; exact hq _ _ (hps _ _ hF.1) (hpp _ _ _ hPd)
    · obtain ⟨r', e, v, hdv⟩ := fin _ m4
      refine ⟨r', .incompleteTransfer, 1, e, v, ?_, fun h => by simp at h, ?_⟩
      · rw [hdv, m5]; exact hcl _ (hct _ hF.1)
      · intro _ h1 h2
        have hnil : bs = [] := by simpa using m3
        subst hnil
        rw [hlen] at h1 h2
        simp only [bodies, List.flatten_nil, List.length_nil, Nat.add_zero] at h1 h2
        omega
    · have hbs : bs ≠ [] := by intro hh; rw [hh] at m3; simp at m3
      have hPd := hF.2 m1
      obtain ⟨r', c, k, e, v, p0, p1, p2⟩ := ih hbs r1 false (w + d.length) (acc ++ d) m4 (by simp)
        (fun _ => by rw [m5]; exact ⟨hF.1, hPd⟩) (by simp)
      refine ⟨r', c, k + 1, e, ⟨v.st, v.req, v.sendSeq, v.propList, v.session.trans m6, v.ready.trans m7,
        v.edit.trans m8, by rw [v.out, m9]⟩, p0, ?_, ?_⟩
      · intro hc
        obtain ⟨q1, q2⟩ := p1 hc
        refine ⟨?_, ?_⟩
        · simp only [List.take_succ_cons, List.flatten_cons, List.length_append]; omega
        · simpa only [List.take_succ_cons, List.flatten_cons, List.append_assoc] using q2
      · intro hu h1 h2
        rw [hlen] at h1 h2
        exact p2 (fun d b f l hd hb => hu d b f l hd (by simp [hb])) (by omega) (by omega)

end Rsp

namespace Server

/-- Only object `h` changed, and no other object's file is open. -/
structure Edited (s s' : Server) (h : Nat) : Prop where
  tree : s'.tree = s.tree
  sid : s'.sid = s.sid
  fmts : s'.fmts = s.fmts
  ios : s'.ios = s.ios
  alloc : s'.alloc = s.alloc
  times : s'.times = s.times
  ok : ServerOk s'
  mine : Mine s' h
  other : ∀ x, x ≠ h → contents s' x = contents s x ∧ s'.infoOf x = s.infoOf x

theorem Edited.trans {a b c : Server} {h : Nat} (e1 : Edited a b h) (e2 : Edited b c h) : Edited a c h :=
  ⟨e2.tree.trans e1.tree, e2.sid.trans e1.sid, e2.fmts.trans e1.fmts, e2.ios.trans e1.ios, e2.alloc.trans e1.alloc, e2.times.trans e1.times, e2.ok, e2.mine,
    fun x hx => ⟨(e2.other x hx).1.trans (e1.other x hx).1, (e2.other x hx).2.trans (e1.other x hx).2⟩⟩

theorem absorb_edited {s : Server} (w : ServerOk s) {f : FStore} {h : Nat} {it : Item} (e : s.tree.get h = some it)
    (sm : FStore.Same s.view f h (String.ofList it.path)) (m : Mine s h) : Edited s (s.absorb f h).tickCall h := by
  refine ⟨rfl, rfl, rfl, rfl, rfl, rfl, absorb_ok w e sm, ?_, fun x hx => absorb_other w e sm m x hx⟩
  intro x ix p n ex hx ed
  rcases sm.open_ p n ed with ⟨k, ek⟩ | ⟨rfl, _⟩
  · exact m x ix p k ex hx ek
  · exact (path_ne w ex e hx).symm

theorem Edited.redate {s s' : Server} {h : Nat} (e : Edited s s' h) (c : Bool) : Edited s (s'.redate h c) h := by
  have ok := redate_ok e.ok h c
  have ot := redate_other s' h c
  obtain ⟨i, ei, _⟩ := redate_spec s' h c
  rw [ei] at ok ot ⊢
  exact ⟨e.tree, e.sid, e.fmts, e.ios, e.alloc, e.times, ok, e.mine,
    fun x hx => ⟨(ot x).1.trans (e.other x hx).1, ((ot x).2 hx).trans (e.other x hx).2⟩⟩

/-- The first packet of an upload does not care for what was open. -/
theorem write_first {s : Server} {h : Nat} {it : Item} (e : s.tree.get h = some it) (b : List UInt8) (l : Bool) :
    s.write h (some b) true l = ({ s with dataFile := none } : Server).write h (some b) true l := by
  have hv : s.view.writeData (s.ioFor h) h (some b) true l =
      ({ s with dataFile := none } : Server).view.writeData (s.ioFor h) h (some b) true l := by
    unfold FStore.writeData
    have hi : AMap.get ({ s with dataFile := none } : Server).view.items h = AMap.get s.view.items h := rfl
    rw [hi, view_item, e]
    simp only [Option.map_some, true_and]
    split
    · rfl
    · rfl
  have hh : s.tree.has h = true := has_iff.mpr ⟨it, e⟩
  have hc : ∀ d : Bool, (l && (some b).isNone && d) = false := by intro d; cases l <;> rfl
  unfold write
  simp only [hc]
  rw [hv, hh]
  rfl

theorem write_eq {s : Server} {h : Nat} {it : Item} (e : s.tree.get h = some it) (b : Option (List UInt8)) (f l : Bool) :
    s.write h b f l = ((s.absorb (s.view.writeData (s.ioFor h) h b f l).1 h).tickCall.redate h (l && b.isNone && s.dataFile.isSome),
      (s.view.writeData (s.ioFor h) h b f l).2) := by
  unfold write
  rw [if_neg (by rw [has_iff.mpr ⟨it, e⟩]; simp)]

theorem write_eq_some {s : Server} {h : Nat} {it : Item} (e : s.tree.get h = some it) (b : List UInt8) (f l : Bool) :
    s.write h (some b) f l = ((s.absorb (s.view.writeData (s.ioFor h) h (some b) f l).1 h).tickCall,
      (s.view.writeData (s.ioFor h) h (some b) f l).2) := by
  rw [write_eq e]
  have : (l && (some b).isNone && s.dataFile.isSome) = false := by cases l <;> rfl
  rw [this]
  rfl

theorem write_edited {s : Server} (w : ServerOk s) {h : Nat} {it : Item} (e : s.tree.get h = some it) (b : Option (List UInt8))
    (f l : Bool) (m : Mine s h) : Edited s (s.write h b f l).1 h := by
  rw [write_eq e]
  have hv := view_item s h
  rw [e] at hv
  exact (absorb_edited w e (FStore.writeData_same _ _ _ _ _ _ _ hv (fun ho => ioFor_open w e ho)) m).redate _

theorem write_first_edited {s : Server} (w : ServerOk s) {h : Nat} {it : Item} (e : s.tree.get h = some it) (b : List UInt8)
    (l : Bool) : Edited s (s.write h (some b) true l).1 h := by
  rw [write_first e]
  have w' : ServerOk ({ s with dataFile := none } : Server) :=
    ⟨w.wf, w.issued, w.root, w.folders, w.files, w.known, fun _ _ h => by cases h⟩
  have := write_edited w' (it := it) e (some b) true l (fun _ _ _ _ _ _ h => by cases h)
  exact ⟨this.tree, this.sid, this.fmts, this.ios, this.alloc, this.times, this.ok, this.mine, this.other⟩

theorem truncate_edited {s : Server} (w : ServerOk s) {h : Nat} {it : Item} (e : s.tree.get h = some it) (n : Nat)
    (m : Mine s h) : Edited s (s.truncate h n).1 h := by
  unfold truncate
  rw [if_neg (by rw [has_iff.mpr ⟨it, e⟩]; simp)]
  have hv := view_item s h
  rw [e] at hv
  exact absorb_edited w e (FStore.truncateItem_same _ _ _ _ _ hv) m

/-- The bytes `acc` were uploaded to `h` so far; what is known about `h` is as in `s0`. -/
structure Loaded (s0 : Server) (h : Nat) (path : String) (s : Server) (acc : List UInt8) : Prop where
  pos : s.dataFile = some (path, acc.length)
  file : ∃ c, AMap.get s.files path = some c ∧ acc.length ≤ c.length ∧ c.take acc.length = acc
  info : AMap.get s.infos h = AMap.get s0.infos h

theorem absorb_info {s : Server} {f : FStore} {h : Nat} (hi : f.items = s.view.items) :
    AMap.get (s.absorb f h).infos h = AMap.get s.infos h := by
  show AMap.get (match AMap.get s.infos h, AMap.get f.items h with
    | some o, some it => AMap.insert s.infos h { o with size := it.size }
    | _, _ => s.infos) h = _
  rw [hi, view_item]
  cases eo : AMap.get s.infos h with
  | none => simp only; exact eo
  | some o =>
    cases s.tree.get h with
    | none => simp only [Option.map_none]; exact eo
    | some it =>
      simp only [Option.map_some]
      rw [AMap.get_insert, if_pos rfl]
      unfold sizeOf
      rw [eo]
      rfl

theorem write_loaded_first {s : Server} (w : ServerOk s) {h : Nat} {it : Item} (e : s.tree.get h = some it) (b : List UInt8)
    (l : Bool) (hok : (s.write h (some b) true l).2 = .ok) :
    Loaded s h (String.ofList it.path) (s.write h (some b) true l).1 b := by
  rw [write_eq_some e] at hok ⊢
  have hv := view_item s h
  rw [e] at hv
  obtain ⟨a1, a2, a3, _⟩ := writeData_seg (s := s.view) (io := s.ioFor h) (h := h) (d := b) (first := true) (last := l) hv
    (path := String.ofList it.path) (pos := 0) (c := (AMap.get s.view.files (String.ofList it.path)).getD []) (by simp)
    (fun _ => ⟨rfl, rfl, rfl⟩) hok
  refine ⟨?_, ⟨_, a3, ?_, ?_⟩, absorb_info a1⟩
  · rw [Nat.zero_add] at a2; exact a2
  · rw [writeAt_length]; omega
  · have := writeAt_take ((AMap.get s.view.files (String.ofList it.path)).getD []) 0 b (Nat.zero_le _)
    rw [Nat.zero_add] at this
    rw [this]
    rfl

theorem write_loaded {s0 s : Server} {h : Nat} {it : Item} (e : s.tree.get h = some it) (b : List UInt8)
    (l : Bool) {acc : List UInt8} (hl : Loaded s0 h (String.ofList it.path) s acc)
    (hok : (s.write h (some b) false l).2 = .ok) :
    Loaded s0 h (String.ofList it.path) (s.write h (some b) false l).1 (acc ++ b) := by
  rw [write_eq_some e] at hok ⊢
  have hv := view_item s h
  rw [e] at hv
  obtain ⟨c, c1, c2, c3⟩ := hl.file
  obtain ⟨a1, a2, a3, _⟩ := writeData_seg (s := s.view) (io := s.ioFor h) (h := h) (d := b) (first := false) (last := l) hv
    (path := String.ofList it.path) (pos := acc.length) (c := c) (fun _ => ⟨hl.pos, c1, c2⟩) (by simp) hok
  refine ⟨?_, ⟨_, a3, ?_, ?_⟩, (absorb_info a1).trans hl.info⟩
  · rw [List.length_append]; exact a2
  · rw [writeAt_length, List.length_append]; omega
  · rw [List.length_append, writeAt_take c acc.length b c2, c3]

theorem close_loaded {s0 s : Server} {h : Nat} {it : Item} (e : s.tree.get h = some it) {acc : List UInt8}
    (hn : it.fmt ≠ ASSOC) (hf : Honest s) (hl : Loaded s0 h (String.ofList it.path) s acc) :
    contents (s.write h none false true).1 h = some acc ∧ (s.write h none false true).1.dataFile = none ∧
      (∀ o, AMap.get s0.infos h = some o → AMap.get (s.write h none false true).1.infos h =
        some { o with captureDate := s.times.stamp (s.calls + 1) o.modDate, modDate := s.times.stamp (s.calls + 1) o.modDate }) := by
  rw [write_eq e]
  have hv := view_item s h
  rw [e] at hv
  obtain ⟨c, c1, c2, c3⟩ := hl.file
  have hlost : (s.ioFor h).lost = 0 := by
    unfold ioFor
    rw [e]
    simp only
    split <;> exact hf _ _
  have hw : s.view.writeData (s.ioFor h) h none false true = (({ s.view with writing := 0 } : FStore).closeCut 0, .ok) := by
    unfold FStore.writeData
    rw [hv]
    simp only [Option.map_some]
    rw [hlost]
  rw [hw]
  have hd : ({ s.view with writing := 0 } : FStore).dataFile = some (String.ofList it.path, acc.length) := hl.pos
  have hfile : AMap.get ({ s.view with writing := 0 } : FStore).files (String.ofList it.path) = some c := c1
  have hcut : ({ s.view with writing := 0 } : FStore).closeCut 0 =
      { files := AMap.insert s.files (String.ofList it.path) acc, items := s.view.items, dataFile := none, writing := 0 } := by
    unfold FStore.closeCut
    rw [hd]
    simp only
    rw [hfile]
    simp only
    rw [resize_pos c2, c3]
    rfl
  rw [hcut]
  have hsome : (true && (none : Option (List UInt8)).isNone && s.dataFile.isSome) = true := by rw [hl.pos]; rfl
  rw [hsome]
  refine ⟨?_, by rw [redate_dataFile]; rfl, fun o ho => ?_⟩
  rotate_left
  · generalize hS : (s.absorb ⟨AMap.insert s.files (String.ofList it.path) acc, s.view.items, none, 0⟩ h).tickCall = S
    have hi : AMap.get S.infos h = some o := by rw [← hS, ← ho, ← hl.info]; exact absorb_info rfl
    obtain ⟨i, ei, _, _, e3⟩ := redate_spec S h true
    obtain ⟨o', a1, _, _, a4⟩ := e3 o hi
    have ht : S.times = s.times ∧ S.calls = s.calls + 1 := by rw [← hS]; exact ⟨rfl, rfl⟩
    simp only
    rw [ei]
    show AMap.get i h = _
    rw [a1, a4 rfl, ht.1, ht.2]
  rw [(redate_other _ _ _ _).1]
  unfold contents
  have hg : (s.absorb ⟨AMap.insert s.files (String.ofList it.path) acc, s.view.items, none, 0⟩ h).tickCall.tree.get h = some it := e
  simp only [hg, if_neg hn]
  show AMap.get (AMap.insert s.files (String.ofList it.path) acc) (String.ofList it.path) = _
  rw [AMap.get_insert, if_pos rfl]

end Server
end Mtp
