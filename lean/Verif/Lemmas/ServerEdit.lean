import Verif.Lemmas.ServerPlace
import Verif.Props.Edit
import Verif.Props.FileIO
/-! Editing in place, as a host sees it. -/
namespace Mtp
open Spec
namespace Server

/-- What a partial write leaves of contents `c`. -/
def overlay (c : List UInt8) (off : Nat) (d : List UInt8) : List UInt8 := if d = [] then c else writeAt c off d

theorem overlay_overlay (c : List UInt8) (off : Nat) (d e : List UInt8) :
    overlay (overlay c off d) (off + d.length) e = overlay c off (d ++ e) := by
  unfold overlay
  by_cases h1 : d = []
  · subst h1; simp
  · by_cases h2 : e = []
    · subst h2; simp [h1]
    · rw [if_neg h2, if_neg h1, if_neg (by simp [h1]), writeAt_writeAt]

theorem writePartial_noerr (s : FStore) (io : FileIO) (h off : Nat) (d : List UInt8) (first last : Bool) (it : FItem)
    (hi : AMap.get s.items h = some it) (ho : io.openOk = true) (hw : none ∉ io.writes) (hwr : first = false → s.writing = h)
    (h63 : off < 2 ^ 63) : ∃ f, s.writePartial io h off d first last = .ok (f, .ok) := by
  have main : ∀ S : FStore, S.writing = h → ∃ f, (match S.dataFile with
      | none => .ok (if last then { S with writing := 0 } else S, .ok)
      | some (path, _) =>
        if S.writing ≠ h ∨ off ≥ 2 ^ 63 then .ok (S.closePartial h it, .generalError)
        else
          let (s', pos', ok) := S.writeLoop path off d io.writes
          let s' := { s' with dataFile := some (path, pos') }
          if ok then .ok (if last then s'.closePartial h it else s', .ok)
          else .ok (s'.closePartial h it, .generalError) : Res (FStore × Resp)) = .ok (f, .ok) := by
    intro S hS
    cases S.dataFile with
    | none => exact ⟨_, rfl⟩
    | some x =>
      obtain ⟨path, q⟩ := x
      simp only
      rw [if_neg (by rintro (h1 | h1)
                     · exact h1 hS
                     · omega)]
      have hb := writeLoop_noerr io.writes S path off d hw
      generalize S.writeLoop path off d io.writes = z at hb
      obtain ⟨a, b, ok⟩ := z
      simp only at hb
      subst hb
      exact ⟨_, rfl⟩
  unfold FStore.writePartial
  rw [hi]
  simp only [ho, Bool.true_eq_false, and_false, if_false]
  refine main _ ?_
  cases first with
  | true => rfl
  | false => exact hwr rfl

/-- The object's information with another size. -/
theorem sized {s s' : Server} {h n : Nat} {o : ObjInfo} (ht : s'.tree = s.tree) (ho : AMap.get s.infos h = some o)
    (hi : AMap.get s'.infos h = some { o with size := n }) (hx : s.tree.has h = true) :
    s'.infoOf h = (.ok, { (s.infoOf h).2 with size := n }) := by
  obtain ⟨it, e⟩ := has_iff.mp hx
  unfold infoOf
  rw [ht, e, ho, hi]

theorem absorb_sized {s : Server} {f : FStore} {h n : Nat} {o : ObjInfo} {it : FItem} (ho : AMap.get s.infos h = some o)
    (hi : AMap.get f.items h = some it) (hn : it.size = n) : AMap.get (s.absorb f h).infos h = some { o with size := n } := by
  show AMap.get (match AMap.get s.infos h, AMap.get f.items h with
    | some o, some it => AMap.insert s.infos h { o with size := it.size }
    | _, _ => s.infos) h = _
  rw [ho, hi]
  simp only
  rw [AMap.get_insert, if_pos rfl, hn]

theorem info_at {s : Server} (w : ServerOk s) {h : Nat} {it : Item} (e : s.tree.get h = some it) :
    ∃ o, AMap.get s.infos h = some o := by
  have hk := w.known h
  rw [has_iff.mpr ⟨_, e⟩] at hk
  exact Option.isSome_iff_exists.mp hk

theorem redated_size {s s' : Server} {h n : Nat} {c : Bool}
    (e : s'.infoOf h = (.ok, { (s.infoOf h).2 with size := n })) (ht : s'.times = s.times := by rfl) :
    ∃ o, Redated s.times (s.infoOf h).2 o ∧ (s'.redate h c).infoOf h = (.ok, { o with size := n }) := by
  rcases redate_info s' h c with h1 | ⟨o, h1, o', h2, h3⟩
  · exact ⟨_, Or.inl rfl, h1.trans e⟩
  · rw [e] at h1
    simp only [Prod.mk.injEq, true_and] at h1
    rw [ht] at h3
    rcases h3 with rfl | ⟨d, hd, rfl⟩
    · exact ⟨_, Or.inl rfl, by rw [h2, ← h1]⟩
    · exact ⟨_, Or.inr ⟨d, by rw [← h1] at hd; exact hd, rfl⟩, by rw [h2, ← h1]⟩

/-- One packet of a partial write. -/
theorem partial_step {s : Server} (w : ServerOk s) {h : Nat} {it : Item} (e : s.tree.get h = some it) (hn : it.fmt ≠ ASSOC)
    (c : List UInt8) (hc : contents s h = some c) (off : Nat) (d : List UInt8) (first last : Bool)
    (hm : first = false → Mine s h ∧ s.writing = h ∧ ∃ q, s.dataFile = some (String.ofList it.path, q)) :
    Edited s (s.writePartial h off d first last).1 h ∧
    ((s.writePartial h off d first last).2 = .ok →
      contents (s.writePartial h off d first last).1 h = some (overlay c off d) ∧
      (last = false → AMap.get (s.writePartial h off d first last).1.infos h = AMap.get s.infos h ∧
        (s.writePartial h off d first last).1.writing = h ∧
        (s.writePartial h off d first last).1.dataFile = some (String.ofList it.path, off + d.length)) ∧
      (last = true → (s.writePartial h off d first last).1.dataFile = none ∧
        ∃ o, Redated s.times (s.infoOf h).2 o ∧
          (s.writePartial h off d first last).1.infoOf h = (.ok, { o with size := (overlay c off d).length }))) ∧
    (Willing s → off < 2 ^ 63 → (s.writePartial h off d first last).2 = .ok) := by
  have hv := view_item s h
  rw [e] at hv
  simp only [Option.map_some] at hv
  obtain ⟨o, ho⟩ := info_at w e
  have hfc : AMap.get s.files (String.ofList it.path) = some c := by
    unfold contents at hc
    rw [e] at hc
    simpa only [if_neg hn] using hc
  have hio : s.ioFor h = s.ios s.calls 0 := by unfold ioFor; rw [e]; simp only [if_neg hn]
  -- the first packet does not care for what was open
  have hsel : ∃ s0 : Server, ServerOk s0 ∧ Mine s0 h ∧ s.view.writePartial (s.ioFor h) h off d first last = s0.view.writePartial (s.ioFor h) h off d first last ∧
      s0.tree = s.tree ∧ s0.view.items = s.view.items ∧ s0.files = s.files ∧
      (∀ f, (s0.absorb f h).tickCall = (s.absorb f h).tickCall) ∧ (∀ x, contents s0 x = contents s x ∧ s0.infoOf x = s.infoOf x) ∧
      s0.ios = s.ios ∧ s0.calls = s.calls := by
    cases first with
    | false => exact ⟨s, w, (hm rfl).1, rfl, rfl, rfl, rfl, fun _ => rfl, fun _ => ⟨rfl, rfl⟩, rfl, rfl⟩
    | true =>
      refine ⟨{ s with dataFile := none }, ⟨w.wf, w.issued, w.root, w.folders, w.files, w.known, fun _ _ h => by cases h⟩,
        (fun _ _ _ _ _ _ h => by cases h), ?_, rfl, rfl, rfl, fun _ => rfl, fun _ => ⟨rfl, rfl⟩, rfl, rfl⟩
      unfold FStore.writePartial
      have hi : AMap.get ({ s with dataFile := none } : Server).view.items h = AMap.get s.view.items h := rfl
      rw [hi, hv]
      simp only [true_and]
      split <;> rfl
  obtain ⟨s0, w0, m0, hwp, t0, i0, f0, ab0, c0, io0, ca0⟩ := hsel
  have hv0 : AMap.get s0.view.items h = some ⟨String.ofList it.path, decide (it.fmt = ASSOC), s.sizeOf h⟩ := by rw [i0]; exact hv
  have hwe : s.writePartial h off d first last = (match s0.view.writePartial (s.ioFor h) h off d first last with
      | .ok (f, r) => ((s.absorb f h).tickCall.redate h
          (f.dataFile.isNone && (if first then (s.ioFor h).openOk else s.dataFile.isSome)), r)
      | .ub _ => (s, .generalError)) := by
    unfold writePartial
    rw [if_neg (by rw [has_iff.mpr ⟨it, e⟩]; simp), hwp]
    rfl
  have hok0 : ∃ f r, s0.view.writePartial (s.ioFor h) h off d first last = .ok (f, r) := by
    cases hx : s0.view.writePartial (s.ioFor h) h off d first last with
    | ok x => exact ⟨x.1, x.2, rfl⟩
    | ub z =>
      exfalso
      unfold FStore.writePartial at hx
      rw [hv0] at hx
      simp only at hx
      repeat' split at hx
      all_goals cases hx
  obtain ⟨f, r, hfr⟩ := hok0
  rw [hfr] at hwe
  simp only at hwe
  have e0 : s0.tree.get h = some it := by rw [t0]; exact e
  have sm := FStore.writePartial_same _ _ _ _ _ _ _ _ _ _ hv0 (fun hoo => by
    show (AMap.get s0.files _).isSome = true
    rw [f0, hfc]; rfl) hfr
  have ed := absorb_edited w0 e0 sm m0
  rw [ab0] at ed
  have ed' : Edited s (s.absorb f h).tickCall h :=
    ⟨ed.tree.trans t0, rfl, rfl, rfl, rfl, rfl, ed.ok, ed.mine, fun x hx => ⟨(ed.other x hx).1.trans (c0 x).1, (ed.other x hx).2.trans (c0 x).2⟩⟩
  rw [hwe]
  generalize hcl : (f.dataFile.isNone && (if first then (s.ioFor h).openOk else s.dataFile.isSome)) = cl
  refine ⟨ed'.redate cl, fun hr => ?_, fun hw ho63 => ?_⟩
  · simp only at hr
    subst hr
    simp only
    rw [redate_dataFile, redate_writing, (redate_other _ _ _ _).1]
    obtain ⟨a1, a2, a3, a4⟩ := Props.writePartial_seg (s := s.view) (io := s.ioFor h) (h := h) (off := off) (q := match s.dataFile with | some (_, q) => q | none => 0)
      (d := d) (c := c) (first := first) (last := last) hv
      (fun hf => by
        obtain ⟨_, h2, q, h3⟩ := hm hf
        refine ⟨?_, h2, hfc⟩
        rw [h3]; exact h3)
      (fun _ => by show c = (AMap.get s.files _).getD []; rw [hfc]; rfl) (hwp.trans hfr)
    refine ⟨?_, fun hl => ?_, fun hl => ?_⟩
    · unfold contents
      have hg : (s.absorb f h).tickCall.tree.get h = some it := e
      simp only [hg, if_neg hn]
      exact a1
    · obtain ⟨b1, b2, b3⟩ := a3 hl
      have hno : cl = false := by
        rw [← hcl, b2]
        rfl
      rw [hno]
      exact ⟨absorb_info b1, b3, b2⟩
    · obtain ⟨b1, b2⟩ := a4 hl
      refine ⟨b2, redated_size (sized (o := o) (s' := (s.absorb f h).tickCall) rfl ho ?_ (has_iff.mpr ⟨it, e⟩))⟩
      refine absorb_sized (it := { path := String.ofList it.path, isDir := decide (it.fmt = ASSOC), size := (overlay c off d).length }) ho ?_ rfl
      rw [b1, AMap.get_insert, if_pos rfl]
      rfl
  · simp only
    obtain ⟨w1, _, w3, _⟩ := hw s.calls 0
    have hno : none ∉ (s.ios s.calls 0).writes := fun hm => w3 _ hm rfl
    obtain ⟨f', hf'⟩ := writePartial_noerr s.view (s.ioFor h) h off d first last _ hv (by rw [hio]; exact w1) (by rw [hio]; exact hno)
      (fun hf => (hm hf).2.1) ho63
    rw [hwp, hfr] at hf'
    cases hf'
    rfl

theorem contents_same {s s' : Server} (ht : s'.tree = s.tree) {h : Nat} {it : Item} (e : s.tree.get h = some it) :
    s'.tree.get h = some it := by rw [ht]; exact e

theorem partialWrites_cons (h : Nat) (s s1 : Server) (off : Nat) (b : List UInt8) (first : Bool) (bs : List (List UInt8)) (c : Resp)
    (hx : dev.writePartial s h off b first bs.isEmpty = (s1, c)) :
    (c = .ok → Props.partialWrites dev h s off first (b :: bs) = Props.partialWrites dev h s1 (u64 (off + b.length)) false bs) ∧
    (c ≠ .ok → Props.partialWrites dev h s off first (b :: bs) = (s1, c)) := by
  refine ⟨fun hc => ?_, fun hc => ?_⟩
  · subst hc
    rw [Props.partialWrites, hx]
  · rw [Props.partialWrites, hx]
    cases c <;> first | rfl | exact absurd rfl hc

/-- All packets of a partial write. -/
theorem partial_all {h : Nat} {it : Item} (hn : it.fmt ≠ ASSOC) (segs : List (List UInt8)) (hne : segs ≠ []) :
    ∀ (s : Server) (c : List UInt8) (off : Nat) (first : Bool), ServerOk s → s.tree.get h = some it → contents s h = some c →
    (first = false → Mine s h ∧ s.writing = h ∧ ∃ q, s.dataFile = some (String.ofList it.path, q)) →
    off + segs.flatten.length < 2 ^ 63 →
    Edited s (Props.partialWrites dev h s off first segs).1 h ∧
    ((Props.partialWrites dev h s off first segs).2 = .ok →
      contents (Props.partialWrites dev h s off first segs).1 h = some (overlay c off segs.flatten) ∧
      (Props.partialWrites dev h s off first segs).1.dataFile = none ∧
      ∃ o, Redated s.times (s.infoOf h).2 o ∧ (Props.partialWrites dev h s off first segs).1.infoOf h =
        (.ok, { o with size := (overlay c off segs.flatten).length })) ∧
    (Willing s → (Props.partialWrites dev h s off first segs).2 = .ok) := by
  induction segs with
  | nil => exact absurd rfl hne
  | cons d segs ih =>
    intro s c off first w e hc hm hlen
    obtain ⟨p1, p2, p3⟩ := partial_step w e hn c hc off d first segs.isEmpty hm
    rw [List.flatten_cons, List.length_append] at hlen
    have hu : u64 (off + d.length) = off + d.length := by unfold u64; omega
    have hdev : dev.writePartial s h off d first segs.isEmpty = s.writePartial h off d first segs.isEmpty := rfl
    generalize hx : s.writePartial h off d first segs.isEmpty = x at *
    obtain ⟨s1, r⟩ := x
    simp only at p1 p2 p3
    obtain ⟨pw1, pw2⟩ := partialWrites_cons h s s1 off d first segs r hdev
    by_cases hr : r = .ok
    · subst hr
      rw [pw1 rfl, hu]
      obtain ⟨q1, q2, q3⟩ := p2 rfl
      cases segs with
      | nil =>
        simp only [Props.partialWrites, List.flatten_cons, List.flatten_nil, List.append_nil]
        exact ⟨p1, fun _ => ⟨q1, (q3 rfl).1, (q3 rfl).2⟩, fun _ => trivial⟩
      | cons d2 segs =>
        obtain ⟨t1, t2, t3⟩ := q2 rfl
        obtain ⟨i1, i2, i3⟩ := ih (by simp) s1 (overlay c off d) (off + d.length) false p1.ok (contents_same p1.tree e) q1
          (fun _ => ⟨p1.mine, t2, _, t3⟩) (by omega)
        refine ⟨p1.trans i1, fun hh => ?_, fun hw => i3 (fun a b => by rw [p1.ios]; exact hw a b)⟩
        obtain ⟨j1, j2, j3⟩ := i2 hh
        have hii : s1.infoOf h = s.infoOf h := by
          unfold infoOf
          rw [p1.tree, t1]
        rw [overlay_overlay] at j1 j3
        rw [List.flatten_cons]
        rw [hii, p1.times] at j3
        exact ⟨j1, j2, j3⟩
    · rw [pw2 hr]
      refine ⟨p1, fun hh => absurd hh hr, fun hw => absurd (p3 hw (by omega)) hr⟩

theorem truncate_times (s : Server) (h n : Nat) : (s.truncate h n).1.times = s.times := by
  unfold truncate
  split <;> rfl

theorem stamped_trans {t : Times} {a b c : QStr} (h1 : Stamped t a b) (h2 : Stamped t b c) : Stamped t a c := by
  induction h2 with
  | created n => exact .again n _ h1
  | again n d _ ih => exact .again n _ ih

theorem edited_told {t : Times} {o1 o2 o3 : ObjInfo} {n : Nat} (h1 : Redated t o1 o2) (h2 : Redated t { o2 with size := n } o3) (m : Nat) :
    ∃ o, Redated t o1 o ∧ { o3 with size := m } = { o with size := m } := by
  rcases h2 with rfl | ⟨d, hd, rfl⟩
  · exact ⟨o2, h1, rfl⟩
  · rcases h1 with rfl | ⟨e, he, rfl⟩
    · exact ⟨_, Or.inr ⟨d, hd, rfl⟩, rfl⟩
    · exact ⟨_, Or.inr ⟨d, stamped_trans he hd, rfl⟩, rfl⟩

theorem truncate_done {s : Server} (w : ServerOk s) {h : Nat} {it : Item} (e : s.tree.get h = some it) (hn : it.fmt ≠ ASSOC)
    (c : List UInt8) (hc : contents s h = some c) (n : Nat) :
    ServerOk (s.truncate h n).1 ∧ (s.truncate h n).1.tree = s.tree ∧ (s.truncate h n).1.sid = s.sid ∧
    (s.truncate h n).1.ios = s.ios ∧ (∀ x, x ≠ h → contents (s.truncate h n).1 x = contents s x ∧
      (s.truncate h n).1.infoOf x = s.infoOf x) ∧
    ((s.truncate h n).2 = .ok → ∃ c', contents (s.truncate h n).1 h = some c' ∧ Resized c n c' ∧
      (s.truncate h n).1.infoOf h = (.ok, { (s.infoOf h).2 with size := n })) ∧
    ((s.truncate h n).2 ≠ .ok → contents (s.truncate h n).1 h = some c ∧ (s.truncate h n).1.infoOf h = s.infoOf h) ∧
    (Willing s → (s.truncate h n).2 = .ok) := by
  have w0 : ServerOk ({ s with dataFile := none } : Server) :=
    ⟨w.wf, w.issued, w.root, w.folders, w.files, w.known, fun _ _ h => by cases h⟩
  have ed := truncate_edited w0 (it := it) e n (fun _ _ _ _ _ _ h => by cases h)
  have heq0 : ({ s with dataFile := none } : Server).truncate h n =
      (({ (s.absorb (s.view.truncateItem (s.ioFor h) h n).1 h) with dataFile := none } : Server).tickCall, (s.view.truncateItem (s.ioFor h) h n).2) := by
    have hh : ({ s with dataFile := none } : Server).tree.has h = true := has_iff.mpr ⟨it, e⟩
    have hv0 : AMap.get ({ s with dataFile := none } : Server).view.items h = AMap.get s.view.items h := rfl
    unfold truncate FStore.truncateItem
    rw [if_neg (by rw [hh]; simp), hv0, view_item, e]
    simp only [Option.map_some]
    split
    · rfl
    · show _ = (({ (s.absorb _ h) with dataFile := none } : Server).tickCall, _)
      have hf0 : ({ s with dataFile := none } : Server).view.files = s.view.files := rfl
      have hi0 : ({ s with dataFile := none } : Server).ioFor h = s.ioFor h := rfl
      rw [hf0, hi0]
      split <;> rfl
  obtain ⟨o, ho⟩ := info_at w e
  have hv := view_item s h
  rw [e] at hv
  simp only [Option.map_some] at hv
  have hio : s.ioFor h = s.ios s.calls 0 := by unfold ioFor; rw [e]; simp only [if_neg hn]
  have hfc : AMap.get s.files (String.ofList it.path) = some c := by
    unfold contents at hc
    rw [e] at hc
    simpa only [if_neg hn] using hc
  have heq : s.truncate h n = ((s.absorb (s.view.truncateItem (s.ioFor h) h n).1 h).tickCall, (s.view.truncateItem (s.ioFor h) h n).2) := by
    unfold truncate
    rw [if_neg (by rw [has_iff.mpr ⟨it, e⟩]; simp)]
  obtain ⟨k1, k2⟩ := Props.C29_truncate s.view (s.ioFor h) h n
  have hok : ServerOk (s.absorb (s.view.truncateItem (s.ioFor h) h n).1 h).tickCall :=
    absorb_ok w e (FStore.truncateItem_same _ _ _ _ _ hv)
  have hwl : Willing s → (s.view.truncateItem (s.ioFor h) h n).2 = .ok := by
    intro hw
    obtain ⟨w1, _⟩ := hw s.calls 0
    unfold FStore.truncateItem
    rw [hv, hio]
    simp only [w1]
    have : AMap.get s.view.files (String.ofList it.path) = some c := hfc
    rw [this, if_neg (by simpa using hn)]
  generalize s.view.truncateItem (s.ioFor h) h n = x at *
  obtain ⟨f, r⟩ := x
  simp only at k1 k2 hok hwl
  rw [heq0] at ed
  rw [heq]
  refine ⟨hok, rfl, rfl, rfl, fun x hx => ed.other x hx, fun hr => ?_, fun hr => ?_, hwl⟩
  · obtain ⟨it2, c2, c', a1, a2, a3, a4, a5, _⟩ := k1 hr
    rw [hv] at a1
    cases a1
    have a2' : AMap.get s.files (String.ofList it.path) = some c2 := a2
    rw [hfc] at a2'
    cases a2'
    refine ⟨c', ?_, a4, sized (o := o) rfl ho ?_ (has_iff.mpr ⟨it, e⟩)⟩
    · unfold contents
      have hg : (s.absorb f h).tickCall.tree.get h = some it := e
      simp only [hg, if_neg hn]
      exact a3
    · refine absorb_sized (it := { path := String.ofList it.path, isDir := decide (it.fmt = ASSOC), size := n }) ho ?_ rfl
      rw [a5, AMap.get_insert, if_pos rfl]
  · have hf := k2 hr
    have hi : (s.absorb f h).tickCall.infoOf h = s.infoOf h := by
      unfold infoOf
      have : AMap.get (s.absorb f h).tickCall.infos h = AMap.get s.infos h := absorb_info (by rw [hf])
      rw [this]
      rfl
    refine ⟨?_, hi⟩
    unfold contents
    have hg : (s.absorb f h).tickCall.tree.get h = some it := e
    simp only [hg, if_neg hn]
    show AMap.get f.files _ = _
    rw [hf]
    exact hfc

end Server
end Mtp
