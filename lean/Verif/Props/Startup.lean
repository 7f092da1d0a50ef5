import Verif.Lemmas.Startup
import Verif.Lemmas.ServerParts
import Verif.Props.Survive
/-! Property theorems C93: what a device shows after its start. -/
namespace Props
open Mtp Spec

section
variable {s : Server} {rp : Path} {excl : List Path} {pol : SymPolicy} {d : Disk} {k : DiskFacts}

theorem started_shows (hs : Started s rp excl pol d k) (hd : Directory rp excl pol d) (q : Path) (f : Nat) :
    HasAt s.tree q f ↔ Shown excl pol rp rp d q f := by
  obtain ⟨sid, fmts, caps, pu, fs, asked, ids, ios, alloc, room, times, rfl, hb⟩ := hs
  exact enumerate_shown rp excl pol pu fs asked ids d hd.names hd.distinct hb q f

/-- C93. After the start, objects and disk agree: everything proved about histories that begin in such a state (C82–C92) holds
from the start on. -/
theorem C93_consistent (hs : Started s rp excl pol d k) (hd : Directory rp excl pol d) : ServerOk s := by
  obtain ⟨sid, fmts, caps, pu, fs, asked, ids, ios, alloc, room, times, rfl, hb⟩ := hs
  obtain ⟨l, es, rfl, hm⟩ := hd.dir
  exact Server.start_ok sid fmts caps k ios alloc room times hd.names hd.distinct hm hb

/-- C93. Each entry of the directory that is to be shown is one object, with the format it should have; everything else is no
object. -/
theorem C93_objects (hs : Started s rp excl pol d k) (hd : Directory rp excl pol d) :
    (∀ q f, Shown excl pol rp rp d q f → ∃ h, (∀ x, IsAt s x q ↔ x = h) ∧ ∃ it, s.tree.get h = some it ∧ it.fmt = f) ∧
    ∀ x, s.tree.has x = true → ∃ q f, Shown excl pol rp rp d q f ∧ IsAt s x q := by
  have w := C93_consistent hs hd
  refine ⟨fun q f h => ?_, fun x hx => ?_⟩
  · obtain ⟨y, iy, e, hp, hf⟩ := (started_shows hs hd q f).mpr h
    refine ⟨y, fun x => ⟨?_, ?_⟩, iy, e, hf⟩
    · rintro ⟨ix, ex, hq⟩
      have a := w.wf.pathOf x ix ex
      have b := w.wf.pathOf y iy e
      rw [hq, ← hp, b] at a
      exact (Option.some.inj a).symm
    · rintro rfl; exact ⟨iy, e, hp⟩
  · obtain ⟨ix, ex⟩ := has_iff.mp hx
    exact ⟨ix.path, ix.fmt, (started_shows hs hd _ _).mp ⟨x, ix, ex, rfl, rfl⟩, ix, ex, rfl⟩

theorem started_item (hs : Started s rp excl pol d k) (hd : Directory rp excl pol d) {q : Path} {f h : Nat}
    (hq : Shown excl pol rp rp d q f) (hh : IsAt s h q) : ∃ it, s.tree.get h = some it ∧ it.path = q ∧ it.fmt = f := by
  obtain ⟨y, hy, it, e, hf⟩ := (C93_objects hs hd).1 q f hq
  have := (hy h).mp hh
  subst this
  obtain ⟨it', e', hp⟩ := hh
  rw [e] at e'; cases e'
  exact ⟨it, e, hp, hf⟩

theorem started_contents (hs : Started s rp excl pol d k) (hd : Directory rp excl pol d) {q : Path} {f h : Nat}
    (hq : Shown excl pol rp rp d q f) (hf : f ≠ ASSOC) (hh : IsAt s h q) :
    contents s h = some (k.bytes q) ∧ s.sizeOf h = (k.bytes q).length := by
  have w := C93_consistent hs hd
  obtain ⟨it, e, hp, hf'⟩ := started_item hs hd hq hh
  have hfile := (w.files (String.ofList it.path)).mpr ⟨h, it, e, by rw [hf']; exact hf, rfl⟩
  obtain ⟨sid, fmts, caps, pu, fs, asked, ids, ios, alloc, room, times, rfl, hb⟩ := hs
  constructor
  · unfold contents
    rw [e]
    simp only
    rw [if_neg (by rw [hf']; exact hf)]
    obtain ⟨c, hc⟩ := Option.isSome_iff_exists.mp hfile
    have := (Server.start_files ..).2 c hc
    rw [hc, this, String.toList_ofList, hp]
  · unfold Server.sizeOf
    rw [Server.start_infos]
    have e : ((Tree.empty rp excl pol pu fs asked ids).enumerate d).get h = some it := e
    rw [e]
    simp [Server.startInfo, hf', hf, hp]

/-- C93. A file found at the start is downloaded with its bytes: first thing in the session, and after any history that does not
address it. -/
theorem C93_download (r : Rsp Server) (hs : Started r.dev rp excl pol d k) (hd : Directory rp excl pol d) (hw : Willing r.dev)
    (hn : r.sendSeq = none ∧ r.propList = none ∧ r.edit = none) (q : Path) (f : Nat) (hq : Shown excl pol rp rp d q f)
    (hf : f ≠ ASSOC) (hsize : (k.bytes q).length ≤ 0xFFFFFFFF - 12) (h : Nat) (hh : IsAt r.dev h q)
    (is : List (Rsp.In Server)) (r' : Rsp Server) (hrun : SparesRun h r is r') (hb : r'.dev.tree.asked < 0xFFFFFFFF)
    (ho : Open r') (c : List UInt8) (hc : Asking c 0x1009) (hp : cParam c 0 = h) :
    ∃ r2, Answered r' r2 (ask c) c .ok [] ∧ dataOf r2.out = dataOf r'.out ++ k.bytes q := by
  have w := C93_consistent hs hd
  obtain ⟨hc1, hc2⟩ := started_contents hs hd hq hf hh
  obtain ⟨it, e, _, hf'⟩ := started_item hs hd hq hh
  have h0 : h ≠ 0 := by
    rintro rfl
    exact hf (hf' ▸ w.root it e)
  have hdf : r.dev.dataFile = none := by
    obtain ⟨sid, fmts, caps, pu, fs, asked, ids, ios, alloc, room, times, e, _⟩ := hs
    rw [e]; rfl
  have hrest : AtRest h r := ⟨has_iff.mpr ⟨it, e⟩, h0, (fun s e => by rw [hn.1] at e; cases e),
    (fun s e => by rw [hn.2.1] at e; cases e), (fun s e => by rw [hn.2.2] at e; cases e), (fun it p n _ _ e => by rw [hdf] at e; cases e)⟩
  obtain ⟨sv, sf⟩ := run_safe hrest w hrun hb
  obtain ⟨r4, b1, b2, _⟩ := Server.get_object r' ho (fun a b => by rw [sv.ios]; exact hw a b) c hc h hp (k.bytes q)
    ((sf.contents hrest.file).trans hc1) (by
      have : r'.dev.sizeOf h = r.dev.sizeOf h := by unfold Server.sizeOf; rw [sf.infos]
      rw [this, hc2]) hsize
  exact ⟨r4, b1, b2⟩

/-- C93. What is told about an object found at the start: its storage, its format, the size of the file (0 for a folder), the folder it is in,
its name and its date. -/
theorem C93_info (r : Rsp Server) (hs : Started r.dev rp excl pol d k) (hd : Directory rp excl pol d) (hsid : r.dev.sid < 2 ^ 32)
    (ho : Open r) (q : Path) (f : Nat) (hq : Shown excl pol rp rp d q f) (hne : q ≠ rp) (hf : f < 2 ^ 16)
    (hsize : (k.bytes q).length < 2 ^ 32) (hthumb : k.thumb q < 2 ^ 32) (hlen : q.length ≤ 2 ^ 20 ∧ (k.date q).length ≤ 2 ^ 20)
    (h : Nat) (hh : IsAt r.dev h q) (c : List UInt8) (hc : Asking c 0x1008) (hp : cParam c 0 = h) :
    ∃ r2 p o, Answered r r2 (ask c) c .ok [] ∧ dataOf r2.out = dataOf r.out ++ p ∧ readObjInfo 0 (dataContainer 0x1008 0 p) = some o ∧
      o.storageId = r.dev.sid ∧ o.format = f ∧ o.size = (if f = ASSOC then 0 else (k.bytes q).length) ∧
      o.assocType = (if f = ASSOC then 1 else 0) ∧ IsAt r.dev o.parent (dirOf q) ∧
      o.fileName = cut (Server.fromPath (baseOf q)) ∧ o.modDate = cut (k.date q) ∧ o.captureDate = cut (k.date q) := by
  have w := C93_consistent hs hd
  obtain ⟨it, e, hpath, hfmt⟩ := started_item hs hd hq hh
  have hrp : r.dev.tree.rootPath = rp := by
    obtain ⟨sid, fmts, caps, pu, fs, asked, ids, ios, alloc, room, times, e, _⟩ := hs
    rw [e]
    show (Tree.enumerate _ _).rootPath = rp
    unfold Tree.enumerate
    exact (add_at _ _ _ _ _ _ _).1.2.2
  have h0 : h ≠ 0 := by
    rintro rfl
    obtain ⟨ri, e0, e1, _⟩ := w.wf.root
    rw [e] at e0; cases e0
    exact hne (by rw [← hpath, e1, hrp])
  obtain ⟨p, pit, a1, a2, a3, _, a5, a6⟩ := w.wf.parent h it e h0
  have hname : it.name = baseOf q := by rw [← hpath, a5, baseOf_join a6]
  have hdir : dirOf q = pit.path := by rw [← hpath, a5, dirOf_join a6]
  have hpar : it.par < 2 ^ 32 := by
    have := w.issued p pit a3
    obtain ⟨sid, fmts, caps, pu, fs, asked, ids, ios, alloc, room, times, _, hb⟩ := hs
    omega
  have hinfo : r.dev.infoOf h = (.ok, Server.startInfo r.dev.sid k it) := by
    unfold Server.infoOf
    rw [e]
    have : AMap.get r.dev.infos h = some (Server.startInfo r.dev.sid k it) := by
      obtain ⟨sid, fmts, caps, pu, fs, asked, ids, ios, alloc, room, times, er, hb⟩ := hs
      rw [er] at e ⊢
      rw [Server.start_infos]
      have e : ((Tree.empty rp excl pol pu fs asked ids).enumerate d).get h = some it := e
      rw [e]; rfl
    rw [this]
    rfl
  have hnl : it.name.length ≤ q.length := by
    rw [← hpath, a5, join_length]; omega
  obtain ⟨r2, pl, b1, b2, _, b4⟩ := Server.get_info r ho c hc (Server.startInfo r.dev.sid k it) (by rw [hp]; exact hinfo) (by
      unfold ObjInfoFits Server.startInfo
      simp only [hpath, hfmt]
      refine ⟨by omega, by omega, by omega, ?_, ?_, ?_, ?_, ?_, by omega, by omega, by omega, by omega, ?_, by omega, by omega⟩
      all_goals (split <;> first | decide | omega)) (by
      unfold Server.startInfo
      simp only [hpath]
      split
      · decide
      · exact hsize) (by
      unfold Server.startInfo Server.fromPath
      simp only [List.length_map, hpath]
      exact ⟨by omega, hlen.2, hlen.2⟩)
  refine ⟨r2, pl, _, b1, b2, b4, rfl, hfmt, ?_, ?_, ?_, ?_, ?_, ?_⟩
  · simp only [Server.startInfo, hpath, hfmt]
  · simp only [Server.startInfo, hfmt]
  · exact ⟨pit, by show r.dev.tree.get it.par = _; rw [a2]; exact a3, hdir.symm⟩
  · simp only [Server.startInfo, hname]
  · simp only [Server.startInfo, hpath]
  · simp only [Server.startInfo, hpath]

/-- C93. A host that lists the whole storage after the start gets the handles of the entries that are to be shown, one for each (but
not of the storage directory itself). -/
theorem C93_listing (r : Rsp Server) (hs : Started r.dev rp excl pol d k) (hd : Directory rp excl pol d) (ho : Open r)
    (c : List UInt8) (hc : Asking c 0x1007) (h0 : cParam c 0 = r.dev.sid) (hall : r.dev.sid ≠ ALL) (h1 : cParam c 1 = 0)
    (h2 : cParam c 2 = 0) (hb : r.dev.tree.asked < 2 ^ 26) :
    ∃ (r2 : Rsp Server) (p : List UInt8) (l : List Nat), Answered r r2 (ask c) c .ok [] ∧ dataOf r2.out = dataOf r.out ++ p ∧
      readHandles 0x1007 0 (dataContainer 0x1007 0 p) = some l ∧ l.Pairwise (· < ·) ∧
      (∀ x ∈ l, ∃ q f, Shown excl pol rp rp d q f ∧ q ≠ rp ∧ IsAt r.dev x q) ∧
      ∀ q f, Shown excl pol rp rp d q f → q ≠ rp → ∃ x ∈ l, IsAt r.dev x q := by
  have w := C93_consistent hs hd
  have hrp : r.dev.tree.rootPath = rp := by
    obtain ⟨sid, fmts, caps, pu, fs, asked, ids, ios, alloc, room, times, e, _⟩ := hs
    rw [e]
    show (Tree.enumerate _ _).rootPath = rp
    unfold Tree.enumerate
    exact (add_at _ _ _ _ _ _ _).1.2.2
  obtain ⟨r2, p, l, a1, a2, _, a4, a5, a6⟩ := Server.get_handles r ho w c hc h0 hall hb h1 (Or.inl h2)
  have root : ∀ x it, r.dev.tree.get x = some it → (x = 0 ↔ it.path = rp) := by
    intro x it e
    obtain ⟨ri, e0, e1, _⟩ := w.wf.root
    constructor
    · rintro rfl
      rw [e0] at e; cases e
      rw [e1, hrp]
    · intro hp
      have a := w.wf.pathOf x it e
      have b := w.wf.pathOf 0 ri e0
      rw [hp, ← hrp, ← e1, b] at a
      exact (Option.some.inj a).symm
  refine ⟨r2, p, l, a1, a2, a4, a5, ?_, ?_⟩
  · intro x hx
    obtain ⟨it, e, hx0, _⟩ := (a6 x).mp hx
    exact ⟨it.path, it.fmt, (started_shows hs hd _ _).mp ⟨x, it, e, rfl, rfl⟩, fun e' => hx0 ((root x it e).mpr e'), it, e, rfl⟩
  · intro q f hq hne
    obtain ⟨x, it, e, hp, hf⟩ := (started_shows hs hd q f).mpr hq
    refine ⟨x, (a6 x).mpr ⟨it, e, fun e0 => hne (by rw [← hp]; exact (root x it e).mp e0), Or.inl rfl, Or.inl h2⟩, it, e, hp⟩

/-- C93. A host that lists a folder gets exactly the entries in it that are to be shown. -/
theorem C93_folder (r : Rsp Server) (hs : Started r.dev rp excl pol d k) (hd : Directory rp excl pol d) (ho : Open r)
    (c : List UInt8) (hc : Asking c 0x1007) (h0 : cParam c 0 = r.dev.sid) (hall : r.dev.sid ≠ ALL) (h1 : cParam c 1 = 0)
    (hb : r.dev.tree.asked < 2 ^ 26) (folder : Path) (hf : Shown excl pol rp rp d folder ASSOC)
    (h2 : if folder = rp then cParam c 2 = ALL else IsAt r.dev (cParam c 2) folder) :
    ∃ (r2 : Rsp Server) (p : List UInt8) (l : List Nat), Answered r r2 (ask c) c .ok [] ∧ dataOf r2.out = dataOf r.out ++ p ∧
      readHandles 0x1007 0 (dataContainer 0x1007 0 p) = some l ∧ l.Pairwise (· < ·) ∧
      (∀ x ∈ l, ∃ n f, '/' ∉ n ∧ Shown excl pol rp rp d (join folder n) f ∧ IsAt r.dev x (join folder n)) ∧
      ∀ n f, '/' ∉ n → Shown excl pol rp rp d (join folder n) f → ∃ x ∈ l, IsAt r.dev x (join folder n) := by
  have w := C93_consistent hs hd
  have hrp : r.dev.tree.rootPath = rp := by
    obtain ⟨sid, fmts, caps, pu, fs, asked, ids, ios, alloc, room, times, e, _⟩ := hs
    rw [e]
    show (Tree.enumerate _ _).rootPath = rp
    unfold Tree.enumerate
    exact (add_at _ _ _ _ _ _ _).1.2.2
  obtain ⟨y, iy, ey, hyp, hyf⟩ := (started_shows hs hd folder ASSOC).mpr hf
  have inj : ∀ {a b : Nat} {ia ib : Item}, r.dev.tree.get a = some ia → r.dev.tree.get b = some ib → ia.path = ib.path → a = b := by
    intro a b ia ib ea eb e
    have h1 := w.wf.pathOf a ia ea
    have h2 := w.wf.pathOf b ib eb
    rw [e, h2] at h1
    exact (Option.some.inj h1).symm
  -- the handle asked for means `y`
  have hy : (cParam c 2 = ALL ∧ y = 0) ∨ (cParam c 2 = y ∧ y ≠ 0 ∧ y ≠ ALL) := by
    obtain ⟨ri, e0, e1, _⟩ := w.wf.root
    split at h2
    · next e => exact Or.inl ⟨h2, inj ey e0 (by rw [hyp, e1, hrp]; exact e)⟩
    · next e =>
      obtain ⟨it, e2, e3⟩ := h2
      have := inj e2 ey (e3.trans hyp.symm)
      refine Or.inr ⟨this, ?_, ?_⟩
      · rintro rfl
        rw [e0] at ey; cases ey
        exact e (by rw [← hyp, e1, hrp])
      · have := w.issued y iy ey
        unfold ALL; omega
  obtain ⟨r2, p, l, a1, a2, _, a4, a5, a6⟩ := Server.get_handles r ho w c hc h0 hall hb h1 (by
    rcases hy with ⟨e, _⟩ | ⟨e, _, _⟩
    · exact Or.inr (Or.inl e)
    · exact Or.inr (Or.inr ⟨iy, by rw [e]; exact ey, hyf⟩))
  have asks : ∀ x, x ∈ l ↔ ∃ it, r.dev.tree.get x = some it ∧ x ≠ 0 ∧ it.parent = some y := by
    intro x
    rw [a6 x]
    constructor
    · rintro ⟨it, e, hx, _, hz⟩
      refine ⟨it, e, hx, ?_⟩
      rcases hy with ⟨e1, rfl⟩ | ⟨e1, e2, e3⟩
      · rw [e1] at hz
        rcases hz with hz | ⟨_, hz⟩ | ⟨_, hz, _⟩
        · cases hz
        · exact hz
        · exact absurd rfl hz
      · rw [e1] at hz
        rcases hz with hz | ⟨hz, _⟩ | ⟨_, _, hz⟩
        · exact absurd hz e2
        · exact absurd hz e3
        · exact hz
    · rintro ⟨it, e, hx, hz⟩
      refine ⟨it, e, hx, Or.inl rfl, ?_⟩
      rcases hy with ⟨e1, rfl⟩ | ⟨e1, e2, e3⟩
      · exact Or.inr (Or.inl ⟨e1, hz⟩)
      · rw [e1]; exact Or.inr (Or.inr ⟨e2, e3, hz⟩)
  refine ⟨r2, p, l, a1, a2, a4, a5, ?_, ?_⟩
  · intro x hx
    obtain ⟨it, e, hx0, hpar⟩ := (asks x).mp hx
    obtain ⟨z, zit, b1, _, b3, _, b5, b6⟩ := w.wf.parent x it e hx0
    rw [hpar] at b1; cases b1
    rw [ey] at b3; cases b3
    rw [hyp] at b5
    exact ⟨it.name, it.fmt, b6, b5 ▸ (started_shows hs hd _ _).mp ⟨x, it, e, rfl, rfl⟩, it, e, b5⟩
  · intro n f hn hq
    obtain ⟨x, it, e, hp, _⟩ := (started_shows hs hd _ f).mpr hq
    have hx0 : x ≠ 0 := by
      rintro rfl
      obtain ⟨ri, e0, e1, _⟩ := w.wf.root
      rw [e0] at e; cases e
      rw [e1, hrp] at hp
      have := (shown_under hf).length
      have := congrArg List.length hp
      rw [join_length] at this
      omega
    obtain ⟨z, zit, b1, _, b3, _, b5, b6⟩ := w.wf.parent x it e hx0
    rw [b5] at hp
    obtain ⟨c1, c2⟩ := join_inj hp b6 hn
    have : z = y := inj b3 ey (c1.trans hyp.symm)
    subst this
    exact ⟨x, (asks x).mpr ⟨it, e, hx0, b1⟩, it, e, by rw [b5, c1, c2]⟩

end

private theorem power_up {r r0 r1 : Rsp Server} {i j : Rsp.In Server} (h1 : r.step Server.dev i = .ok r0)
    (h2 : r0.step Server.dev j = .ok r1) : r.run Server.dev [i, j] = .ok r1 := by
  simp only [Rsp.run, h1]
  show (r0.step Server.dev j).bind _ = _
  rw [h2]
  rfl

/-- C93. When the storages are read and the host opens a session, nothing is pending and the objects are as read: the theorems above
apply. -/
theorem C93_session (s : Server) (c : List UInt8) (hc : cCode c = 0x1002) (hp : cParam c 0 ≠ 0) :
    ∃ r' : Rsp Server, Rsp.run Server.dev { dev := s } [.ready [], .packet c true true []] = .ok r' ∧ Open r' ∧
      r'.dev = s ∧ r'.sendSeq = none ∧ r'.propList = none ∧ r'.edit = none ∧
      responses r'.out = [.response .ok (u16 (cTid c)) []] := by
  let r0 : Rsp Server := { dev := s, ready := true }
  have h1 : Rsp.step Server.dev { dev := s } (.ready []) = .ok r0 := rfl
  have hk : opKind 0x1002 = some .openSession := by decide
  have h2 : r0.step Server.dev (.packet c true true []) = (r0.accept c).openSessionReq c := by
    simp only [Rsp.step]
    rw [Rsp.receive_idle _ _ _ _ rfl, Rsp.command_accept _ _ _ _ (.inr (by rw [hc]; decide)), hc, hk]
    rfl
  have hs : (r0.accept c).session = 0 := by rw [Rsp.accept_session]
  unfold Rsp.openSessionReq at h2
  rw [if_neg hp, if_neg (by rw [hs]; simp)] at h2
  have hl := Rsp.accept_live r0 c
  have hidle := Rsp.reply_idle { (r0.accept c) with session := cParam c 0 } .ok c (Rsp.accept_req r0 c) hl
  refine ⟨_, by exact power_up h1 h2, ⟨?_, ?_, ?_, ?_⟩, ?_, ?_, ?_, ?_, ?_⟩
  · exact hidle.1
  · exact hidle.2
  · show (Rsp.reply _ _).ready = _
    rw [Rsp.reply_ready]; exact Rsp.accept_ready ..
  · show (Rsp.reply _ _).session ≠ _
    rw [Rsp.reply_session]; exact hp
  · rw [Rsp.emit_dev, Rsp.reply_dev]; exact Rsp.accept_dev ..
  · show (Rsp.reply _ _).sendSeq = _
    rw [Rsp.reply_sendSeq]; exact Rsp.accept_sendSeq ..
  · show (Rsp.reply _ _).propList = _
    rw [Rsp.reply_propList]; exact Rsp.accept_propList ..
  · show (Rsp.reply _ _).edit = _
    rw [Rsp.reply_edit]; exact Rsp.accept_edit ..
  · rw [Rsp.emit_out, Spec.responses_append,
      Rsp.responses_reply { (r0.accept c) with session := cParam c 0 } _ c (Rsp.accept_req r0 c) hl]
    show Spec.responses (r0.accept c).out ++ _ ++ _ = _
    rw [Rsp.responses_accept]
    simp [Spec.responses, Out.isResponse, r0]

/-! ### Witnesses -/

/-- A storage directory "/s" with a file "a", a folder "f" with a file "b", an excluded file "x", a broken link "l" and a link "m" to
"/s/a". -/
def demoFound : Disk :=
  .node none ASSOC [(['a'], .node none 0x3004 []), (['f'], .node none ASSOC [(['b'], .node none 0x3801 [])]),
    (['x'], .node none 0x3004 []), (['l'], .node (some none) 0x3000 []), (['m'], .node (some (some ['/', 's', '/', 'a'])) 0x3000 [])]

def demoStarted : Server :=
  Server.start 0x00010001 [0x3000, 0x3001] demoCaps (Tree.empty ['/', 's'] [['/', 's', '/', 'x']] .allowWithinStorage [] (fun _ => true) 0 0)
    demoFound ⟨fun p => p.map fun c => UInt8.ofNat c.toNat, fun _ => [], fun _ => 0⟩ (fun _ _ => {}) (fun _ => true)
    (fun _ => 2 ^ 40) ⟨fixedZone 0, fun _ => 1700000000, fun _ => true⟩

theorem C93_witness : Started demoStarted ['/', 's'] [['/', 's', '/', 'x']] .allowWithinStorage demoFound
      ⟨fun p => p.map fun c => UInt8.ofNat c.toNat, fun _ => [], fun _ => 0⟩ ∧
    Directory ['/', 's'] [['/', 's', '/', 'x']] .allowWithinStorage demoFound ∧
    Shown [['/', 's', '/', 'x']] .allowWithinStorage ['/', 's'] ['/', 's'] demoFound ['/', 's', '/', 'f', '/', 'b'] 0x3801 ∧
    Shown [['/', 's', '/', 'x']] .allowWithinStorage ['/', 's'] ['/', 's'] demoFound ['/', 's', '/', 'm'] 0x3000 ∧
    IsAt demoStarted 3 ['/', 's', '/', 'f', '/', 'b'] ∧ Willing demoStarted := by
  refine ⟨⟨_, _, _, _, _, _, _, _, _, _, _, rfl, by decide +kernel⟩, ⟨⟨_, _, rfl, by decide, trivial⟩, ?_, ?_⟩, ?_, ?_, ?_, ?_⟩
  · simp [demoFound, DiskOk, DisksOk]
  · simp [demoFound, DiskNames, DisksNames]
  · refine .inside (n := ['f']) (d := .node none ASSOC [(['b'], .node none 0x3801 [])]) ⟨by decide, trivial⟩ (.tail _ (.head _)) ?_
    exact .inside (n := ['b']) (d := .node none 0x3801 []) ⟨by decide, trivial⟩ (.head _) (.self ⟨by decide, trivial⟩)
  · refine .inside (n := ['m']) (d := .node (some (some ['/', 's', '/', 'a'])) 0x3000 []) ⟨by decide, trivial⟩
      (.tail _ (.tail _ (.tail _ (.tail _ (.head _))))) ?_
    exact .self ⟨by decide, by decide, Or.inr ⟨rfl, ['a'], rfl⟩⟩
  · have : (demoStarted.tree.get 3).map (·.path) = some ['/', 's', '/', 'f', '/', 'b'] := by decide +kernel
    cases e : demoStarted.tree.get 3 with
    | none => rw [e] at this; cases this
    | some it => rw [e] at this; exact ⟨it, e, Option.some.inj this⟩
  · exact fun n i => ⟨rfl, by simp [demoStarted, Server.start], by simp [demoStarted, Server.start], rfl⟩

/-- The excluded file and the broken link are no objects. -/
example : demoStarted.tree.items.length = 5 := by decide +kernel

/-- The host opens a session and downloads "f/b". -/
example : (match Rsp.run Server.dev { dev := demoStarted } ([.ready [], .packet (Toy.cmd 0x1002 0 [1]) true true []] ++
      ask (Toy.cmd 0x1009 8 [3])) with
    | .ok r => (dataOf r.out, responses r.out)
    | .ub _ => ([], [])) = ([47, 115, 47, 102, 47, 98], [.response .ok 0 [], .response .ok 8 []]) := by
  decide +kernel

end Props
