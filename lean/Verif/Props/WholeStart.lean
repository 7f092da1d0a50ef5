import Verif.Spec.WholeStart
import Verif.Props.Whole
import Verif.Props.DeviceStart
/-! Property theorems C116: files on the whole device, across restarts. -/
namespace Props
open Mtp Spec
open Mtp.Server (Safe Survives)

/-- GetObject on the whole device, from what is stored. -/
theorem whole_get (r : Rsp Device) (ho : Open r) (hw : Willing r.dev.ps.srv) {h : Nat} (h0 : h ≠ 0) {data : List UInt8}
    (hc : contents r.dev.ps.srv h = some data) (hs : r.dev.ps.srv.sizeOf h = data.length) (hsm : data.length ≤ 0xFFFFFFFF - 12)
    (q : List UInt8) (hq : Asking q 0x1009) (hp : cParam q 0 = h) :
    ∃ r', AnsweredBy Device.dev r r' (ask q) q .ok [] ∧ dataOf r'.out = dataOf r.out ++ data := by
  obtain ⟨s, c1, c2, _⟩ := Server.get_object (stored r) (open_via.mpr ho) hw q hq h hp data hc hs hsm
  obtain ⟨r', e, v, _⟩ := Rsp.sim_lift Device.sim (ask q) (Device.good ho.none)
    (Rsp.fitting_ask ho (by rw [hq.code]; decide)) c1.run
  subst v
  exact ⟨r', ⟨e, c1.out, open_via.mp c1.again⟩, c2⟩

theorem boots_started {e : Setting} {f : Saved} {s : Rsp Device} (hb : Boots e f s) :
    Started s.dev.ps.srv e.root e.excl e.policy e.disk e.facts :=
  ⟨_, _, _, _, _, _, _, _, _, _, _, by rw [hb.dev]; rfl, hb.handles⟩

/-- C116. Every file that the storage directory is to show at a start — whatever the files of ids and references say — is one object,
and is downloaded with its bytes: first thing in the session, and after any history of the whole device that does not address it. -/
theorem C116_found (e : Setting) (f : Saved) (s : Rsp Device) (hb : Boots e f s) (hn : s.sendSeq = none ∧ s.edit = none)
    (hw : Willing s.dev.ps.srv) (p : Path) (fm : Nat) (hp : Shown e.excl e.policy e.root e.root e.disk p fm) (hf : fm ≠ ASSOC)
    (hsize : (e.facts.bytes p).length ≤ 0xFFFFFFFF - 12) :
    ∃ h, (∀ x, Lies s x p ↔ x = h) ∧ AtRest h (stored s) ∧
      ∀ s' : Rsp Device, SparesWhole h s s' → s'.dev.ps.srv.tree.asked < 0xFFFFFFFF → Open s' →
        ∀ q, Asking q 0x1009 → cParam q 0 = h →
          ∃ s'', AnsweredBy Device.dev s' s'' (ask q) q .ok [] ∧ dataOf s''.out = dataOf s'.out ++ e.facts.bytes p := by
  have hs := boots_started hb
  have w := C93_consistent hs hb.dir
  obtain ⟨h, hx, it, g, hf'⟩ := (C93_objects hs hb.dir).1 p fm hp
  obtain ⟨hc1, hc2⟩ := started_contents hs hb.dir hp hf ((hx h).mpr rfl)
  have h0 : h ≠ 0 := by
    rintro rfl
    exact hf (hf' ▸ w.root it g)
  have hdf : s.dev.ps.srv.dataFile = none := by rw [hb.dev]; rfl
  have hrest : AtRest h (stored s) := ⟨has_iff.mpr ⟨it, g⟩, h0, (fun t e => by rw [show (stored s).sendSeq = none from hn.1] at e; cases e),
    (fun t e => by rw [show (stored s).propList = none from hb.list] at e; cases e),
    (fun t e => by rw [show (stored s).edit = none from hn.2] at e; cases e),
    (fun it p n _ _ e => by rw [show (stored s).dev.dataFile = none from hdf] at e; cases e)⟩
  refine ⟨h, hx, hrest, ?_⟩
  intro s' hrun hb' ho q hq hqp
  obtain ⟨sv, sf⟩ := run_safe_whole hrest w hrun hb'
  refine whole_get s' ho (fun a b => by rw [sv.ios]; exact hw a b) h0 ((sf.contents hrest.file).trans hc1) ?_ hsize q hq hqp
  rw [← hc2]
  unfold Server.sizeOf
  rw [sf.infos]

/-- C116. What is uploaded is what is downloaded after the device was ended and started again: a host announces an object and sends its
data, both answered OK; after any further history that does not address it (it may be renamed) the device is ended, and started again
with the storage directory still holding the file. Then there is one object at its path, and after any history of the new device that
does not address that, GetObject of it sends exactly the bytes uploaded. -/
theorem C116_upload_download (r : Rsp Device) (ho : Open r) (w : ServerOk r.dev.ps.srv) (hed : r.edit = none)
    (hw : Willing r.dev.ps.srv) (o : ObjInfo)
    (data q1 : List UInt8) (bs : List (List UInt8)) (q2 : List UInt8) (ds : List (List UInt8))
    (hu : Uploading r.dev.ps.srv o data q1 bs q2 ds) :
    ∃ r1 h r2, AnsweredBy Device.dev r r1 (sendObject q1 bs) q1 .ok [r.dev.ps.srv.sid, folderOf q1, h] ∧
      AnsweredBy Device.dev r1 r2 (sendObject q2 ds) q2 .ok [] ∧
      ∀ (re : Rsp Device), SparesWhole h r2 re → re.dev.ps.srv.tree.asked < 0xFFFFFFFF →
        ∃ p, Lies re h p ∧
          ∀ (e : Setting) (f : Saved) (s : Rsp Device), Boots e f s → s.sendSeq = none ∧ s.edit = none → Willing s.dev.ps.srv →
            HoldsStill re.dev.ps.srv e p →
            ∃ h', (∀ x, Lies s x p ↔ x = h') ∧
              ∀ s' : Rsp Device, SparesWhole h' s s' → s'.dev.ps.srv.tree.asked < 0xFFFFFFFF → Open s' →
                ∀ q, Asking q 0x1009 → cParam q 0 = h' →
                  ∃ s'', AnsweredBy Device.dev s' s'' (ask q) q .ok [] ∧ dataOf s''.out = dataOf s'.out ++ data := by
  obtain ⟨r1, h, r2, a1, a2, a3, a4, a5, a6, _⟩ := C115_upload_download r ho w hed hw o data q1 bs q2 ds hu
  refine ⟨r1, h, r2, a1, a3, ?_⟩
  intro re hrun hb
  obtain ⟨sv, sf⟩ := run_safe_whole a5 a4 hrun hb
  obtain ⟨it, g⟩ := has_iff.mp (sf.has a5.there)
  have hc : contents re.dev.ps.srv h = some data := (sf.contents a5.file).trans a6
  refine ⟨it.path, ⟨it, g, rfl⟩, ?_⟩
  intro e f s hs hn hw' hold
  obtain ⟨fm, hp, hf⟩ := hold.shown
  have hbytes := hold.bytes h data ⟨it, g, rfl⟩ hc
  obtain ⟨h', b1, b2, b3⟩ := C116_found e f s hs hn hw' it.path fm hp hf (by rw [hbytes]; exact hu.small)
  rw [hbytes] at b3
  exact ⟨h', b1, b3⟩

/-- What is on disk after the session of `C115_witness`, and a new file "0". -/
def demoKept : Disk := .node none ASSOC [(['0'], .node none 0x3004 []), (['c'], .node none 0x3004 [])]

theorem demoKept_dir : Directory ['/', 's'] [['/', 's', '/', 'x']] .allowWithinStorage demoKept := by
  refine ⟨⟨_, _, rfl, by decide, trivial⟩, ?_, ?_⟩
  · simp [demoKept, DiskOk, DisksOk]
  · simp [demoKept, DiskNames, DisksNames]

/-- See `demoKept`. -/
def keptSetting : Setting :=
  { demoSetting demoKept with facts := ⟨fun p => if p = ['/', 's', '/', 'c'] then [7, 8, 9] else [], fun _ => [], fun _ => 0⟩ }

/-- The device started there. -/
def keptBoot (f : Saved) : Rsp Device := { ready := true, dev := Device.start keptSetting f }

private theorem kept_willing (f : Saved) : Willing (keptBoot f).dev.ps.srv := by
  have h : (keptBoot f).dev.ps.srv.ios = fun _ _ => {} := rfl
  intro n i
  rw [h]
  exact ⟨rfl, by simp, by simp, rfl⟩

private theorem kept_boots (f : Saved) (h : (keptBoot f).dev.ps.srv.tree.asked < 0xFFFFFFFF) : Boots keptSetting f (keptBoot f) :=
  ⟨rfl, rfl, rfl, demoKept_dir, h⟩

/-- The hypotheses of C116 are met: the file uploaded in `C115_witness`, renamed, is object 2 at the next start; a session is opened and
object 1 deleted, and object 2 is downloaded. -/
theorem C116_witness : ∃ r re s' s'' : Rsp Device, demoGRsp.run Device.dev wholeUpload = .ok r ∧ SparesWhole 1 r re ∧
    re.dev.ps.srv.tree.asked < 0xFFFFFFFF ∧ Lies re 1 ['/', 's', '/', 'c'] ∧
    Boots keptSetting re.dev.save (keptBoot re.dev.save) ∧ Willing (keptBoot re.dev.save).dev.ps.srv ∧
    HoldsStill re.dev.ps.srv keptSetting ['/', 's', '/', 'c'] ∧
    Lies (keptBoot re.dev.save) 2 ['/', 's', '/', 'c'] ∧ SparesWhole 2 (keptBoot re.dev.save) s' ∧
    s'.dev.ps.srv.tree.asked < 0xFFFFFFFF ∧ Open s' ∧
    s'.run Device.dev (ask (Toy.cmd 0x1009 15 [2])) = .ok s'' ∧ (dataOf s'.out, dataOf s''.out) = ([], [7, 8, 9]) := by
  have hk : (match demoGRsp.run Device.dev wholeUpload with
      | .ok r => spareWholeB 1 r wholeLater && (match r.run Device.dev wholeLater with
          | .ok re => decide (re.dev.ps.srv.tree.asked < 0xFFFFFFFF) &&
              decide ((re.dev.ps.srv.tree.get 1).map (·.path) = some ['/', 's', '/', 'c']) &&
              re.dev.ps.srv.tree.items.all (fun e => decide (e.1 = 1 ∨ e.2.path ≠ ['/', 's', '/', 'c'])) &&
              decide (contents re.dev.ps.srv 1 = some [7, 8, 9]) &&
              decide ((keptBoot re.dev.save).dev.ps.srv.tree.asked < 0xFFFFFFFF) &&
              decide (((keptBoot re.dev.save).dev.ps.srv.tree.get 2).map (·.path) = some ['/', 's', '/', 'c']) &&
              spareWholeB 2 (keptBoot re.dev.save) (demoSession ++ ask (Toy.cmd 0x100B 14 [1])) &&
              (match (keptBoot re.dev.save).run Device.dev (demoSession ++ ask (Toy.cmd 0x100B 14 [1])) with
              | .ok s' => decide (s'.dev.ps.srv.tree.asked < 0xFFFFFFFF) && decide (s'.st = .idle) && s'.req.isNone && s'.ready &&
                  decide (s'.session ≠ 0) &&
                  (match s'.run Device.dev (ask (Toy.cmd 0x1009 15 [2])) with
                  | .ok s'' => decide ((dataOf s'.out, dataOf s''.out) = ([], [7, 8, 9]))
                  | .ub _ => false)
              | .ub _ => false)
          | .ub _ => false)
      | .ub _ => false) = true := by decide +kernel
  have lies : ∀ (r : Rsp Device) (h : Nat) (p : Path), (r.dev.ps.srv.tree.get h).map (·.path) = some p → Lies r h p := by
    intro r h p k
    cases e : r.dev.ps.srv.tree.get h with
    | none => rw [e] at k; cases k
    | some it => rw [e] at k; exact ⟨it, e, Option.some.inj k⟩
  obtain ⟨-, ⟨ra, re, h1, h2, h3, h4, h5⟩, _⟩ := C115_witness
  cases e : demoGRsp.run Device.dev wholeUpload with
  | ub k => rw [e] at hk; cases hk
  | ok r =>
    rw [e] at hk
    have hra : ra = r := by rw [e] at h1; cases h1; rfl
    subst hra
    simp only [h2] at hk
    cases e2 : (keptBoot re.dev.save).run Device.dev (demoSession ++ ask (Toy.cmd 0x100B 14 [1])) with
    | ub k => simp only [e2, Bool.and_false] at hk; cases hk
    | ok s' =>
      cases e3 : s'.run Device.dev (ask (Toy.cmd 0x1009 15 [2])) with
      | ub k => simp only [e2, e3, Bool.and_false] at hk; cases hk
      | ok s'' =>
        simp only [e2, e3, Bool.and_eq_true, List.all_eq_true, decide_eq_true_eq, Option.isNone_iff_eq_none] at hk
        obtain ⟨-, ⟨⟨⟨⟨⟨⟨b1, b2⟩, b0⟩, b3⟩, b4⟩, b5⟩, b6⟩, ⟨⟨⟨⟨c1, c2⟩, c3⟩, c4⟩, c5⟩, c6⟩ := hk
        refine ⟨ra, re, s', s'', rfl, h3, b1, lies _ _ _ b2, kept_boots _ b4, ?_, ⟨⟨0x3004, ?_, by decide⟩, ?_⟩, lies _ _ _ b5,
          spareWholeB_ok (.start _) b6 e2, c1, ⟨c2, c3, c4, c5⟩, e3, c6⟩
        · exact kept_willing _
        · exact .inside (n := ['c']) (d := .node none 0x3004 []) ⟨by decide, trivial⟩ (by simp) (.self ⟨by decide, trivial⟩)
        · intro h b hl hc
          obtain ⟨it, g, hp⟩ := hl
          have hm := b0 (h, it) (AMap.mem_of_get g)
          rcases hm with rfl | hne
          · rw [b3] at hc
            cases hc; rfl
          · exact absurd hp hne

end Props
