import Verif.Lemmas.ServerList
import Verif.Props.Server
/-! Property theorems C97: uploads announced with a list of properties. -/
namespace Props
open Mtp Spec
open Mtp.Server (New)

/-- What a host says about the object it announces with the SendObjectPropList command `q` and a list naming it `name`: format and
size are in the command, and nothing else is known. -/
def listedAs (q : List UInt8) (name : QStr) : ObjInfo :=
  { storageId := cParam q 0, format := cParam q 2 % 2 ^ 16, protection := 0, size := cParam q 4, thumbFormat := 0x3000, thumbSize := 0
    thumbWidth := 0, thumbHeight := 0, imageWidth := 0, imageHeight := 0, bitDepth := 0, parent := cParam q 1, assocType := 0
    assocDesc := 0, sequence := 0, fileName := name, captureDate := [], modDate := [], keywords := [] }

/-- A host uploads a new object: it announces it with a list of properties (SendObjectPropList command `q1`, the list `es` in the
packets `bs`), all of them about the new object and described by the device for its format, the last file name among them `name`,
such that it can be created; and it sends `data`, as many bytes as announced (SendObject command `q2`, packets `ds`). -/
structure ListUpload (s : Server) (es : List Elem) (name : QStr) (data q1 : List UInt8) (bs : List (List UInt8)) (q2 : List UInt8)
    (ds : List (List UInt8)) : Prop where
  announce : Asking q1 0x9808
  file : cParam q1 2 % 2 ^ 16 ≠ ASSOC
  size : cParam q1 3 = 0 ∧ cParam q1 4 = data.length
  small : data.length ≤ 0xFFFFFFFF - 12
  sound : ∀ e ∈ es, SoundElem e ∧ (e.code = 0xDC07 → e.dtype = 0xFFFF)
  short : (Spec.listData es).length ≤ 2 ^ 30
  described : ∀ e ∈ es, Belongs s.caps (cParam q1 2 % 2 ^ 16) e
  named : ∃ k, LastName es k (.str name)
  offer : Offer s (cParam q1 0) (cParam q1 1) (listedAs q1 name)
  dataset : CarriesDataset bs (dataContainer 0x9808 (cTid q1) (Spec.listData es))
  send : Asking q2 0x100D
  packets : Carries ds data

private theorem listInfo_eq (q : List UInt8) (name : QStr) :
    ({ Server.listInfo (cParams q) (bom (cut name)) with parent := cParam q 1 } : ObjInfo) =
      { objInfoReceived (listedAs q name) with parent := cParam q 1 } := by
  have h4 : cParam q 4 < 2 ^ 32 := param_lt q 4
  have e : (cParams q).getD 4 0 = cParam q 4 % 2 ^ 32 := by
    show cParam q 4 = _
    omega
  unfold Server.listInfo objInfoReceived listedAs
  simp only [e]
  rfl

/-- The announcement of a new object. -/
theorem list_taken (r : Rsp Server) (ho : Open r) (w : ServerOk r.dev) (hc : r.dev.caps.WF) (hseq : r.sendSeq = none)
    (es : List Elem) (name : QStr) (q : List UInt8) (hq : Asking q 0x9808) (h3 : cParam q 3 = 0)
    (hs : ∀ e ∈ es, SoundElem e ∧ (e.code = 0xDC07 → e.dtype = 0xFFFF)) (hl : (Spec.listData es).length ≤ 2 ^ 30)
    (hb : ∀ e ∈ es, Belongs r.dev.caps (cParam q 2 % 2 ^ 16) e) (hn : ∃ k, LastName es k (.str name))
    (hof : Offer r.dev (cParam q 0) (cParam q 1) (listedAs q name)) (bs : List (List UInt8))
    (hd : CarriesDataset bs (dataContainer 0x9808 (cTid q) (Spec.listData es))) :
    ∃ r' h, Answered r r' (sendObject q bs) q .ok [r.dev.sid, folderOf q, h] ∧
      Spec.Announced r' h (cParam q 4) ∧ r'.dev.ios = r.dev.ios ∧ r'.sendSeq = none ∧
      New r.dev r'.dev (folderOf q) { objInfoReceived (listedAs q name) with parent := cParam q 1 } h := by
  obtain ⟨⟨b, hb1, hb12⟩, hfl⟩ := hd
  obtain ⟨bs', rfl⟩ : ∃ bs', bs = b :: bs' := by
    cases bs with
    | nil => cases hb1
    | cons a l => simp only [List.head?_cons, Option.mem_def, Option.some.injEq] at hb1; subst hb1; exact ⟨l, rfl⟩
  obtain ⟨pit, f1, f2, f3, f4⟩ := hof.folder
  have hck : r.dev.listCheck (cParams q) = .ok := by
    have key := (C65_request (fun i => if i = r.dev.sid then .ok else .invalidStorageID)
      (fun h => if r.dev.tree.has h then .ok else .invalidObjectHandle) (cParam q 0) (cParam q 1) (cParam q 2) 0 (cParam q 4)).1 ⟨by
        by_cases e : cParam q 0 = 0
        · exact Or.inl e
        · have := hof.storage
          rw [if_neg e] at this
          exact Or.inr (if_pos this), by
        by_cases e0 : cParam q 1 = 0
        · exact Or.inl e0
        · by_cases e1 : cParam q 1 = 0xFFFFFFFF
          · exact Or.inr (Or.inl e1)
          · rw [if_neg (show cParam q 1 ≠ ALL from e1)] at f1
            exact Or.inr (Or.inr (if_pos (has_iff.mpr ⟨pit, f1⟩))), rfl⟩
    unfold Server.listCheck
    exact congrArg Prod.fst key
  obtain ⟨r', c, ps, h, e1, e2, e3, e4⟩ := Server.send_list r ho q hq es hl b bs' hb12 hfl hck h3
  obtain ⟨k, front, e, back, k1, k2, k3, k4, k5⟩ := hn
  have hlast : lastName es 0 none = some (bom (cut name), front.length) := by
    obtain ⟨s1, s2⟩ := hs e (by rw [k1]; simp)
    have hv : Typed 0xFFFF e.val := by have := s1.2.2.2; rw [s2 k3] at this; exact this
    rw [k1, lastName_some front e back k3 k5, asName_str hv, Nat.zero_add, k4]
    rfl
  have hnn : bom (cut name) ≠ [] := by
    intro hz
    have := hof.name
    rw [show bom (cut (listedAs q name).fileName) = [] from hz] at this
    exact absurd this (by decide)
  have hdec : Server.decodeList r.dev.caps (u16 ((cParams q).getD 2 0)) (dataContainer 0x9808 (cTid q) (Spec.listData es)) =
      some (.inr (keptOf es, some (bom (cut name), front.length))) := by
    rcases Server.list_decoded r.dev.caps hc (u16 ((cParams q).getD 2 0)) (by unfold u16; omega) es (fun e he => (hs e he).1) hl (cTid q) with
      ⟨_, g2⟩ | ⟨fr, x, bk, g1, _, g3, _⟩
    · rw [g2, hlast]
    · exact absurd (hb x (by rw [g1]; simp)) g3
  obtain ⟨s', y, g1, g2, g3⟩ := Server.addItem_granted w { objInfoReceived (listedAs q name) with parent := cParam q 1 } (cParam q 1)
    (Server.plain_slash hof.name) f1 f2 f3 f4 hof.granted hof.handles
  have hadd : r.dev.addList (cParams q) (dataContainer 0x9808 (cTid q) (Spec.listData es)) =
      (s', .ok, [r.dev.sid, ((s'.tree.get y).bind (·.parent)).getD 0, y], y) := by
    unfold Server.addList
    rw [hdec]
    simp only
    rw [if_neg hnn]
    have : r.dev.announce ((cParams q).getD 0 0) ((cParams q).getD 1 0) (Server.listInfo (cParams q) (bom (cut name))) =
        (s', .ok, [r.dev.sid, ((s'.tree.get y).bind (·.parent)).getD 0, y], y) := by
      unfold Server.announce
      simp only
      rw [show (if (cParams q).getD 0 0 = 0 then 0x00010001 else (cParams q).getD 0 0) = r.dev.sid from hof.storage,
        if_neg (by
          rintro (h | h)
          · exact h rfl
          · rw [show Server.plain (Server.listInfo (cParams q) (bom (cut name))).fileName = true from hof.name] at h; cases h)]
      rw [show (cParams q).getD 1 0 = cParam q 1 from rfl, listInfo_eq, g1]
    rw [this]
  rw [hadd] at e1
  simp only [Prod.mk.injEq] at e1
  obtain ⟨m1, m2, m3, m4⟩ := e1
  subst m2; subst m3; subst m4; subst m1
  obtain ⟨pit', _, _, _, ⟨v, hget⟩, _⟩ := g2.parent
  have hpar : ((r'.dev.tree.get y).bind (·.parent)).getD 0 = folderOf q := by
    rw [hget, if_pos rfl]
    rfl
  rw [hpar] at e2
  exact ⟨r', y, e2, e4 hseq, g3, e3.trans hseq, g2⟩

/-- The uploading of a new object announced with a list. -/
theorem list_uploaded (r : Rsp Server) (ho : Open r) (w : ServerOk r.dev) (hw : Willing r.dev) (hc : r.dev.caps.WF)
    (hseq : r.sendSeq = none) (es : List Elem) (name : QStr) (data q1 : List UInt8) (bs : List (List UInt8)) (q2 : List UInt8)
    (ds : List (List UInt8)) (hu : ListUpload r.dev es name data q1 bs q2 ds) :
    ∃ r1 h r2, Answered r r1 (sendObject q1 bs) q1 .ok [r.dev.sid, folderOf q1, h] ∧
      r.dev.tree.has h = false ∧ Answered r1 r2 (sendObject q2 ds) q2 .ok [] ∧
      Willing r2.dev ∧ ServerOk r2.dev ∧ contents r2.dev h = some data ∧ r2.dev.sid = r.dev.sid ∧
      (∃ d, Stamped r.dev.times [] d ∧ r2.dev.infoOf h = (.ok, toldOf r.dev.sid (folderOf q1) (listedAs q1 name) d)) ∧
      (r2.sendSeq = none ∧ r2.propList = none ∧ r2.dev.dataFile = none) ∧
      (∃ it, r2.dev.tree.get h = some it ∧ it.fmt = cParam q1 2 % 2 ^ 16 ∧ it.parent = some (folderOf q1)) ∧
      ∀ x, x ≠ h → r2.dev.tree.has x = r.dev.tree.has x ∧ contents r2.dev x = contents r.dev x ∧
        r2.dev.infoOf x = r.dev.infoOf x := by
  obtain ⟨r1, h, a1, an, hios, _, nw⟩ := list_taken r ho w hc hseq es name q1 hu.announce hu.size.1 hu.sound hu.short hu.described
    hu.named hu.offer bs hu.dataset
  rw [hu.size.2] at an
  obtain ⟨r2, a2, b1, b2, b3, b4, b5, b6⟩ := sent r r1 w a1.again (fun a b => by rw [hios]; exact hw a b) nw hu.file data an hu.small
    q2 hu.send ds hu.packets
  exact ⟨r1, h, r2, a1, has_false.mpr nw.fresh, a2, b1, b2, b3, b4, filed nw hu.offer.name hu.file b5, b6⟩

/-- C97. What is uploaded is what is downloaded, also when the object is announced with a list of properties (SendObjectPropList),
cut into packets as the host likes, with no announcement by SendObjectInfo waiting for its data: both transactions are answered OK,
the handle is a new one, every other object is as it was, and GetObject, any time later as long as the host only reads, moves,
renames and so on, is answered OK with exactly the bytes sent. -/
theorem C97_upload_download (r : Rsp Server) (ho : Open r) (w : ServerOk r.dev) (hw : Willing r.dev) (hc : r.dev.caps.WF)
    (hseq : r.sendSeq = none) (es : List Elem) (name : QStr) (data q1 : List UInt8) (bs : List (List UInt8)) (q2 : List UInt8)
    (ds : List (List UInt8)) (hu : ListUpload r.dev es name data q1 bs q2 ds) :
    ∃ r1 h r2, Answered r r1 (sendObject q1 bs) q1 .ok [r.dev.sid, folderOf q1, h] ∧
      r.dev.tree.has h = false ∧ Answered r1 r2 (sendObject q2 ds) q2 .ok [] ∧
      (∀ x, x ≠ h → r2.dev.tree.has x = r.dev.tree.has x ∧ contents r2.dev x = contents r.dev x ∧
        r2.dev.infoOf x = r.dev.infoOf x) ∧
      ∀ (is : List (Rsp.In Server)) (r3 : Rsp Server), (∀ i ∈ is, Harmless i) → r2.run Server.dev is = .ok r3 → Open r3 →
      ∀ q3, Asking q3 0x1009 → cParam q3 0 = h →
        ∃ r4, Answered r3 r4 (ask q3) q3 .ok [] ∧ dataOf r4.out = dataOf r3.out ++ data := by
  obtain ⟨r1, h, r2, a1, hnew, a2, hw2, w2, hc2, _, ⟨_, _, hi2⟩, _, _, hoth⟩ := list_uploaded r ho w hw hc hseq es name data q1 bs q2 ds hu
  refine ⟨r1, h, r2, a1, hnew, a2, hoth, ?_⟩
  intro is r3 hin hr3 ho3 q3 hq3 hp3
  obtain ⟨u1, u2, u3, u4, u5⟩ := harmless_undisturbed a2.again hin hr3
  obtain ⟨w3, u6⟩ := u5 w2
  obtain ⟨v1, v2, v3⟩ := u6 h
  have hsize : r2.dev.sizeOf h = data.length := by
    have h2 := hu.small
    rw [Server.size_info hi2]
    show cParam q1 4 % 2 ^ 32 = _
    rw [hu.size.2]
    omega
  obtain ⟨r4, b1, b2, _⟩ := Server.get_object r3 ho3 (fun a b => by rw [u3]; exact hw2 a b) q3 hq3 h hp3 data
    (v2.trans hc2) (v3.trans hsize) hu.small
  exact ⟨r4, b1, b2⟩

/-- C97. GetObjectInfo about it is answered OK with the name from the list, the format and the size from the command, and the storage
and folder the object is in. -/
theorem C97_info_told (r : Rsp Server) (ho : Open r) (w : ServerOk r.dev) (hw : Willing r.dev) (hc : r.dev.caps.WF)
    (hseq : r.sendSeq = none) (es : List Elem) (name : QStr) (data q1 : List UInt8) (bs : List (List UInt8)) (q2 : List UInt8)
    (ds : List (List UInt8)) (hu : ListUpload r.dev es name data q1 bs q2 ds) :
    ∃ r1 h r2, Answered r r1 (sendObject q1 bs) q1 .ok [r.dev.sid, folderOf q1, h] ∧
      Answered r1 r2 (sendObject q2 ds) q2 .ok [] ∧
      ∀ q3, Asking q3 0x1008 → cParam q3 0 = h →
        ∃ r3 p o, Answered r2 r3 (ask q3) q3 .ok [] ∧ dataOf r3.out = dataOf r2.out ++ p ∧
          readObjInfo 0 (dataContainer 0x1008 0 p) = some o ∧ o.fileName = bom (cut name) ∧ o.format = cParam q1 2 % 2 ^ 16 ∧
          o.size = data.length ∧ o.storageId = r.dev.sid ∧ o.parent = folderOf q1 := by
  obtain ⟨r1, h, r2, a1, _, a2, _, _, _, _, ⟨d, hd, hi2⟩, _⟩ := list_uploaded r ho w hw hc hseq es name data q1 bs q2 ds hu
  refine ⟨r1, h, r2, a1, a2, ?_⟩
  intro q3 hq3 hp3
  have hp : folderOf q1 < 2 ^ 32 := by
    unfold folderOf
    split
    · decide
    · exact param_lt ..
  have hfit : ObjInfoFits (listedAs q1 name) := by
    have h0 := param_lt q1 0
    have h1 := param_lt q1 1
    have h4 := param_lt q1 4
    unfold ObjInfoFits listedAs
    simp only
    omega
  have hsz : cParam q1 4 % 2 ^ 32 = data.length := by
    have := hu.small
    rw [hu.size.2]
    omega
  obtain ⟨r3, p, b1, b2, _, b4⟩ := Server.get_info r2 a2.again q3 hq3 _ (by rw [hp3]; exact hi2)
    (told_fits hfit (sid_lt hu.offer (param_lt ..)) hp)
    (show cParam q1 4 % 2 ^ 32 < 2 ^ 32 from Nat.mod_lt _ (by decide))
    ⟨received_short name, (Server.stamped_cut hd).2, (Server.stamped_cut hd).2⟩
  refine ⟨r3, p, toldOf r.dev.sid (folderOf q1) (listedAs q1 name) d, b1, b2, ?_, rfl, rfl, hsz, rfl, rfl⟩
  rw [b4]
  congr 1
  unfold toldOf objInfoReceived
  simp only [Server.cut_received, (Server.stamped_cut hd).1]

/-- C97. Every announcement with a list is answered once. One that is refused changes nothing. One that is accepted was for this
storage, its size fits 32 bits, all its elements are about the new object and described by the device, and the answer tells the
handle of an object that exists now; everything else is as it was: what other objects hold, what is told about them, and which there
are. -/
theorem C97_announcement (r : Rsp Server) (ho : Open r) (w : ServerOk r.dev) (hc : r.dev.caps.WF)
    (hb : r.dev.tree.asked + 1 < 0xFFFFFFFF) (es : List Elem)
    (q : List UInt8) (hq : Asking q 0x9808) (hs : ∀ e ∈ es, SoundElem e ∧ (e.code = 0xDC07 → e.dtype = 0xFFFF))
    (hl : (Spec.listData es).length ≤ 2 ^ 30) (bs : List (List UInt8))
    (hd : CarriesDataset bs (dataContainer 0x9808 (cTid q) (Spec.listData es))) :
    ∃ r' c ps, Answered r r' (sendObject q bs) q c ps ∧ (c ≠ .ok → Unchanged r.dev r'.dev) ∧
      (c = .ok → (cParam q 0 = 0 ∨ cParam q 0 = r.dev.sid) ∧ cParam q 3 = 0 ∧
        (∀ e ∈ es, Belongs r.dev.caps (cParam q 2 % 2 ^ 16) e) ∧ (∃ k n, LastName es k (.str n)) ∧
        ∃ p h, ps = [r.dev.sid, p, h] ∧ r'.dev.tree.has h = true ∧ ServerOk r'.dev ∧
          ∀ x, (x ≠ h ∨ r.dev.tree.has h = true) → r'.dev.tree.has x = r.dev.tree.has x ∧
            contents r'.dev x = contents r.dev x ∧ r'.dev.infoOf x = r.dev.infoOf x) := by
  by_cases hr : r.dev.listCheck (cParams q) ≠ .ok ∨ cParam q 3 ≠ 0
  · obtain ⟨⟨b, hb1, _⟩, _⟩ := hd
    obtain ⟨r', c, k0, k1, k2, _⟩ := Server.list_refused r ho q hq bs (by rintro rfl; cases hb1) hr
    refine ⟨r', c, [], k1, fun _ => ?_, fun h => absurd h k0⟩
    rw [k2]
    exact ⟨rfl, w, fun _ => rfl, fun _ => rfl, fun _ => rfl⟩
  · have hck : r.dev.listCheck (cParams q) = .ok := Decidable.byContradiction fun h => hr (Or.inl h)
    have h3 : cParam q 3 = 0 := Decidable.byContradiction fun h => hr (Or.inr h)
    obtain ⟨⟨b, hb1, hb12⟩, hfl⟩ := hd
    obtain ⟨bs', rfl⟩ : ∃ bs', bs = b :: bs' := by
      cases bs with
      | nil => cases hb1
      | cons a l => simp only [List.head?_cons, Option.mem_def, Option.some.injEq] at hb1; subst hb1; exact ⟨l, rfl⟩
    obtain ⟨r', c, ps, h, e1, e2, e3, e4⟩ := Server.send_list r ho q hq es hl b bs' hb12 hfl hck h3
    refine ⟨r', c, ps, e2, ?_⟩
    rcases Server.addList_split r.dev (cParams q) (dataContainer 0x9808 (cTid q) (Spec.listData es)) with
      ⟨c', qs, hne, e⟩ | ⟨name, i, hn, ⟨ks, hdec⟩, k1, k2, k3⟩
    · rw [e] at e1
      simp only [Prod.mk.injEq] at e1
      obtain ⟨m1, rfl, _, _⟩ := e1
      exact ⟨fun _ => by rw [← m1]; exact ⟨rfl, w, fun _ => rfl, fun _ => rfl, fun _ => rfl⟩, fun hh => absurd hh hne⟩
    · rw [e1] at k1 k2 k3
      simp only at k1 k2 k3
      rcases Server.announce_split' r.dev ((cParams q).getD 0 0) ((cParams q).getD 1 0) (Server.listInfo (cParams q) name) with
        e | ⟨o', s', c', y, hsl, hsid, ha, e⟩
      · rw [e] at k1 k2
        simp only at k1 k2
        subst k2
        exact ⟨fun _ => by rw [k1]; exact ⟨rfl, w, fun _ => rfl, fun _ => rfl, fun _ => rfl⟩, fun hh => by cases hh⟩
      · have hb' : s'.tree.asked < 0xFFFFFFFF := by
          have := Server.addItem_asked_le r.dev o' ((cParams q).getD 1 0)
          rw [ha] at this
          simp only at this
          omega
        have hs' : r'.dev = s' := by
          rw [k1]
          rcases e with ⟨_, p, e⟩ | ⟨_, e⟩ <;> rw [e]
        have hcc : c = c' := by
          rw [k2]
          rcases e with ⟨e0, p, e⟩ | ⟨_, e⟩ <;> rw [e]
          exact e0.symm
        subst hcc
        rw [hs']
        have hcases := Server.addItem_cases w _ _ hsl ha hb'
        refine ⟨fun hne => ?_, fun hok => ?_⟩
        · rcases hcases with ⟨qt, _⟩ | ⟨hh, _⟩
          · exact ⟨qt.sid, qt.ok w, qt.has, qt.contents, qt.infoOf⟩
          · exact absurd hh hne
        · subst hok
          rcases e with ⟨_, p, e⟩ | ⟨hh, _⟩
          · rw [e, if_pos rfl] at k3
            simp only [Prod.mk.injEq] at k3
            obtain ⟨rfl, hy⟩ := k3
            have hbel : (∀ x ∈ es, Belongs r.dev.caps (cParam q 2 % 2 ^ 16) x) ∧ ∃ k n, LastName es k (.str n) := by
              rcases Server.list_decoded r.dev.caps hc (u16 ((cParams q).getD 2 0)) (by unfold u16; omega) es
                  (fun e he => (hs e he).1) hl (cTid q) with ⟨g1, g2⟩ | ⟨fr, x, bk, _, _, _, g4⟩
              · refine ⟨g1, ?_⟩
                rcases exists_last es with hno | ⟨front, x, back, m1, m2, m3⟩
                · rw [g2, lastName_none es 0 none hno] at hdec
                  cases hdec
                · obtain ⟨s1, s2⟩ := hs x (by rw [m1]; simp)
                  have hv : Typed 0xFFFF x.val := by have := s1.2.2.2; rw [s2 m2] at this; exact this
                  cases hx : x.val with
                  | str n => exact ⟨_, n, front, x, back, m1, rfl, m2, hx, m3⟩
                  | int a n => rw [hx] at hv; have := hv.2; simp [typeOf, Val.ty] at this
                  | arr a n => rw [hx] at hv; have := hv.2; simp [typeOf, Val.ty] at this
              · rw [g4] at hdec
                cases hdec
            refine ⟨?_, h3, hbel.1, hbel.2, p, y, rfl, ?_⟩
            · by_cases h0 : cParam q 0 = 0
              · exact Or.inl h0
              · rw [show (cParams q).getD 0 0 = cParam q 0 from rfl, if_neg h0] at hsid
                exact Or.inr hsid
            · rcases hcases with ⟨qt, hk⟩ | ⟨_, nw⟩
              · exact ⟨(qt.has y).trans (hk rfl).1, qt.ok w, fun x _ => ⟨qt.has x, qt.contents x, qt.infoOf x⟩⟩
              · obtain ⟨pit, hp, _, _, ⟨v, hget⟩, _⟩ := nw.parent
                refine ⟨has_iff.mpr ⟨_, (hget y).trans (if_pos rfl)⟩, nw.ok w, fun x hx => ?_⟩
                have hxy : x ≠ y := by
                  rcases hx with hx | hx
                  · exact hx
                  · rw [has_false.mpr nw.fresh] at hx; cases hx
                refine ⟨?_, nw.old w x hxy⟩
                unfold Tree.has
                rw [hget x, if_neg hxy]
                by_cases hxp : x = (if (cParams q).getD 1 0 = ALL then 0 else (cParams q).getD 1 0)
                · rw [if_pos hxp, hxp, hp]; rfl
                · rw [if_neg hxp]
          · exact absurd rfl hh

/-- The announcement of "ab", an MP3 file of three bytes by the artist "c". -/
def demoListed : List Elem := [⟨0, 0xDC07, 0xFFFF, .str [97, 98]⟩, ⟨0, 0xDC46, 0xFFFF, .str [99]⟩]
def demoListCmd : List UInt8 := Toy.cmd 0x9808 5 [0x00010001, 0xFFFFFFFF, 0x3009, 0, 3]
def demoListData : List (List UInt8) := [dataContainer 0x9808 5 (Spec.listData demoListed)]

/-- The hypotheses of C97 are met. -/
theorem C97_witness : Open demoRsp ∧ ServerOk demoRsp.dev ∧ Willing demoRsp.dev ∧ demoRsp.dev.caps.WF ∧ demoRsp.sendSeq = none ∧
    ListUpload demoRsp.dev demoListed [97, 98] [7, 8, 9] demoListCmd demoListData demoPut demoPutData := by
  have hw : demoCaps.WF := ⟨by decide, by decide, by decide, by decide⟩
  refine ⟨C82_witness.1, C82_witness.2.1, C82_witness.2.2.1, hw, rfl, ⟨by decide +kernel, by decide +kernel⟩, by decide +kernel,
    by decide +kernel, by decide, ?_, by decide +kernel, ?_, ?_, ?_, ?_, ⟨by decide +kernel, by decide +kernel⟩, ?_⟩
  · intro e he
    simp only [demoListed, List.mem_cons, List.not_mem_nil, or_false] at he
    rcases he with rfl | rfl <;> exact ⟨⟨by decide, by decide, by decide, trivial, by decide⟩, by decide⟩
  · have hf : cParam demoListCmd 2 % 2 ^ 16 = 0x3009 := by decide +kernel
    intro e he
    rw [hf]
    simp only [demoListed, List.mem_cons, List.not_mem_nil, or_false] at he
    have key : ∀ p, u16 p ∈ propsSupported demoCaps (demoCaps.category (u16 0x3009)) → ∃ d, Described demoCaps 0x3009 p d := by
      intro p hp
      obtain ⟨k, r, hk, hr, hrc, he⟩ := objectPropDesc_some demoCaps _ _ hp
      exact ⟨_, described_of demoCaps hw 0x3009 p k r hr he⟩
    rcases he with rfl | rfl
    · exact ⟨rfl, key 0xDC07 (by decide +kernel)⟩
    · exact ⟨rfl, key 0xDC46 (by decide +kernel)⟩
  · exact ⟨0, [], _, [⟨0, 0xDC46, 0xFFFF, .str [99]⟩], rfl, rfl, rfl, rfl, by simp⟩
  · refine ⟨by decide +kernel, by decide +kernel, ⟨⟨['/', 's'], ['s'], ASSOC, 0, none, [], 1⟩, by decide +kernel, rfl, by decide +kernel,
      by decide +kernel⟩, rfl, by decide +kernel⟩
  · exact ⟨⟨_, rfl, by decide +kernel⟩, by decide +kernel⟩
  · exact ⟨by decide, by decide +kernel, by decide +kernel, by decide +kernel⟩

/-- The history of this upload, and the answer to a list with an element about another object. -/
example : (match demoRsp.run Server.dev (sendObject demoListCmd demoListData ++ sendObject demoPut demoPutData ++
      ask (Toy.cmd 0x1009 8 [1]) ++
      sendObject (Toy.cmd 0x9808 9 [0, 0, 0x3009, 0, 3]) [dataContainer 0x9808 9 (Spec.listData [⟨0, 0xDC07, 0xFFFF, .str [99]⟩, ⟨1, 0xDC46, 0xFFFF, .str []⟩])]) with
    | .ok r => (dataOf r.out, responses r.out, r.dev.files)
    | .ub _ => ([], [], [])) =
    ([7, 8, 9], [.response .ok 5 [0x00010001, 0, 1], .response .ok 6 [], .response .ok 8 [], .response .invalidDataset 9 [0, 0, 0, 1]],
      [("/s/ab", [7, 8, 9])]) := by
  decide +kernel

/-- C97 is violated when a SendObjectInfo got no data before (compare `C34_mixup_violated`): the file "c" announced last, with a list,
stays empty though its upload is answered OK, and the older announcement's file "ab" gets the data. -/
theorem C97_mixup_violated : (match demoRsp.run Server.dev (sendObject demoAnn demoAnnData ++
      sendObject (Toy.cmd 0x9808 6 [0, 0, 0x3009, 0, 3]) [dataContainer 0x9808 6 (Spec.listData [⟨0, 0xDC07, 0xFFFF, .str [99]⟩])] ++
      sendObject (Toy.cmd 0x100D 7 []) [Toy.dat 0x100D 7 [1, 2, 3]] ++ ask (Toy.cmd 0x1009 8 [1]) ++ ask (Toy.cmd 0x1009 9 [2])) with
    | .ok r => (dataOf r.out, responses r.out)
    | .ub _ => ([], [])) =
    ([1, 2, 3, 0, 0, 0], [.response .ok 5 [0x00010001, 0, 1], .response .ok 6 [0x00010001, 0, 2], .response .ok 7 [],
      .response .ok 8 [], .response .ok 9 []]) := by
  decide +kernel

end Props
