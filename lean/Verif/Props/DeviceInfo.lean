import Verif.Lemmas.DeviceInfo
import Verif.Props.DeviceRefs
/-! C111, C112: what the device says about itself, its storage and object properties, end to end. -/
namespace Props
open Mtp Spec

/-- The answer to a query, from the container to the data the host gets. -/
theorem replied_with (r : Rsp Device) (hb : Quiescent r) (q : List UInt8) (code : Nat) (hc : cCode q = code)
    (hr : r.ready = true ∨ needsStorage code = false) (hs : Device.Served r q) (hd : hasDataPhase code = false) {bytes p : List UInt8}
    (he : Device.dev.query r.dev code (cParams q) = (r.dev, Server.oneFrame (.ok (some bytes, .ok)))) (hp : payload code 0 bytes = some p) :
    ∃ (r1 : Rsp Device) (b : List UInt8), Replied r r1 q .ok b ∧ dataContainer code 0 b = bytes := by
  obtain ⟨p1, p2⟩ := Server.payload_container hp
  obtain ⟨r1, a⟩ := Device.served r hb q (by rw [hc]; exact hr) hs (by rw [hc]; exact hd) .ok (some bytes) (by rw [hc]; exact he)
  refine ⟨r1, _, a, ?_⟩
  show dataContainer code 0 (bytes.drop 12) = bytes
  rw [← p2]; exact p1.symm

/-- C111. Asked for its device information (GetDeviceInfo) the device answers OK with the same versions, operations, events, device
properties, formats and texts at any time: whatever happened since it started, in a session or without one, whether it has read its
storages or not, and whatever the transaction id. -/
theorem C111_device_info (r0 r : Rsp Device) (hr0 : r0.req = none) (t : Elapsed [] r0 r) (hb : Quiescent r) (hf : InfoFits r0.dev.info) :
    TellsInfo r
      { standardVersion := r0.dev.info.stdVersion, vendorExtensionId := r0.dev.info.vendorExt,
        vendorExtensionVersion := r0.dev.info.mtpVersion, vendorExtensions := cut r0.dev.info.extension,
        functionalMode := r0.dev.info.mode, operations := r0.dev.info.ops, events := r0.dev.info.events,
        deviceProperties := r0.dev.info.devProps, captureFormats := [],
        playbackFormats := r0.dev.info.image ++ r0.dev.info.audio ++ r0.dev.info.video ++ r0.dev.info.common,
        manufacturer := cut r0.dev.info.manufacturer, model := cut r0.dev.info.model, deviceVersion := cut r0.dev.info.version,
        serialNumber := cut r0.dev.info.serial } := by
  intro q hq
  obtain ⟨bytes, e, h⟩ := C68_device_info r0.dev.info hf 0
  obtain ⟨p, hp⟩ := Device.read_info h
  have hs := (Device.lived_same hr0 t).info
  obtain ⟨r1, b, a, eb⟩ := replied_with r hb q 0x1001 hq (Or.inr rfl) (Or.inl (by rw [hq]; rfl)) rfl
    (Device.query_info r.dev (cParams q) (by rw [hs]; exact e)) hp
  exact ⟨r1, b, a, by rw [eb]; exact h⟩

/-- C111. In a session, asked for its storages (GetStorageIDs) the device lists the one storage it has, always the same. -/
theorem C111_storage_ids (r0 r : Rsp Device) (hr0 : r0.req = none) (t : Elapsed [] r0 r) (hb : Quiescent r) (hss : r.session ≠ 0)
    (hid : r0.dev.ps.srv.sid < 2 ^ 32) : TellsStorages r [r0.dev.ps.srv.sid] := by
  intro q hq
  have hs := (Device.lived_same hr0 t).setup.1
  obtain ⟨bytes, e, h⟩ := C69_storage_ids [(r.dev.ps.srv.sid, r.dev.store)] 0 (by show 1 ≤ 2 ^ 20; decide)
    (by intro s hm; simp only [List.mem_singleton] at hm; subst hm; rw [hs]; exact hid)
  obtain ⟨p, hp⟩ := Device.read_handles h
  obtain ⟨r1, b, a, eb⟩ := replied_with r hb q 0x1004 hq.code (Or.inr rfl)
    (Or.inr (Or.inr ⟨⟨_, by rw [hq.code]; rfl⟩, hss, hq.tid⟩)) rfl (Device.query_ids r.dev (cParams q) e) hp
  exact ⟨r1, b, a, by rw [eb, h]; simp [hs]⟩

/-- C111 (partial as C69: where fragments and blocks of the file system have different sizes the numbers are wrong). In a session, asked
about its storage (GetStorageInfo) the device tells its type and texts, always the same, and the capacity and free space its file
system has now; if the file system cannot be examined the answer is GeneralError, and asked about any other storage it is
InvalidStorageID, both without data. -/
theorem C111_storage_info_partial (r0 r : Rsp Device) (hr0 : r0.req = none) (t : Elapsed [] r0 r) (hb : Quiescent r) (hss : r.session ≠ 0)
    (hf : StoreFits r0.dev.store) :
    (∀ v, r.dev.stat = some v → v.frsize = v.bsize → capacityOf v < 2 ^ 64 → availableOf v < 2 ^ 64 →
      TellsStorage r r0.dev.ps.srv.sid
        { storageType := r0.dev.store.type, filesystemType := r0.dev.store.fsType, accessCapability := r0.dev.store.access,
          maxCapacity := capacityOf v, freeSpaceBytes := availableOf v, freeSpaceObjects := r0.dev.store.freeObjects,
          description := cut r0.dev.store.description, volumeIdentifier := cut r0.dev.store.label }) ∧
    (r.dev.stat = none → RefusesAll r 0x1005 (fun q => cParam q 0 = r0.dev.ps.srv.sid) .generalError) ∧
    RefusesAll r 0x1005 (fun q => cParam q 0 ≠ r0.dev.ps.srv.sid) .invalidStorageID := by
  have hs := Device.lived_same hr0 t
  have hget : ∀ q, cParam q 0 = r0.dev.ps.srv.sid →
      AMap.get [(r.dev.ps.srv.sid, r.dev.store)] ((cParams q).getD 0 0) = some r0.dev.store := by
    intro q e
    rw [hs.setup.1, hs.store, show (cParams q).getD 0 0 = cParam q 0 from rfl, e]
    unfold AMap.get
    simp
  have hserved : ∀ q, Asking q 0x1005 → Device.Served r q := fun q hq =>
    Or.inr (Or.inr ⟨⟨_, by rw [hq.code]; rfl⟩, hss, hq.tid⟩)
  have refuse : ∀ q, Asking q 0x1005 → ∀ c,
      getStorageInfo [(r.dev.ps.srv.sid, r.dev.store)] (fun _ => r.dev.stat) 0 ((cParams q).getD 0 0) = .ok (none, c) →
      ∃ r1 : Rsp Device, Replied r r1 q c [] := fun q hq c e => by
    obtain ⟨r1, a⟩ := Device.served r hb q (by rw [hq.code]; exact Or.inr rfl) (hserved q hq) (by rw [hq.code]; rfl) c none
      (by rw [hq.code, Device.query_storage, e])
    exact ⟨r1, a⟩
  refine ⟨fun v hv h1 h2 h3 q hq hp => ?_, fun hn q hq hp => ?_, fun q hq hp => ?_⟩
  · obtain ⟨bytes, e, h⟩ := ((C69_storage_info_partial [(r.dev.ps.srv.sid, r.dev.store)] (fun _ => r.dev.stat) 0
      ((cParams q).getD 0 0)).2 _ (hget q hp) hf).2 v hv h1 h2 h3
    obtain ⟨p, hpay⟩ := Device.read_storage h
    obtain ⟨r1, b, a, eb⟩ := replied_with r hb q 0x1005 hq.code (Or.inr rfl) (hserved q hq) rfl
      (by rw [Device.query_storage, e]) hpay
    exact ⟨r1, b, a, by rw [eb]; exact h⟩
  · exact refuse q hq _ (((C69_storage_info_partial _ _ 0 _).2 _ (hget q hp) hf).1 hn)
  · refine refuse q hq _ ((C69_storage_info_partial _ _ 0 _).1 ?_)
    rw [hs.setup.1, show (cParams q).getD 0 0 = cParam q 0 from rfl]
    unfold AMap.get
    rw [if_neg hp]
    rfl

/-- C111. Out of a session the two storage requests are answered SessionNotOpen, without data. -/
theorem C111_no_session (r : Rsp Device) (hb : Quiescent r) (hss : r.session = 0) (q : List UInt8)
    (hq : cCode q = 0x1004 ∨ cCode q = 0x1005) : ∃ r1 : Rsp Device, Replied r r1 q .sessionNotOpen [] := by
  refine Device.sessionless r hb q ?_ hss ?_ ?_ <;> rcases hq with e | e <;> rw [e]
  · exact Or.inr rfl
  · exact Or.inr rfl
  · rfl
  · rfl
  · rfl
  · rfl

/-- C112. In a session with its storages read, asked which properties objects of a format have (GetObjectPropsSupported) and what each
is (GetObjectPropDesc) the device says, at any time and whatever happened since it started, the same: a list of codes without
repetition; every code listed is described, with the data type of the standard and a default and form of that type; every other code is
answered InvalidObjectPropCode, without data. -/
theorem C112_object_properties (r0 : Rsp Device) (hr0 : r0.req = none) (hc : r0.dev.ps.srv.caps.WF) (fmt : Nat) :
    ∃ codes : List Nat, codes.Nodup ∧
      (∀ p ∈ codes, p < 2 ^ 16 ∧ ∃ d : ObjPropDesc, d.code = p ∧ (p, d.dtype) ∈ standardTypes ∧ ObjTyped d ∧
        ∀ r, Elapsed [] r0 r → Open r → DescribesProp r fmt p d) ∧
      (∀ p, p < 2 ^ 16 → p ∉ codes → ∀ r, Elapsed [] r0 r → Open r →
        RefusesAll r 0x9802 (fun q => cParam q 0 = p ∧ cParam q 1 = fmt) .invalidObjectPropCode) ∧
      ∀ r, Elapsed [] r0 r → Open r → ListsProps r fmt codes := by
  obtain ⟨bytes, codes, e, hl, hn, hlts, hall⟩ := C54_advertised_iff_described r0.dev.ps.srv.caps hc fmt 0
  have hserved : ∀ (r : Rsp Device) q, Open r → Asking q 0x9802 → Device.Served r q := fun r q ho hq =>
    Or.inr (Or.inr ⟨⟨_, by rw [hq.code]; rfl⟩, ho.session, hq.tid⟩)
  refine ⟨codes, hn, fun p hp => ⟨hlts p hp, ?_⟩, fun p hlt hp r t ho q hq hh => ?_, fun r t ho q hq hf => ?_⟩
  · obtain ⟨d, hd, h1, h2, h3⟩ := (hall p (hlts p hp)).1 hp
    refine ⟨d, h1, h2, h3, fun r t ho q hq hp1 hf => ?_⟩
    obtain ⟨bytes, e, h⟩ := hd 0
    obtain ⟨pay, hpay⟩ := Device.read_desc h
    obtain ⟨r1, b, a, eb⟩ := replied_with r ⟨ho.idle, ho.none⟩ q 0x9802 hq.code (Or.inl ho.ready) (hserved r q ho hq) rfl
      (by rw [Device.query_desc, (Device.lived_same hr0 t).setup.2.2, show (cParams q).getD 0 0 = cParam q 0 from rfl,
            show (cParams q).getD 1 0 = cParam q 1 from rfl, hp1, hf, e]) hpay
    exact ⟨r1, b, a, by rw [eb]; exact h⟩
  · have e := (hall p hlt).2 hp 0
    obtain ⟨r1, a⟩ := Device.served r ⟨ho.idle, ho.none⟩ q (Or.inl ho.ready) (hserved r q ho hq) (by rw [hq.code]; rfl)
      .invalidObjectPropCode none
      (by rw [hq.code, Device.query_desc, (Device.lived_same hr0 t).setup.2.2, show (cParams q).getD 0 0 = cParam q 0 from rfl,
            show (cParams q).getD 1 0 = cParam q 1 from rfl, hh.1, hh.2, e])
    exact ⟨r1, a⟩
  · obtain ⟨pay, hpay⟩ := Device.read_codes hl
    obtain ⟨r1, b, a, eb⟩ := replied_with r ⟨ho.idle, ho.none⟩ q 0x9801 hq.code (Or.inl ho.ready)
      (Or.inr (Or.inl ⟨by rw [hq.code]; rfl, hq.tid⟩)) rfl
      (by rw [Device.query_supported, (Device.lived_same hr0 t).setup.2.2, show (cParams q).getD 0 0 = cParam q 0 from rfl, hf, e]) hpay
    exact ⟨r1, b, a, by rw [eb]; exact hl⟩

/-- What the host reads from the data it gets for `is`. -/
def infoTold (is : List (Rsp.In Device)) : Option DeviceInfo := readDeviceInfo 0 (dataContainer 0x1001 0 (toldBy is).2)

/-- A file system of four gigabytes, half of it available. -/
def demoStat : StatVfs := ⟨4096, 4096, 1000000, 500000⟩

/-- C111, the hypotheses are met: the shipped configuration; the session is closed, the file system changes, a session is opened. -/
theorem C111_witness : demoGRsp.req = none ∧ InfoFits demoGRsp.dev.info ∧ StoreFits demoGRsp.dev.store ∧
    demoGRsp.dev.ps.srv.sid < 2 ^ 32 ∧ demoStat.frsize = demoStat.bsize ∧ capacityOf demoStat < 2 ^ 64 ∧ availableOf demoStat < 2 ^ 64 ∧
    (∃ r1 r2 : Rsp Device, demoGRsp.run Device.dev (ask (Toy.cmd 0x1003 1 [])) = .ok r1 ∧ r1.session = 0 ∧
      Elapsed [] demoGRsp { r1 with dev := { r1.dev with stat := some demoStat } } ∧
      { r1 with dev := { r1.dev with stat := some demoStat } }.run Device.dev (ask (Toy.cmd 0x1002 0 [7])) = .ok r2 ∧
      Elapsed [] demoGRsp r2 ∧ Quiescent r2 ∧ r2.session ≠ 0 ∧ r2.dev.stat = some demoStat) ∧
    ((infoTold (ask (Toy.cmd 0x1003 1 []) ++ ask (Toy.cmd 0x1001 0 []))).map (·.operations) = some demoGRsp.dev.info.ops) ∧
    readHandles 0x1004 0 (dataContainer 0x1004 0 (toldBy (ask (Toy.cmd 0x1004 9 []))).2) = some [0x00010001] := by
  refine ⟨rfl, loadInfo_fits shippedConf true C68_witness.1 C68_witness.2.1, by unfold StoreFits; decide +kernel, by decide +kernel, rfl,
    by decide, by decide, ?_, by decide +kernel, by decide +kernel⟩
  have hk : (match demoGRsp.run Device.dev (ask (Toy.cmd 0x1003 1 [])) with
      | .ok r1 => decide (r1.session = 0) &&
          (match ({ r1 with dev := { r1.dev with stat := some demoStat } } : Rsp Device).run Device.dev (ask (Toy.cmd 0x1002 0 [7])) with
            | .ok r2 => decide (r2.st = .idle) && r2.req.isNone && decide (r2.session ≠ 0) &&
                decide (r2.dev.stat.map (fun v => (v.bsize, v.frsize, v.blocks, v.bavail)) = some (4096, 4096, 1000000, 500000))
            | .ub _ => false)
      | .ub _ => false) = true := by decide +kernel
  cases e : demoGRsp.run Device.dev (ask (Toy.cmd 0x1003 1 [])) with
  | ub k => rw [e] at hk; cases hk
  | ok r1 =>
    rw [e] at hk
    cases e1 : ({ r1 with dev := { r1.dev with stat := some demoStat } } : Rsp Device).run Device.dev (ask (Toy.cmd 0x1002 0 [7])) with
    | ub k => simp only [e1, Bool.and_false] at hk; cases hk
    | ok r2 =>
      simp only [e1, Bool.and_eq_true, decide_eq_true_eq, Option.isNone_iff_eq_none] at hk
      obtain ⟨h0, ⟨⟨h1, h2⟩, h3⟩, h4⟩ := hk
      have hl : Elapsed [] demoGRsp { r1 with dev := { r1.dev with stat := some demoStat } } := by
        refine .space _ (lived_run _ _ _ (.start _) ?_ e)
        intro i hi
        have : i = .packet (Toy.cmd 0x1003 1 []) true true [] := by simpa [ask] using hi
        subst this
        exact fun _ _ => by decide +kernel
      refine ⟨r1, r2, rfl, h0, hl, e1, lived_run _ _ _ hl ?_ e1, ⟨h1, h2⟩, h3, ?_⟩
      · intro i hi
        have : i = .packet (Toy.cmd 0x1002 0 [7]) true true [] := by simpa [ask] using hi
        subst this
        exact fun _ _ => by decide +kernel
      · cases hv : r2.dev.stat with
        | none => rw [hv] at h4; cases h4
        | some v =>
          rw [hv] at h4
          simp only [Option.map_some, Option.some.injEq, Prod.mk.injEq] at h4
          obtain ⟨a, b, c, d⟩ := h4
          cases v
          simp only at a b c d
          subst a b c d
          rfl

/-- C112, the hypothesis is met, and not in vain: images have a width, and nothing has property 1. -/
theorem C112_witness : demoGRsp.req = none ∧ demoGRsp.dev.ps.srv.caps.WF ∧ Open demoGRsp ∧ Elapsed [] demoGRsp demoGRsp ∧
    (match readCodes 0x9801 0 (dataContainer 0x9801 0 (toldBy (ask (Toy.cmd 0x9801 9 [0x3801]))).2) with
      | some l => decide (0xDC87 ∈ l) && decide (1 ∉ l)
      | none => false) = true ∧
    ((readDesc 0x9802 0 (dataContainer 0x9802 0 (toldBy (ask (Toy.cmd 0x9802 9 [0xDC87, 0x3801]))).2)).map (·.code)) = some 0xDC87 ∧
    (toldBy (ask (Toy.cmd 0x9802 9 [1, 0x3801]))).2 = [] := by
  refine ⟨rfl, ?_, ⟨rfl, rfl, rfl, by decide⟩, .start _, by decide +kernel, by decide +kernel, by decide +kernel⟩
  exact C54_witness.1

end Props
