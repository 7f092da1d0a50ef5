import Verif.Lemmas.Upload
import Verif.Model.FileIO
import Verif.Spec.Toy
/-! Property theorems C33: an upload is acknowledged only when complete. -/
namespace Props
open Mtp Mtp.Rsp Spec

variable {D : Type}

private theorem take_all {α : Type} (l : List (List α)) (k : Nat) (h : l.flatten.length ≤ (l.take k).flatten.length) :
    (l.take k).flatten = l.flatten := by
  have e : l.flatten = (l.take k).flatten ++ (l.drop k).flatten := by
    rw [← List.flatten_append, List.take_append_drop]
  have : (l.drop k).flatten = [] := by
    rw [e, List.length_append] at h
    exact List.eq_nil_of_length_eq_zero (by omega)
  rw [e, this, List.append_nil]

private theorem run_upload (dv : Dev D) (content : D → Nat → List UInt8) (law : Stores dv content)
    (q : List UInt8) (h n : Nat) (bs : List (List UInt8)) (hne : bs ≠ []) :
    ∀ (r : Rsp D) (f : Bool) (w : Nat), Going r q h n w → (f = true → ∀ b ∈ bs.head?, 12 ≤ b.length) →
    ∃ (r' : Rsp D) (c : Resp) (k : Nat), r.run dv (dataPhase f bs) = .ok r' ∧ Verdict r r' q c ∧
      (c = .ok → n ≤ w + ((bodies f bs).take k).flatten.length ∧
        content r'.dev h = (if f then [] else content r.dev h) ++ ((bodies f bs).take k).flatten) ∧
      (Unfailing dv → w + (bodies f bs).flatten.length < n → n < 2 ^ 32 →
        c = .incompleteTransfer ∧ content r'.dev h = []) ∧
      (Unfailing dv → n ≤ w + (bodies f bs).flatten.length → w + (bodies f bs).flatten.length < 2 ^ 32 → c = .ok) := by
  induction bs with
  | nil => exact absurd rfl hne
  | cons b bs ih =>
    intro r f w g hb
    obtain ⟨r1, e1, m⟩ := upload_packet dv r q b _ h n w f bs.isEmpty g (fun hf => hb hf b rfl) rfl
    generalize hd : (if f = true then List.drop 12 b else b) = d at m
    have hbod : bodies f (b :: bs) = d :: bodies false bs := by simp [bodies, hd]
    have hrun : r.run dv (dataPhase f (b :: bs)) = r1.run dv (dataPhase false bs) := by
      simp only [dataPhase, Rsp.run, Rsp.step, e1, Res.bind_ok]
    rw [hrun, hbod]
    have fin : ∀ c, Verdict r r1 q c → ∃ r', r1.run dv (dataPhase false bs) = .ok r' ∧ Verdict r r' q c ∧
        r'.dev = r1.dev := by
      intro c v
      obtain ⟨r', e, i1, i2, kk, o⟩ := stray dv bs r1 v.st v.req
      exact ⟨r', e, ⟨i1, i2, kk.sendSeq.trans v.sendSeq, kk.propList.trans v.propList, kk.session.trans v.session,
        kk.ready.trans v.ready, kk.edit.trans v.edit, o.trans v.out⟩, kk.dev⟩
    have hlen : (d :: bodies false bs).flatten.length = d.length + (bodies false bs).flatten.length := by simp
    rcases m with ⟨m1, m2, _⟩ | ⟨m1, m2, m3, m4⟩ | ⟨m1, m2, m3, m4, m5⟩ | ⟨m1, m2, m3, m4, m5, m6, m7, m8, m9⟩
    · obtain ⟨r', e, v, _⟩ := fin _ m2
      exact ⟨r', _, 1, e, v, fun hc => absurd hc m1, fun hu => absurd (hu _ _ _ _ _) m1, fun hu => absurd (hu _ _ _ _ _) m1⟩
    · obtain ⟨r', e, v, hdev⟩ := fin _ m3
      refine ⟨r', .ok, 1, e, v, fun _ => ⟨by simpa using m2, ?_⟩, ?_, fun _ _ _ => rfl⟩
      · rw [hdev]
        have := law.write r.dev h d f bs.isEmpty m1
        rcases m4 with m4 | ⟨ds, m4⟩
        · rw [m4, law.close, this]; simp
        · rw [m4, law.close, law.props, this]; simp
      · intro _ hlt; rw [hlen] at hlt; omega
    · obtain ⟨r', e, v, hdev⟩ := fin _ m4
      refine ⟨r', .incompleteTransfer, 1, e, v, fun h => by simp at h, fun _ _ _ => ⟨rfl, ?_⟩, ?_⟩
      · rw [hdev, m5, law.close, law.cut]
      · intro _ h1 h2
        have hnil : bs = [] := by simpa using m3
        subst hnil
        rw [hlen] at h1 h2
        simp only [bodies, List.flatten_nil, List.length_nil, Nat.add_zero] at h1 h2
        omega
    · have hbs : bs ≠ [] := by intro hh; rw [hh] at m3; simp at m3
      obtain ⟨r', c, k, e, v, p1, p2, p3⟩ := ih hbs r1 false (w + d.length) m4 (by simp)
      refine ⟨r', c, k + 1, e, ⟨v.st, v.req, v.sendSeq, v.propList, v.session.trans m6, v.ready.trans m7,
        v.edit.trans m8, by rw [v.out, m9]⟩, ?_, ?_, ?_⟩
      · intro hc
        obtain ⟨q1, q2⟩ := p1 hc
        refine ⟨?_, ?_⟩
        · simp only [List.take_succ_cons, List.flatten_cons, List.length_append]; omega
        · rw [q2, m5]
          have := law.write r.dev h d f bs.isEmpty m1
          simp only [Bool.false_eq_true, if_false, List.take_succ_cons, List.flatten_cons, this, List.append_assoc]
      · intro hu h1 h2; rw [hlen] at h1; exact p2 hu (by omega) h2
      · intro hu h1 h2; rw [hlen] at h1 h2; exact p3 hu (by omega) (by omega)

/-- A SendObject transaction in which the host sends a proper first packet. -/
private theorem run_sendObject (dv : Dev D) (content : D → Nat → List UInt8) (law : Stores dv content)
    (r : Rsp D) (q : List UInt8) (h n : Nat) (bs : List (List UInt8)) (hst : r.st = .idle)
    (hready : r.ready = true) (hs : r.session ≠ 0) (ht : cTid q ≠ 0 ∧ cTid q ≠ 0xFFFFFFFF)
    (hc : cCode q = 0x100D) (ha : Announced r h n) (hne : bs ≠ []) (hb : ∀ b ∈ bs.head?, 12 ≤ b.length) :
    ∃ (r' : Rsp D) (c : Resp) (k : Nat), r.run dv (sendObject q bs) = .ok r' ∧ Verdict r r' q c ∧
      (c = .ok → n ≤ ((bodies true bs).take k).flatten.length ∧
        content r'.dev h = ((bodies true bs).take k).flatten) ∧
      (Unfailing dv → (bodies true bs).flatten.length < n → n < 2 ^ 32 →
        c = .incompleteTransfer ∧ content r'.dev h = []) ∧
      (Unfailing dv → n ≤ (bodies true bs).flatten.length → (bodies true bs).flatten.length < 2 ^ 32 → c = .ok) := by
  obtain ⟨r1, e1, g, kk, o⟩ := accept_going dv r q h n hst hready hs ht hc ha
  obtain ⟨r', c, k, e, v, p1, p2, p3⟩ := run_upload dv content law q h n bs hne r1 true 0 g (fun _ => hb)
  refine ⟨r', c, k, ?_, ⟨v.st, v.req, v.sendSeq, v.propList, v.session.trans kk.session, v.ready.trans kk.ready,
    v.edit.trans kk.edit, by rw [v.out, o]⟩, ?_, ?_, ?_⟩
  · simp only [sendObject, Rsp.run, Rsp.step, e1, Res.bind_ok]; exact e
  · simpa using p1
  · simpa using p2
  · simpa using p3

/-- C33. A SendObject transaction gets exactly one response. If it is OK, at least the announced number of
bytes were stored: the object consists of the data of the first `k` packets, in order, and those carried
at least `n` bytes. Afterwards no upload is pending. The storage may fail at any point. -/
theorem C33_ok_complete (dv : Dev D) (content : D → Nat → List UInt8) (law : Stores dv content)
    (r : Rsp D) (q : List UInt8) (h n : Nat) (bs : List (List UInt8)) (hst : r.st = .idle)
    (hready : r.ready = true) (hs : r.session ≠ 0) (ht : cTid q ≠ 0 ∧ cTid q ≠ 0xFFFFFFFF)
    (hc : cCode q = 0x100D) (ha : Announced r h n) (hne : bs ≠ []) (hb : ∀ b ∈ bs.head?, 12 ≤ b.length) :
    ∃ (r' : Rsp D) (c : Resp), r.run dv (sendObject q bs) = .ok r' ∧
      responses r'.out = responses r.out ++ [.response c (u16 (cTid q)) []] ∧
      r'.st = .idle ∧ r'.sendSeq = none ∧ r'.propList = none ∧
      (c = .ok → ∃ k, content r'.dev h = ((bodies true bs).take k).flatten ∧ n ≤ (content r'.dev h).length) := by
  obtain ⟨r', c, k, e, v, p1, _, _⟩ := run_sendObject dv content law r q h n bs hst hready hs ht hc ha hne hb
  refine ⟨r', c, e, v.out, v.st, v.sendSeq, v.propList, fun hok => ⟨k, (p1 hok).2, ?_⟩⟩
  rw [(p1 hok).2]
  exact (p1 hok).1

/-- C33. On a storage that does not fail, exactly the announced number of bytes is acknowledged and the
object holds exactly what was sent. -/
theorem C33_complete (dv : Dev D) (content : D → Nat → List UInt8) (law : Stores dv content) (hu : Unfailing dv)
    (r : Rsp D) (q : List UInt8) (h n : Nat) (bs : List (List UInt8)) (hst : r.st = .idle)
    (hready : r.ready = true) (hs : r.session ≠ 0) (ht : cTid q ≠ 0 ∧ cTid q ≠ 0xFFFFFFFF)
    (hc : cCode q = 0x100D) (ha : Announced r h n) (hne : bs ≠ []) (hb : ∀ b ∈ bs.head?, 12 ≤ b.length)
    (hn : (bodies true bs).flatten.length = n) (hn32 : n < 2 ^ 32) :
    ∃ r' : Rsp D, r.run dv (sendObject q bs) = .ok r' ∧
      responses r'.out = responses r.out ++ [.response .ok (u16 (cTid q)) []] ∧
      content r'.dev h = (bodies true bs).flatten := by
  obtain ⟨r', c, k, e, v, p1, _, p3⟩ := run_sendObject dv content law r q h n bs hst hready hs ht hc ha hne hb
  have hok := p3 hu (by omega) (by omega)
  subst hok
  refine ⟨r', e, v.out, ?_⟩
  obtain ⟨p1, p2⟩ := p1 rfl
  rw [p2]
  exact take_all _ _ (by omega)

/-- C33. If the data ends early the answer is IncompleteTransfer and the object is empty, on a storage
where closing keeps what truncating left. (The file-system storage is not one: see
`C33_truncate_violated`.) -/
theorem C33_incomplete_partial (dv : Dev D) (content : D → Nat → List UInt8) (law : Stores dv content)
    (hu : Unfailing dv) (r : Rsp D) (q : List UInt8) (h n : Nat) (bs : List (List UInt8)) (hst : r.st = .idle)
    (hready : r.ready = true) (hs : r.session ≠ 0) (ht : cTid q ≠ 0 ∧ cTid q ≠ 0xFFFFFFFF)
    (hc : cCode q = 0x100D) (ha : Announced r h n) (hne : bs ≠ []) (hb : ∀ b ∈ bs.head?, 12 ≤ b.length)
    (hn : (bodies true bs).flatten.length < n) (hn32 : n < 2 ^ 32) :
    ∃ r' : Rsp D, r.run dv (sendObject q bs) = .ok r' ∧
      responses r'.out = responses r.out ++ [.response .incompleteTransfer (u16 (cTid q)) []] ∧
      content r'.dev h = [] := by
  obtain ⟨r', c, k, e, v, _, p2, _⟩ := run_sendObject dv content law r q h n bs hst hready hs ht hc ha hne hb
  obtain ⟨hok, hcon⟩ := p2 hu hn hn32
  subst hok
  exact ⟨r', e, v.out, hcon⟩

/-- The toy storage is one the theorems speak about. -/
theorem toy_stores : Stores Toy.dev Toy.look where
  write d h b f l _ := by simp [Toy.dev, Toy.look, Toy.put]
  close d h := rfl
  cut d h := by simp [Toy.dev, Toy.look, Toy.put]
  props d h ds := rfl

example : Unfailing Toy.dev := fun _ _ _ _ _ => rfl

/-- An upload of four bytes announced as four, in two packets; the hypotheses of `C33_complete` hold. -/
def uploader : Rsp Toy.Objs :=
  { dev := [(1, [])], ready := true, session := 1, sendSeq := some ⟨1, 4, 0⟩ }
def uploadPackets : List (List UInt8) := [Toy.dat 0x100D 5 [1, 2], [3, 4]]

example : uploader.st = .idle ∧ uploader.session ≠ 0 ∧ Announced uploader 1 4 ∧
    cCode (Toy.cmd 0x100D 5 []) = 0x100D ∧ cTid (Toy.cmd 0x100D 5 []) = 5 ∧
    (∀ b ∈ uploadPackets.head?, 12 ≤ b.length) ∧ (bodies true uploadPackets).flatten = [1, 2, 3, 4] := by
  refine ⟨rfl, by decide, Or.inl ⟨rfl, rfl⟩, by decide +kernel, by decide +kernel, ?_, by decide +kernel⟩
  intro b hb
  simp only [uploadPackets, List.head?_cons, Option.mem_def, Option.some.injEq] at hb
  subst hb
  decide +kernel

example : after (uploader.run Toy.dev (sendObject (Toy.cmd 0x100D 5 []) uploadPackets))
    (fun r => responses r.out = [.response .ok 5 []] ∧ Toy.look r.dev 1 = [1, 2, 3, 4]) := by decide +kernel

/-- One byte short. -/
example : after (uploader.run Toy.dev (sendObject (Toy.cmd 0x100D 5 []) [Toy.dat 0x100D 5 [1, 2], [3]]))
    (fun r => responses r.out = [.response .incompleteTransfer 5 []] ∧ Toy.look r.dev 1 = []) := by decide +kernel

/-- The file-system storage behind the responder: its files, its operating system always satisfied. -/
def fileDev : Dev FStore where
  query d _ _ := (d, { frames := [], response := some (.ok, []) })
  copy d _ _ := (d, .ok, 0)
  check _ _ _ := .ok
  store d _ _ _ := (d, .ok, [])
  listCheck _ _ := .ok
  addInfo d _ _ := (d, .generalError, [], 0)
  addList d _ _ := (d, .generalError, [], 0)
  write d h b first last := d.writeData {} h b first last
  truncate d h n := d.truncateItem {} h n
  setProps d _ _ := d
  writePartial d _ _ _ _ _ := (d, .ok)
  delete d _ := (d, .ok)
  handleOk _ _ := .ok
  flush d _ := d
  setEvents d _ _ := d
  eventsOff d := d
  eventsOn _ _ := true

/-- C33 is violated by the file-system storage: an upload of four announced bytes that ends after two is
reported IncompleteTransfer, but the file is left with two zero bytes: truncation (fsstorageplugin.cpp:2008)
works on the path, the open upload file keeps its position, and closing the upload
(mtpresponder.cpp:2340, fsstorageplugin.cpp:2052-2062) extends the file to that position again (with zeros, or with
the bytes if they were still in the buffer of the open file, which the model does not distinguish). -/
theorem C33_truncate_violated : ∃ (s : FStore) (bs : List (List UInt8)),
    after (({ dev := s, ready := true, session := 1, sendSeq := some ⟨1, 4, 0⟩ } : Rsp FStore).run fileDev
        (sendObject (Toy.cmd 0x100D 5 []) bs))
      (fun r => responses r.out = [.response .incompleteTransfer 5 []] ∧
        r.dev.files.get "/a" = some [0, 0]) := by
  refine ⟨⟨[("/a", [])], [(1, ⟨"/a", false, 4⟩)], none, 0⟩, [Toy.dat 0x100D 5 [1, 2]], ?_⟩
  decide +kernel

end Props
