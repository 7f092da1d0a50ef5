import Verif.Lemmas.ServerCopied
import Verif.Props.Survive
import Verif.Props.Startup
import Verif.Props.Talk
/-! Property theorems C101: CopyObject as the host sees it. -/
namespace Props
open Mtp Spec

/-- C101. CopyObject of a file or folder to a free place, where nothing is refused: answered OK with the handle of the copy. The object
and everything in it exist twice then, the copies under new handles, in the same arrangement, with the same bytes and the same
information but for dates and folder; all that was there is as before. -/
theorem C101_copied (r : Rsp Server) (ho : Open r) (w : ServerOk r.dev) (q : List UInt8) (hq : Asking q 0x101A)
    (hs : cParam q 1 = r.dev.sid) (hc : CopyableTo r.dev (cParam q 0) (cParam q 2)) :
    ∃ r' y m, Answered r r' (ask q) q .ok [y] ∧ dataOf r'.out = dataOf r.out ∧ (cParam q 0, y) ∈ m ∧
      Copied r.dev r'.dev (cParam q 0) (cParam q 2) m := by
  obtain ⟨s', y, m, e, hm, cp⟩ := Server.copy_done w hc (cParams q) rfl hs rfl
  obtain ⟨r', a1, a2, a3⟩ := Server.copy_answer r ho q hq
  rw [e] at a1 a2
  exact ⟨r', y, m, a1, a3, hm, by rw [a2]; exact cp⟩

/-- C101. Every copied file can be downloaded, and is the original byte for byte. -/
theorem C101_downloaded (r : Rsp Server) (ho : Open r) (w : ServerOk r.dev) (q : List UInt8) (hq : Asking q 0x101A)
    (hs : cParam q 1 = r.dev.sid) (hc : CopyableTo r.dev (cParam q 0) (cParam q 2)) :
    ∃ (r' : Rsp Server) (y : Nat) (m : List (Nat × Nat)), Answered r r' (ask q) q .ok [y] ∧ (cParam q 0, y) ∈ m ∧
      (∀ x, Below r.dev.tree (cParam q 0) x → ∃ y, (x, y) ∈ m) ∧
      ∀ x y c, (x, y) ∈ m → Holds r.dev x c → c.length ≤ 0xFFFFFFFF - 12 →
        ∀ q2, Asking q2 0x1009 → cParam q2 0 = y →
          ∃ r2, Answered r' r2 (ask q2) q2 .ok [] ∧ dataOf r2.out = dataOf r'.out ++ c := by
  obtain ⟨r', y, m, a1, a2, hm, cp⟩ := C101_copied r ho w q hq hs hc
  refine ⟨r', y, m, a1, hm, fun x hx => (cp.source x).mp hx, fun x z c hx hh hl q2 hq2 hz => ?_⟩
  obtain ⟨o, o1, o2⟩ := hh.told
  obtain ⟨_, _, p, d, _, _, _, _, t⟩ := cp.told x z hx
  have hw : Willing r'.dev := by unfold Willing; rw [cp.ios]; exact hc.willing
  obtain ⟨r2, b1, b2, _⟩ := Server.get_object r' a1.again hw q2 hq2 z hz c ((cp.contents x z hx).trans hh.contents)
    (by rw [Server.size_info t]; simp only; rw [o1]; exact o2) hl
  exact ⟨r2, b1, b2⟩

/-- C101. A copied file has the date of the original, if the device can set dates and the date can be written. -/
theorem C101_dated (r : Rsp Server) (ho : Open r) (w : ServerOk r.dev) (q : List UInt8) (hq : Asking q 0x101A)
    (hs : cParam q 1 = r.dev.sid) (hc : CopyableTo r.dev (cParam q 0) (cParam q 2)) (hu : ∀ n, r.dev.times.utimes n = true) :
    ∃ (r' : Rsp Server) (y : Nat) (m : List (Nat × Nat)), Answered r r' (ask q) q .ok [y] ∧ (cParam q 0, y) ∈ m ∧ ∀ x y xi, (x, y) ∈ m → r.dev.tree.get x = some xi → xi.fmt ≠ ASSOC →
      Readable r.dev.times.zone (parseDate r.dev.times.zone (Server.toPath (r.dev.infoOf x).2.modDate)) →
      (r'.dev.infoOf y).1 = .ok ∧
      parseDate r.dev.times.zone (Server.toPath (r'.dev.infoOf y).2.modDate) =
        parseDate r.dev.times.zone (Server.toPath (r.dev.infoOf x).2.modDate) := by
  obtain ⟨r', y, m, a1, a2, hm, cp⟩ := C101_copied r ho w q hq hs hc
  refine ⟨r', y, m, a1, hm, fun x z xi hx ex hf hr => ?_⟩
  obtain ⟨xi', _, p, d, e1, _, _, hd, t⟩ := cp.told x z hx
  rw [ex] at e1; cases e1
  rw [t]
  exact ⟨rfl, (C83_date_told _ _ _ (hd hf) hu hr).2⟩

/-- C101. After the copy: the copy is listed in the folder it was made in and in no other one; the original is still listed where it
was. -/
theorem C101_listed (r : Rsp Server) (ho : Open r) (w : ServerOk r.dev) (q : List UInt8) (hq : Asking q 0x101A)
    (hs : cParam q 1 = r.dev.sid) (hc : CopyableTo r.dev (cParam q 0) (cParam q 2)) :
    ∃ (r' : Rsp Server) (y : Nat), Answered r r' (ask q) q .ok [y] ∧ y ≠ cParam q 0 ∧
      ∀ q3, Asking q3 0x1007 → cParam q3 0 = r.dev.sid → r.dev.sid ≠ ALL → cParam q3 1 = 0 → r'.dev.tree.asked < 2 ^ 26 →
        cParam q3 2 ≠ 0 → (cParam q3 2 = ALL ∨ ∃ it, r'.dev.tree.get (cParam q3 2) = some it ∧ it.fmt = ASSOC) →
        ∃ r3 p l, Answered r' r3 (ask q3) q3 .ok [] ∧ dataOf r3.out = dataOf r'.out ++ p ∧
          readHandles 0x1007 0 (dataContainer 0x1007 0 p) = some l ∧
          (y ∈ l ↔ cParam q3 2 = if cParam q 2 = 0 then ALL else cParam q 2) ∧
          (cParam q 0 ∈ l ↔ Asked r'.dev.tree 0 (cParam q3 2) (cParam q 0)) := by
  obtain ⟨r', y, m, a, _, hm, c⟩ := C101_copied r ho w q hq hs hc
  obtain ⟨hn1, hn2⟩ := (c.new y).mpr ⟨_, hm⟩
  obtain ⟨it, pit, e1, e2, _⟩ := hc.place
  refine ⟨r', y, a, ?_, ?_⟩
  · rintro rfl
    rw [has_iff.mpr ⟨it, e1⟩] at hn2
    cases hn2
  intro q3 hq3 hs3 hall hf3 hb3 h03 ha3
  obtain ⟨r3, p, l, b1, b2, _, b4, _, b6⟩ := Server.get_handles r' a.again c.ok q3 hq3 (hs3.trans c.sid.symm)
    (by rw [c.sid]; exact hall) hb3 hf3 (Or.inr ha3)
  refine ⟨r3, p, l, b1, b2, b4, (b6 _).trans ?_, b6 _⟩
  obtain ⟨xi, yi, z, _, ey, hpar, hz⟩ := c.place _ _ hm
  rw [if_pos rfl] at hz
  subst hz
  have h0 : y ≠ 0 := by
    rintro rfl
    obtain ⟨r0, h, _⟩ := w.wf.root
    rw [has_iff.mpr ⟨r0, h⟩] at hn2
    cases hn2
  have hpA : cParam q 2 ≠ ALL := by
    have := w.issued _ _ e2
    have := hc.handles
    unfold ALL; omega
  constructor
  · rintro ⟨i, g, _, _, hh⟩
    rw [ey] at g; cases g
    rw [hpar] at hh
    rcases hh with hh | ⟨h1, h2⟩ | ⟨h1, h2, h3⟩
    · exact absurd hh h03
    · simp only [Option.some.injEq] at h2
      rw [if_pos h2, h1]
    · simp only [Option.some.injEq] at h3
      rw [if_neg (by rw [h3]; exact h1), h3]
  · intro h
    refine ⟨yi, ey, h0, Or.inl rfl, ?_⟩
    rw [hpar]
    split at h
    · next hp => exact Or.inr (Or.inl ⟨h, by rw [hp]⟩)
    · next hp => rw [h]; exact Or.inr (Or.inr ⟨hp, hpA, rfl⟩)

/-- C101. When CopyObject is refused at once: an unknown object, another storage, an unknown folder, or a folder that has an entry of
the name of the folder to be copied. Nothing is different then. -/
theorem C101_refused (r : Rsp Server) (ho : Open r) (w : ServerOk r.dev) (q : List UInt8) (hq : Asking q 0x101A) :
    (r.dev.tree.has (cParam q 0) = false → ∃ r', Answered r r' (ask q) q .invalidObjectHandle [0] ∧ r'.dev = r.dev) ∧
    (r.dev.tree.has (cParam q 0) = true → cParam q 1 ≠ r.dev.sid →
      ∃ r', Answered r r' (ask q) q .invalidStorageID [0] ∧ r'.dev = r.dev) ∧
    (r.dev.tree.has (cParam q 0) = true → cParam q 1 = r.dev.sid → r.dev.tree.has (cParam q 2) = false →
      ∃ r', Answered r r' (ask q) q .invalidParentObject [0] ∧ r'.dev = r.dev) ∧
    (∀ it pit x ix, r.dev.tree.get (cParam q 0) = some it → it.fmt = ASSOC → cParam q 0 ≠ 0 → cParam q 1 = r.dev.sid →
      r.dev.tree.get (cParam q 2) = some pit → pit.fmt = ASSOC → r.dev.tree.asked < 0xFFFFFFFF → r.dev.tree.get x = some ix → ix.path = join pit.path it.name →
      (∀ k, (r.dev.infoOf (cParam q 0)).2.size ≤ r.dev.room k) →
      ∃ r', Answered r r' (ask q) q .invalidParentObject [0] ∧ r'.dev = r.dev) := by
  obtain ⟨r', a1, a2, a3⟩ := Server.copy_answer r ho q hq
  have fin : ∀ c, r.dev.copy (cParams q) false = (r.dev, c, 0) → ∃ r', Answered r r' (ask q) q c [0] ∧ r'.dev = r.dev := by
    intro c h
    rw [h] at a1 a2
    exact ⟨r', a1, a2⟩
  have g0 : (cParams q).getD 0 0 = cParam q 0 := rfl
  have g1 : (cParams q).getD 1 0 = cParam q 1 := rfl
  have g2 : (cParams q).getD 2 0 = cParam q 2 := rfl
  have hroot : r.dev.tree.has 0 = true := by obtain ⟨r0, h, _⟩ := w.wf.root; exact has_iff.mpr ⟨r0, h⟩
  refine ⟨fun h => fin _ ?_, fun h hs => fin _ ?_, fun h hs hp => fin _ ?_, fun it pit x ix e1 e2 e3 e4 e5 e6 eb e7 e8 e9 => fin _ ?_⟩
  · unfold Server.copy
    simp only [g0, g1, g2]
    rw [if_pos h]
  · unfold Server.copy
    simp only [g0, g1, g2]
    rw [if_neg (by simp [h]), if_pos hs]
  · unfold Server.copy
    simp only [g0, g1, g2]
    rw [if_neg (by simp [h]), if_neg (by simp [hs]), if_pos]
    refine ⟨?_, hp⟩
    intro h0
    rw [h0, hroot] at hp; cases hp
  · unfold Server.copy
    simp only [g0, g1, g2]
    rw [if_neg (by simp [has_iff.mpr ⟨it, e1⟩]), if_neg (by simp [e4]), if_neg (by simp [has_iff.mpr ⟨pit, e5⟩])]
    have hiok := Server.info_ok w (has_iff.mpr ⟨it, e1⟩)
    have hsz : r.dev.sizeOf (cParam q 0) = (r.dev.infoOf (cParam q 0)).2.size :=
      Server.size_info (o := (r.dev.infoOf (cParam q 0)).2) (by rw [← hiok])
    obtain ⟨_, _, _, _, _, _, _, hn⟩ := w.wf.parent _ _ e1 e3
    have hpa : cParam q 2 ≠ ALL := by
      have := w.issued _ _ e5
      unfold ALL; omega
    have ht := taken_of_known w.wf e5 e6 hpa hn e7 e8
    have hto : Server.copyTo false (Tree.maxLen r.dev.tree.items + 1) r.dev (cParam q 0) (cParam q 2) true 0 =
        (r.dev, .invalidParentObject, 0) := by
      rw [Server.copyTo, e1, e5]
      simp only
      rw [if_neg (by simp [hiok]), if_neg (by rw [hsz]; exact Nat.not_lt.mpr (e9 _)), ht]
      simp [e2]
    simp only [hto]
    rfl

/-! ### Examples -/

/-- A directory with a folder "d", in it the file "f", and an empty folder "e". -/
def demoTwo : Server :=
  Server.start 0x00010001 [0x3000, 0x3001] demoCaps (Tree.empty ['/', 's'] [['/', 's', '/', 'x']] .allowWithinStorage [] (fun _ => true) 0 0)
    (.node none ASSOC [(['d'], .node none ASSOC [(['f'], .node none 0x3004 [])]), (['e'], .node none ASSOC [])])
    ⟨fun p => p.map fun c => UInt8.ofNat c.toNat, fun _ => [], fun _ => 0⟩ (fun _ _ => {}) (fun _ => true)
    (fun _ => 2 ^ 40) ⟨fixedZone 0, fun _ => 1700000000, fun _ => true⟩


private theorem two_items : demoTwo.tree.items =
    [(3, ⟨['/', 's', '/', 'e'], ['e'], ASSOC, 0, some 0, [], 4⟩), (0, ⟨['/', 's'], ['s'], ASSOC, 0, none, [3, 1], 1⟩),
     (2, ⟨['/', 's', '/', 'd', '/', 'f'], ['f'], 0x3004, 1, some 1, [], 3⟩), (1, ⟨['/', 's', '/', 'd'], ['d'], ASSOC, 0, some 0, [2], 2⟩)] := by
  decide +kernel

private theorem two_cases {x : Nat} {xi : Item} (h : demoTwo.tree.get x = some xi) :
    (x = 3 ∧ xi = ⟨['/', 's', '/', 'e'], ['e'], ASSOC, 0, some 0, [], 4⟩) ∨ (x = 0 ∧ xi = ⟨['/', 's'], ['s'], ASSOC, 0, none, [3, 1], 1⟩) ∨
    (x = 2 ∧ xi = ⟨['/', 's', '/', 'd', '/', 'f'], ['f'], 0x3004, 1, some 1, [], 3⟩) ∨
    (x = 1 ∧ xi = ⟨['/', 's', '/', 'd'], ['d'], ASSOC, 0, some 0, [2], 2⟩) := by
  unfold Tree.get at h
  rw [two_items] at h
  simp only [AMap.get] at h
  by_cases h3 : x = 3
  · subst h3; exact Or.inl ⟨rfl, by simpa using h.symm⟩
  rw [if_neg h3] at h
  by_cases h0 : x = 0
  · subst h0; exact Or.inr (Or.inl ⟨rfl, by simpa using h.symm⟩)
  rw [if_neg h0] at h
  by_cases h2 : x = 2
  · subst h2; exact Or.inr (Or.inr (Or.inl ⟨rfl, by simpa using h.symm⟩))
  rw [if_neg h2] at h
  by_cases h1 : x = 1
  · subst h1; exact Or.inr (Or.inr (Or.inr ⟨rfl, by simpa using h.symm⟩))
  rw [if_neg h1] at h
  cases h

/-- The folder "d" can be copied into the folder "e". -/
theorem C101_witness : ServerOk demoTwo ∧ CopyableTo demoTwo 1 3 := by
  have w : ServerOk demoTwo :=
    C93_consistent ⟨_, _, _, _, _, _, _, _, _, _, _, rfl, by decide +kernel⟩
      ⟨⟨_, _, rfl, by decide, trivial⟩, by simp [DiskOk, DisksOk], by simp [DiskNames, DisksNames]⟩
  have g : ∀ e ∈ demoTwo.tree.items, demoTwo.tree.get e.1 = some e.2 := by rw [two_items]; decide +kernel
  refine ⟨w, ⟨by decide, ⟨_, _, g (1, _) (by rw [two_items]; exact .tail _ (.tail _ (.tail _ (.head _)))), g (3, _) (by rw [two_items]; exact .head _), rfl, ?_, ?_⟩, ?_, ?_, ?_, ?_,
    fun k => rfl, ?_, by decide +kernel⟩⟩
  · intro x ix h
    rcases two_cases h with ⟨_, rfl⟩ | ⟨_, rfl⟩ | ⟨_, rfl⟩ | ⟨_, rfl⟩ <;> decide
  · intro e he hu
    have : e = ['/', 's', '/', 'x'] := by
      have h : demoTwo.tree.excl = [['/', 's', '/', 'x']] := by decide +kernel
      rw [h] at he; simpa using he
    subst this
    rcases hu with h | ⟨n, h⟩ <;> simp [join] at h
  · intro hb
    rcases (w.wf.below_iff (g (1, _) (by rw [two_items]; exact .tail _ (.tail _ (.tail _ (.head _)))))
      (g (3, _) (by rw [two_items]; exact .head _))).mp hb with h | ⟨n, h⟩ <;> simp [join] at h
  · intro x xi _ h
    rcases two_cases h with ⟨_, rfl⟩ | ⟨_, rfl⟩ | ⟨_, rfl⟩ | ⟨_, rfl⟩ <;> decide +kernel
  · intro x xi _ h hf
    rcases two_cases h with ⟨_, rfl⟩ | ⟨_, rfl⟩ | ⟨rfl, rfl⟩ | ⟨_, rfl⟩
    · exact absurd rfl hf
    · exact absurd rfl hf
    · exact ⟨[47, 115, 47, 100, 47, 102], ⟨by decide +kernel, (demoTwo.infoOf 2).2, by decide +kernel, by decide +kernel⟩, by decide⟩
    · exact absurd rfl hf
  · intro x k hb
    obtain ⟨xi, ex⟩ := below_get (g (1, _) (by rw [two_items]; exact .tail _ (.tail _ (.tail _ (.head _))))) hb
    have : (demoTwo.infoOf x).2.size ≤ 2 ^ 40 := by
      rcases two_cases ex with ⟨rfl, _⟩ | ⟨rfl, _⟩ | ⟨rfl, _⟩ | ⟨rfl, _⟩ <;> decide +kernel
    exact this
  · exact fun n i => ⟨rfl, by simp [demoTwo, Server.start], by simp [demoTwo, Server.start], rfl⟩


/-- The host opens a session, copies "d" into "e" and downloads the copied file. -/
example : (match Rsp.run Server.dev { dev := demoTwo } ([.ready [], .packet (Toy.cmd 0x1002 0 [1]) true true []] ++
      ask (Toy.cmd 0x101A 8 [1, 0x00010001, 3]) ++ ask (Toy.cmd 0x1009 9 [5])) with
    | .ok r => (dataOf r.out, responses r.out)
    | .ub _ => ([], [])) = ([47, 115, 47, 100, 47, 102], [.response .ok 0 [], .response .ok 8 [4], .response .ok 9 []]) := by
  decide +kernel

/-- A directory with the files "d/f" and "f". -/
def demoTwins : Server :=
  Server.start 0x00010001 [0x3000, 0x3001] demoCaps (Tree.empty ['/', 's'] [['/', 's', '/', 'x']] .allowWithinStorage [] (fun _ => true) 0 0)
    (.node none ASSOC [(['d'], .node none ASSOC [(['f'], .node none 0x3004 [])]), (['f'], .node none 0x3004 [])])
    ⟨fun p => p.map fun c => UInt8.ofNat c.toNat, fun _ => [], fun _ => 0⟩ (fun _ _ => {}) (fun _ => true)
    (fun _ => 2 ^ 40) ⟨fixedZone 0, fun _ => 1700000000, fun _ => true⟩

/-- C101. A file that is copied into a folder which has a file of that name is written over it: CopyObject is answered OK with the
handle of the file that was there, whose bytes are lost (fsstorageplugin.cpp:1488-1505 looks for the name only if a folder is copied).
-/
theorem C101_overwritten_violated : ∃ (s : Server) (h p x : Nat) (c : List UInt8), ServerOk s ∧ Willing s ∧ x ≠ h ∧ Holds s x c ∧
    ∃ s' c', s.copy [h, s.sid, p] false = (s', .ok, x) ∧ contents s' x = some c' ∧ c' ≠ c := by
  refine ⟨demoTwins, 2, 0, 3, [47, 115, 47, 102], ?_, ?_, by decide, ⟨by decide +kernel, (demoTwins.infoOf 3).2, by decide +kernel,
    by decide +kernel⟩, (demoTwins.copy [2, demoTwins.sid, 0] false).1, [47, 115, 47, 100, 47, 102], ?_, by decide +kernel, by decide⟩
  · exact C93_consistent ⟨_, _, _, _, _, _, _, _, _, _, _, rfl, by decide +kernel⟩
      ⟨⟨_, _, rfl, by decide, trivial⟩, by simp [DiskOk, DisksOk], by simp [DiskNames, DisksNames]⟩
  · exact fun n i => ⟨rfl, by simp [demoTwins, Server.start], by simp [demoTwins, Server.start], rfl⟩
  · have h : (demoTwins.copy [2, demoTwins.sid, 0] false).2 = (.ok, 3) := by decide +kernel
    exact Prod.ext rfl h

/-- C101. A host that cancels a CopyObject loses an object it did not name: the file that was in the folder under the name of the copied
one (storageplugin.cpp:65-70 deletes what it was writing to). -/
theorem C101_cancelled_violated : ∃ (s : Server) (h p x : Nat) (is : List (Rsp.In Server)) (r : Rsp Server), x ≠ h ∧
    s.tree.has x = true ∧ is = [.ready [], .packet (Toy.cmd 0x1002 0 [1]) true true [], .packet (Toy.cmd 0x101A 8 [h, s.sid, p]) true true [.cancel]] ∧
    Rsp.run Server.dev { dev := s } is = .ok r ∧ r.dev.tree.has x = false := by
  have h : (match Rsp.run Server.dev { dev := demoTwins } [.ready [], .packet (Toy.cmd 0x1002 0 [1]) true true [],
      .packet (Toy.cmd 0x101A 8 [2, demoTwins.sid, 0]) true true [.cancel]] with
    | .ok r => r.dev.tree.has 3
    | .ub _ => true) = false := by decide +kernel
  cases e : Rsp.run Server.dev { dev := demoTwins } [.ready [], .packet (Toy.cmd 0x1002 0 [1]) true true [],
      .packet (Toy.cmd 0x101A 8 [2, demoTwins.sid, 0]) true true [.cancel]] with
  | ub u => rw [e] at h; cases h
  | ok r => rw [e] at h; exact ⟨demoTwins, 2, 0, 3, _, r, by decide, by decide +kernel, rfl, e, h⟩

end Props
