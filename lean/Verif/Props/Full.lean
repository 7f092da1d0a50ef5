import Verif.Lemmas.ServerFull
import Verif.Props.Across
/-! Property theorems C101, C105: CopyObject without enough space, and refused. -/
namespace Props
open Mtp Spec

theorem answer_unique {D : Type} {dv : Dev D} {r r1 r2 : Rsp D} {is : List (Rsp.In D)} {q : List UInt8} {c1 c2 : Resp} {p1 p2 : List Nat}
    (h1 : AnsweredBy dv r r1 is q c1 p1) (h2 : AnsweredBy dv r r2 is q c2 p2) : r1 = r2 ∧ c1 = c2 ∧ p1 = p2 := by
  obtain rfl : r1 = r2 := by
    have := h1.run.symm.trans h2.run
    cases this; rfl
  obtain ⟨t1, _, o1⟩ := h1.out
  obtain ⟨t2, _, o2⟩ := h2.out
  rw [o1] at o2
  have o3 := List.append_cancel_left o2
  simp only [List.cons.injEq, Out.response.injEq, and_true] at o3
  exact ⟨rfl, o3.1, o3.2.2⟩

/-- C101. A copy answered StoreFull left nothing behind: the objects are those from before, hold what they held and the same is told about
them. -/
theorem C101_full (r r' : Rsp Server) (ho : Open r) (w : ServerOk r.dev) (q : List UInt8) (hq : Asking q 0x101A) (ps : List Nat)
    (ha : Answered r r' (ask q) q .storeFull ps) (hd : r.dev.dataFile = none) (hfs : ∀ k, r.dev.tree.fs k = true)
    (hb : r'.dev.tree.asked < 0xFFFFFFFF) : AsBefore r.dev r'.dev := by
  obtain ⟨r1, a1, a2, _⟩ := Server.copy_answer_by Server.dev r ho q hq
  obtain ⟨rfl, e, _⟩ := answer_unique ha a1
  rw [a2] at hb ⊢
  exact Server.copy_full w (cParams q) hd hfs hb e.symm

/-- C101. A file that is bigger than the free space is not copied: the answer is StoreFull and everything is as before. -/
theorem C101_no_room (r : Rsp Server) (ho : Open r) (w : ServerOk r.dev) (q : List UInt8) (hq : Asking q 0x101A)
    (hs : cParam q 1 = r.dev.sid) (h0 : cParam q 0 ≠ 0) (hh : r.dev.tree.has (cParam q 0) = true) (hp : r.dev.tree.has (cParam q 2) = true)
    (hr : ∀ k, r.dev.room k < (r.dev.infoOf (cParam q 0)).2.size) :
    ∃ (r' : Rsp Server) (ps : List Nat), Answered r r' (ask q) q .storeFull ps ∧ AsBefore r.dev r'.dev := by
  obtain ⟨it, e1⟩ := has_iff.mp hh
  obtain ⟨pit, e2⟩ := has_iff.mp hp
  have hi := Server.info_ok w hh
  obtain ⟨r', a1, a2, _⟩ := Server.copy_answer_by Server.dev r ho q hq
  have hsz : r.dev.room r.dev.calls < r.dev.sizeOf (cParam q 0) := by
    rw [Server.size_info (Prod.ext hi rfl : r.dev.infoOf (cParam q 0) = (.ok, (r.dev.infoOf (cParam q 0)).2))]
    exact hr _
  have hto : Server.copyTo false (Tree.maxLen r.dev.tree.items + 1) r.dev (cParam q 0) (cParam q 2) true 0 = (r.dev.tickCall, .storeFull, 0) := by
    unfold Server.copyTo
    simp only [e1, e2]
    rw [if_neg (by rw [hi]; simp), if_pos hsz]
  have hc : Server.dev.copy r.dev (cParams q) false = ((r.dev.tickCall.delete 0 UNDEF).1, .storeFull, 0) := by
    show r.dev.copy (cParams q) false = _
    unfold Server.copy
    rw [show (cParams q).getD 0 0 = cParam q 0 from rfl, show (cParams q).getD 1 0 = cParam q 1 from rfl,
      show (cParams q).getD 2 0 = cParam q 2 from rfl, if_neg (by simp [hh]), if_neg (by simp [hs]), if_neg (by simp [hp]), hto]
    rfl
  rw [hc] at a1 a2
  refine ⟨r', _, a1, ?_⟩
  rw [a2]
  have hw : ServerOk r.dev.tickCall := ⟨w.wf, w.issued, w.root, w.folders, w.files, w.known, w.openFile⟩
  exact (show AsBefore r.dev r.dev.tickCall from ⟨fun _ => rfl, fun _ _ _ => ⟨rfl, rfl⟩⟩).trans (Server.delete_root hw _)

/-- C105. A copy to another storage that was answered StoreFull left nothing behind on it. -/
theorem C105_full (r r' : Rsp Storages) (ho : Open r) (w : StoragesOk r.dev) (i j : Nat) (hi : i < r.dev.count) (hj : j < r.dev.count)
    (hij : i ≠ j) (q : List UInt8) (hq : Asking q 0x101A) (h0 : cParam q 0 ≠ 0) (hh : (r.dev.at i).tree.has (cParam q 0) = true)
    (hs : cParam q 1 = (r.dev.at j).sid) (ps : List Nat) (ha : AnsweredBy Storages.dev r r' (ask q) q .storeFull ps)
    (hd : (r.dev.at j).dataFile = none) (hfs : ∀ k, (r.dev.at j).tree.fs k = true) (hb : HandlesLeft r'.dev) :
    AsBefore (r.dev.at j) (r'.dev.at j) ∧ ∀ k, k ≠ j → apart (r'.dev.at k) = apart (r.dev.at k) := by
  obtain ⟨r1, a1, a2, _⟩ := Server.copy_answer_by Storages.dev r ho q hq
  obtain ⟨rfl, e, _⟩ := answer_unique ha a1
  have hcopy : Storages.dev.copy r.dev (cParams q) false = _ := copy_across w hi hj hij (cParams q) false h0 hh hs
  rw [hcopy] at a2 e
  simp only at a2 e
  refine ⟨?_, fun k hk => by rw [a2]; exact put_others _ _ _ hk⟩
  rw [a2, Storages.put_at]
  refine Server.from_full (w.each j hj) (cParams q) hd hfs ?_ e.symm
  rw [a2] at hb
  exact hb

/-- C105. An object is not copied to a storage that has no room for it, or for something in it: the answer is not OK. -/
theorem C105_no_room (r r' : Rsp Storages) (ho : Open r) (w : StoragesOk r.dev) (i j : Nat) (hi : i < r.dev.count) (hj : j < r.dev.count)
    (hij : i ≠ j) (q : List UInt8) (hq : Asking q 0x101A) (h0 : cParam q 0 ≠ 0) (hh : (r.dev.at i).tree.has (cParam q 0) = true)
    (hs : cParam q 1 = (r.dev.at j).sid) (x : Nat) (hx : Below (r.dev.at i).tree (cParam q 0) x)
    (hr : ∀ k, (r.dev.at j).room k < ((r.dev.at i).infoOf x).2.size) (c : Resp) (ps : List Nat)
    (ha : AnsweredBy Storages.dev r r' (ask q) q c ps) : c ≠ .ok := by
  obtain ⟨r1, a1, a2, _⟩ := Server.copy_answer_by Storages.dev r ho q hq
  obtain ⟨rfl, e, _⟩ := answer_unique ha a1
  have hcopy : Storages.dev.copy r.dev (cParams q) false = _ := copy_across w hi hj hij (cParams q) false h0 hh hs
  rw [hcopy] at e
  simp only at e
  rintro rfl
  obtain ⟨k, hk⟩ := Server.copyFrom_fits (w.each i hi) (cParams q) false e.symm x hx
  have hr := hr k
  obtain ⟨it, e1⟩ := has_iff.mp hh
  obtain ⟨ix, ex⟩ := below_get e1 hx
  have hi := Server.info_ok (w.each i hi) (has_iff.mpr ⟨ix, ex⟩)
  rw [Server.size_info (Prod.ext hi rfl : (r.dev.at i).infoOf x = (.ok, ((r.dev.at i).infoOf x).2))] at hk
  omega

/-- C105. A folder the destination does not have: InvalidParentObject, and no storage is touched. -/
theorem C105_no_folder (r : Rsp Storages) (ho : Open r) (w : StoragesOk r.dev) (i j : Nat) (hi : i < r.dev.count) (hj : j < r.dev.count)
    (hij : i ≠ j) (q : List UInt8) (hq : Asking q 0x101A) (h0 : cParam q 0 ≠ 0) (hh : (r.dev.at i).tree.has (cParam q 0) = true)
    (hs : cParam q 1 = (r.dev.at j).sid) (hp : (r.dev.at j).tree.has (cParam q 2) = false) :
    ∃ r', AnsweredBy Storages.dev r r' (ask q) q .invalidParentObject [0] ∧ ∀ k, apart (r'.dev.at k) = apart (r.dev.at k) := by
  obtain ⟨r', a1, a2, _⟩ := Server.copy_answer_by Storages.dev r ho q hq
  have hcopy : Storages.dev.copy r.dev (cParams q) false = _ := copy_across w hi hj hij (cParams q) false h0 hh hs
  have hf : Server.copyFrom (r.dev.at i) (r.dev.at j) (cParams q) false = (r.dev.at j, .invalidParentObject, 0) := by
    unfold Server.copyFrom
    rw [show (cParams q).getD 0 0 = cParam q 0 from rfl, show (cParams q).getD 1 0 = cParam q 1 from rfl,
      show (cParams q).getD 2 0 = cParam q 2 from rfl, if_neg (by simp [hh]), if_neg (by simp [hs]), if_pos hp]
  rw [hcopy, hf] at a1 a2
  refine ⟨r', a1, fun k => ?_⟩
  rw [a2]
  by_cases hk : k = j
  · rw [hk, Storages.put_at]
  · exact put_others _ _ _ hk

/-- C105. A folder whose name the destination folder has already: InvalidParentObject (or StoreFull), and no storage is touched. -/
theorem C105_taken (r : Rsp Storages) (ho : Open r) (w : StoragesOk r.dev) (i j : Nat) (hi : i < r.dev.count) (hj : j < r.dev.count)
    (hij : i ≠ j) (q : List UInt8) (hq : Asking q 0x101A) (h0 : cParam q 0 ≠ 0) (it pit ix : Item) (x : Nat)
    (hh : (r.dev.at i).tree.get (cParam q 0) = some it) (hf : it.fmt = ASSOC)
    (hs : cParam q 1 = (r.dev.at j).sid) (hp : (r.dev.at j).tree.get (cParam q 2) = some pit)
    (hpA : cParam q 2 ≠ ALL) (hx : (r.dev.at j).tree.get x = some ix) (he : ix.path = join pit.path it.name) :
    ∃ r' c, AnsweredBy Storages.dev r r' (ask q) q c [0] ∧ (c = .invalidParentObject ∨ c = .storeFull) ∧
      (∀ k, k ≠ j → apart (r'.dev.at k) = apart (r.dev.at k)) ∧ AsBefore (r.dev.at j) (r'.dev.at j) := by
  have hhh := has_iff.mpr ⟨it, hh⟩
  have hpp := has_iff.mpr ⟨pit, hp⟩
  have wj := w.each j hj
  have hin := Server.info_ok (w.each i hi) hhh
  obtain ⟨r', a1, a2, _⟩ := Server.copy_answer_by Storages.dev r ho q hq
  have hcopy : Storages.dev.copy r.dev (cParams q) false = _ := copy_across w hi hj hij (cParams q) false h0 hhh hs
  have hn : '/' ∉ it.name := by
    obtain ⟨_, _, _, _, _, _, _, h⟩ := (w.each i hi).wf.parent _ it hh h0
    exact h
  have hnt : Cp.taken (r.dev.at j).tree (cParam q 2) (join pit.path it.name) = true := by
    cases e : Cp.taken (r.dev.at j).tree (cParam q 2) (join pit.path it.name) with
    | true => rfl
    | false =>
      have := Server.free_of_not_taken wj hp hpA hn e
      rw [← he, wj.wf.pathOf x ix hx] at this
      cases this
  have hft : Server.fromTo (r.dev.at i) false (Tree.maxLen (r.dev.at i).tree.items + 1) (r.dev.at j) (cParam q 0) (cParam q 2) true 0 =
      if (r.dev.at j).room (r.dev.at j).calls < (r.dev.at i).sizeOf (cParam q 0) then ((r.dev.at j).tickCall, .storeFull, 0)
      else (r.dev.at j, .invalidParentObject, 0) := by
    unfold Server.fromTo
    simp only [hh, hp]
    rw [if_neg (by rw [hin]; simp)]
    by_cases hr : (r.dev.at j).room (r.dev.at j).calls < (r.dev.at i).sizeOf (cParam q 0)
    · rw [if_pos hr, if_pos hr]
    · rw [if_neg hr, if_neg hr, if_pos (by simp [hf, hnt])]
  have hto : Server.copyFrom (r.dev.at i) (r.dev.at j) (cParams q) false =
      if (r.dev.at j).room (r.dev.at j).calls < (r.dev.at i).sizeOf (cParam q 0) then
        (((r.dev.at j).tickCall.delete 0 UNDEF).1, .storeFull, 0)
      else (r.dev.at j, .invalidParentObject, 0) := by
    unfold Server.copyFrom
    rw [show (cParams q).getD 0 0 = cParam q 0 from rfl, show (cParams q).getD 1 0 = cParam q 1 from rfl,
      show (cParams q).getD 2 0 = cParam q 2 from rfl, if_neg (by simp [hhh]), if_neg (by simp [hs]), if_neg (by simp [hpp])]
    rw [hft]
    split <;> rfl
  rw [hcopy, hto] at a1 a2
  split at a1
  · next hr =>
    rw [if_pos hr] at a2
    refine ⟨r', _, a1, Or.inr rfl, fun k hk => by rw [a2]; exact put_others _ _ _ hk, ?_⟩
    rw [a2, Storages.put_at]
    have hw : ServerOk (r.dev.at j).tickCall := ⟨wj.wf, wj.issued, wj.root, wj.folders, wj.files, wj.known, wj.openFile⟩
    exact (show AsBefore (r.dev.at j) (r.dev.at j).tickCall from ⟨fun _ => rfl, fun _ _ _ => ⟨rfl, rfl⟩⟩).trans (Server.delete_root hw _)
  · next hr =>
    rw [if_neg hr] at a2
    refine ⟨r', _, a1, Or.inl rfl, fun k hk => by rw [a2]; exact put_others _ _ _ hk, ?_⟩
    rw [a2, Storages.put_at]
    exact ⟨fun _ => rfl, fun _ _ _ => ⟨rfl, rfl⟩⟩

/-- Two storages: one with a folder "f" and a file "f/a", the other one with a file "b". -/
def demoAcross (room : Nat) : Storages :=
  (Storages.start [0x3000, 0x3001] 0 [{ demoPlace ['/', 's'] true [] with
      disk := .node none ASSOC [(['f'], .node none ASSOC [(['a'], .node none 0x3000 [])])] },
    { demoPlace ['/', 't'] true [['b']] with room := fun _ => room }]).getD ⟨0, fun _ => demoEmpty, [], 0, 0, 0⟩

theorem demoAcross_ok (n : Nat) (h : n = 3 ∨ n = 2 ^ 40) : StoragesOk (demoAcross n) := by
  rcases h with rfl | rfl <;>
  exact C103_start [0x3000, 0x3001] 0 [{ demoPlace ['/', 's'] true [] with
      disk := .node none ASSOC [(['f'], .node none ASSOC [(['a'], .node none 0x3000 [])])] },
    { demoPlace ['/', 't'] true [['b']] with room := fun _ => _ }] (by
    intro c hc
    simp only [List.mem_cons, List.not_mem_nil, or_false] at hc
    rcases hc with rfl | rfl <;>
      exact ⟨⟨_, _, rfl, by decide, trivial⟩, by simp [demoPlace, DiskOk, DisksOk], by simp [demoPlace, DiskNames, DisksNames]⟩)
    (by decide) _ rfl (by unfold HandlesLeft; decide +kernel)

theorem across_items : ((demoAcross (2 ^ 40)).at 0).tree.items =
    [(2, ⟨['/', 's', '/', 'f', '/', 'a'], ['a'], 0x3000, 1, some 1, [], 3⟩),
     (1, ⟨['/', 's', '/', 'f'], ['f'], ASSOC, 0, some 0, [2], 2⟩),
     (0, ⟨['/', 's'], ['s'], ASSOC, 0, none, [1], 1⟩)] := by decide +kernel

theorem across_target : ((demoAcross (2 ^ 40)).at 1).tree.items =
    [(3, ⟨['/', 't', '/', 'b'], ['b'], 0x3000, 0, some 0, [], 5⟩),
     (0, ⟨['/', 't'], ['t'], ASSOC, 0, none, [3], 4⟩)] := by decide +kernel

theorem across_cases {x : Nat} {ix : Item} (h : ((demoAcross (2 ^ 40)).at 0).tree.get x = some ix) :
    (x = 2 ∧ ix = ⟨['/', 's', '/', 'f', '/', 'a'], ['a'], 0x3000, 1, some 1, [], 3⟩) ∨
    (x = 1 ∧ ix = ⟨['/', 's', '/', 'f'], ['f'], ASSOC, 0, some 0, [2], 2⟩) ∨
    (x = 0 ∧ ix = ⟨['/', 's'], ['s'], ASSOC, 0, none, [1], 1⟩) := by
  have := AMap.mem_of_get h
  rw [across_items] at this
  simpa using this

theorem target_cases {x : Nat} {ix : Item} (h : ((demoAcross (2 ^ 40)).at 1).tree.get x = some ix) :
    (x = 3 ∧ ix = ⟨['/', 't', '/', 'b'], ['b'], 0x3000, 0, some 0, [], 5⟩) ∨
    (x = 0 ∧ ix = ⟨['/', 't'], ['t'], ASSOC, 0, none, [3], 4⟩) := by
  have := AMap.mem_of_get h
  rw [across_target] at this
  simpa using this

/-- The folder "f" can be copied to the other storage. -/
theorem C105_witness : Open (demoBoth (demoAcross (2 ^ 40))) ∧ StoragesOk (demoAcross (2 ^ 40)) ∧
    Asking (Toy.cmd 0x101A 8 [1, 0x00010002, 0]) 0x101A ∧ (demoAcross (2 ^ 40)).count = 2 ∧
    cParam (Toy.cmd 0x101A 8 [1, 0x00010002, 0]) 0 = 1 ∧
    cParam (Toy.cmd 0x101A 8 [1, 0x00010002, 0]) 1 = ((demoAcross (2 ^ 40)).at 1).sid ∧
    cParam (Toy.cmd 0x101A 8 [1, 0x00010002, 0]) 2 = 0 ∧
    CopyableAcross ((demoAcross (2 ^ 40)).at 0) ((demoAcross (2 ^ 40)).at 1) 1 0 := by
  have w := demoAcross_ok (2 ^ 40) (Or.inr rfl)
  have e1 : ((demoAcross (2 ^ 40)).at 0).tree.get 1 = some ⟨['/', 's', '/', 'f'], ['f'], ASSOC, 0, some 0, [2], 2⟩ := by decide +kernel
  have e2 : ((demoAcross (2 ^ 40)).at 1).tree.get 0 = some ⟨['/', 't'], ['t'], ASSOC, 0, none, [3], 4⟩ := by decide +kernel
  refine ⟨⟨rfl, rfl, rfl, by decide⟩, w, ⟨by decide +kernel, by decide +kernel⟩, rfl, by decide +kernel, by decide +kernel, by decide +kernel,
    ⟨by decide, ⟨_, _, e1, e2, rfl, ?_, ?_⟩, ?_, ?_, ?_, fun k => rfl, ⟨?_, ?_⟩, by decide +kernel⟩⟩
  · intro x ix h
    rcases target_cases h with ⟨_, rfl⟩ | ⟨_, rfl⟩ <;> decide
  · intro e he
    have h : ((demoAcross (2 ^ 40)).at 1).tree.excl = [] := by decide +kernel
    rw [h] at he; cases he
  · intro x xi _ h
    rcases across_cases h with ⟨_, rfl⟩ | ⟨_, rfl⟩ | ⟨_, rfl⟩ <;> decide +kernel
  · intro x xi _ h hf
    rcases across_cases h with ⟨rfl, rfl⟩ | ⟨_, rfl⟩ | ⟨_, rfl⟩
    · exact ⟨[47, 115, 47, 102, 47, 97], ⟨by decide +kernel, (((demoAcross (2 ^ 40)).at 0).infoOf 2).2, by decide +kernel, by decide +kernel⟩, by decide⟩
    · exact absurd rfl hf
    · exact absurd rfl hf
  · intro x k hb
    obtain ⟨xi, ex⟩ := below_get e1 hb
    have : (((demoAcross (2 ^ 40)).at 0).infoOf x).2.size ≤ 2 ^ 40 := by
      rcases across_cases ex with ⟨rfl, _⟩ | ⟨rfl, _⟩ | ⟨rfl, _⟩ <;> decide +kernel
    exact this
  · exact fun n i => ⟨rfl, by simp [demoAcross, Storages.start, Storages.startList, Storages.startOne, demoPlace, Storages.at, Server.start], by simp [demoAcross, Storages.start, Storages.startList, Storages.startOne, demoPlace, Storages.at, Server.start], rfl⟩
  · exact fun n i => ⟨rfl, by simp [demoAcross, Storages.start, Storages.startList, Storages.startOne, demoPlace, Storages.at, Server.start], by simp [demoAcross, Storages.start, Storages.startList, Storages.startOne, demoPlace, Storages.at, Server.start], rfl⟩

/-- … and the copied file is downloaded then. -/
example : (match Rsp.run Storages.dev (demoBoth (demoAcross (2 ^ 40))) (ask (Toy.cmd 0x101A 8 [1, 0x00010002, 0]) ++ ask (Toy.cmd 0x1009 9 [5])) with
    | .ok r => (dataOf r.out, responses r.out)
    | .ub _ => ([], [])) = ([47, 115, 47, 102, 47, 97], [.response .ok 8 [4], .response .ok 9 []]) := by
  decide +kernel

/-- If the other storage has only three bytes left, the folder is made and the file in it does not fit: StoreFull, and nothing is left. -/
theorem C105_full_witness : ∃ r', StoragesOk (demoBoth (demoAcross 3)).dev ∧
    AnsweredBy Storages.dev (demoBoth (demoAcross 3)) r' (ask (Toy.cmd 0x101A 8 [1, 0x00010002, 0])) (Toy.cmd 0x101A 8 [1, 0x00010002, 0])
      .storeFull [4] ∧ ((demoAcross 3).at 1).dataFile = none ∧ (∀ k, ((demoAcross 3).at 1).tree.fs k = true) ∧ HandlesLeft r'.dev ∧
    r'.dev.asked = 4 ∧ (r'.dev.at 1).tree.has 4 = false := by
  have key : ∃ r', (demoBoth (demoAcross 3)).run Storages.dev (ask (Toy.cmd 0x101A 8 [1, 0x00010002, 0])) = .ok r' ∧
      responses r'.out = [.response .storeFull 8 [4]] ∧ r'.dev.asked = 4 ∧ (r'.dev.at 1).tree.has 4 = false ∧
      r'.st = .idle ∧ r'.req = none ∧ r'.ready = true ∧ r'.session = 1 :=
    ⟨_, rfl, by decide +kernel, by decide +kernel, by decide +kernel, by decide +kernel, by decide +kernel, by decide +kernel, by decide +kernel⟩
  obtain ⟨r', a, b, c, d, e1, e2, e3, e4⟩ := key
  exact ⟨r', demoAcross_ok 3 (Or.inl rfl), ⟨a, ⟨8, by decide +kernel, by rw [b]; rfl⟩, ⟨e1, e2, e3, by omega⟩⟩, by decide +kernel, fun _ => rfl,
    by unfold HandlesLeft; omega, c, d⟩

/-- Two storages, each with a file "x". -/
def demoSame : Storages := (Storages.start [0x3000, 0x3001] 0 [demoPlace ['/', 's'] true [['x']], demoPlace ['/', 't'] true [['x']]]).getD
  ⟨0, fun _ => demoEmpty, [], 0, 0, 0⟩

/-- C105. A file that is copied to a folder of another storage which has a file of that name is written over it: CopyObject is answered OK
with the handle of the file that was there, whose bytes are lost. -/
theorem C105_overwritten_violated : ∃ r', StoragesOk demoSame ∧ contents (demoSame.at 1) 2 = some [47, 116, 47, 120] ∧
    AnsweredBy Storages.dev (demoBoth demoSame) r' (ask (Toy.cmd 0x101A 8 [1, 0x00010002, 0])) (Toy.cmd 0x101A 8 [1, 0x00010002, 0]) .ok [2] ∧
    contents (r'.dev.at 1) 2 = some [47, 115, 47, 120] := by
  have key : ∃ r', (demoBoth demoSame).run Storages.dev (ask (Toy.cmd 0x101A 8 [1, 0x00010002, 0])) = .ok r' ∧
      responses r'.out = [.response .ok 8 [2]] ∧ contents (r'.dev.at 1) 2 = some [47, 115, 47, 120] ∧
      r'.st = .idle ∧ r'.req = none ∧ r'.ready = true ∧ r'.session = 1 :=
    ⟨_, rfl, by decide +kernel, by decide +kernel, by decide +kernel, by decide +kernel, by decide +kernel, by decide +kernel⟩
  obtain ⟨r', a, b, c, e1, e2, e3, e4⟩ := key
  refine ⟨r', ?_, by decide +kernel, ⟨a, ⟨8, by decide +kernel, by rw [b]; rfl⟩, ⟨e1, e2, e3, by omega⟩⟩, c⟩
  exact C103_start [0x3000, 0x3001] 0 [demoPlace ['/', 's'] true [['x']], demoPlace ['/', 't'] true [['x']]] (by
    intro c hc
    simp only [List.mem_cons, List.not_mem_nil, or_false] at hc
    rcases hc with rfl | rfl <;>
      exact ⟨⟨_, _, rfl, by decide, trivial⟩, by simp [demoPlace, DiskOk, DisksOk], by simp [demoPlace, DiskNames, DisksNames]⟩)
    (by decide) _ rfl (by unfold HandlesLeft; decide +kernel)

end Props
