import Verif.Lemmas.RefFile
import Verif.Props.Persist
import Verif.Props.Handles
import Verif.Props.Move
/-! Property theorems C56 and C57 over a restart of the daemon. -/
namespace Props
open Mtp Spec

/-- The file `restart` finds and the directory it enumerates are sane: no separators in entry names, the storage directory
itself is not excluded, and handles do not run out. -/
structure StartOk (pu : AMap Path Nat) (rp : Path) (excl : List Path) (pol : SymPolicy) (fs : Nat → Bool)
    (asked ids : Nat) (link : Option (Option Path)) (fmt : Nat) (es : List (Path × Disk)) : Prop where
  names : DisksOk es
  root : (Tree.empty rp excl pol pu fs asked ids).refused rp link = false
  handles : ((Tree.empty rp excl pol pu fs asked ids).enumerate (.node link fmt es)).asked < 0xFFFFFFFF

/-- The table of `t` can be stored faithfully. -/
def Storable (t : Tree) : Prop := t.puoids.length < 2^32 ∧ ∀ e ∈ t.puoids, EntryOk e

theorem readIds_keys (junk : Nat → UInt8) (largest : Nat) (ids : List (List Char × Nat)) (hl : largest < 2^128)
    (hc : ids.length < 2^32) (hok : ∀ e ∈ ids, EntryOk e) :
    ((readIds junk (storeIds largest ids)).2.map (·.1)).Nodup := by
  have h : readIds junk (storeIds largest ids) = (largest, ids.foldl (fun m e => AMap.insert m e.1 e.2) []) := by
    unfold storeIds
    rw [readIds_header junk hl hc]
    obtain ⟨l', p', _, _, e⟩ := loadIds_entries junk [] 0 ids (leBytes 4 0) (leBytes 16 0) [] (leBytes_length _ _)
      (leBytes_length _ _) hok
    rw [List.append_nil, Nat.add_zero] at e
    rw [e]; rfl
  rw [h]
  have key : ∀ (es : List (List Char × Nat)) (m : AMap (List Char) Nat), (m.map (·.1)).Nodup →
      ((es.foldl (fun m e => AMap.insert m e.1 e.2) m).map (·.1)).Nodup := by
    intro es
    induction es with
    | nil => intro m hm; exact hm
    | cons e es ih => intro m hm; exact ih _ (AMap.nodup_insert hm _ _)
  exact key ids [] List.nodup_nil

/-- The tree after a restart from the stored table. -/
theorem restart_inv {t1 : Tree} (i : IdsInv t1) (st : Storable t1) (junk : Nat → UInt8) {largest : Nat}
    (hl : largest < 2^128) (refFile : List UInt8) {rp : Path} {excl : List Path} {pol : SymPolicy} {fs : Nat → Bool}
    {asked ids : Nat} {link : Option (Option Path)} {fmt : Nat} {es : List (Path × Disk)} (hids : t1.idsAsked ≤ ids)
    (so : StartOk (readIds junk (storeIds largest t1.puoids)).2 rp excl pol fs asked ids link fmt es) :
    TreeWF (restart junk (storeIds largest t1.puoids) refFile rp excl pol fs asked ids (.node link fmt es)).t ∧
    IdsInv (restart junk (storeIds largest t1.puoids) refFile rp excl pol fs asked ids (.node link fmt es)).t ∧
    ∀ h it, (restart junk (storeIds largest t1.puoids) refFile rp excl pol fs asked ids (.node link fmt es)).t.get h = some it →
      ∀ p v, AMap.get t1.puoids p = some v → (it.puoid = v ↔ it.path = p) := by
  obtain ⟨_, hget⟩ := C56_roundtrip_partial junk largest t1.puoids hl st.1 st.2 i.keys
  have hkeys := readIds_keys junk largest t1.puoids hl st.1 st.2
  unfold restart
  dsimp only
  generalize (readIds junk (storeIds largest t1.puoids)).2 = pu at *
  have i0 : IdsInv (Tree.empty rp excl pol pu fs asked ids) :=
    empty_ids (fun p q v hp hq => i.inj p q v (by rw [← hget]; exact hp) (by rw [← hget]; exact hq))
      (fun p v hp => Nat.le_trans (i.bound p v (by rw [← hget]; exact hp)) hids) hkeys
  obtain ⟨w, _⟩ := enumerate_ok rp excl pol pu fs asked ids link fmt es so.names so.root so.handles
  obtain ⟨ie, ke⟩ : IdsInv ((Tree.empty rp excl pol pu fs asked ids).enumerate (.node link fmt es)) ∧
      IdsKept (Tree.empty rp excl pol pu fs asked ids) ((Tree.empty rp excl pol pu fs asked ids).enumerate (.node link fmt es)) :=
    add_ids i0 _ _ _ _ _ _
  generalize (Tree.empty rp excl pol pu fs asked ids).enumerate (.node link fmt es) = te at *
  refine ⟨WF_congr w rfl rfl rfl, dropUnused_ids w ie, ?_⟩
  intro h it e p v hp
  have e : te.get h = some it := e
  have h1 : AMap.get te.puoids p = some v := ke p v (by show AMap.get pu p = _; rw [hget]; exact hp)
  have h2 := ie.own h it e
  constructor
  · rintro rfl; exact ie.inj _ _ _ h2 h1
  · rintro rfl; rw [h2] at h1; cases h1; rfl

/-- C56. Over a restart every object found at a path known before has the id of that path, no other object has it, and the
ids are in order again, so that the same holds for the next restart; for ASCII paths. Missing: other paths
(`C56_non_ascii_violated`); histories with moves, where ids and paths get out of step
(`C14_move_violated`, `C14_rename_folder_violated`). -/
theorem C56_restart_partial {t1 : Tree} (i : IdsInv t1) (st : Storable t1) (junk : Nat → UInt8) {largest : Nat}
    (hl : largest < 2^128) (refFile : List UInt8) {rp : Path} {excl : List Path} {pol : SymPolicy} {fs : Nat → Bool}
    {asked ids : Nat} {link : Option (Option Path)} {fmt : Nat} {es : List (Path × Disk)} (hids : t1.idsAsked ≤ ids)
    (so : StartOk (readIds junk (storeIds largest t1.puoids)).2 rp excl pol fs asked ids link fmt es)
    {r : RefTree} (hr : r = restart junk (storeIds largest t1.puoids) refFile rp excl pol fs asked ids (.node link fmt es)) :
    (∀ h1 it1 h it, t1.get h1 = some it1 → r.t.get h = some it → (it.puoid = it1.puoid ↔ it.path = it1.path)) ∧
    IdsInv r.t := by
  subst hr
  obtain ⟨_, b, c⟩ := restart_inv i st junk hl refFile hids so
  refine ⟨?_, b⟩
  intro h1 it1 h it e1 e
  exact c h it e it1.path it1.puoid (i.own h1 it1 e1)

/-- C56. While the daemon runs, the ids stay in order under every history of additions and deletions by the host and on the
device. Missing: moves and renames of folders (they are violations of C14). -/
theorem C56_run_partial {t : Tree} (w : TreeWF t) (hi : Issued t) (i : IdsInv t) (ops : List Tree.Op) (hh : HistOk t ops)
    (hb : (t.run ops).asked < 0xFFFFFFFF) (hp : ∀ op ∈ ops, PlainOp op) :
    IdsInv (t.run ops) ∧
    ∀ h it h' it', t.get h = some it → (t.run ops).get h' = some it' → it'.path = it.path → it'.puoid = it.puoid := by
  obtain ⟨a, b⟩ := run_ids ops w hi hh hb i hp
  refine ⟨a, ?_⟩
  intro h it h' it' e e' hpath
  have h1 := b _ _ (i.own h it e)
  have h2 := a.own h' it' e'
  rw [hpath, h1] at h2
  exact (Option.some.inj h2).symm

/-! ### References -/

/-- The file (no folder) at path `p`. -/
def fileAt (t : Tree) (p : Path) : Option Nat :=
  (t.findByPath p).bind (fun h => (t.get h).bind (fun it => if it.fmt = ASSOC then none else some h))

theorem p2h_path {t : Tree} (w : TreeWF t) (i : IdsInv t) {v : Nat} {p : Path}
    (hv : ∀ h it, t.get h = some it → (it.puoid = v ↔ it.path = p)) : p2h t v = fileAt t p := by
  cases hp : p2h t v with
  | some h =>
    obtain ⟨it, g, hpu, hf⟩ := (p2h_iff w i v h).mp hp
    have hpath := (hv h it g).mp hpu
    unfold fileAt Tree.findByPath
    rw [← hpath, w.pathOf h it g]
    simp [Tree.has, g, hf]
  | none =>
    unfold fileAt Tree.findByPath
    cases hq : AMap.get t.paths p with
    | none => rfl
    | some h =>
      obtain ⟨it, g, hpath⟩ := w.ofPath p h hq
      have hpu := (hv h it g).mpr hpath
      simp only [Tree.has, g, Option.isSome_some, if_true, Option.bind_some]
      by_cases hf : it.fmt = ASSOC
      · simp [hf]
      · have := (p2h_iff w i v h).mpr ⟨it, g, hpu, hf⟩
        rw [hp] at this; cases this

/-- The references of a file found again, whether it had any or not. -/
theorem restart_refs {s : RefTree} (i : IdsInv s.t) (w1 : TreeWF s.t) (st : Storable s.t) (junk : Nat → UInt8)
    {largest : Nat} (hl : largest < 2^128) {rp : Path} {excl : List Path} {pol : SymPolicy} {fs : Nat → Bool}
    {asked ids : Nat} {link : Option (Option Path)} {fmt : Nat} {es : List (Path × Disk)} (hids : s.t.idsAsked ≤ ids)
    (so : StartOk (readIds junk (storeIds largest s.t.puoids)).2 rp excl pol fs asked ids link fmt es)
    (hk : (s.refs.map (·.1)).Nodup) (hc : s.refs.length < 2^32) (hcs : ∀ e ∈ s.refs, e.2.length < 2^32)
    {r : RefTree} (hr : r = restart junk (storeIds largest s.t.puoids) (storeRefs s) rp excl pol fs asked ids (.node link fmt es))
    {h h2 : Nat} {it it2 : Item} (hg : s.t.get h = some it)
    (hpl : it.fmt ≠ PLAYLIST) (hg2 : r.t.get h2 = some it2) (hpath : it2.path = it.path) (hfile : it2.fmt ≠ ASSOC) :
    AMap.get r.refs h2 = (AMap.get s.refs h).map fun rs => rs.filterMap (fun x => (s.t.get x).bind (fun ix => fileAt r.t ix.path)) := by
  obtain ⟨w, ir, hsame⟩ := restart_inv i st junk hl (storeRefs s) hids so
  have hrefs : r.refs = readRefs (p2h r.t) (storeRefs s) := by rw [hr]; rfl
  rw [← hr] at w ir hsame
  clear hr
  -- what is in the file
  have hinj : ∀ a b x, p2h r.t a = some x → p2h r.t b = some x → a = b := by
    intro a b x ha hb
    obtain ⟨ia, ga, pa, _⟩ := (p2h_iff w ir a x).mp ha
    obtain ⟨ib, gb, pb, _⟩ := (p2h_iff w ir b x).mp hb
    rw [ga] at gb; cases gb; rw [← pa, ← pb]
  have hpub : ∀ x ix, s.t.get x = some ix → ix.puoid < 2^128 := by
    intro x ix e
    exact (st.2 _ (AMap.mem_of_get (i.own x ix e))).2.2.2
  have hmemOk : ∀ e ∈ idRefs s, RefOk e := by
    intro e he
    unfold idRefs at he
    rw [List.mem_filterMap] at he
    obtain ⟨⟨k, l⟩, hm, he⟩ := he
    simp only at he
    split at he
    · cases he
    · next ik gk =>
      split at he
      · cases he
      · cases he
        refine ⟨hpub k ik gk, Nat.lt_of_le_of_lt (List.length_filterMap_le _ _) (hcs _ hm), ?_⟩
        intro v hv
        unfold refIds at hv
        rw [List.mem_filterMap] at hv
        obtain ⟨y, _, hy⟩ := hv
        cases gy : s.t.get y with
        | none => rw [gy] at hy; cases hy
        | some iy => rw [gy] at hy; cases hy; exact hpub y iy gy
  have hlen : (idRefs s).length < 2^32 := Nat.lt_of_le_of_lt (List.length_filterMap_le _ _) hc
  have hnd : ((idRefs s).map (·.1)).Nodup := by
    unfold idRefs
    have key : ∀ (l : List (Nat × List Nat)), (l.map (·.1)).Nodup →
        ((l.filterMap (fun e => match s.t.get e.1 with
          | none => none
          | some it => if it.fmt = PLAYLIST then none else some (it.puoid, refIds s.t e.2))).map (·.1)).Nodup := by
      intro l
      induction l with
      | nil => intro _; exact List.nodup_nil
      | cons e l ih =>
        intro hn
        rw [List.map_cons, List.nodup_cons] at hn
        have := ih hn.2
        rw [List.filterMap_cons]
        split
        · exact this
        · next b hb =>
          rw [List.map_cons, List.nodup_cons]
          refine ⟨?_, this⟩
          intro hm
          rw [List.mem_map] at hm
          obtain ⟨c, hc, hcb⟩ := hm
          rw [List.mem_filterMap] at hc
          obtain ⟨e', he', hec⟩ := hc
          cases g1 : s.t.get e.1 with
          | none => rw [g1] at hb; cases hb
          | some j1 =>
            rw [g1] at hb
            simp only at hb
            split at hb
            · cases hb
            · cases hb
              cases g2 : s.t.get e'.1 with
              | none => rw [g2] at hec; cases hec
              | some j2 =>
                rw [g2] at hec
                simp only at hec
                split at hec
                · cases hec
                · cases hec
                  simp only at hcb
                  have h1 := i.own _ _ g1
                  have h2 := i.own _ _ g2
                  rw [hcb] at h2
                  have hp := i.inj _ _ _ h1 h2
                  have := w1.inj g1 g2 hp
                  exact hn.1 (List.mem_map.mpr ⟨e', he', this.symm⟩)
    exact key s.refs hk
  have hlook : p2h r.t it.puoid = some h2 := by
    rw [p2h_iff w ir]
    refine ⟨it2, hg2, ?_, hfile⟩
    exact (hsame h2 it2 hg2 it.path it.puoid (i.own h it hg)).mpr hpath
  rw [hrefs, storeRefs_eq, readRefs_eq (p2h r.t) (idRefs s) hlen hmemOk]
  cases hrs : AMap.get s.refs h with
  | none =>
    refine (foldl_refPut hinj (idRefs s) [] hnd h2).2 fun e he hle => ?_
    unfold idRefs at he
    rw [List.mem_filterMap] at he
    obtain ⟨⟨k, l⟩, hm, he⟩ := he
    cases gk : s.t.get k with
    | none => simp only [gk] at he; cases he
    | some ik =>
      simp only [gk] at he
      split at he
      · cases he
      · cases he
        have h1 := i.own _ _ gk
        have h2 := i.own _ _ hg
        rw [← (hinj _ _ _ hlook hle : it.puoid = ik.puoid)] at h1
        have := w1.inj gk hg (i.inj _ _ _ h1 h2)
        subst this
        have hsome : (AMap.get s.refs k).isSome = true := by
          have key : ∀ m : AMap Nat (List Nat), (k, l) ∈ m → (AMap.get m k).isSome = true := by
            intro m
            induction m with
            | nil => intro h; cases h
            | cons a m ih =>
              intro h
              unfold AMap.get
              rcases List.mem_cons.mp h with rfl | h
              · simp
              · split
                · rfl
                · exact ih h
          exact key _ hm
        rw [hrs] at hsome
        cases hsome
  | some rs =>
  rw [Option.map_some]
  have hin : (it.puoid, refIds s.t rs) ∈ idRefs s := by
    unfold idRefs
    rw [List.mem_filterMap]
    exact ⟨(h, rs), AMap.mem_of_get hrs, by simp [hg, hpl]⟩
  rw [(foldl_refPut hinj (idRefs s) [] hnd h2).1 _ hin hlook]
  congr 1
  simp only
  unfold refIds
  rw [List.filterMap_filterMap]
  congr 1
  funext x
  cases gx : s.t.get x with
  | none => rfl
  | some ix =>
    simp only [Option.map_some, Option.bind_some]
    exact p2h_path w ir (fun k ik gk => hsame k ik gk ix.path ix.puoid (i.own x ix gx))

/-- C57. Over a restart, every file that had references and is found again at its path has references to exactly those of the
referred objects that are found again as files at their paths, in the same order; for every table and every assignment of
handles in the new run. Missing: folders and playlists (`C57_folder_violated`, `C57_playlist_violated`), several storages
(`C57_shared_file_violated`), non-ASCII paths. -/
theorem C57_restart_partial {s : RefTree} (i : IdsInv s.t) (w1 : TreeWF s.t) (st : Storable s.t) (junk : Nat → UInt8)
    {largest : Nat} (hl : largest < 2^128) {rp : Path} {excl : List Path} {pol : SymPolicy} {fs : Nat → Bool}
    {asked ids : Nat} {link : Option (Option Path)} {fmt : Nat} {es : List (Path × Disk)} (hids : s.t.idsAsked ≤ ids)
    (so : StartOk (readIds junk (storeIds largest s.t.puoids)).2 rp excl pol fs asked ids link fmt es)
    (hk : (s.refs.map (·.1)).Nodup) (hc : s.refs.length < 2^32) (hcs : ∀ e ∈ s.refs, e.2.length < 2^32)
    {r : RefTree} (hr : r = restart junk (storeIds largest s.t.puoids) (storeRefs s) rp excl pol fs asked ids (.node link fmt es))
    {h h2 : Nat} {it it2 : Item} {rs : List Nat} (hg : s.t.get h = some it) (hrs : AMap.get s.refs h = some rs)
    (hpl : it.fmt ≠ PLAYLIST) (hg2 : r.t.get h2 = some it2) (hpath : it2.path = it.path) (hfile : it2.fmt ≠ ASSOC) :
    AMap.get r.refs h2 = some (rs.filterMap (fun x => (s.t.get x).bind (fun ix => fileAt r.t ix.path))) := by
  rw [restart_refs i w1 st junk hl hids so hk hc hcs hr hg hpl hg2 hpath hfile, hrs]
  rfl

/-! ### Witnesses and violations -/

/-- A restart of the demo storage over the same directory, with the files of `s`. -/
def demoRestart (s : RefTree) : RefTree :=
  restart (fun _ => 0) (storeIds 4 s.t.puoids) (storeRefs s) ['/', 's'] [] .denyAll (fun _ => true) 10 4 demoDisk

theorem demo_ids : IdsInv demoTree ∧ Storable demoTree := by
  have h : demoTree.puoids = [("/s/y".toList, 4), ("/s/d/x".toList, 3), ("/s/d".toList, 2), ("/s".toList, 1)] := by
    decide +kernel
  refine ⟨(add_ids (empty_ids (by intro p q v hp; cases hp) (by intro p v hp; cases hp) (by simp)) _ _ _ _ _ _).1, ?_⟩
  unfold Storable
  rw [h]
  refine ⟨by decide, ?_⟩
  intro e he
  have hd : ∀ s : List Char, (∀ c ∈ s, c ∈ ['/', 's', 'd', 'x', 'y']) → Ascii s := by
    intro s hs c hc
    have := hs c hc
    simp only [List.mem_cons, List.not_mem_nil, or_false] at this
    rcases this with rfl | rfl | rfl | rfl | rfl <;> decide
  simp only [List.mem_cons, List.not_mem_nil, or_false] at he
  rcases he with rfl | rfl | rfl | rfl <;> exact ⟨hd _ (by decide), by decide, by decide, by decide⟩

/-- Witness: the hypotheses of the restart theorems are met by the demo storage, with references from "y" to "d/x". -/
theorem C57_witness : StartOk (readIds (fun _ => 0) (storeIds 4 demoTree.puoids)).2 ['/', 's'] [] .denyAll (fun _ => true) 10 4
      none ASSOC [(['d'], .node none ASSOC [(['x'], .node none 0x3000 [])]), (['y'], .node none 0x3004 [])] ∧
    (demoRestart ⟨demoTree, [(3, [2, 77])]⟩).refs = [(13, [12])] ∧
    (demoRestart ⟨demoTree, [(3, [2, 77])]⟩).t.findByPath "/s/y".toList = some 13 ∧
    (demoRestart ⟨demoTree, [(3, [2, 77])]⟩).t.findByPath "/s/d/x".toList = some 12 := by
  refine ⟨⟨by simp [DisksOk, DiskOk], by decide +kernel, by decide +kernel⟩, ?_, ?_, ?_⟩ <;> decide +kernel

/-- C57 is violated for folders: ids of folders are never entered in the table used for reading references back, so neither
references of a folder nor references to a folder survive. -/
theorem C57_folder_violated :
    (demoRestart ⟨demoTree, [(1, [3])]⟩).refs = [] ∧
    (demoRestart ⟨demoTree, [(3, [1])]⟩).refs = [(13, [])] ∧
    (demoRestart ⟨demoTree, [(3, [1])]⟩).t.findByPath "/s/d".toList = some 11 := by
  refine ⟨?_, ?_, ?_⟩ <;> decide +kernel

/-- A storage with a playlist "p" (handle 1) and a file "a" (handle 2). -/
def demoList : Tree := (Tree.empty ['/', 's'] [] .denyAll [] (fun _ => true) 0 0).enumerate
  (.node none ASSOC [(['p'], .node none PLAYLIST []), (['a'], .node none 0x3009 [])])

/-- C57 is violated for playlists, for which references matter most: their references are not written. -/
theorem C57_playlist_violated :
    (RefTree.setRefs ⟨demoList, []⟩ 1 [2]).2 = .ok ∧
    storeRefs (RefTree.setRefs ⟨demoList, []⟩ 1 [2]).1 = leBytes 4 0 := by
  refine ⟨?_, ?_⟩ <;> decide +kernel

/-- C57 is violated with two storages: they use the same file, and the one ending last overwrites the references of the
other, in either order. -/
theorem C57_shared_file_violated :
    let a : RefTree := ⟨demoTree, [(3, [2])]⟩
    let b : RefTree := ⟨demoOther, [(4, [4])]⟩
    readRefs (p2h a.t) (storeAllRefs [a, b]) = [] ∧ readRefs (p2h b.t) (storeAllRefs [b, a]) = [] ∧
    readRefs (p2h a.t) (storeAllRefs [a]) = [(3, [2])] ∧ readRefs (p2h b.t) (storeAllRefs [b]) = [(4, [4])] := by
  refine ⟨?_, ?_, ?_, ?_⟩ <;> decide +kernel

/-- C56, C14: an object created at the path of a deleted one gets the deleted object's id. -/
theorem C14_recreate_violated :
    let t := (demoTree.step (.delete 3 0)).step (.add ⟨['y'], 0x3004, 0⟩ (.node none 0x3004 []))
    (demoTree.get 3).map (·.puoid) = some 4 ∧ (t.get 4).map (fun i => (i.path, i.puoid)) = some ("/s/y".toList, 4) := by
  decide +kernel

end Props
