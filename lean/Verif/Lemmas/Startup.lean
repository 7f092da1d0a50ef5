import Verif.Lemmas.TreeShown
import Verif.Lemmas.ServerAnswers
import Verif.Model.Startup
/-! The state of the device after its start. -/
namespace Mtp
namespace Server
open Spec

theorem shown_root {excl pol rp p d f} (h : Shown excl pol rp p d p f) {l f' es} (hd : d = .node l f' es) : f = f' := by
  generalize hq : p = q at h
  have := shown_under h
  cases h with
  | self => cases hd; rfl
  | inside _ _ hs =>
    have := (shown_under hs).length
    rw [← hq, join_length] at this
    omega

theorem start_files (sid : Nat) (fmts : List Nat) (caps : DevCaps) (t : Tree) (d : Disk) (k : DiskFacts) (ios : Nat → Nat → FileIO)
    (alloc : Nat → Bool) (room : Nat → Nat) (times : Times) (p : String) :
    ((AMap.get (start sid fmts caps t d k ios alloc room times).files p).isSome = true ↔
      ∃ h it, (h, it) ∈ (t.enumerate d).items ∧ it.fmt ≠ ASSOC ∧ String.ofList it.path = p) ∧
    ∀ c, AMap.get (start sid fmts caps t d k ios alloc room times).files p = some c → c = k.bytes p.toList := by
  unfold start
  simp only
  constructor
  · rw [AMap.get_isSome_iff]
    constructor
    · rintro ⟨v, hv⟩
      obtain ⟨⟨h, it⟩, hm, he⟩ := List.mem_filterMap.mp hv
      dsimp only at he
      split at he
      · cases he
      · next hf => cases he; exact ⟨h, it, hm, hf, rfl⟩
    · rintro ⟨h, it, hm, hf, rfl⟩
      exact ⟨k.bytes it.path, List.mem_filterMap.mpr ⟨(h, it), hm, by simp [hf]⟩⟩
  · intro c hc
    obtain ⟨⟨h, it⟩, hm, he⟩ := List.mem_filterMap.mp (AMap.mem_of_get hc)
    dsimp only at he
    split at he
    · cases he
    · cases he; simp

theorem start_infos (sid : Nat) (fmts : List Nat) (caps : DevCaps) (t : Tree) (d : Disk) (k : DiskFacts) (ios : Nat → Nat → FileIO)
    (alloc : Nat → Bool) (room : Nat → Nat) (times : Times) (h : Nat) :
    AMap.get (start sid fmts caps t d k ios alloc room times).infos h = ((t.enumerate d).get h).map (startInfo sid k) := by
  unfold start Tree.get
  simp only
  rw [AMap.get_mapVal (fun _ (it : Item) => startInfo sid k it)]

theorem get_of_mem {t : Tree} (w : TreeWF t) {h : Nat} {it : Item} (hm : (h, it) ∈ t.items) : t.get h = some it := by
  have : ∀ (m : AMap Nat Item), (m.map (·.1)).Nodup → (h, it) ∈ m → AMap.get m h = some it := by
    intro m
    induction m with
    | nil => intro _ hm; cases hm
    | cons e m ih =>
      intro hn hm
      obtain ⟨a, b⟩ := e
      simp only [List.map_cons, List.nodup_cons] at hn
      unfold AMap.get
      rcases List.mem_cons.mp hm with e | e
      · cases e; simp
      · have : h ≠ a := fun e' => hn.1 (e' ▸ List.mem_map.mpr ⟨_, e, rfl⟩)
        have := ih hn.2 e
        simp_all
  exact this t.items w.nodup hm

section
variable {rp : Path} {excl : List Path} {pol : SymPolicy} {pu : AMap Path Nat} {fs : Nat → Bool} {asked ids : Nat}
  {link : Option (Option Path)} {es : List (Path × Disk)}

theorem start_ok (sid : Nat) (fmts : List Nat) (caps : DevCaps) (k : DiskFacts) (ios : Nat → Nat → FileIO) (alloc : Nat → Bool) (room : Nat → Nat) (times : Times)
    (hd : DiskOk (.node link ASSOC es)) (hu : DiskNames (.node link ASSOC es)) (hm : MayShow excl pol rp rp link)
    (hb : ((Tree.empty rp excl pol pu fs asked ids).enumerate (.node link ASSOC es)).asked < 0xFFFFFFFF) :
    ServerOk (start sid fmts caps (Tree.empty rp excl pol pu fs asked ids) (.node link ASSOC es) k ios alloc room times) := by
  have hr := (mayShow_iff (Tree.empty rp excl pol pu fs asked ids) rp link).mpr hm
  obtain ⟨w, hi⟩ := enumerate_ok rp excl pol pu fs asked ids link ASSOC es (by rw [DiskOk] at hd; exact hd) hr hb
  have sh := enumerate_shown rp excl pol pu fs asked ids _ hd hu hb
  have hrp : ((Tree.empty rp excl pol pu fs asked ids).enumerate (.node link ASSOC es)).rootPath = rp := by
    unfold Tree.enumerate
    exact (Props.add_at _ _ _ _ _ _ _).1.2.2
  have sf := start_files sid fmts caps (Tree.empty rp excl pol pu fs asked ids) (.node link ASSOC es) k ios alloc room times
  have si := start_infos sid fmts caps (Tree.empty rp excl pol pu fs asked ids) (.node link ASSOC es) k ios alloc room times
  have st : (start sid fmts caps (Tree.empty rp excl pol pu fs asked ids) (.node link ASSOC es) k ios alloc room times).tree =
    ((Tree.empty rp excl pol pu fs asked ids).enumerate (.node link ASSOC es)).dropUnused := rfl
  have sdf : (start sid fmts caps (Tree.empty rp excl pol pu fs asked ids) (.node link ASSOC es) k ios alloc room times).dataFile = none := rfl
  generalize start sid fmts caps (Tree.empty rp excl pol pu fs asked ids) (.node link ASSOC es) k ios alloc room times = s at *
  generalize (Tree.empty rp excl pol pu fs asked ids).enumerate (.node link ASSOC es) = t at *
  have gt : ∀ x, s.tree.get x = t.get x := fun x => by rw [st]; rfl
  refine ⟨by rw [st]; exact WF_congr w rfl rfl rfl, by rw [st]; exact hi, ?_, ?_, ?_, ?_, ?_⟩
  · intro r hr
    rw [gt] at hr
    obtain ⟨r', h1, h2, _⟩ := w.root
    rw [h1] at hr; cases hr
    have := (sh rp r.fmt).mp ⟨0, r, h1, h2.trans hrp, rfl⟩
    exact shown_root this rfl
  · intro h it p pit e1 e2 e3
    rw [gt] at e1 e3
    have h0 : h ≠ 0 := by
      rintro rfl
      obtain ⟨r', h1, _, h3⟩ := w.root
      rw [h1] at e1; cases e1
      rw [h3] at e2; cases e2
    obtain ⟨p', pit', f1, _, f3, _, f5, f6⟩ := w.parent h it e1 h0
    rw [e2] at f1; cases f1
    rw [e3] at f3; cases f3
    have hs := (sh it.path it.fmt).mp ⟨h, it, e1, rfl, rfl⟩
    rcases shown_parent hs hd with e | ⟨q', n, e, hn, hs'⟩
    · have := (w.under_root e3).length
      rw [hrp] at this
      rw [f5] at e
      have := congrArg List.length e
      rw [join_length] at this
      omega
    · rw [f5] at e
      obtain ⟨y, iy, g1, g2, g3⟩ := (sh q' ASSOC).mpr hs'
      have : pit.path = q' := by
        have := join_inj e f6 hn
        exact this.1
      have hy : y = p := by
        have a := w.pathOf y iy g1
        have b := w.pathOf p pit e3
        rw [g2, ← this, b] at a
        exact (Option.some.inj a).symm
      subst hy
      rw [e3] at g1; cases g1
      exact g3
  · intro p
    rw [(sf p).1]
    constructor
    · rintro ⟨h, it, hm, hf, hp⟩
      exact ⟨h, it, (gt h).trans (get_of_mem w hm), hf, hp⟩
    · rintro ⟨h, it, e, hf, hp⟩
      rw [gt] at e
      exact ⟨h, it, AMap.mem_of_get e, hf, hp⟩
  · intro h
    rw [si]
    unfold Tree.has
    rw [gt]
    cases t.get h <;> rfl
  · intro p n e
    rw [sdf] at e; cases e

end
end Server
end Mtp
