import Verif.Lemmas.Labels
/-!
C58: exported storages have distinct labels and paths. C61: every configured directory is exported.
-/
namespace Props
open Mtp

/-- C58. For all configuration files, directories, mounts and device labels: no two exported storages have the same path or
the same label, and their ids are consecutive from the first one given. Missing: the same directory written differently
(`C58_slash_violated`). -/
theorem C58_distinct_partial (w : ExportWorld) (start : Nat) (cs : List StoreConf) :
    ((createStorages w start cs).map (·.path)).Nodup ∧ ((createStorages w start cs).map (·.label)).Nodup ∧
    (createStorages w start cs).map (·.id) = List.range' start (createStorages w start cs).length := by
  have key : ∀ (cs : List StoreConf) (s : ExportState), s.Ok start → (cs.foldl (exportConf w) s).Ok start := by
    intro cs
    induction cs with
    | nil => exact fun s h => h
    | cons c r ih => exact fun s h => ih _ (exportConf_ok w h c)
  have h := key cs ⟨start, [], [], []⟩ ⟨rfl, rfl, rfl, rfl, List.nodup_nil, List.nodup_nil⟩
  unfold createStorages
  exact ⟨by rw [h.paths]; exact (List.reverse_perm _).nodup_iff.mpr h.nodupP, by rw [h.labels]; exact (List.reverse_perm _).nodup_iff.mpr h.nodupL, h.ids⟩

/-- The directories a configuration file asks for: those matching its path pattern, or the mount points of its device. -/
def AsksFor (w : ExportWorld) (c : StoreConf) (p : List Char) : Prop :=
  c.isStorage = true ∧ c.name.isSome ∧ c.description.isSome ∧
  ((∃ pat, c.path = some pat ∧ c.blockdev = none ∧ (p, true) ∈ w.glob (w.expand pat)) ∨
   (∃ b ms dev, c.path = none ∧ c.blockdev = some b ∧ w.mounts = some ms ∧ (p, dev) ∈ ms ∧ b <+: dev))

/-- The candidates of a configuration are the directories it asks for that are not exported yet. -/
theorem C61_candidates (w : ExportWorld) (exported : List (List Char)) (c : StoreConf) (p : List Char) :
    p ∈ (confLabels w exported c).map (·.1) ↔ AsksFor w c p ∧ p ∉ exported := by
  obtain ⟨i, cp, cb, cn, cd⟩ := c
  unfold confLabels AsksFor
  cases i
  · simp
  · cases cp <;> cases cb <;> cases cn <;> cases cd <;> simp [-List.mem_map]
    · cases hm : w.mounts with
      | none => simp
      | some ms =>
        simp only [mountLabels_mem]
        simp
    · simp only [globLabels_mem]
      simp

/-- C61. Processing a configuration file exports every directory it asks for that is not exported yet, exactly once; for
every state, if the labels have no percent sign and no label to be added or already in use is a label to be added followed
by a space and a number. Missing: other labels (`C61_seventh_violated`). -/
theorem C61_exported_partial (w : ExportWorld) (s : ExportState) (c : StoreConf)
    (hp : ∀ e ∈ confLabels w s.exported c, '%' ∉ e.2)
    (hfree : ∀ e ∈ confLabels w s.exported c, ∀ e' ∈ confLabels w s.exported c, ∀ k, e'.2 ≠ e.2 ++ ' ' :: decDigits k)
    (hres : ∀ e ∈ confLabels w s.exported c, ∀ k, e.2 ++ ' ' :: decDigits k ∉ s.reserved) :
    ∃ add, (exportConf w s c).result = s.result ++ add ∧ (add.map (·.path)).Nodup ∧
      ∀ p, p ∈ add.map (·.path) ↔ AsksFor w c p ∧ p ∉ s.exported := by
  obtain ⟨a, b⟩ := makeLabelsUnique_free s.reserved _ hp hfree hres
  obtain ⟨n1, n2⟩ := confLabels_new w s.exported c
  have hpaths := uniqueFrom_paths s.reserved 0 5 (confLabels w s.exported c)
  have hall := exportAll_all (makeLabelsUnique s.reserved (confLabels w s.exported c)) s
    (by unfold makeLabelsUnique; rw [hpaths]; exact n1)
    (by
      intro e he
      have : e.1 ∈ (makeLabelsUnique s.reserved (confLabels w s.exported c)).map (·.1) := List.mem_map.mpr ⟨e, he, rfl⟩
      unfold makeLabelsUnique at this
      rw [hpaths] at this
      obtain ⟨e', he', e1⟩ := List.mem_map.mp this
      exact e1 ▸ n2 e' he')
    a b
  obtain ⟨add, h1, h2⟩ := exportAll_sub (makeLabelsUnique s.reserved (confLabels w s.exported c)) s
  have hadd : add.map (·.path) = (confLabels w s.exported c).map (·.1) := by
    rw [h1, List.map_append, List.append_cancel_left_eq] at hall
    rw [← hpaths]
    show _ = (makeLabelsUnique _ _).map _
    rw [← hall, List.map_map]; rfl
  refine ⟨add, h1, by rw [hadd]; exact n1, fun p => ?_⟩
  rw [hadd]
  exact C61_candidates w s.exported c p

/-- C61. In every state, the label of a newly exported directory starts with the label configured for it, if the configured
labels have no percent sign. -/
theorem C61_label_partial (w : ExportWorld) (s : ExportState) (c : StoreConf)
    (hp : ∀ e ∈ confLabels w s.exported c, '%' ∉ e.2) :
    ∃ add, (exportConf w s c).result = s.result ++ add ∧
      ∀ x ∈ add, ∃ l, (x.path, l) ∈ confLabels w s.exported c ∧ l <+: x.label := by
  obtain ⟨add, h1, h2⟩ := exportAll_sub (makeLabelsUnique s.reserved (confLabels w s.exported c)) s
  exact ⟨add, h1, fun x hx => uniqueFrom_prefix s.reserved 0 5 _ hp _ (h2 x hx)⟩

/-- C61. Labels that are different and unused are kept as configured. -/
theorem C61_kept (w : ExportWorld) (s : ExportState) (c : StoreConf)
    (h1 : ((confLabels w s.exported c).map (·.2)).Nodup) (h2 : ∀ e ∈ confLabels w s.exported c, e.2 ∉ s.reserved) :
    (exportConf w s c).result.map (fun x => (x.path, x.label)) =
      s.result.map (fun x => (x.path, x.label)) ++ confLabels w s.exported c := by
  obtain ⟨n1, n2⟩ := confLabels_new w s.exported c
  unfold exportConf makeLabelsUnique
  rw [uniqueFrom_of_free _ _ _ _ h1 h2]
  exact exportAll_all _ _ n1 n2 h1 h2

/-- A world with two memory cards and a few plain directories. -/
def demoWorld : ExportWorld where
  expand := id
  glob := fun p => if p = "/media/*".toList then [("/media/a".toList, true), ("/media/b".toList, true)] else [(p, true)]
  mounts := none
  genLabel := fun _ => "Card".toList
  lt := fun a b => decide (a.length < b.length)

/-- A configuration file for one pattern. -/
def demoConf (pat desc : String) : StoreConf := ⟨true, some pat.toList, none, some ['n'], some desc.toList⟩

/-- Witness: two cards with the same label are both exported, numbered; a third storage keeps its label. -/
theorem C61_witness :
    (createStorages demoWorld 5 [demoConf "/home/u" "Phone", demoConf "/media/*" ""]).map (fun x => (x.id, x.path, x.label)) =
      [(5, "/home/u".toList, "Phone".toList), (6, "/media/a".toList, "Card 1".toList), (7, "/media/b".toList, "Card 2".toList)] := by
  decide +kernel

/-- Witness: the hypotheses of `C61_exported_partial` are met by two cards with the same label beside a storage "Phone". -/
theorem C61_exported_witness :
    let s : ExportState := ⟨6, ["/home/u".toList], ["Phone".toList], [⟨5, "/home/u".toList, "Phone".toList⟩]⟩
    let l := confLabels demoWorld s.exported (demoConf "/media/*" "")
    l.map (·.2) = ["Card".toList, "Card".toList] ∧ (∀ e ∈ l, '%' ∉ e.2) ∧
    (∀ e ∈ l, ∀ e' ∈ l, ∀ k, e'.2 ≠ e.2 ++ ' ' :: decDigits k) ∧ ∀ e ∈ l, ∀ k, e.2 ++ ' ' :: decDigits k ∉ s.reserved := by
  intro s l
  have hl : l = [("/media/a".toList, "Card".toList), ("/media/b".toList, "Card".toList)] := by decide +kernel
  rw [hl]
  refine ⟨rfl, by decide, ?_, ?_⟩
  · intro e he e' he' k h
    have a : e.2 = "Card".toList := by
      simp only [List.mem_cons, List.not_mem_nil, or_false] at he; rcases he with rfl | rfl <;> rfl
    have b : e'.2 = "Card".toList := by
      simp only [List.mem_cons, List.not_mem_nil, or_false] at he'; rcases he' with rfl | rfl <;> rfl
    rw [a, b] at h
    have := congrArg List.length h
    simp at this
  · intro e he k h
    have a : e.2 = "Card".toList := by
      simp only [List.mem_cons, List.not_mem_nil, or_false] at he; rcases he with rfl | rfl <;> rfl
    rw [a] at h
    simp only [s, List.mem_singleton] at h
    have := congrArg List.head? h
    simp at this

/-- C58 is violated if paths are read as places: a directory written with and without a final slash is exported twice. -/
theorem C58_slash_violated :
    (createStorages demoWorld 0 [demoConf "/home/u" "A", demoConf "/home/u/" "B"]).map (·.path) =
      ["/home/u".toList, "/home/u/".toList] := by decide +kernel

/-- C61 is violated: of seven configuration files with the same description, for seven different directories, only six are
exported. -/
theorem C61_seventh_violated :
    (createStorages demoWorld 0
      ((["/1", "/2", "/3", "/4", "/5", "/6", "/7"]).map (fun p => demoConf p "Card"))).map (fun x => (x.path, x.label)) =
    [("/1".toList, "Card".toList), ("/2".toList, "Card 1".toList), ("/3".toList, "Card 1.1".toList),
     ("/4".toList, "Card 1.1.1".toList), ("/5".toList, "Card 1.1.1.1".toList), ("/6".toList, "Card 1.1.1.1.1".toList)] := by
  decide +kernel

/-- C61 is violated for labels with a percent sign: the number replaces part of the label. -/
theorem C61_percent_violated :
    (createStorages demoWorld 0 [demoConf "/1" "a%1b", demoConf "/2" "a%1b"]).map (·.label) =
      ["a%1b".toList, "a1b %2".toList] := by decide +kernel

end Props
