import Verif.Model.Decimal
/-!
Which directories are exported as storages, and under which labels
(mts/platform/storage/fsstorageplugin/fsstoragepluginfactory.cpp).

Texts are lists of characters. The outside world (result of `glob`, mounted filesystems, device labels from udisks,
user name and home directory) is a parameter.
-/
namespace Mtp

/-- A place marker at the start of a text: its number and length (`findArgEscapes` of Qt: `%`, optionally `L`, one or two
digits). -/
def escAt (s : List Char) : Option (Nat × Nat) :=
  match s with
  | '%' :: r =>
    let l := if r.head? = some 'L' then 1 else 0
    match r.drop l with
    | [] => none
    | d :: r' =>
      match digitVal d with
      | none => none
      | some a =>
        match r'.head?.bind digitVal with
        | some b => some (10 * a + b, l + 3)
        | none => some (a, l + 2)
  | _ => none

/-- A text cut into characters and place markers; the first argument counts the characters still belonging to a marker. -/
def argToks : Nat → List Char → List (Char ⊕ Nat × List Char)
  | _, [] => []
  | k + 1, _ :: r => argToks k r
  | 0, c :: r =>
    match escAt (c :: r) with
    | some (n, len) => .inr (n, (c :: r).take len) :: argToks (len - 1) r
    | none => .inl c :: argToks 0 r

/-- Least of a list of numbers. -/
def leastOf : List Nat → Option Nat
  | [] => none
  | x :: r => match leastOf r with | none => some x | some y => some (min x y)

/-- Number of a marker. -/
def tokNum : Char ⊕ Nat × List Char → Option Nat
  | .inl _ => none
  | .inr (n, _) => some n

/-- Text of a token when the markers numbered `m` become `a`. -/
def tokText (m : Nat) (a : List Char) : Char ⊕ Nat × List Char → List Char
  | .inl c => [c]
  | .inr (n, raw) => if n = m then a else raw

/-- `QString::arg`: all markers with the lowest number are replaced by the text `a`. `%L` with a number is not localised. -/
def qArg (s a : List Char) : List Char :=
  match leastOf ((argToks 0 s).filterMap tokNum) with
  | none => s
  | some m => (argToks 0 s).flatMap (tokText m a)

/-- The changed label of fsstoragepluginfactory.cpp:158-161. -/
def numberedLabel (iter : Nat) (label : List Char) (index : Nat) : List Char :=
  qArg (qArg (if iter = 0 then ['%', '1', ' ', '%', '2'] else ['%', '1', '.', '%', '2']) label) (decDigits index)

/-- A directory and its label; `pathLabels`, a `QMap`, is a list in key order. -/
abbrev PathLabel := List Char × List Char

/-- `labelCount[label]` (lines 137-148): labels in use and labels to be added. -/
def labelCount (reserved : List (List Char)) (pl : List PathLabel) (l : List Char) : Nat :=
  reserved.count l + (pl.map (·.2)).count l

/-- Lines 151-162: conflicting labels get a running number. `seen` are the original labels of the entries changed so far. -/
def renumber (iter : Nat) (cnt : List Char → Nat) : List (List Char) → List PathLabel → List PathLabel
  | _, [] => []
  | seen, (p, l) :: r =>
    if cnt l < 2 then (p, l) :: renumber iter cnt seen r
    else (p, numberedLabel iter l (seen.count l + 1)) :: renumber iter cnt (l :: seen) r

/-- The loop of `makeLabelsUnique` (lines 124-163), from iteration `iter` with `n` iterations left. -/
def uniqueFrom (reserved : List (List Char)) : Nat → Nat → List PathLabel → List PathLabel
  | _, 0, pl => pl
  | iter, n + 1, pl =>
    if pl.all (fun e => labelCount reserved pl e.2 < 2) then pl
    else uniqueFrom reserved (iter + 1) n (renumber iter (labelCount reserved pl) [] pl)

/-- `makeLabelsUnique` (lines 124-163). -/
def makeLabelsUnique (reserved : List (List Char)) (pl : List PathLabel) : List PathLabel := uniqueFrom reserved 0 5 pl

/-- One configuration file (lines 171-237); `none` for a missing attribute. Blacklists are in the storage model. -/
structure StoreConf where
  /-- Top element is `storage`. -/
  isStorage : Bool
  path : Option (List Char)
  blockdev : Option (List Char)
  name : Option (List Char)
  description : Option (List Char)

/-- The outside world. -/
structure ExportWorld where
  /-- Replacement of `%u` and `%h` (lines 246-253). -/
  expand : List Char → List Char
  /-- `glob`: matching names, and whether `lstat` finds a directory there. -/
  glob : List Char → List (List Char × Bool)
  /-- Mounted filesystems: directory and device; `none` if the table cannot be read. -/
  mounts : Option (List (List Char × List Char))
  /-- `generateLabel` (lines 108-121). -/
  genLabel : List Char → List Char
  /-- Order of `QMap` keys. -/
  lt : List Char → List Char → Bool

/-- Insertion in key order, for a new key. -/
def insertKey (lt : List Char → List Char → Bool) (p l : List Char) : List PathLabel → List PathLabel
  | [] => [(p, l)]
  | e :: r => if lt p e.1 then (p, l) :: e :: r else e :: insertKey lt p l r

/-- The glob loop (lines 261-283): only the first directory gets the description. -/
def globLabels (w : ExportWorld) (exported : List (List Char)) :
    List (List Char × Bool) → List Char → List PathLabel → List PathLabel
  | [], _, pl => pl
  | (p, isDir) :: r, desc, pl =>
    if !isDir then globLabels w exported r desc pl
    else if pl.any (fun e => e.1 == p) || exported.contains p then globLabels w exported r desc pl
    else globLabels w exported r [] (insertKey w.lt p (if desc.isEmpty then w.genLabel p else desc) pl)

/-- The mount table loop (lines 291-308). -/
def mountLabels (w : ExportWorld) (exported : List (List Char)) (blockdev description : List Char) :
    List (List Char × List Char) → List PathLabel → List PathLabel
  | [], pl => pl
  | (p, dev) :: r, pl =>
    if pl.any (fun e => e.1 == p) || exported.contains p then mountLabels w exported blockdev description r pl
    else if blockdev.isPrefixOf dev then
      let rest := dev.drop blockdev.length
      let desc := if !rest.isEmpty && rest != ['p', '1'] then description ++ [' '] ++ rest else description
      mountLabels w exported blockdev description r (insertKey w.lt p desc pl)
    else mountLabels w exported blockdev description r pl

/-- Directories of one configuration with their labels before `makeLabelsUnique` (lines 184-309); `[]` for an unusable
configuration. -/
def confLabels (w : ExportWorld) (exported : List (List Char)) (c : StoreConf) : List PathLabel :=
  if !c.isStorage then [] else
  match c.path, c.blockdev, c.name, c.description with
  | some pat, none, some _, some d =>
    let pat := w.expand pat
    globLabels w exported (w.glob pat) (if !pat.contains '*' && !pat.contains '?' then d else []) []
  | none, some b, some _, some d =>
    match w.mounts with
    | none => []
    | some ms => mountLabels w exported b d ms []
  | _, _, _, _ => []

/-- An exported storage. -/
structure Exported where
  id : Nat
  path : List Char
  label : List Char

/-- State of `create`: `alreadyExported`, `reservedLabels` and `result` in order of creation. -/
structure ExportState where
  next : Nat
  exported : List (List Char)
  reserved : List (List Char)
  result : List Exported

/-- The export loop (lines 313-341). -/
def exportAll : List PathLabel → ExportState → ExportState
  | [], s => s
  | (p, l) :: r, s =>
    if s.exported.contains p then exportAll r s
    else if s.reserved.contains l then exportAll r s
    else exportAll r ⟨s.next + 1, p :: s.exported, l :: s.reserved, s.result ++ [⟨s.next, p, l⟩]⟩

/-- One configuration file in `create` (lines 171-342). -/
def exportConf (w : ExportWorld) (s : ExportState) (c : StoreConf) : ExportState :=
  exportAll (makeLabelsUnique s.reserved (confLabels w s.exported c)) s

/-- `FSStoragePluginFactory::create` (lines 166-344). -/
def createStorages (w : ExportWorld) (storageId : Nat) (cs : List StoreConf) : List Exported :=
  (cs.foldl (exportConf w) ⟨storageId, [], [], []⟩).result

end Mtp
