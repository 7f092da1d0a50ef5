import Verif.Model.Server
import Verif.Spec.Tree
import Verif.Spec.Upload
import Verif.Spec.Datasets
import Verif.Spec.ObjInfo
import Verif.Spec.PropSet
/-! What a host relies on when it talks to a storage with files (C82–C92). -/
namespace Spec
open Mtp

/-- What object `h` holds: the contents of the file at its path. Folders hold nothing. -/
def contents (s : Server) (h : Nat) : Option (List UInt8) :=
  match s.tree.get h with
  | some it => if it.fmt = ASSOC then none else AMap.get s.files (String.ofList it.path)
  | none => none

/-- Objects and disk agree. -/
structure ServerOk (s : Server) : Prop where
  /-- the object tree is well formed (C18) -/
  wf : TreeWF s.tree
  /-- all handles were given out -/
  issued : Issued s.tree
  /-- the root is a folder -/
  root : ∀ r, s.tree.get 0 = some r → r.fmt = ASSOC
  /-- parents are folders -/
  folders : ∀ h it p pit, s.tree.get h = some it → it.parent = some p → s.tree.get p = some pit → pit.fmt = ASSOC
  /-- the files on disk are those of the objects that are no folders -/
  files : ∀ p, (AMap.get s.files p).isSome = true ↔
    ∃ h it, s.tree.get h = some it ∧ it.fmt ≠ ASSOC ∧ String.ofList it.path = p
  /-- something is known about exactly the objects -/
  known : ∀ h, (AMap.get s.infos h).isSome = s.tree.has h
  /-- an open file is a file, or was deleted -/
  openFile : ∀ p n, s.dataFile = some (p, n) → p = "" ∨ (AMap.get s.files p).isSome = true

/-- The responder is between two commands, in a session, and has read its storages. -/
structure Open {D : Type} (r : Rsp D) : Prop where
  idle : r.st = .idle
  none : r.req = none
  ready : r.ready = true
  session : r.session ≠ 0

/-- The command `q` asks for operation `code`. -/
structure Asking (q : List UInt8) (code : Nat) : Prop where
  code : cCode q = code
  tid : cTid q ≠ 0 ∧ cTid q ≠ 0xFFFFFFFF

/-- The bytes a host gets in data phases. -/
def dataOf (out : List Out) : List UInt8 :=
  out.flatMap fun o => match o with
    | .data _ _ p _ => p
    | .more p _ => p
    | _ => []

/-- The inputs `is` (a command `q` and its data, if it has any) were answered with one response: `c`, parameters `ps`. (The
transaction id of most responses is cut to 16 bits, see C36.) -/
structure AnsweredBy {D : Type} (dv : Dev D) (r r' : Rsp D) (is : List (Rsp.In D)) (q : List UInt8) (c : Resp) (ps : List Nat) : Prop where
  run : r.run dv is = .ok r'
  out : ∃ t, t % 2 ^ 16 = cTid q % 2 ^ 16 ∧ responses r'.out = responses r.out ++ [.response c t ps]
  again : Open r'

/-- … by the server with its files. -/
abbrev Answered (r r' : Rsp Server) (is : List (Rsp.In Server)) (q : List UInt8) (c : Resp) (ps : List Nat) : Prop :=
  AnsweredBy Server.dev r r' is q c ps

/-- A command without data from the host. -/
def ask {D : Type} (q : List UInt8) : List (Rsp.In D) := [.packet q true true []]

/-- The operating system neither fails nor loses what it was given to write. -/
def Willing (s : Server) : Prop :=
  ∀ n i, (s.ios n i).openOk = true ∧ (∀ r ∈ (s.ios n i).reads, ∃ k, r = some k ∧ 0 < k) ∧
    (∀ w ∈ (s.ios n i).writes, w ≠ none) ∧ (s.ios n i).lost = 0

/-- The operating system may refuse anything, but does not lose what it took. -/
def Honest (s : Server) : Prop := ∀ n i, (s.ios n i).lost = 0

/-- An announcement (storage, parent and dataset) of a new object that can be created: the storage is this one, the parent a
folder, the name usable and not taken there, and the file system agrees. -/
structure Offer (s : Server) (sid par : Nat) (o : ObjInfo) : Prop where
  storage : (if sid = 0 then 0x00010001 else sid) = s.sid
  name : Server.plain (bom (cut o.fileName)) = true
  folder : ∃ pit, s.tree.get (if par = ALL then 0 else par) = some pit ∧ pit.fmt = ASSOC ∧
    AMap.get s.tree.paths (join pit.path (Server.toPath (bom (cut o.fileName)))) = none ∧
    join pit.path (Server.toPath (bom (cut o.fileName))) ∉ s.tree.excl
  granted : s.tree.fs s.tree.tick = true
  handles : s.tree.asked + 1 < 0xFFFFFFFF

/-- The packets of a data phase whose contents are `data` (the first packet has at least the header). -/
def Carries (bs : List (List UInt8)) (data : List UInt8) : Prop :=
  bs ≠ [] ∧ (∀ b ∈ bs.head?, 12 ≤ b.length) ∧ (bodies true bs).flatten = data ∧ ∀ b ∈ bs, b.length < 2 ^ 31

/-- The packets of a complete container. -/
def CarriesDataset (bs : List (List UInt8)) (c : List UInt8) : Prop :=
  (∃ b ∈ bs.head?, 12 ≤ b.length) ∧ bs.flatten = c

/-- A host uploads a new object: it announces `o` (a file; SendObjectInfo command `q1`, dataset in the packets `bs`), which can be
created, and sends `data`, as many bytes as announced (SendObject command `q2`, packets `ds`). -/
structure Uploading (s : Server) (o : ObjInfo) (data q1 : List UInt8) (bs : List (List UInt8)) (q2 : List UInt8)
    (ds : List (List UInt8)) : Prop where
  fits : ObjInfoFits o
  file : o.format ≠ ASSOC
  size : o.size = data.length
  small : data.length ≤ 0xFFFFFFFF - 12
  announce : Asking q1 0x100C
  offer : Offer s (cParam q1 0) (cParam q1 1) o
  dataset : CarriesDataset bs (dataContainer 0x100C (cTid q1) (encs (objInfoVals o)))
  send : Asking q2 0x100D
  packets : Carries ds data

/-- A host makes a folder: it announces the association `o` (SendObjectInfo command `q`, dataset in the packets `bs`), which can be
created. -/
structure MakingFolder (s : Server) (o : ObjInfo) (q : List UInt8) (bs : List (List UInt8)) : Prop where
  fits : ObjInfoFits o
  folder : o.format = ASSOC
  size : o.size % 2 ^ 32 ≠ 0xFFFFFFFF
  announce : Asking q 0x100C
  offer : Offer s (cParam q 0) (cParam q 1) o
  dataset : CarriesDataset bs (dataContainer 0x100C (cTid q) (encs (objInfoVals o)))

/-- The operations that are there to create, change or delete objects' data: DeleteObject, SendObjectInfo, SendObject,
SendObjectPropList, SendPartialObject, TruncateObject, CopyObject. -/
def changing : List Nat := [0x100B, 0x100C, 0x100D, 0x9808, 0x95C2, 0x95C3, 0x101A]

/-- Everything else that can happen to the responder: commands, data, cancellations, suspends, resets, notifications. -/
def Harmless : Rsp.In Server → Prop
  | .packet b first last _ => first = true → last = true → cCode b ∉ changing
  | .ready _ => False
  | .ev _ => True
  | .notify .. => True
  | .env _ => False

/-- `h` is neither everything, nor `x`, nor a folder `x` is in. -/
def Apart (t : Tree) (h x : Nat) : Prop := h ≠ ALL ∧ ¬ Below t h x

/-- The copy that CopyObject command `q` asks for is neither made in the place of `x` nor in that of a folder `x` is in. -/
def CopiedElsewhere (s : Server) (q : List UInt8) (x : Nat) : Prop :=
  ∀ it pit ix, s.tree.get (cParam q 0) = some it → s.tree.get (cParam q 2) = some pit → s.tree.get x = some ix →
    ¬ Under (join pit.path it.name) ix.path

/-- What happens to the responder `r`, leading to `r'`, does not address object `x`: it is neither deleted, nor edited, nor named by
the device as the object to be uploaded next, nothing is copied onto it or onto a folder it is in, and no transaction is cancelled
while the device waits for the data of an object `x` is in (a cancelled upload is deleted). Everything else may happen: other uploads,
edits, copies and deletions, moves and renames (of `x`, too), suspends, resets, notifications. -/
structure Spares (x : Nat) (r : Rsp Server) (i : Rsp.In Server) (r' : Rsp Server) : Prop where
  delete : ∀ b n, i = .packet b true true n → r.st ≠ .waitData → cCode b = 0x100B → Apart r.dev.tree (cParam b 0) x
  edit : ∀ b n, i = .packet b true true n → r.st ≠ .waitData → cCode b = 0x95C4 → cParam b 0 ≠ x
  copy : ∀ b n, i = .packet b true true n → r.st ≠ .waitData → cCode b = 0x101A → CopiedElsewhere r.dev b x
  upload : ∀ l c t i p, r'.out = r.out ++ l → Out.response c t [i, p, x] ∉ l
  cancel : i = .ev .cancel → (∀ s, r.sendSeq = some s → Apart r.dev.tree s.handle x) ∧
    ∀ p, r.propList = some p → Apart r.dev.tree p.handle x
  others : (∀ n, i ≠ .ready n) ∧ ∀ d, i ≠ .env d

/-- A history all steps of which are such. -/
inductive SparesRun (x : Nat) : Rsp Server → List (Rsp.In Server) → Rsp Server → Prop
  | nil (r : Rsp Server) : SparesRun x r [] r
  | cons {r r1 r' : Rsp Server} {i : Rsp.In Server} {is : List (Rsp.In Server)} : r.step Server.dev i = .ok r1 → Spares x r i r1 →
      SparesRun x r1 is r' → SparesRun x r (i :: is) r'

/-- Object `x` is there, and nobody is about to write to it: no upload to it is announced, it is not being edited, its file is not
open. -/
structure AtRest (x : Nat) (r : Rsp Server) : Prop where
  there : r.dev.tree.has x = true
  noRoot : x ≠ 0
  seq : ∀ s, r.sendSeq = some s → s.handle ≠ x
  list : ∀ p, r.propList = some p → p.handle ≠ x
  edit : ∀ e, r.edit = some e → e.handle ≠ x
  file : ∀ it p n, r.dev.tree.get x = some it → it.fmt ≠ ASSOC → r.dev.dataFile = some (p, n) → p ≠ String.ofList it.path

/-- Object `h` can be moved into folder `p`: both exist, the name is not taken there, `p` is not in `h`, and the file system agrees. -/
structure Movable (s : Server) (h p : Nat) : Prop where
  free : ∃ it pit, s.tree.get h = some it ∧ s.tree.get p = some pit ∧ pit.fmt = ASSOC ∧
    AMap.get s.tree.paths (join pit.path it.name) = none
  apart : ¬ Below s.tree h p
  granted : s.tree.fs s.tree.tick = true

/-- Object `h`, not the root, can be named `n`: no forbidden character, not only dots, not taken in its folder, and the file system
agrees. -/
structure Renamable (s : Server) (h : Nat) (n : QStr) : Prop where
  name : Server.plain n = true
  chars : ∀ c ∈ Server.toPath n, ¬ BadChar c
  dots : ∃ c ∈ Server.toPath n, c ≠ '.'
  free : ∃ it p pit, s.tree.get h = some it ∧ it.parent = some p ∧ s.tree.get p = some pit ∧
    AMap.get s.tree.paths (join pit.path (Server.toPath n)) = none
  granted : s.tree.fs s.tree.tick = true

/-- Object `h` is in folder `p` now and named `n`; nothing else is different: neither what is told about it and all the others, nor
what any object holds, nor which objects there are. -/
structure Placed (s s' : Server) (h p : Nat) (n : QStr) : Prop where
  sid : s'.sid = s.sid
  ok : ServerOk s'
  known : (s.infoOf h).1 = .ok
  told : s'.infoOf h = (.ok, { (s.infoOf h).2 with fileName := n, parent := p })
  others : ∀ x, x ≠ h → s'.infoOf x = s.infoOf x
  same : ∀ x, s'.tree.has x = s.tree.has x
  contents : ∀ x, contents s' x = contents s x
  folder : ∀ it, s'.tree.get h = some it → it.parent = some p

/-- Object `h` is a file with contents `c`, and the device says it has that many bytes. -/
structure Holds (s : Server) (h : Nat) (c : List UInt8) : Prop where
  contents : contents s h = some c
  told : ∃ o, s.infoOf h = (.ok, o) ∧ o.size = c.length

/-- Nothing a host can ask for is different. -/
structure Unchanged (s s' : Server) : Prop where
  sid : s'.sid = s.sid
  ok : ServerOk s'
  objects : ∀ x, s'.tree.has x = s.tree.has x
  contents : ∀ x, contents s' x = contents s x
  told : ∀ x, s'.infoOf x = s.infoOf x

/-- An instant that can be written as a date and read back: of the years 1900 to 9999, in a zone with an offset of whole minutes below
a day, with a local time from which the instant is found again; not the second before 1970, which stands for "no date". -/
structure Readable (z : Zone) (t : Int) : Prop where
  offset : (z.off t).natAbs < 86400
  minutes : z.off t % 60 = 0
  found : z.mktime (t + z.off t) = t
  from1900 : -2208988800 ≤ t + z.off t
  to9999 : t + z.off t < 253402300800
  some_ : t ≠ -1

/-- `d` is the date of a file that was created to have date `d0`, and written; each time the device gives the file the date it knew
before, if it can. -/
inductive Stamped (t : Times) (d0 : QStr) : QStr → Prop
  | created (n : Nat) : Stamped t d0 (t.stamp n d0)
  | again (n : Nat) (d : QStr) : Stamped t d0 d → Stamped t d0 (t.stamp n d)

/-- What is known about an object is the same, or the same with the dates its file has after being written. -/
def Redated (t : Times) (o o' : ObjInfo) : Prop :=
  o' = o ∨ ∃ d, Stamped t o.modDate d ∧ o' = { o with captureDate := d, modDate := d }

/-- Object `h` holds `c'` now, and the device says so; nothing else is different (except the dates of `h`). -/
structure EditedTo (s s' : Server) (h : Nat) (c' : List UInt8) : Prop where
  sid : s'.sid = s.sid
  ok : ServerOk s'
  objects : ∀ x, s'.tree.get x = s.tree.get x
  contents : Spec.contents s' h = some c'
  times : s'.times = s.times
  told : ∃ o, Redated s.times (s.infoOf h).2 o ∧ s'.infoOf h = (.ok, { o with size := c'.length })
  others : ∀ x, x ≠ h → Spec.contents s' x = Spec.contents s x ∧ s'.infoOf x = s.infoOf x

end Spec
