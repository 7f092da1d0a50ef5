import Verif.Model.TreeQuery
/-!
The files kept over a restart: persistent ids (fsstorageplugin.cpp:518-655) and object references
(fsstorageplugin.cpp:2455-2603).

Files are byte lists. Raw memory of integers is little-endian (as everywhere in the model). Write errors, which empty the
file, are not modelled; a file cut off anywhere is. The order of a Qt hash is the order of the list.
-/
namespace Mtp

/-- `QString::size`: UTF-16 code units of a path (a list of Unicode characters). -/
def utf16Len (s : List Char) : Nat := (s.map (fun c => if c.toNat < 0x10000 then 1 else 2)).sum

/-- UTF-8 encoding of a character. -/
def utf8Char (c : Char) : List UInt8 :=
  let v := c.toNat
  if v < 0x80 then [UInt8.ofNat v]
  else if v < 0x800 then [UInt8.ofNat (0xC0 + v / 64), UInt8.ofNat (0x80 + v % 64)]
  else if v < 0x10000 then
    [UInt8.ofNat (0xE0 + v / 4096), UInt8.ofNat (0x80 + v / 64 % 64), UInt8.ofNat (0x80 + v % 64)]
  else
    [UInt8.ofNat (0xF0 + v / 262144), UInt8.ofNat (0x80 + v / 4096 % 64), UInt8.ofNat (0x80 + v / 64 % 64),
     UInt8.ofNat (0x80 + v % 64)]

/-- `QString::toUtf8`. -/
def utf8 (s : List Char) : List UInt8 := s.flatMap utf8Char

/-- U+FFFD, the mark for undecodable input. -/
def replChar : Char := Char.ofNat 0xFFFD

/-- A byte starting a character: characters finished by it, continuation bytes needed, value so far. -/
def utf8Start (b : UInt8) : List Char × Nat × Nat :=
  if b.toNat < 0x80 then ([Char.ofNat b.toNat], 0, 0)
  else if b.toNat < 0xC0 then ([replChar], 0, 0)
  else if b.toNat < 0xE0 then ([], 1, b.toNat - 0xC0)
  else if b.toNat < 0xF0 then ([], 2, b.toNat - 0xE0)
  else if b.toNat < 0xF8 then ([], 3, b.toNat - 0xF0)
  else ([replChar], 0, 0)

/-- Decoding with `n` continuation bytes missing. -/
def utf8Go : Nat → Nat → List UInt8 → List Char
  | 0, _, [] => []
  | _+1, _, [] => [replChar]
  | 0, _, b :: r => (utf8Start b).1 ++ utf8Go (utf8Start b).2.1 (utf8Start b).2.2 r
  | n+1, acc, b :: r =>
    if 0x80 ≤ b.toNat ∧ b.toNat < 0xC0 then
      if n = 0 then Char.ofNat (acc * 64 + (b.toNat - 0x80)) :: utf8Go 0 0 r
      else utf8Go n (acc * 64 + (b.toNat - 0x80)) r
    else replChar :: (utf8Start b).1 ++ utf8Go (utf8Start b).2.1 (utf8Start b).2.2 r

/-- `QString(const char *)` (fromUtf8). Simplified: overlong forms and surrogates are not told apart. -/
def fromUtf8 (b : List UInt8) : List Char := utf8Go 0 0 b

/-! ### Persistent ids -/

/-- fsstorageplugin.cpp:622-652: one entry; the length written is that of the UTF-16 text, and so many bytes of the UTF-8
text are written. -/
def idEntry (e : List Char × Nat) : List UInt8 :=
  leBytes 4 (utf16Len e.1) ++ (utf8 e.1).take (utf16Len e.1) ++ leBytes 16 e.2

/-- fsstorageplugin.cpp:590-655 `storePuoids`. -/
def storeIds (largest : Nat) (ids : List (List Char × Nat)) : List UInt8 :=
  leBytes 16 largest ++ leBytes 4 ids.length ++ ids.flatMap idEntry

/-- `bytesRead = file.read(p, n); if (0 >= bytesRead) return;`: a short read overwrites only the first bytes of the
variable. -/
def rdInto (old : List UInt8) (n : Nat) (f : List UInt8) : Option (List UInt8 × List UInt8) :=
  if f.take n = [] then none else some (f.take n ++ old.drop (f.take n).length, f.drop n)

/-- fsstorageplugin.cpp:542-568: the loop of `populatePuoids`; the variables keep their values between rounds, the name
buffer is uninitialised (`junk`). The length 2^32-1 (buffer of size 0), never written, is not treated specially. -/
def loadIds (junk : Nat → UInt8) : Nat → List UInt8 → List UInt8 → List UInt8 → AMap (List Char) Nat →
    AMap (List Char) Nat
  | 0, _, _, _, m => m
  | k+1, len, pu, f, m =>
    match rdInto len 4 f with
    | none => m
    | some (len, f) =>
      match rdInto ((List.range (leVal len)).map junk) (leVal len) f with
      | none => m
      | some (name, f) =>
        match rdInto pu 16 f with
        | none => m
        | some (pu, f) =>
          loadIds junk k len pu f (AMap.insert m (fromUtf8 (name.takeWhile (· ≠ 0))) (leVal pu))

/-- fsstorageplugin.cpp:518-569 `populatePuoids`: the largest id and the table. -/
def readIds (junk : Nat → UInt8) (f : List UInt8) : Nat × AMap (List Char) Nat :=
  match rdInto (leBytes 16 0) 16 f with
  | none => (0, [])
  | some (largest, f) =>
    match rdInto (leBytes 4 0) 4 f with
    | none => (leVal largest, [])
    | some (n, f) => (leVal largest, loadIds junk (leVal n) (leBytes 4 0) (leBytes 16 0) f [])

/-- fsstorageplugin.cpp:575-585 `removeUnusedPuoids`. -/
def Tree.dropUnused (t : Tree) : Tree :=
  { t with puoids := t.puoids.filter (fun e => (AMap.get t.paths e.1).isSome) }

/-! ### References -/

/-- mtptypes.h:361. -/
def PLAYLIST : Nat := 0xBA05

/-- fsstorageplugin.cpp:2506-2524: the ids of the referred objects that still exist. -/
def refIds (t : Tree) (rs : List Nat) : List Nat := rs.filterMap (fun r => (t.get r).map (·.puoid))

/-- fsstorageplugin.cpp:2476-2545: the entry of one object; none for objects that are gone and for playlists. -/
def refEntry (t : Tree) (e : Nat × List Nat) : Option (List UInt8) :=
  match t.get e.1 with
  | none => none
  | some it =>
    if it.fmt = PLAYLIST then none
    else some (leBytes 16 it.puoid ++ leBytes 4 (refIds t e.2).length ++ (refIds t e.2).flatMap (leBytes 16))

/-- fsstorageplugin.cpp:2455-2555 `storeObjectReferences`. Simplified: the counts, which are written first and corrected
afterwards, are written once. -/
def storeRefs (s : RefTree) : List UInt8 :=
  leBytes 4 (s.refs.filterMap (refEntry s.t)).length ++ (s.refs.filterMap (refEntry s.t)).flatten

/-- storagefactory.cpp:132-158, fsstorageplugin.cpp:427, 489-492: at the end every storage writes its references to the same
file, truncating it. -/
def storeAllRefs (ss : List RefTree) : List UInt8 := ss.foldl (fun _ s => storeRefs s) []

/-- fsstorageplugin.cpp:1072-1073: `m_puoidToHandleMap` knows files only. -/
def p2h (t : Tree) (v : Nat) : Option Nat :=
  AMap.get (t.items.filterMap (fun e => if e.2.fmt = ASSOC then none else some (e.2.puoid, e.1))) v

/-- fsstorageplugin.cpp:2588-2598: the references of one object; `none` at the end of the file. -/
def loadRefList (look : Nat → Option Nat) : Nat → List UInt8 → List UInt8 → List Nat →
    Option (List Nat × List UInt8 × List UInt8)
  | 0, pu, f, acc => some (acc, pu, f)
  | k+1, pu, f, acc =>
    match rdInto pu 16 f with
    | none => none
    | some (pu, f) =>
      loadRefList look k pu f (match look (leVal pu) with | some h => acc ++ [h] | none => acc)

/-- fsstorageplugin.cpp:2578-2602: the loop of `populateObjectReferences`. -/
def loadRefs (look : Nat → Option Nat) : Nat → List UInt8 → List UInt8 → List UInt8 → List UInt8 →
    AMap Nat (List Nat) → AMap Nat (List Nat)
  | 0, _, _, _, _, m => m
  | k+1, op, n, rp, f, m =>
    match rdInto op 16 f with
    | none => m
    | some (op, f) =>
      match rdInto n 4 f with
      | none => m
      | some (n, f) =>
        match loadRefList look (leVal n) rp f [] with
        | none => m
        | some (rs, rp, f) =>
          loadRefs look k op n rp f (match look (leVal op) with | some h => AMap.insert m h rs | none => m)

/-- fsstorageplugin.cpp:2563-2603 `populateObjectReferences` into an empty map. -/
def readRefs (look : Nat → Option Nat) (f : List UInt8) : AMap Nat (List Nat) :=
  match rdInto (leBytes 4 0) 4 f with
  | none => []
  | some (n, f) => loadRefs look (leVal n) (leBytes 16 0) (leBytes 4 0) (leBytes 16 0) f []

/-! ### A restart -/

/-- fsstorageplugin.cpp:390-432, 466-484, storagefactory.cpp:192-197: a storage is started on the contents of its
directory with its two files; `ids` is the factory's counter (at least the largest id of every storage). -/
def restart (junk : Nat → UInt8) (idFile refFile : List UInt8) (rootPath : Path) (excl : List Path) (policy : SymPolicy)
    (fs : Nat → Bool) (asked ids : Nat) (d : Disk) : RefTree :=
  let t := ((Tree.empty rootPath excl policy (readIds junk idFile).2 fs asked ids).enumerate d).dropUnused
  { t := t, refs := readRefs (p2h t) refFile }

end Mtp
