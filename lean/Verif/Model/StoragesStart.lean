import Verif.Model.Storages
import Verif.Model.Startup
/-!
The device after its start, with several storages (mts/platform/storage/storagefactory.cpp).
-/
namespace Mtp

/-- A configured storage: where it is, what is shown of it, and what was found there (see Verif.Model.Startup). -/
structure Place where
  caps : DevCaps
  rootPath : Path
  excl : List Path
  policy : SymPolicy
  puoids : AMap Path Nat
  fs : Nat → Bool
  disk : Disk
  facts : DiskFacts
  ios : Nat → Nat → FileIO
  alloc : Nat → Bool
  room : Nat → Nat
  times : Times

namespace Storages

/-- Storage `n` after `enumerateStorage_worker` (fsstorageplugin.cpp:466-480), `asked` handles and `ids` ids having been given out
before. -/
def startOne (fmts : List Nat) (n asked ids : Nat) (c : Place) : Server :=
  Server.start (0x00010001 + n) fmts c.caps (Tree.empty c.rootPath c.excl c.policy c.puoids c.fs asked ids) c.disk c.facts c.ios c.alloc
    c.room c.times

/-- storagefactory.cpp:195-200: the storages are enumerated one after the other (each call is queued and runs to its end,
fsstorageplugin.cpp:455-464). -/
def startList (fmts : List Nat) : Nat → Nat → Nat → List Place → List Server
  | _, _, _, [] => []
  | n, asked, ids, c :: cs =>
    startOne fmts n asked ids c ::
      startList fmts (n + 1) (startOne fmts n asked ids c).tree.asked (startOne fmts n asked ids c).tree.idsAsked cs

/-- storagefactory.cpp:47-130 (ids 0x00010001, 0x00010002, …) and 162-200. `none` if there is no storage. -/
def start (fmts : List Nat) (ids : Nat) (cs : List Place) : Option Storages :=
  match (startList fmts 0 0 ids cs).getLast? with
  | none => none
  | some z => some
    { count := cs.length
      part := fun j => (startList fmts 0 0 ids cs).getD j z
      fmts := fmts
      asked := z.tree.asked
      ids := z.tree.idsAsked
      calls := 0 }

end Storages
end Mtp
