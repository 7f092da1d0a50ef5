/-!
Common definitions of the model: undefined behaviour as an outcome, fixed-width arithmetic,
byte-level memory and host (little-endian) integer layout.
-/
namespace Mtp

/-- Kinds of undefined behaviour the model can exhibit (C++ semantics; no single source line). -/
inductive UB where
  | oobWrite   -- store outside an allocated block
  | oobRead    -- load outside an allocated block
  | uninitRead -- load of a byte never written
  | nullDeref  -- dereference of a null pointer
  deriving DecidableEq, Repr

/-- Result of executing code that may run into undefined behaviour. -/
inductive Res (α : Type) where
  | ok (a : α)
  | ub (why : UB)
  deriving DecidableEq, Repr

namespace Res
def bind {α β : Type} : Res α → (α → Res β) → Res β
  | ok a, f => f a
  | ub w, _ => ub w

instance : Monad Res where
  pure := Res.ok
  bind := Res.bind

@[simp] theorem bind_ok {α β : Type} (a : α) (f : α → Res β) : (Res.ok a >>= f) = f a := rfl
@[simp] theorem bind_ub {α β : Type} (w : UB) (f : α → Res β) :
    ((Res.ub w : Res α) >>= f) = Res.ub w := rfl
@[simp] theorem pure_eq {α : Type} (a : α) : (pure a : Res α) = Res.ok a := rfl

/-- No undefined behaviour occurred. -/
def isOk {α : Type} : Res α → Bool
  | ok _ => true
  | ub _ => false
end Res

/-- Conversion to `quint32` (C++ unsigned arithmetic, modulo 2^32). -/
def u32 (n : Nat) : Nat := n % 4294967296
/-- Conversion to `quint16`. -/
def u16 (n : Nat) : Nat := n % 65536
/-- Conversion to `quint8`. -/
def u8 (n : Nat) : Nat := n % 256
/-- Conversion to `quint64`. -/
def u64 (n : Nat) : Nat := n % 18446744073709551616

/-- The bytes of a `w`-byte integer as they lie in the memory of a little-endian host:
what `memcpy(dst, &v, w)` copies (mts/protocol/mtptxcontainer.cpp:384-387) and what
`putl16/32/64` store (mts/protocol/mtpcontainer.cpp:156-184). -/
def leBytes : Nat → Nat → List UInt8
  | 0, _ => []
  | w+1, v => UInt8.ofNat (v % 256) :: leBytes w (v / 256)

/-- The integer a little-endian host sees in the given bytes
(mts/protocol/mtpcontainer.cpp:124-149 `getl16/32/64`, mtprxcontainer.cpp:358-361). -/
def leVal : List UInt8 → Nat
  | [] => 0
  | b :: bs => b.toNat + 256 * leVal bs

/-- Heap block: one cell per allocated byte, `none` while the byte was never written. -/
abbrev Mem := List (Option UInt8)

/-- `memcpy(mem + off, src, src.length)`; stores outside the block are undefined behaviour. -/
def Mem.store (m : Mem) (off : Nat) (src : List UInt8) : Res Mem :=
  if off + src.length ≤ m.length then
    .ok (m.take off ++ src.map some ++ m.drop (off + src.length))
  else if src.length = 0 then .ok m
  else .ub .oobWrite

/-- All bytes of a list of cells, if all of them were written. -/
def initBytes : List (Option UInt8) → Option (List UInt8)
  | [] => some []
  | none :: _ => none
  | some b :: r => (initBytes r).map (b :: ·)

/-- `memcpy(dst, mem + off, n)`; loads outside the block or of unwritten bytes are undefined. -/
def Mem.load (m : Mem) (off n : Nat) : Res (List UInt8) :=
  if n = 0 then .ok []
  else if off + n ≤ m.length then
    match initBytes ((m.drop off).take n) with
    | some bs => .ok bs
    | none => .ub .uninitRead
  else .ub .oobRead

/-- `malloc(n)`: an uninitialised block (allocation failure is not modelled). -/
def Mem.alloc (n : Nat) : Mem := List.replicate n none

/-- `realloc(m, n)`: contents kept, new space uninitialised. -/
def Mem.realloc (m : Mem) (n : Nat) : Mem := m.take n ++ List.replicate (n - m.length) none

end Mtp
