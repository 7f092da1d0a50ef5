import Verif.Spec.PropPod
/-!
A host's reading of a GetObjectPropList dataset (MTP 1.1, "ObjectPropList dataset"): a count, then that many elements of
object handle, property code, data type and value.
-/
namespace Spec
open Mtp (Val)

/-- Two lists of the same length whose members are related one by one. -/
inductive Each {α β : Type} (R : α → β → Prop) : List α → List β → Prop
  | nil : Each R [] []
  | cons {a : α} {b : β} {as : List α} {bs : List β} : R a b → Each R as bs → Each R (a :: as) (b :: bs)

/-- One element of the list. -/
structure Elem where
  handle : Nat
  code : Nat
  dtype : Nat
  val : Val
  deriving DecidableEq

def takeElem (bs : List UInt8) : Option (Elem × List UInt8) := do
  let (h, bs) ← takeInt 4 bs
  let (p, bs) ← takeInt 2 bs
  let (dt, bs) ← takeInt 2 bs
  let ty ← typeOf dt
  let (v, bs) ← takeVal ty bs
  return (⟨h, p, dt, v⟩, bs)

def takeElems : Nat → List UInt8 → Option (List Elem × List UInt8)
  | 0, bs => some ([], bs)
  | n + 1, bs => do
    let (e, bs) ← takeElem bs
    let (es, bs) ← takeElems n bs
    return (e :: es, bs)

/-- The elements announced by the count, if they fill the payload of the container exactly. -/
def readPropList (tid : Nat) (bytes : List UInt8) : Option (List Elem) := do
  let p ← payload 0x9805 tid bytes
  let (n, p) ← takeInt 4 p
  match takeElems n p with
  | some (es, []) => some es
  | _ => none

end Spec
