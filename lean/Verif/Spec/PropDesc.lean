import Verif.Model.PropDesc
import Verif.Spec.Wire
/-!
A host-side parser of property descriptions written from the MTP layout alone
(MTP 1.1, sections 5.1.2, 5.3.2.3): it uses none of the device's code.
-/
namespace Spec
open Mtp (Val Ty QStr Form DevPropDesc ObjPropDesc)

def digits : List UInt8 → Nat
  | [] => 0
  | b :: bs => b.toNat + 256 * digits bs

/-- Takes a little-endian integer of `w` bytes. -/
def takeInt (w : Nat) (bs : List UInt8) : Option (Nat × List UInt8) :=
  if w ≤ bs.length then some (digits (bs.take w), bs.drop w) else none

/-- Takes `n` integers of `w` bytes. -/
def takeInts (w : Nat) : Nat → List UInt8 → Option (List Nat × List UInt8)
  | 0, bs => some ([], bs)
  | n+1, bs => do
    let (v, bs) ← takeInt w bs
    let (vs, bs) ← takeInts w n bs
    return (v :: vs, bs)

/-- Takes a value of a given shape. A string is a count followed by that many units, the last of
which is the terminator. -/
def takeVal : Ty → List UInt8 → Option (Val × List UInt8)
  | .int w, bs => (takeInt w bs).map fun p => (.int w p.1, p.2)
  | .arr w, bs => do
    let (n, bs) ← takeInt 4 bs
    let (vs, bs) ← takeInts w n bs
    return (.arr w vs, bs)
  | .str, bs => do
    let (n, bs) ← takeInt 1 bs
    let (us, bs) ← takeInts 2 n bs
    return (.str ((us.take (n - 1)).map UInt16.ofNat), bs)

/-- Data types of the MTP standard: scalars 1..10 (signed/unsigned 8..128 bit), arrays of them with
bit 0x4000, strings 0xFFFF. -/
def typeOf (code : Nat) : Option Ty :=
  if 1 ≤ code ∧ code ≤ 10 then some (.int (2 ^ ((code - 1) / 2)))
  else if 0x4001 ≤ code ∧ code ≤ 0x400A then some (.arr (2 ^ ((code - 0x4001) / 2)))
  else if code = 0xFFFF then some .str
  else none

def takeVals (ty : Ty) : Nat → List UInt8 → Option (List Val × List UInt8)
  | 0, bs => some ([], bs)
  | n+1, bs => do
    let (v, bs) ← takeVal ty bs
    let (vs, bs) ← takeVals ty n bs
    return (v :: vs, bs)

/-- The form following a form flag. -/
def takeForm (ty : Ty) (flag : Nat) (bs : List UInt8) : Option (Form × List UInt8) :=
  match flag with
  | 1 => do
    let (a, bs) ← takeVal ty bs
    let (b, bs) ← takeVal ty bs
    let (c, bs) ← takeVal ty bs
    return (.range a b c, bs)
  | 2 => do
    let (n, bs) ← takeInt 2 bs
    let (vs, bs) ← takeVals ty n bs
    return (.enum n vs, bs)
  | 4 => (takeInt 2 bs).map fun p => (.num p.1, p.2)
  | 5 => do
    let (v, bs) ← takeVal .str bs
    match v with
    | .str s => return (.str s, bs)
    | _ => none
  | 6 => (takeInt 4 bs).map fun p => (.num p.1, p.2)
  | 255 => (takeInt 4 bs).map fun p => (.num p.1, p.2)
  | _ => some (.none, bs)

/-- Device property description: code, type, get/set, default, current, form flag, form. -/
def takeDevPropDesc (bs : List UInt8) : Option (DevPropDesc × List UInt8) := do
  let (code, bs) ← takeInt 2 bs
  let (dt, bs) ← takeInt 2 bs
  let ty ← typeOf dt
  let (gs, bs) ← takeInt 1 bs
  let (dv, bs) ← takeVal ty bs
  let (cv, bs) ← takeVal ty bs
  let (flag, bs) ← takeInt 1 bs
  let (f, bs) ← takeForm ty flag bs
  return ({ code := code, dtype := dt, getSet := gs == 1, defVal := dv, curVal := cv,
            flag := flag, form := f }, bs)

/-- Object property description: code, type, get/set, default, group, form flag, form. -/
def takeObjPropDesc (bs : List UInt8) : Option (ObjPropDesc × List UInt8) := do
  let (code, bs) ← takeInt 2 bs
  let (dt, bs) ← takeInt 2 bs
  let ty ← typeOf dt
  let (gs, bs) ← takeInt 1 bs
  let (dv, bs) ← takeVal ty bs
  let (grp, bs) ← takeInt 4 bs
  let (flag, bs) ← takeInt 1 bs
  let (f, bs) ← takeForm ty flag bs
  return ({ code := code, dtype := dt, getSet := gs == 1, defVal := dv, group := grp,
            flag := flag, form := f }, bs)

/-- What a host sees of a value: strings are cut to the transmitted part. -/
def shown : Val → Val
  | .str s => .str (cut s)
  | v => v

def shownForm : Form → Form
  | .range a b c => .range (shown a) (shown b) (shown c)
  | .enum n vs => .enum n (vs.map shown)
  | .str s => .str (cut s)
  | f => f

/-- A value of the right type for the data type code. -/
def Typed (dt : Nat) (v : Val) : Prop := Fits v ∧ typeOf dt = some v.ty

/-- A form of the right kind for its flag. -/
def FormTyped (dt flag : Nat) : Form → Prop
  | .none => flag = 0 ∨ flag = 3
  | .range a b c => flag = 1 ∧ Typed dt a ∧ Typed dt b ∧ Typed dt c
  | .enum n vs => flag = 2 ∧ n = vs.length ∧ n < 2 ^ 16 ∧ ∀ v ∈ vs, Typed dt v
  | .num n => (flag = 4 ∧ n < 2 ^ 16) ∨ ((flag = 6 ∨ flag = 255) ∧ n < 2 ^ 32)
  | .str _ => flag = 5

def DevTyped (d : DevPropDesc) : Prop :=
  d.code < 2 ^ 16 ∧ d.dtype < 2 ^ 16 ∧ Typed d.dtype d.defVal ∧ Typed d.dtype d.curVal ∧
  FormTyped d.dtype d.flag d.form

def ObjTyped (d : ObjPropDesc) : Prop :=
  d.code < 2 ^ 16 ∧ d.dtype < 2 ^ 16 ∧ Typed d.dtype d.defVal ∧ d.group < 2 ^ 32 ∧
  FormTyped d.dtype d.flag d.form

end Spec
