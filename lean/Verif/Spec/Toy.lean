import Verif.Model.Responder
/-! A small storage for examples of the responder model: objects are byte strings, new handles count up. -/
namespace Spec.Toy
open Mtp

abbrev Objs := List (Nat × List UInt8)

/-- A command or data container: header and 32-bit parameters. -/
def cmd (code tid : Nat) (params : List Nat) : List UInt8 :=
  leBytes 4 (12 + 4 * params.length) ++ leBytes 2 1 ++ leBytes 2 code ++ leBytes 4 tid ++
    params.flatMap (leBytes 4)

/-- A data container. -/
def dat (code tid : Nat) (payload : List UInt8) : List UInt8 :=
  leBytes 4 (12 + payload.length) ++ leBytes 2 2 ++ leBytes 2 code ++ leBytes 4 tid ++ payload

def look (d : Objs) (h : Nat) : List UInt8 := ((d.find? (·.1 = h)).map (·.2)).getD []
def put (d : Objs) (h : Nat) (c : List UInt8) : Objs := (h, c) :: d.filter (·.1 ≠ h)
def has (d : Objs) (h : Nat) : Bool := d.any (·.1 = h)

/-- The storage. -/
def dev : Dev Objs where
  query d _ _ := (d, { frames := [], response := some (.ok, []) })
  copy d ps _ := (put d (d.length + 1) (look d (ps.getD 0 0)), .ok, d.length + 1)
  check _ _ _ := .ok
  store d _ _ _ := (d, .ok, [])
  listCheck _ _ := .ok
  addInfo d ps _ := (put d (d.length + 1) [], .ok, [1, ps.getD 1 0, d.length + 1], d.length + 1)
  addList d ps _ := (put d (d.length + 1) [], .ok, [1, ps.getD 1 0, d.length + 1], d.length + 1)
  write d h b first _ :=
    match b with
    | none => (d, .ok)
    | some b => (put d h ((if first then [] else look d h) ++ b), .ok)
  truncate d h n := (put d h ((look d h).take n), .ok)
  setProps d _ _ := d
  writePartial d h o b _ _ := (put d h ((look d h).take o ++ b), .ok)
  delete d h := (d.filter (·.1 ≠ h), .ok)
  handleOk d h := if has d h then .ok else .invalidObjectHandle
  flush d _ := d
  setEvents d _ _ := d
  eventsOff d := d
  eventsOn _ _ := true

end Spec.Toy
