import Verif.Spec.PropDesc
/-!
Object properties in the MTP 1.1 standard (appendix B): the data type of each property.
-/
namespace Spec

/-- Property code and the data type the standard gives it. -/
def standardTypes : List (Nat × Nat) :=
  [(0xDC01, 0x0006),  -- StorageID: UINT32
   (0xDC02, 0x0004),  -- Object Format: UINT16
   (0xDC03, 0x0004),  -- Protection Status: UINT16
   (0xDC04, 0x0008),  -- Object Size: UINT64
   (0xDC07, 0xFFFF),  -- Object File Name: STR
   (0xDC08, 0xFFFF),  -- Date Created: STR
   (0xDC09, 0xFFFF),  -- Date Modified: STR
   (0xDC0B, 0x0006),  -- Parent Object: UINT32
   (0xDC41, 0x000A),  -- Persistent Unique Object Identifier: UINT128
   (0xDC44, 0xFFFF),  -- Name: STR
   (0xDC46, 0xFFFF),  -- Artist: STR
   (0xDC4F, 0x0002),  -- Non-Consumable: UINT8
   (0xDC81, 0x0004),  -- Representative Sample Format: UINT16
   (0xDC83, 0x0006),  -- Representative Sample Height: UINT32
   (0xDC84, 0x0006),  -- Representative Sample Width: UINT32
   (0xDC86, 0x4002),  -- Representative Sample Data: AUINT8
   (0xDC87, 0x0006),  -- Width: UINT32
   (0xDC88, 0x0006),  -- Height: UINT32
   (0xDC89, 0x0006),  -- Duration: UINT32
   (0xDC8B, 0x0004),  -- Track: UINT16
   (0xDC8C, 0xFFFF),  -- Genre: STR
   (0xDC91, 0x0006),  -- Use Count: UINT32
   (0xDC9A, 0xFFFF),  -- Album Name: STR
   (0xDC9D, 0x0004),  -- DRM Status: UINT16
   (0xDE92, 0x0004),  -- Bitrate Type: UINT16
   (0xDE93, 0x0006),  -- Sample Rate: UINT32
   (0xDE94, 0x0004),  -- Number Of Channels: UINT16
   (0xDE99, 0x0006),  -- Audio WAVE Codec: UINT32
   (0xDE9A, 0x0006),  -- Audio BitRate: UINT32
   (0xDE9B, 0x0006),  -- Video FourCC Codec: UINT32
   (0xDE9C, 0x0006),  -- Video BitRate: UINT32
   (0xDE9D, 0x0006)]  -- Frames Per Thousand Seconds: UINT32

/-- The payload of a complete data container: what follows the twelve bytes of the header, if the header is the one of a data
container for this operation and transaction and gives its length. -/
def payload (op tid : Nat) (bytes : List UInt8) : Option (List UInt8) :=
  if bytes.take 12 = header bytes.length 2 op tid then some (bytes.drop 12) else none

/-- A host reads the list of supported properties. -/
def readCodes (op tid : Nat) (bytes : List UInt8) : Option (List Nat) := do
  let p ← payload op tid bytes
  match takeVal (.arr 2) p with
  | some (.arr _ vs, []) => some vs
  | _ => none

/-- A host reads a property description that fills the payload. -/
def readDesc (op tid : Nat) (bytes : List UInt8) : Option Mtp.ObjPropDesc := do
  let p ← payload op tid bytes
  match takeObjPropDesc p with
  | some (d, []) => some d
  | _ => none

end Spec

namespace Spec

/-- The data type the standard gives a property (0 if the property is not in the list above). -/
def stdType (p : Nat) : Nat := (standardTypes.lookup p).getD 0

end Spec
