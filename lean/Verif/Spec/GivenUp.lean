import Verif.Spec.Server
/-! Uploads a host gives up (C98). -/
namespace Spec
open Mtp

/-- Packets of a data phase none of which is the last one. -/
def unfinished : Bool → List (List UInt8) → List (Rsp.In Server)
  | _, [] => []
  | first, b :: bs => .packet b first false [] :: unfinished false bs

/-- A SendObject transaction that breaks off: the command `q` and the packets `bs`. -/
def sendPart (q : List UInt8) (bs : List (List UInt8)) : List (Rsp.In Server) := .packet q true true [] :: unfinished true bs

/-- The responder `r` treats the next command exactly as `r'`, which is between two commands. -/
def Continues (r r' : Rsp Server) : Prop :=
  Open r' ∧ r'.dev = r.dev ∧ responses r'.out = responses r.out ∧ ∀ b n, r.receive Server.dev b true true n = r'.receive Server.dev b true true n

end Spec
