import Verif.Model.Link
import Verif.Spec.Upload
import Verif.Spec.Server
/-! Specification of what a host sends over the bulk pipe. -/
namespace Spec
open Mtp

variable {D : Type}

/-- What a host sends for one transaction: a command, or a command and a container with its data. -/
inductive Turn where
  | ask (q : List UInt8)
  | give (q c : List UInt8)
  deriving DecidableEq

/-- A container that announces its length in its first four bytes and has a complete header. -/
def Sized (c : List UInt8) : Prop := 12 ≤ c.length ∧ leVal (c.take 4) = c.length ∧ c.length < 0xFFFFFFFF

instance (c : List UInt8) : Decidable (Sized c) := by unfold Sized; infer_instance

/-- The containers of a transaction, and how much of each must come in one piece: all of a command, the header of the data. -/
def Turn.parts : Turn → List (List UInt8 × Nat)
  | .ask q => [(q, q.length)]
  | .give q c => [(q, q.length), (c, 12)]

/-- The containers of all transactions, in order. -/
def containers (ts : List Turn) : List (List UInt8 × Nat) := ts.flatMap Turn.parts

/-- No cut between two pieces falls inside what must come in one piece. -/
def CutsKept (cs : List (List UInt8 × Nat)) (pieces : List (List UInt8)) : Prop :=
  ∀ ps₁ ps₂ c₁ c c₂, pieces = ps₁ ++ ps₂ → cs = c₁ ++ c :: c₂ →
    ¬ ((c₁.map (·.1)).flatten.length < ps₁.flatten.length ∧
      ps₁.flatten.length < (c₁.map (·.1)).flatten.length + c.2)

/-- The packets `is` (of at most `m` bytes) are the transactions `ts`: commands whole, data cut somehow behind its header. -/
inductive Conveys (m : Nat) : List Turn → List (Rsp.In D) → Prop
  | nil : Conveys m [] []
  | ask (q ts is) (h : Conveys m ts is) : Conveys m (.ask q :: ts) (.packet q true true [] :: is)
  | give (q c bs ts is) (hc : bs.flatten = c) (hne : ∀ b ∈ bs, b ≠ [] ∧ b.length ≤ m) (hh : ∀ b ∈ bs.head?, 12 ≤ b.length)
      (h : Conveys m ts is) : Conveys m (.give q c :: ts) (sendObject q bs ++ is)

/-- The reads of a container that is sent as one USB transfer: the reader asks for 16384 bytes at a time (threadio.cpp:384), and
the end of a transfer ends a read. -/
def Reads (c : List UInt8) (rs : List (List UInt8)) : Prop := rs.flatten = c ∧ ∀ r ∈ rs.dropLast, r.length = MAX_IN

/-- Containers sent one after the other, as one USB transfer each. -/
inductive Transfers : List (List UInt8) → List (List UInt8) → Prop
  | nil : Transfers [] []
  | cons (c rs cs reads) (hc : Reads c rs) (h : Transfers cs reads) : Transfers (c :: cs) (rs ++ reads)

/-- The pieces the main thread sees: some consecutive reads each (those completed since it last looked). -/
def Grouped (reads pieces : List (List UInt8)) : Prop :=
  ∃ gs : List (List (List UInt8)), gs.flatten = reads ∧ pieces = gs.map List.flatten

/-- A host uploads a new object over USB: it announces `o` (a file; SendObjectInfo command `q1`, dataset in the container `c1`),
which can be created, and sends `data`, as many bytes as announced (SendObject command `q2`, container `c2`). -/
structure UsbUpload (s : Server) (o : ObjInfo) (data q1 c1 q2 c2 : List UInt8) : Prop where
  fits : ObjInfoFits o
  file : o.format ≠ ASSOC
  size : o.size = data.length
  announce : Asking q1 0x100C
  offer : Offer s (cParam q1 0) (cParam q1 1) o
  dataset : c1 = dataContainer 0x100C (cTid q1) (encs (objInfoVals o))
  send : Asking q2 0x100D
  contents : c2.drop 12 = data
  sized : Sized q1 ∧ Sized c1 ∧ Sized q2 ∧ Sized c2

end Spec
