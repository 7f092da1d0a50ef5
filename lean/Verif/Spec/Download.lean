import Verif.Model.Download
/-! Specification of a download's data phase. -/
namespace Spec
open Mtp

/-- The packets `fs` are a correct data phase for the bytes `d`: the first and only the first has a
header, announcing 12 bytes plus the data (0xFFFFFFFF if that does not fit 32 bits); no packet exceeds
16 KiB; the last and only the last is marked; the payloads concatenate to `d`. -/
def DataPhase (d : List UInt8) (fs : List Frame) : Prop :=
  (∃ f rest, fs = f :: rest ∧
    f.header = some (if d.length + 12 > 0xFFFFFFFF then 0xFFFFFFFF else d.length + 12) ∧
    f.payload.length + 12 ≤ 16384 ∧
    ∀ g ∈ rest, g.header = none ∧ 0 < g.payload.length ∧ g.payload.length ≤ 16384) ∧
  (∃ init l, fs = init ++ [l] ∧ l.last = true ∧ ∀ g ∈ init, g.last = false) ∧
  (fs.map (·.payload)).flatten = d

end Spec
