/-! Specification of edits of file contents, byte by byte. -/
namespace Spec

/-- `c'` is `c` with the bytes from `off` on replaced by `d`; a gap between the end of `c` and `off`
is filled with zeros. -/
def Overwritten (c : List UInt8) (off : Nat) (d c' : List UInt8) : Prop :=
  c'.length = max c.length (off + d.length) ∧
  ∀ i, i < c'.length →
    c'[i]? = if off ≤ i ∧ i < off + d.length then d[i - off]?
             else if i < c.length then c[i]? else some 0

/-- `c'` is `c` cut, or extended by zeros, to `n` bytes. -/
def Resized (c : List UInt8) (n : Nat) (c' : List UInt8) : Prop :=
  c'.length = n ∧ ∀ i, i < n → c'[i]? = if i < c.length then c[i]? else some 0

end Spec
