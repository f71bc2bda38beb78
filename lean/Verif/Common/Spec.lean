import Mathlib.Algebra.BigOperators.Group.Finset.Basic
import Mathlib.Algebra.BigOperators.Group.List.Basic

/-!
# Specification vocabulary for `common`

Independent of the model: the number of points of a mixed-radix index space, and the meaning of a
derivative encoding as described by the comment in common/common.cpp:51-60.
-/

namespace Verif.Common.Spec

/-- Number of multi-indices with radices `b`. -/
def indexCount (b : List UInt64) : ℕ := (b.map UInt64.toNat).prod

/-- Value of a little-endian digit string: `x₀ + b₀*(x₁ + b₁*(x₂ + ...))`. -/
def value : List UInt64 → List UInt64 → ℕ
  | b :: bs, x :: xs => x.toNat + b.toNat * value bs xs
  | _, _ => 0

/-- Every digit is below its radix (and there are as many digits as radices). -/
def DigitsInRange (b x : List UInt64) : Prop := List.Forall₂ (fun bi xi => xi < bi) b x

/-- Order of differentiation in direction `d` (0 = x, 1 = y, 2 = z) denoted by the bits of `e`:
bit `3*(p-1)+d` stands for order `p`, so the sum of all such `p`.  A 64-bit word has at most 22
groups of three bits. -/
def order (e : UInt64) (d : ℕ) : ℕ :=
  ∑ q ∈ Finset.range 22, if e.toNat.testBit (3 * q + d) then q + 1 else 0

end Verif.Common.Spec
