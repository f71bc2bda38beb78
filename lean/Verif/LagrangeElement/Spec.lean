import Mathlib.LinearAlgebra.Lagrange
import Mathlib.Algebra.Polynomial.Derivative
import Mathlib.Algebra.Order.Field.Basic

/-!
# Specification vocabulary for tensor-product Lagrange elements (independent of the model)
-/

namespace Verif.LagrangeElement.Spec
open Polynomial Finset
variable {K : Type*} [Field K] [LinearOrder K]

/-- The `N` vertices are further apart than twice the coincidence tolerance, and the element is
small enough for its vertex count `N^3` to fit in `SizeType`. -/
structure Separated (tol : K) (N : ℕ) (Z : ℕ → K) : Prop where
  pos : 0 < N
  tol_pos : 0 < tol
  fits : N * N * N < 2 ^ 64
  sep : ∀ j < N, ∀ k < N, j ≠ k → 2 * tol ≤ |Z j - Z k|

/-- A coordinate that either is a vertex or is at least the tolerance away from every vertex. -/
def Resolved (tol : K) (N : ℕ) (Z : ℕ → K) (x : K) : Prop := ∀ j < N, x = Z j ∨ tol ≤ |Z j - x|

/-- `N` distinct vertices of an element whose vertex count `N^3` fits in `SizeType` (any field). -/
structure Verts {K : Type*} (N : ℕ) (Z : ℕ → K) : Prop where
  pos : 0 < N
  fits : N * N * N < 2 ^ 64
  inj : Set.InjOn Z (range N)

/-- The index `ic` is that of the vertex at `x`, or no valid index and no vertex is at `x`. -/
def Hits {K : Type*} (N : ℕ) (Z : ℕ → K) (x : K) (ic : ℕ) : Prop :=
  (ic < N ∧ x = Z ic) ∨ (¬ ic < N ∧ ∀ j < N, x ≠ Z j)

/-- One-dimensional Lagrange basis polynomial (Mathlib's) at a point. -/
noncomputable def ell (N : ℕ) (Z : ℕ → K) (i : ℕ) (x : K) : K :=
  (Lagrange.basis (range N) Z i).eval x

/-- Its derivative at a point. -/
noncomputable def dell (N : ℕ) (Z : ℕ → K) (i : ℕ) (x : K) : K :=
  (derivative (Lagrange.basis (range N) Z i)).eval x

/-- Tensor-product basis function number `I` (first index fastest). -/
noncomputable def phi (N : ℕ) (Z : ℕ → K) (I : ℕ) (X : ℕ → K) : K :=
  ell N Z (I % N) (X 0) * ell N Z (I / N % N) (X 1) * ell N Z (I / N / N) (X 2)

/-- Its partial derivative in direction `d`. -/
noncomputable def dphi (N : ℕ) (Z : ℕ → K) (d I : ℕ) (X : ℕ → K) : K :=
  (if d = 0 then dell N Z (I % N) (X 0) else ell N Z (I % N) (X 0)) *
  (if d = 1 then dell N Z (I / N % N) (X 1) else ell N Z (I / N % N) (X 1)) *
  (if d = 2 then dell N Z (I / N / N) (X 2) else ell N Z (I / N / N) (X 2))

end Verif.LagrangeElement.Spec
