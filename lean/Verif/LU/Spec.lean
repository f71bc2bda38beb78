import Mathlib.LinearAlgebra.Matrix.Determinant.Basic
import Mathlib.GroupTheory.Perm.Sign

/-!
# Specification vocabulary for the LU solver

How the packed result of `LU_decompos` is to be read (slam/slam.h:28-49): the strict lower triangle
holds L (unit diagonal), the upper triangle holds U, `indx` holds a sequence of row interchanges.
-/

namespace Verif.LU

variable {K : Type*} [Field K]

/-- The leading `n × n` block of an array as a Mathlib matrix. -/
def toMat (n : ℕ) (a : ℕ → ℕ → K) : Matrix (Fin n) (Fin n) K := fun i j => a i j

/-- The unit lower triangular factor. -/
def Lmat (n : ℕ) (a : ℕ → ℕ → K) : Matrix (Fin n) (Fin n) K :=
  fun i j => if j < i then a i j else if i = j then 1 else 0

/-- The upper triangular factor. -/
def Umat (n : ℕ) (a : ℕ → ℕ → K) : Matrix (Fin n) (Fin n) K :=
  fun i j => if i ≤ j then a i j else 0

/-- The row order reached after the first `m` recorded interchanges `0 ↔ indx 0, 1 ↔ indx 1, ...`:
row `i` of the permuted matrix is row `rowPerm n indx m i` of the original one. -/
def rowPerm (n : ℕ) (indx : ℕ → ℕ) : ℕ → Equiv.Perm (Fin n)
  | 0 => 1
  | m + 1 => rowPerm n indx m *
      (if h : m < n ∧ indx m < n then Equiv.swap ⟨m, h.1⟩ ⟨indx m, h.2⟩ else (1 : Equiv.Perm (Fin n)))

end Verif.LU
