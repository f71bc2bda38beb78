import Verif.Blas.Model
import Verif.Legendre.Model
import Mathlib.Analysis.SpecialFunctions.Pow.Real

/-!
# Model of `elements/gauss_jacobi_quadrature.cpp` and of `matar2lapack::eig_sym_tri`

`Real` is `ℝ`; `std::sqrt`, `std::tgamma` and `pow` are the mathematical functions.  A failed `assert` and an access outside an array
are `none`.  LAPACK's `dstev` is a parameter; theorems take its documented contract as a hypothesis.
-/

namespace Verif.Golub
open Verif.Blas Verif.Legendre

/-- LAPACK `dstev('V', n, d, e, z, n, work, info)`: from the diagonal `d` and the subdiagonal `e` to the new contents of `d`
(eigenvalues), of the column-major array `z` (eigenvectors) and `info`; and to what is left in `e`, which LAPACK destroys. -/
structure Stev where
  run : ℕ → (ℕ → ℝ) → (ℕ → ℝ) → (ℕ → ℝ) × (ℕ → ℝ) × ℤ
  left : ℕ → (ℕ → ℝ) → (ℕ → ℝ) → ℕ → ℝ

/-- The arrays after `eig_sym_tri` and `info`, which is not zero when an error is printed. -/
structure Eig where
  diag : Arr ℝ
  subdiag : Arr ℝ
  eigvals : Arr ℝ
  eigvecs : Mat
  info : ℤ

/-- `matar2lapack::eig_sym_tri`, matar_blas_lapack_interface.cpp:265-313: the raw array of eigenvectors is the storage of `eigvecs`.
An error of LAPACK is printed and ignored.  `diag` is copied, `subdiag` (declared `const`) is passed on and overwritten.  `jd` are the
contents of freshly allocated memory. -/
def eigSymTri (S : Stev) (diag subdiag eigvals : Arr ℝ) (eigvecs : Mat) (jd : ℕ → ℝ) : Option Eig :=
  if diag.size = subdiag.size + 1 ∧ eigvals.size = diag.size ∧ eigvecs.rows = eigvals.size ∧ eigvecs.cols = eigvecs.rows then do
    let copy ← loopM diag.size (fun i (a : Arr ℝ) => do
      let v ← diag.get i
      a.set i v) ⟨diag.size, jd⟩
    let r := S.run diag.size copy.val subdiag.val
    let vals ← loopM diag.size (fun i (a : Arr ℝ) => do
      let v ← (⟨diag.size, r.1⟩ : Arr ℝ).get i
      a.set i v) eigvals
    pure ⟨diag, ⟨subdiag.size, S.left diag.size copy.val subdiag.val⟩, vals, ⟨eigvecs.rows, eigvecs.cols, ⟨eigvecs.data.size, r.2.1⟩⟩, r.2.2⟩
  else none

/-- The two arrays filled by the routine. -/
structure Rule where
  points : Arr ℝ
  weights : Arr ℝ

/-- `compute_gauss_jacobi_quadrature_rule`, gauss_jacobi_quadrature.cpp:9-64; the functions `j` are the contents of freshly
allocated arrays. -/
noncomputable def gaussJacobi (S : Stev) (n : ℕ) (α β : ℝ) (s : Rule) (jdiag jsub jvals jvecs jd : ℕ → ℝ) : Option Rule :=
  if n > 1 then do
    let diag ← loopM n (fun k (a : Arr ℝ) => a.set k (-jb α β (k + 1) / ja α β (k + 1))) ⟨n, jdiag⟩
    let sub ← loopM (n - 1) (fun k (a : Arr ℝ) => a.set k (√(jc α β (k + 2) / (ja α β (k + 1) * ja α β (k + 2))))) ⟨n - 1, jsub⟩
    let e ← eigSymTri S diag sub ⟨n, jvals⟩ ⟨n, n, ⟨n * n, jvecs⟩⟩ jd
    let mu0 := 2 ^ (α + β + 1) * Real.Gamma (α + 1) * Real.Gamma (β + 1) / Real.Gamma (α + β + 2)
    loopM n (fun j (s : Rule) => do
      let x ← e.eigvals.get j
      let p ← s.points.set j x
      let q ← e.eigvecs.get j 0
      let w ← s.weights.set j (q * q * mu0)
      pure ⟨p, w⟩) s
  else if n = 1 then do
    let p ← s.points.set 0 0
    let w ← s.weights.set 0 2
    pure ⟨p, w⟩
  else none

end Verif.Golub
