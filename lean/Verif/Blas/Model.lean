import Verif.Mem
import Mathlib.Data.Real.Basic

/-!
# Model of the BLAS wrappers of `common/matar_blas_lapack_interface.cpp`

`transpose`, `matvec`, `matmul`, `invert`.  `Real` is `ℝ`.  A failed `assert` and an access outside an array are `none`.  `dgemv` and `dgemm`
are modelled by the reference algorithm (no transposition, unit increments, `alpha = 1`, `beta = 0`), including its quick return.
Memory obtained with `new` has arbitrary contents, an argument of the model.  The vectors and matrices are assumed to have the
order (1 or 2) that the code asserts.
-/

namespace Verif.Blas

/-- A two-dimensional `CArray<Real>`. -/
structure Mat where
  rows : ℕ
  cols : ℕ
  data : Arr ℝ

/-- `A(i, j)` -/
def Mat.get (A : Mat) (i j : ℕ) : Option ℝ := A.data.get (i * A.cols + j)
/-- `A(i, j) = v` -/
def Mat.set (A : Mat) (i j : ℕ) (v : ℝ) : Option Mat := do
  let d ← A.data.set (i * A.cols + j) v
  pure ⟨A.rows, A.cols, d⟩

/-- `matar2blas::transpose`, matar_blas_lapack_interface.cpp:10-33. -/
def transpose (A B : Mat) : Option Mat :=
  if A.rows = B.cols ∧ A.cols = B.rows then
    loopM A.rows (fun i => loopM A.cols fun j B => do
      let v ← A.get i j
      B.set j i v) B
  else none

/-- The copy into a raw array, matar_blas_lapack_interface.cpp:66-69, 130-138: `a[i+n_a*j] = A(i,j)`. -/
def pack (A : Mat) (junk : ℕ → ℝ) : Option (Arr ℝ) :=
  loopM A.rows (fun i => loopM A.cols fun j a => do
    let v ← A.get i j
    a.set (i + A.cols * j) v) ⟨A.rows * A.cols, junk⟩

/-- Reference `dgemv('N', m, n, 1, a, lda, x, 1, 0, y, 1)`; `none` when `xerbla` stops the program (leading dimension too small). -/
noncomputable def gemv (m n : ℕ) (a : Arr ℝ) (lda : ℕ) (x y : Arr ℝ) : Option (Arr ℝ) :=
  if lda < max 1 m then none else
  if m = 0 ∨ n = 0 then some y else do
    let y ← loopM m (fun i y => y.set i 0) y
    loopM n (fun j y => do
      let t ← x.get j
      loopM m (fun i y => do
        let v ← y.get i
        let c ← a.get (i + lda * j)
        y.set i (v + t * c)) y) y

/-- `matar2blas::matvec`, matar_blas_lapack_interface.cpp:43-99. -/
noncomputable def matvec (A : Mat) (x y : Arr ℝ) (junk : ℕ → ℝ) : Option (Arr ℝ) :=
  if y.size = A.rows ∧ A.cols = x.size then do
    let a ← pack A junk
    gemv A.rows A.cols a A.rows x y
  else none

/-- Reference `dgemm('N', 'N', m, n, k, 1, a, lda, b, ldb, 0, c, ldc)`; `none` when `xerbla` stops the program. -/
noncomputable def gemm (m n k : ℕ) (a : Arr ℝ) (lda : ℕ) (b : Arr ℝ) (ldb : ℕ) (c : Arr ℝ) (ldc : ℕ) : Option (Arr ℝ) :=
  if lda < max 1 m ∨ ldb < max 1 k ∨ ldc < max 1 m then none else
  if m = 0 ∨ n = 0 then some c else
    loopM n (fun j c => do
      let c ← loopM m (fun i c => c.set (i + ldc * j) 0) c
      loopM k (fun l c => do
        let t ← b.get (l + ldb * j)
        loopM m (fun i c => do
          let v ← c.get (i + ldc * j)
          let u ← a.get (i + lda * l)
          c.set (i + ldc * j) (v + t * u)) c) c) c

/-- `matar2blas::matmul`, matar_blas_lapack_interface.cpp:108-178; the three raw arrays have arbitrary initial contents. -/
noncomputable def matmul (A B C : Mat) (ja jb jc : ℕ → ℝ) : Option Mat :=
  if A.cols = B.rows then do
    let a ← pack A ja
    let b ← pack B jb
    let c ← gemm A.rows B.cols A.cols a A.rows b B.rows ⟨A.rows * B.cols, jc⟩ A.rows
    loopM B.cols (fun j => loopM A.rows fun i C => do
      let v ← c.get (i + B.cols * j)
      C.set i j v) C
  else none

/-- The two LAPACK routines `invert` calls, as functions of the order `n` and of column-major arrays: `getrf` returns the factored
array, the pivots and `info`; `getrs` (not transposed, `n` right-hand sides) returns the solutions and `info`.  What the routines
compute is not modelled; theorems take their documented contract as a hypothesis. -/
structure Lapack where
  getrf : ℕ → (ℕ → ℝ) → (ℕ → ℝ) × (ℕ → ℕ) × ℤ
  getrs : ℕ → (ℕ → ℝ) → (ℕ → ℕ) → (ℕ → ℝ) → (ℕ → ℝ) × ℤ

/-- `matar2lapack::invert`, matar_blas_lapack_interface.cpp:187-259.  The second component records what is printed on standard error
(`info` of either routine not zero): the exceptions are caught inside the function, which goes on. -/
noncomputable def invert (K : Lapack) (A B : Mat) (ja jb : ℕ → ℝ) : Option (Mat × ℤ × ℤ) :=
  if A.rows = B.rows ∧ A.cols = B.cols ∧ A.rows = A.cols then do
    let a ← pack A ja
    let f := K.getrf A.cols a.val
    let b ← loopM A.cols (fun j => loopM A.cols fun i (b : Arr ℝ) => b.set (i + A.cols * j) (if i = j then 1 else 0))
      ⟨A.rows * A.cols, jb⟩
    let x := K.getrs A.cols f.1 f.2.1 b.val
    let C ← loopM A.cols (fun j => loopM A.rows fun i B => do
      let v ← (⟨A.rows * A.cols, x.1⟩ : Arr ℝ).get (i + A.cols * j)
      B.set i j v) B
    pure (C, f.2.2, x.2)
  else none

end Verif.Blas
