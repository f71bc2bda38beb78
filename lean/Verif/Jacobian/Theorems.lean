import Verif.Jacobian.Model
import Mathlib.LinearAlgebra.Matrix.Determinant.Basic
import Mathlib.LinearAlgebra.Matrix.NonsingularInverse
import Mathlib.LinearAlgebra.Matrix.Notation
import Mathlib.Algebra.Order.Ring.Rat
import Mathlib.Tactic.Ring
import Mathlib.Tactic.FieldSimp
import Mathlib.Tactic.LinearCombination
import Mathlib.Tactic.NormNum
import Mathlib.Tactic.FinCases

/-!
# C20 - C22: Jacobian matrices, determinants and inverses of `elements/elements.cpp`
-/

namespace Verif.Jacobian

open Finset

variable {K : Type*} [Field K]

/-- The leading `n × n` block of a two-dimensional array as a Mathlib matrix. -/
def mat (n : ℕ) (J : ℕ → ℕ → K) : Matrix (Fin n) (Fin n) K := fun i j => J i j

/-! ## C20 -/

theorem det3 (M : ℕ → ℕ → K) : (mat 3 M).det =
    M 0 0 * (M 1 1 * M 2 2 - M 2 1 * M 1 2) - M 0 1 * (M 1 0 * M 2 2 - M 1 2 * M 2 0)
    + M 0 2 * (M 1 0 * M 2 1 - M 1 1 * M 2 0) := by
  rw [Matrix.det_fin_three]; simp only [mat]; simp; ring

/-- **C20**. `mat_inverse` fills the two-sided inverse of every 3×3 matrix with non-zero
determinant, whatever the output array held before. -/
theorem C20_mat_inverse (Minv M : ℕ → ℕ → K) (h : (mat 3 M).det ≠ 0) :
    mat 3 M * mat 3 (matInverse Minv M) = 1 ∧ mat 3 (matInverse Minv M) * mat 3 M = 1 := by
  rw [det3] at h
  have h1 : mat 3 M * mat 3 (matInverse Minv M) = 1 := by
    have hd := mul_one_div_cancel h
    ext i j
    rw [Matrix.mul_apply, Fin.sum_univ_three]
    unfold matInverse
    simp only [mat]
    generalize 1 / (M 0 0 * (M 1 1 * M 2 2 - M 2 1 * M 1 2) -
      M 0 1 * (M 1 0 * M 2 2 - M 1 2 * M 2 0) + M 0 2 * (M 1 0 * M 2 1 - M 1 1 * M 2 0)) = d at hd ⊢
    fin_cases i <;> fin_cases j <;> simp [store2] <;> first | linear_combination hd | ring
  exact ⟨h1, mul_eq_one_comm.1 h1⟩

example : (mat 3 (fun i j => if i = j then (2 : ℚ) else 1)).det ≠ 0 := by
  rw [det3]; norm_num

/-! ## C21 -/

theorem fill_spec (dim nv : ℕ) (V P J : ℕ → ℕ → K) (j k : ℕ) :
    fill dim nv V P J j k =
      if j < dim ∧ k < dim then ∑ v ∈ range nv, V v k * P v j else J j k := by
  unfold fill
  have e : ∀ (j k : ℕ) (J : ℕ → ℕ → K),
      loop nv (fun v J => store2 J j k (J j k + V v k * P v j)) J =
      store2 J j k (J j k + ∑ v ∈ range nv, V v k * P v j) := by
    intro j k J
    rw [loop_store2_acc]; rfl
  simp only [e]
  have e2 := loop_store2 dim dim (fun j k x => x + ∑ v ∈ range nv, V v k * P v j)
    (loop dim (fun j J => loop dim (fun k J => store2 J j k 0) J) J)
  have e3 := loop_store2 dim dim (fun _ _ _ => (0 : K)) J
  rw [e2, e3]
  by_cases h : j < dim ∧ k < dim
  · simp [h]
  · simp [h]

/-- **C21** (matrices). In every dimension entry `(j,k)` is `Σ_v x_k(v) ∂φ_v/∂ξ_j`, independent of
the previous content of the matrix; entries outside the block are untouched. -/
theorem C21_entries (nv : ℕ) (V P J : ℕ → ℕ → K) (dim j k : ℕ) :
    (jacobian2d nv V P J).1 j k =
      (if j < 2 ∧ k < 2 then ∑ v ∈ range nv, V v k * P v j else J j k) ∧
    (jacobian3d nv V P J).1 j k =
      (if j < 3 ∧ k < 3 then ∑ v ∈ range nv, V v k * P v j else J j k) ∧
    (jacobian4d nv dim V P J).1 j k =
      (if j < dim ∧ k < dim then ∑ v ∈ range nv, V v k * P v j else J j k) :=
  ⟨fill_spec _ _ _ _ _ _ _, fill_spec _ _ _ _ _ _ _, fill_spec _ _ _ _ _ _ _⟩

/-- **C21** (2D determinant). -/
theorem C21_det2 (nv : ℕ) (V P J : ℕ → ℕ → K) :
    (jacobian2d nv V P J).2 = (mat 2 (jacobian2d nv V P J).1).det := by
  rw [Matrix.det_fin_two]; rfl

/-- **C21** (4D determinant). -/
theorem C21_det4 (nv : ℕ) (V P J : ℕ → ℕ → K) :
    (jacobian4d nv 4 V P J).2 = (mat 4 (jacobian4d nv 4 V P J).1).det := by
  unfold jacobian4d
  simp only []
  set M := fill 4 nv V P J
  rw [Matrix.det_succ_row_zero]
  simp [Fin.sum_univ_succ, Matrix.det_fin_three, mat, Fin.succAbove]
  ring

/-- **C21** (3D determinant), what holds: the value is the determinant when `J(2,0) = 0` and one of
`J(1,2)`, `J(2,1)` vanishes (for instance diagonal Jacobians). Missing: all other Jacobians, for
which it is false in general (`C21_det3_negation`). -/
theorem C21_det3_partial (nv : ℕ) (V P J : ℕ → ℕ → K)
    (h20 : (jacobian3d nv V P J).1 2 0 = 0)
    (h12 : (jacobian3d nv V P J).1 2 1 * (jacobian3d nv V P J).1 1 2 = 0) :
    (jacobian3d nv V P J).2 = (mat 3 (jacobian3d nv V P J).1).det := by
  rw [det3]
  unfold jacobian3d at *
  simp only [] at *
  set M := fill 3 nv V P J
  rw [h20]
  linear_combination (M 0 0 - 1) * h12

/-- **C21** (negative). For a 3D Jacobian equal to the matrix `[[2,0,0],[0,1,1],[0,1,2]]` (vertices
chosen as that matrix, partials as the identity) `det_J` is 3 while the determinant is 2. -/
theorem C21_det3_negation :
    ¬ ∀ (nv : ℕ) (V P J : ℕ → ℕ → ℚ),
      (jacobian3d nv V P J).2 = (mat 3 (jacobian3d nv V P J).1).det := by
  intro h
  have := h 3 (fun v k => if v = 0 ∧ k = 0 then 2 else if v = 0 ∨ k = 0 then 0 else
    if v = 2 ∧ k = 2 then 2 else 1) (fun v j => if v = j then 1 else 0) (fun _ _ => 0)
  rw [det3] at this
  simp only [jacobian3d, fill_spec, Finset.sum_range_succ] at this
  norm_num at this

/-- **C21** (3D, exactly what is computed). `det_J` is the determinant plus
`(J00 - 1) J21 J12 - (J01 + 1) J20 J12 + (J02 - 1) J20 J11`, so it is the determinant exactly when that error vanishes. -/
theorem C21_det3_error (nv : ℕ) (V P J : ℕ → ℕ → K) :
    let M := (jacobian3d nv V P J).1
    let err := (M 0 0 - 1) * (M 2 1 * M 1 2) - (M 0 1 + 1) * (M 2 0 * M 1 2) + (M 0 2 - 1) * (M 2 0 * M 1 1)
    (jacobian3d nv V P J).2 = (mat 3 M).det + err ∧ ((jacobian3d nv V P J).2 = (mat 3 M).det ↔ err = 0) := by
  have h : (jacobian3d nv V P J).2 = (mat 3 (jacobian3d nv V P J).1).det +
      (((jacobian3d nv V P J).1 0 0 - 1) * ((jacobian3d nv V P J).1 2 1 * (jacobian3d nv V P J).1 1 2) -
        ((jacobian3d nv V P J).1 0 1 + 1) * ((jacobian3d nv V P J).1 2 0 * (jacobian3d nv V P J).1 1 2) +
        ((jacobian3d nv V P J).1 0 2 - 1) * ((jacobian3d nv V P J).1 2 0 * (jacobian3d nv V P J).1 1 1)) := by
    rw [det3]
    unfold jacobian3d
    simp only []
    ring
  exact ⟨h, by rw [h]; exact add_eq_left⟩

/-! ## C22 -/

/-- **C22** (2D). -/
theorem C22_inverse2 (Jinv J : ℕ → ℕ → K) (h : (mat 2 J).det ≠ 0) :
    mat 2 J * mat 2 (jacobianInverse2d Jinv J) = 1 ∧
    mat 2 (jacobianInverse2d Jinv J) * mat 2 J = 1 := by
  rw [Matrix.det_fin_two] at h
  have h' : J 0 0 * J 1 1 - J 0 1 * J 1 0 ≠ 0 := h
  have h1 : mat 2 J * mat 2 (jacobianInverse2d Jinv J) = 1 := by
    have hd := mul_inv_cancel₀ h'
    ext i j
    rw [Matrix.mul_apply, Fin.sum_univ_two]
    unfold jacobianInverse2d
    simp only [mat, div_eq_mul_inv]
    generalize (J 0 0 * J 1 1 - J 0 1 * J 1 0)⁻¹ = d at hd ⊢
    fin_cases i <;> fin_cases j <;> simp [store2] <;> first | linear_combination hd | ring
  exact ⟨h1, mul_eq_one_comm.1 h1⟩

theorem inv4_entries (Jinv J : ℕ → ℕ → K) (d : K) :
    jacobianInverse4d Jinv J d 0 0 = (J 1 1 * J 2 2 * J 3 3 - J 1 1 * J 2 3 * J 3 2 - J 2 1 * J 1
      2 * J 3 3 + J 2 1 * J 1 3 * J 3 2 + J 3 1 * J 1 2 * J 2 3 - J 3 1 * J 1 3 * J 2 2) * (1 / d)
      ∧
    jacobianInverse4d Jinv J d 0 1 = (-J 0 1 * J 2 2 * J 3 3 + J 0 1 * J 2 3 * J 3 2 + J 2 1 * J 0
      2 * J 3 3 - J 2 1 * J 0 3 * J 3 2 - J 3 1 * J 0 2 * J 2 3 + J 3 1 * J 0 3 * J 2 2) * (1 / d)
      ∧
    jacobianInverse4d Jinv J d 0 2 = (J 0 1 * J 1 2 * J 3 3 - J 0 1 * J 1 3 * J 3 2 - J 1 1 * J 0
      2 * J 3 3 + J 1 1 * J 0 3 * J 3 2 + J 3 1 * J 0 2 * J 1 3 - J 3 1 * J 0 3 * J 1 2) * (1 / d)
      ∧
    jacobianInverse4d Jinv J d 0 3 = (-J 0 1 * J 1 2 * J 2 3 + J 0 1 * J 1 3 * J 2 2 + J 1 1 * J 0
      2 * J 2 3 - J 1 1 * J 0 3 * J 2 2 - J 2 1 * J 0 2 * J 1 3 + J 2 1 * J 0 3 * J 1 2) * (1 / d)
      ∧
    jacobianInverse4d Jinv J d 1 0 = (-J 1 0 * J 2 2 * J 3 3 + J 1 0 * J 2 3 * J 3 2 + J 2 0 * J 1
      2 * J 3 3 - J 2 0 * J 1 3 * J 3 2 - J 3 0 * J 1 2 * J 2 3 + J 3 0 * J 1 3 * J 2 2) * (1 / d)
      ∧
    jacobianInverse4d Jinv J d 1 1 = (J 0 0 * J 2 2 * J 3 3 - J 0 0 * J 2 3 * J 3 2 - J 2 0 * J 0
      2 * J 3 3 + J 2 0 * J 0 3 * J 3 2 + J 3 0 * J 0 2 * J 2 3 - J 3 0 * J 0 3 * J 2 2) * (1 / d)
      ∧
    jacobianInverse4d Jinv J d 1 2 = (-J 0 0 * J 1 2 * J 3 3 + J 0 0 * J 1 3 * J 3 2 + J 1 0 * J 0
      2 * J 3 3 - J 1 0 * J 0 3 * J 3 2 - J 3 0 * J 0 2 * J 1 3 + J 3 0 * J 0 3 * J 1 2) * (1 / d)
      ∧
    jacobianInverse4d Jinv J d 1 3 = (J 0 0 * J 1 2 * J 2 3 - J 0 0 * J 1 3 * J 2 2 - J 1 0 * J 0
      2 * J 2 3 + J 1 0 * J 0 3 * J 2 2 + J 2 0 * J 0 2 * J 1 3 - J 2 0 * J 0 3 * J 1 2) * (1 / d)
      ∧
    jacobianInverse4d Jinv J d 2 0 = (J 1 0 * J 2 1 * J 3 3 - J 1 0 * J 2 3 * J 3 1 - J 2 0 * J 1
      1 * J 3 3 + J 2 0 * J 1 3 * J 3 1 + J 3 0 * J 1 1 * J 2 3 - J 3 0 * J 1 3 * J 2 1) * (1 / d)
      ∧
    jacobianInverse4d Jinv J d 2 1 = (-J 0 0 * J 2 1 * J 3 3 + J 0 0 * J 2 3 * J 3 1 + J 2 0 * J 0
      1 * J 3 3 - J 2 0 * J 0 3 * J 3 1 - J 3 0 * J 0 1 * J 2 3 + J 3 0 * J 0 3 * J 2 1) * (1 / d)
      ∧
    jacobianInverse4d Jinv J d 2 2 = (J 0 0 * J 1 1 * J 3 3 - J 0 0 * J 1 3 * J 3 1 - J 1 0 * J 0
      1 * J 3 3 + J 1 0 * J 0 3 * J 3 1 + J 3 0 * J 0 1 * J 1 3 - J 3 0 * J 0 3 * J 1 1) * (1 / d)
      ∧
    jacobianInverse4d Jinv J d 2 3 = (-J 0 0 * J 1 1 * J 2 3 + J 0 0 * J 1 3 * J 2 1 + J 1 0 * J 0
      1 * J 2 3 - J 1 0 * J 0 3 * J 2 1 - J 2 0 * J 0 1 * J 1 3 + J 2 0 * J 0 3 * J 1 1) * (1 / d)
      ∧
    jacobianInverse4d Jinv J d 3 0 = (-J 1 0 * J 2 1 * J 3 2 + J 1 0 * J 2 2 * J 3 1 + J 2 0 * J 1
      1 * J 3 2 - J 2 0 * J 1 2 * J 3 1 - J 3 0 * J 1 1 * J 2 2 + J 3 0 * J 1 2 * J 2 1) * (1 / d)
      ∧
    jacobianInverse4d Jinv J d 3 1 = (J 0 0 * J 2 1 * J 3 2 - J 0 0 * J 2 2 * J 3 1 - J 2 0 * J 0
      1 * J 3 2 + J 2 0 * J 0 2 * J 3 1 + J 3 0 * J 0 1 * J 2 2 - J 3 0 * J 0 2 * J 2 1) * (1 / d)
      ∧
    jacobianInverse4d Jinv J d 3 2 = (-J 0 0 * J 1 1 * J 3 2 + J 0 0 * J 1 2 * J 3 1 + J 1 0 * J 0
      1 * J 3 2 - J 1 0 * J 0 2 * J 3 1 - J 3 0 * J 0 1 * J 1 2 + J 3 0 * J 0 2 * J 1 1) * (1 / d)
      ∧
    jacobianInverse4d Jinv J d 3 3 = (J 0 0 * J 1 1 * J 2 2 - J 0 0 * J 1 2 * J 2 1 - J 1 0 * J 0
      1 * J 2 2 + J 1 0 * J 0 2 * J 2 1 + J 2 0 * J 0 1 * J 1 2 - J 2 0 * J 0 2 * J 1 1) * (1 / d)
      := by
  refine ⟨?_, ?_, ?_, ?_, ?_, ?_, ?_, ?_, ?_, ?_, ?_, ?_, ?_, ?_, ?_, ?_⟩ <;> rfl

/-- **C22** (4D). Given the non-zero determinant of the Jacobian, the result is its inverse. -/
theorem C22_inverse4 (Jinv J : ℕ → ℕ → K) (h : (mat 4 J).det ≠ 0) :
    mat 4 J * mat 4 (jacobianInverse4d Jinv J (mat 4 J).det) = 1 ∧
    mat 4 (jacobianInverse4d Jinv J (mat 4 J).det) * mat 4 J = 1 := by
  have hd : ∀ d : K, d = (mat 4 J).det → d ≠ 0 →
      mat 4 J * mat 4 (jacobianInverse4d Jinv J d) = 1 := by
    intro d hd hd0
    rw [Matrix.det_succ_row_zero] at hd
    simp [Fin.sum_univ_succ, Matrix.det_fin_three, mat, Fin.succAbove] at hd
    have hd1 := mul_inv_cancel₀ hd0
    ext i j
    rw [Matrix.mul_apply, Fin.sum_univ_four]
    obtain ⟨e0, e1, e2, e3, e4, e5, e6, e7, e8, e9, e10, e11, e12, e13, e14, e15⟩ :=
      inv4_entries Jinv J d
    simp only [mat]
    fin_cases i <;> fin_cases j <;>
      simp [e0, e1, e2, e3, e4, e5, e6, e7, e8, e9, e10, e11, e12, e13, e14, e15, -mul_eq_zero] <;>
      generalize d⁻¹ = e at hd1 ⊢ <;>
      first | ring1 | linear_combination hd1 - e * hd
  have h1 := hd _ rfl h
  exact ⟨h1, mul_eq_one_comm.1 h1⟩

/-- **C22** (3D), what holds: a symmetric Jacobian with `J(1,0) = 0` (for instance a diagonal one)
is inverted. Missing: all other Jacobians (`C22_inverse3_negation`). -/
theorem C22_inverse3_partial (Jinv J : ℕ → ℕ → K) (h : (mat 3 J).det ≠ 0)
    (s01 : J 0 1 = J 1 0) (s02 : J 0 2 = J 2 0) (s12 : J 1 2 = J 2 1) (h10 : J 1 0 = 0) :
    mat 3 J * mat 3 (jacobianInverse3d Jinv J) = 1 ∧
    mat 3 (jacobianInverse3d Jinv J) * mat 3 J = 1 := by
  rw [det3] at h
  have h1 : mat 3 J * mat 3 (jacobianInverse3d Jinv J) = 1 := by
    have h' : J 0 0 * (J 1 1 * J 2 2 - J 1 2 * J 2 1) + J 0 1 * (J 2 1 * J 0 2 - J 0 1 * J 2 2) +
        J 0 2 * (J 0 1 * J 1 2 - J 0 2 * J 1 1) ≠ 0 := by
      intro e; apply h; rw [s01, s02, s12, h10] at *; linear_combination e
    have hd := mul_inv_cancel₀ h'
    ext i j
    rw [Matrix.mul_apply, Fin.sum_univ_three]
    unfold jacobianInverse3d
    simp only [mat, div_eq_mul_inv]
    generalize (J 0 0 * (J 1 1 * J 2 2 - J 1 2 * J 2 1) + J 0 1 * (J 2 1 * J 0 2 - J 0 1 * J 2 2) +
        J 0 2 * (J 0 1 * J 1 2 - J 0 2 * J 1 1))⁻¹ = d at hd ⊢
    rw [s01, s02, s12, h10] at hd
    fin_cases i <;> fin_cases j <;> simp [store2, s01, s02, s12, h10] <;>
      first | ring1 | linear_combination hd
  exact ⟨h1, mul_eq_one_comm.1 h1⟩

/-- **C22** (negative, 3D). The unit upper triangular matrix `[[1,2,0],[0,1,0],[0,0,1]]`
(determinant 1) is not inverted: the cofactors are stored transposed and the divisor is -3. -/
theorem C22_inverse3_negation :
    ¬ ∀ (Jinv J : ℕ → ℕ → ℚ), (mat 3 J).det ≠ 0 → mat 3 J * mat 3 (jacobianInverse3d Jinv J) = 1 := by
  intro h
  have := h (fun _ _ => 0) (fun i j => if i = j then 1 else if i = 0 ∧ j = 1 then 2 else 0)
    (by rw [det3]; norm_num)
  have := congrFun (congrFun this 0) 1
  rw [Matrix.mul_apply, Fin.sum_univ_three] at this
  simp [mat, jacobianInverse3d, store2] at this
  norm_num at this

/-- **C22** (3D, exactly what is computed). `jacobian_inverse_3d` stores the transposed adjugate, with `J10 (J11 - J21)` added to the entry
`(0, 2)`, divided by the scalar product of the first row of `J` and the first column of the transposed adjugate (and not of the adjugate,
which would be the determinant). -/
theorem C22_inverse3_error (Jinv J : ℕ → ℕ → K) :
    mat 3 (jacobianInverse3d Jinv J) =
      (1 / (mat 3 J * (mat 3 J).adjugate.transpose) 0 0) •
        ((mat 3 J).adjugate.transpose + Matrix.single 0 2 (J 1 0 * (J 1 1 - J 2 1))) := by
  rw [Matrix.mul_apply, Fin.sum_univ_three]
  ext i j
  simp only [Matrix.smul_apply, Matrix.add_apply, Matrix.transpose_apply, Matrix.adjugate_fin_three, smul_eq_mul]
  fin_cases i <;> fin_cases j <;>
    simp [mat, jacobianInverse3d, store2, Matrix.single, div_eq_inv_mul, -mul_eq_mul_left_iff, -mul_eq_mul_right_iff] <;> ring1

example : (mat 2 (fun i j => if i = j then (2 : ℚ) else 1)).det ≠ 0 := by
  rw [Matrix.det_fin_two]; simp [mat]; norm_num
example : (mat 3 (fun i j => if i = j then (2 : ℚ) else if i + j = 2 then 1 else 0)).det ≠ 0 := by
  rw [det3]; norm_num
example : (mat 4 (fun i j => if i = j then (2 : ℚ) else if i < j then 1 else 0)).det ≠ 0 := by
  rw [Matrix.det_succ_row_zero]
  simp [Fin.sum_univ_succ, Matrix.det_fin_three, mat, Fin.succAbove]

end Verif.Jacobian
