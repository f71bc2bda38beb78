import Verif.LagrangeElement.Lemmas
import Mathlib.LinearAlgebra.Matrix.Determinant.Basic
import Mathlib.LinearAlgebra.Matrix.Notation
import Mathlib.Tactic.FinCases

/-!
# C09 - C11: `LagrangeElement`
-/

namespace Verif.LagrangeElement
open Verif.Lagrange Spec Polynomial Finset
variable {K : Type*} [Field K] [LinearOrder K] [IsStrictOrderedRing K]
variable {tol : K} {N : ℕ} {Z : ℕ → K}

/-! ## C09 -/

/-- **C09**. `eval_basis(I, X)` is the product of the three one-dimensional Lagrange basis
polynomials selected by the digits of `I`. -/
theorem C09_basis (h : Separated tol N Z) {X : ℕ → K} (hX : ∀ d < 3, Resolved tol N Z (X d))
    {I : ℕ} (hI : I < N * N * N) : evalBasis tol N Z I X = some (phi N Z I X) :=
  basisAt h.verts (fun d hd => hits h (hX d hd)) hI

/-- **C09** (nodal). At the reference vertex with multi-index `(a, b, c)` basis function `I` is 1
if `I` is that vertex' own number and 0 otherwise. -/
theorem C09_nodal (h : Separated tol N Z) {I : ℕ} (hI : I < N * N * N) {a b c : ℕ} (ha : a < N)
    (hb : b < N) (hc : c < N) :
    evalBasis tol N Z I (fun d => if d = 0 then Z a else if d = 1 then Z b else Z c) =
      some (if I = a + b * N + c * N * N then 1 else 0) := by
  have hres : ∀ a < N, Resolved tol N Z (Z a) := by
    intro a ha j hj
    by_cases hja : j = a
    · left; rw [hja]
    · right
      have := h.sep j hj a ha hja
      have := h.tol_pos
      linarith
  rw [C09_basis h (by intro d hd; interval_cases d <;> simp [hres, ha, hb, hc]) hI]
  congr 1
  have hinj := injOn_of_sep h.tol_pos h.sep
  have hell : ∀ i < N, ∀ a < N, ell N Z i (Z a) = if i = a then 1 else 0 := by
    intro i hi a ha
    unfold ell
    by_cases hia : i = a
    · subst hia; rw [if_pos rfl, Lagrange.eval_basis_self hinj (mem_range.2 hi)]
    · rw [if_neg hia, Lagrange.eval_basis_of_ne hia (mem_range.2 ha)]
  have h0 : I % N < N := Nat.mod_lt _ h.pos
  have h1 : I / N % N < N := Nat.mod_lt _ h.pos
  have h2 : I / N / N < N := by
    rw [Nat.div_div_eq_div_mul]
    exact Nat.div_lt_of_lt_mul (by linarith [hI, Nat.mul_comm (N * N) N])
  simp only [phi, if_true, one_ne_zero, if_false, OfNat.ofNat_ne_zero, OfNat.ofNat_ne_one,
    hell _ h0 a ha, hell _ h1 b hb, hell _ h2 c hc]
  by_cases hIe : I = a + b * N + c * N * N
  · rw [if_pos hIe, hIe, digit0 ha, digit1 ha hb, digit2 ha hb]; simp
  · rw [if_neg hIe]
    by_contra hne
    apply hIe
    have e0 : I % N = a := by by_contra hh; simp [hh] at hne
    have e1 : I / N % N = b := by by_contra hh; simp [hh] at hne
    have e2 : I / N / N = c := by by_contra hh; simp [hh] at hne
    have d1 := Nat.mod_add_div I N
    have d2 := Nat.mod_add_div (I / N) N
    rw [e0] at d1; rw [e1, e2] at d2
    rw [← d1, ← d2]; ring

/-- **C09** (partition of unity): the basis functions sum to 1 at every resolved point. -/
theorem C09_partition (h : Separated tol N Z) {X : ℕ → K} (hX : ∀ d < 3, Resolved tol N Z (X d)) :
    ∑ I ∈ range (N * N * N), (evalBasis tol N Z I X).getD 0 = 1 := by
  have : ∀ I ∈ range (N * N * N), (evalBasis tol N Z I X).getD 0 =
      ell N Z (I % N) (X 0) * ell N Z (I / N % N) (X 1) * ell N Z (I / N / N) (X 2) := by
    intro I hI
    rw [C09_basis h hX (mem_range.1 hI)]; rfl
  rw [sum_congr rfl this, prod_sum3 N (fun i => ell N Z i (X 0)) (fun i => ell N Z i (X 1))
    (fun i => ell N Z i (X 2))]
  have one : ∀ d < 3, ∑ i ∈ range N, ell N Z i (X d) = 1 := by
    intro d hd
    rw [← C07_partition tol h.tol_pos N h.lt h.pos Z 0 h.sep (X d) (hX d hd)]
    exact sum_congr rfl fun i hi => (eval_ell h (hX d hd) (mem_range.1 hi)).symm
  rw [one 0 (by omega), one 1 (by omega), one 2 (by omega)]; ring

/-- **C09/C10** (gradient of a basis function), whatever the work array contains. -/
theorem C10_grad_basis (h : Separated tol N Z) {X : ℕ → K} (hX : ∀ d < 3, Resolved tol N Z (X d))
    (C : ℕ → K) {I : ℕ} (hI : I < N * N * N) :
    evalGradBasis tol N Z C I X = some (dphi N Z 0 I X, dphi N Z 1 I X, dphi N Z 2 I X) :=
  gradBasisAt h.verts (fun d hd => hits h (hX d hd)) C hI

/-! ## C10 -/

/-- **C10**. The sum-factorised evaluation equals the expansion in the basis functions, for every
coefficient array and every initial content `C` of the work array. -/
theorem C10_approx (h : Separated tol N Z) {X : ℕ → K} (hX : ∀ d < 3, Resolved tol N Z (X d))
    (C c : ℕ → K) :
    evalApprox tol N Z C c X =
      ∑ I ∈ range (N * N * N), c I * (evalBasis tol N Z I X).getD 0 :=
  approxAt h.verts (fun d hd => hits h (hX d hd)) C c

/-- **C10** (gradient). Each entry of the gradient of the approximation is the expansion in the
gradients of the basis functions returned by `eval_grad_basis`, for every work-array content. -/
theorem C10_grad_approx (h : Separated tol N Z) {X : ℕ → K}
    (hX : ∀ d < 3, Resolved tol N Z (X d)) (C C' c g : ℕ → K) :
    let r := (evalGradApprox tol N Z C c X 0 g).2
    let b := fun I => (evalGradBasis tol N Z C' I X).getD (0, 0, 0)
    r 0 = ∑ I ∈ range (N * N * N), c I * (b I).1 ∧
    r 1 = ∑ I ∈ range (N * N * N), c I * (b I).2.1 ∧
    r 2 = ∑ I ∈ range (N * N * N), c I * (b I).2.2 := by
  intro r b
  have hb : ∀ I ∈ range (N * N * N), b I = (dphi N Z 0 I X, dphi N Z 1 I X, dphi N Z 2 I X) := by
    intro I hI
    show (evalGradBasis tol N Z C' I X).getD (0, 0, 0) = _
    rw [C10_grad_basis h hX C' (mem_range.1 hI)]; rfl
  have hs := (gradApprox_specAt h.verts (fun d hd => hits h (hX d hd)) c C 0 g).1
  refine ⟨?_, ?_, ?_⟩
  · rw [show r 0 = _ from hs 0 (by omega)]
    exact sum_congr rfl fun I hI => by rw [hb I hI]
  · rw [show r 1 = _ from hs 1 (by omega)]
    exact sum_congr rfl fun I hI => by rw [hb I hI]
  · rw [show r 2 = _ from hs 2 (by omega)]
    exact sum_congr rfl fun I hI => by rw [hb I hI]

/-- Hypotheses of C09-C11 hold for the equispaced cubic-vertex element 0,1,2,3. -/
example : Separated (1/100 : ℚ) 4 (fun j => (j : ℚ)) ∧
    Resolved (1/100 : ℚ) 4 (fun j => (j : ℚ)) (1/2) ∧
    Resolved (1/100 : ℚ) 4 (fun j => (j : ℚ)) 2 := by
  refine ⟨⟨by norm_num, by norm_num, by norm_num, ?_⟩, ?_, ?_⟩
  · intro j hj k hk hjk
    interval_cases j <;> interval_cases k <;> first | exact absurd rfl hjk | norm_num [le_abs]
  · intro j hj; right
    interval_cases j <;> norm_num [le_abs]
  · intro j hj
    interval_cases j <;> norm_num [le_abs]

/-! ## C11 -/

/-- **C11** (Jacobian). Entry `3*a + d` is the derivative in direction `d` of physical coordinate
`a`, as expanded in the basis. -/
theorem C11_jac (h : Separated tol N Z) {X : ℕ → K} (hX : ∀ d < 3, Resolved tol N Z (X d))
    (C x y z J0 : ℕ → K) (a d : Fin 3) :
    mat9 (evalJac tol N Z C x y z X J0).2 a d =
      ∑ I ∈ range (N * N * N), (![x, y, z] a) I * dphi N Z d I X :=
  jacAt h.verts (fun d hd => hits h (hX d hd)) C x y z J0 a d

/-- **C11** (determinant). `eval_det_jac` is the determinant of the matrix filled by `eval_jac`,
for all vertex coordinates and all initial memory contents. -/
theorem C11_det (h : Separated tol N Z) {X : ℕ → K} (hX : ∀ d < 3, Resolved tol N Z (X d))
    (C C' x y z J0 J0' : ℕ → K) :
    (evalDetJac tol N Z C' x y z X J0').1 = (mat9 (evalJac tol N Z C x y z X J0).2).det :=
  detAt h.verts (fun d hd => hits h (hX d hd)) C C' x y z J0 J0'

/-- **C11** (inverse). When the Jacobian determinant is non-zero, `eval_inv_jac` fills the two-sided
inverse of the matrix filled by `eval_jac`. -/
theorem C11_inv (h : Separated tol N Z) {X : ℕ → K} (hX : ∀ d < 3, Resolved tol N Z (X d))
    (C C' x y z J0 J0' J0'' Jinv : ℕ → K)
    (hdet : (mat9 (evalJac tol N Z C x y z X J0).2).det ≠ 0) :
    mat9 (evalInvJac tol N Z C' x y z X J0' J0'' Jinv) *
        mat9 (evalJac tol N Z C x y z X J0).2 = 1 ∧
      mat9 (evalJac tol N Z C x y z X J0).2 *
        mat9 (evalInvJac tol N Z C' x y z X J0' J0'' Jinv) = 1 :=
  invAt h.verts (fun d hd => hits h (hX d hd)) C C' x y z J0 J0' J0'' Jinv hdet

/-- A concrete element with non-singular Jacobian: the identity map of the order-1 element. -/
example : ∃ x y z : ℕ → ℚ,
    (mat9 (evalJac (1/100) 2 (fun j => (j : ℚ)) 0 x y z (fun _ => 1/2) 0).2).det ≠ 0 := by
  refine ⟨fun I => (I % 2 : ℕ), fun I => (I / 2 % 2 : ℕ), fun I => (I / 4 : ℕ), ?_⟩
  rw [← det9_eq]
  decide +kernel

end Verif.LagrangeElement
