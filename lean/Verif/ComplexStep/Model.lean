import Verif.Legendre.Element
import Mathlib.Analysis.Complex.Basic

/-!
# Model of the `Complex` instantiations of the evaluators

`elements/lagrange_polynomials.cpp`, `lagrange_element.cpp`, `legendre_polynomials.cpp`, `jacobi_polynomials.cpp` and
`legendre_element.cpp` are instantiated for `Real` and `Complex` (`std::complex<double>`); `common/common.h:18-20` says
why: to differentiate by the complex step method.  The templates are the same definitions as for `Real`, at the field
`ℂ`; what differs is `common::abs`, which for complex numbers looks at the real part only, and the parameters of
the Jacobi polynomials, which stay real.
-/

namespace Verif.ComplexStep

/-- `common::abs(Complex)`, common/common.h:28-30: the absolute value of the real part. -/
def abs (z : ℂ) : ℝ := |z.re|

/-- `common::almost_equal<Complex>`, common/common.h:32-35; `tol` is `2.0*NUM_EPS`. -/
noncomputable def almostEqual (tol : ℝ) (a b : ℂ) : Bool := abs (a - b) < tol

/-- `lagrange::find_coincident_vertex<Complex>`, elements/lagrange_polynomials.cpp:22-34. -/
noncomputable def findCoincidentVertex (tol : ℝ) (N : ℕ) (z : ℕ → ℂ) (x : ℂ) : UInt64 :=
  loop N (fun j k => k + (UInt64.ofNat j + 1) * (if almostEqual tol (z j) x then 1 else 0)) (0 - 1)

/-- The same as an index. -/
noncomputable def find (tol : ℝ) (N : ℕ) (z : ℕ → ℂ) (x : ℂ) : ℕ := (findCoincidentVertex tol N z x).toNat

/-! ### `LagrangeElement<Complex>` -/

/-- `LagrangeElement<Complex>::eval_basis`, elements/lagrange_element.cpp:37-53. -/
noncomputable def lagBasis (tol : ℝ) (N : ℕ) (Z : ℕ → ℂ) (I : ℕ) (X : ℕ → ℂ) : Option ℂ :=
  LagrangeElement.evalBasisAt (find tol N Z) N Z I X
/-- `LagrangeElement<Complex>::eval_grad_basis`, elements/lagrange_element.cpp:68-94. -/
noncomputable def lagGradBasis (tol : ℝ) (N : ℕ) (Z C : ℕ → ℂ) (I : ℕ) (X : ℕ → ℂ) : Option (ℂ × ℂ × ℂ) :=
  LagrangeElement.evalGradBasisAt (find tol N Z) N Z C I X
/-- `LagrangeElement<Complex>::eval_approx`, elements/lagrange_element.cpp:120-139. -/
noncomputable def lagApprox (tol : ℝ) (N : ℕ) (Z C c X : ℕ → ℂ) : ℂ :=
  LagrangeElement.evalApproxAt (find tol N Z) N Z C c X
/-! ### Legendre and Jacobi polynomials -/

/-- `jacobi::eval<Complex>(m - 1, alpha, beta, X)`, elements/jacobi_polynomials.cpp:5-12: the recurrence coefficients
are computed with real numbers. -/
noncomputable def jacobiShift (α β : ℝ) (X : ℂ) : ℕ → ℂ
  | 0 => 0
  | 1 => 1
  | m + 2 =>
    ((Legendre.ja α β (m + 1) : ℝ) * X + (Legendre.jb α β (m + 1) : ℝ)) * jacobiShift α β X (m + 1)
      - (Legendre.jc α β (m + 1) : ℝ) * jacobiShift α β X m

/-- `jacobi::eval<Complex>`, elements/jacobi_polynomials.cpp:5-12, for `n >= 0`. -/
noncomputable def jacobiEval (n : ℕ) (α β : ℝ) (X : ℂ) : ℂ := jacobiShift α β X (n + 1)

/-- `jacobi::eval_der<Complex>`, elements/jacobi_polynomials.cpp:15-21. -/
noncomputable def jacobiEvalDer (n k : ℕ) (α β : ℝ) (X : ℂ) : ℂ :=
  if n = 0 ∨ k > n then 0
  else
    let θ : ℝ := n + (α + α) + 1
    (((1 / 2) ^ k * Real.Gamma (θ + k) : ℝ) : ℂ) * jacobiEval (n - k) (α + k) (β + k) X / (Real.Gamma θ : ℝ)

/-- `legendre::eval_der<Complex>`, elements/legendre_polynomials.cpp:33-35. -/
noncomputable def legEvalDer (n k : ℕ) (X : ℂ) : ℂ := jacobiEvalDer n k 0 0 X

/-- `LegendreElement<Complex>::eval_grad_basis`, elements/legendre_element.cpp:56-77. -/
noncomputable def legGradBasis (N I : ℕ) (X : ℕ → ℂ) : Option (ℂ × ℂ × ℂ) :=
  LegendreElement.evalGradBasisAt (fun n x => legEvalDer n 1 x) N I X

end Verif.ComplexStep
