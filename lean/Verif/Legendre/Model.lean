import Verif.Loop
import Mathlib.Algebra.Field.Basic
import Mathlib.Analysis.SpecialFunctions.Gamma.Basic

/-!
# Model of `elements/legendre_polynomials.cpp`, `elements/jacobi_polynomials.{h,cpp}`

The recursive evaluators take `int n >= -1`; they are modelled with the shifted argument
`m = n + 1 : ℕ` (the C++ functions do not terminate for `n < -1`).  `std::tgamma` is the real Gamma
function, so the derivative routines are modelled over `ℝ`; `k` is a natural number.
-/

namespace Verif.Legendre
variable {K : Type*} [Field K]

/-- `legendre::eval(m - 1, X)`, elements/legendre_polynomials.cpp:15-20: `m = 0` is the `n == -1`
test, `m = 1` the `n == 0` test. -/
def evalShift (X : K) : ℕ → K
  | 0 => 0
  | 1 => 1
  | m + 2 =>
    let n : K := (m + 1 : ℕ)
    (1 / n) * ((2 * n - 1) * X * evalShift X (m + 1) - (n - 1) * evalShift X m)

/-- Models `legendre::eval`, elements/legendre_polynomials.cpp:15-20, for `n >= 0`. -/
def eval (n : ℕ) (X : K) : K := evalShift X (n + 1)

/-- Models `jacobi::a`, elements/jacobi_polynomials.h:7-11. -/
def ja (α β : K) (n : ℕ) : K :=
  if n = 1 then (1 / 2) * (α + β) + 1
  else (2 * n + α + β - 1) * (2 * n + α + β) / (2 * n * (n + α + β))

/-- Models `jacobi::b`, elements/jacobi_polynomials.h:13-18. -/
def jb (α β : K) (n : ℕ) : K :=
  if n = 1 then (1 / 2) * (α - β)
  else (α * α - β * β) * (2 * n + α + β - 1) / (2 * n * (n + α + β) * (2 * n + α + β - 2))

/-- Models `jacobi::c`, elements/jacobi_polynomials.h:20-26. -/
def jc (α β : K) (n : ℕ) : K :=
  if n = 1 then 0
  else (n + α - 1) * (n + β - 1) * (2 * n + α + β) / (n * (n + α + β) * (2 * n + α + β - 2))

/-- `jacobi::eval(m - 1, alpha, beta, X)`, elements/jacobi_polynomials.cpp:5-12. -/
def jacobiShift (α β X : K) : ℕ → K
  | 0 => 0
  | 1 => 1
  | m + 2 =>
    (ja α β (m + 1) * X + jb α β (m + 1)) * jacobiShift α β X (m + 1)
      - jc α β (m + 1) * jacobiShift α β X m

/-- Models `jacobi::eval`, elements/jacobi_polynomials.cpp:5-12, for `n >= 0`. -/
def jacobiEval (n : ℕ) (α β X : K) : K := jacobiShift α β X (n + 1)

/-- Models `jacobi::eval_der`, elements/jacobi_polynomials.cpp:15-21. -/
noncomputable def jacobiEvalDer (n k : ℕ) (α β X : ℝ) : ℝ :=
  if n = 0 ∨ k > n then 0
  else
    let θ := n + (α + α) + 1
    (1 / 2) ^ k * Real.Gamma (θ + k) * jacobiEval (n - k) (α + k) (β + k) X / Real.Gamma θ

/-- Models `legendre::eval_der`, elements/legendre_polynomials.cpp:33-35. -/
noncomputable def evalDer (n k : ℕ) (X : ℝ) : ℝ := jacobiEvalDer n k 0 0 X

/-- Models `legendre::eval_approx`, elements/legendre_polynomials.cpp:49-56. -/
def evalApprox (N : ℕ) (c : ℕ → K) (X : K) : K := loop N (fun j sum => sum + c j * eval j X) 0

/-- The loop of `legendre::eval_der_approx`, elements/legendre_polynomials.cpp:70-78, with `der j X` for
`eval_der(j, k, X)`. -/
def evalDerApproxAt (der : ℕ → K → K) (N : ℕ) (c : ℕ → K) (X : K) : K :=
  loop N (fun j sum => sum + c j * der j X) 0

/-- Models `legendre::eval_der_approx`, elements/legendre_polynomials.cpp:70-78, for `Real`. -/
noncomputable def evalDerApprox (N k : ℕ) (c : ℕ → ℝ) (X : ℝ) : ℝ := evalDerApproxAt (fun j x => evalDer j k x) N c X

end Verif.Legendre
