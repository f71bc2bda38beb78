import Verif.Legendre.Model
import Verif.Mem

/-!
# The recursive evaluators with a signed order, a finite call stack and a call counter

`legendre::eval` and `jacobi::eval` take a 32-bit `int n` and call themselves twice.  `none` is an evaluation that does not
come back: the call stack is used up, or `n - 1` / `n - 2` is below `INT_MIN` (signed overflow is undefined behaviour).
The second component of a result counts the calls made, this one included.
-/

namespace Verif.Legendre.Rec
variable {K : Type*} [Field K]

/-- The recursion common to elements/legendre_polynomials.cpp:15-20 and elements/jacobi_polynomials.cpp:5-12; the first
argument is the number of stack frames left, `step n u v` the expression returned for `u = eval(n - 1)`, `v = eval(n - 2)`. -/
def run (step : ℤ → K → K → K) : ℕ → ℤ → Option (K × ℕ)
  | 0, _ => none
  | S + 1, n =>
    if n = -1 then some (0, 1)
    else if n = 0 then some (1, 1)
    else if n - 2 < -2 ^ 31 then none
    else do
      let u ← run step S (n - 1)
      let v ← run step S (n - 2)
      pure (step n u.1 v.1, u.2 + v.2 + 1)

/-- `legendre::eval(n, X)`, elements/legendre_polynomials.cpp:15-20. -/
def eval (X : K) (S : ℕ) (n : ℤ) : Option (K × ℕ) :=
  run (fun n u v => (1 / (n : K)) * ((2 * (n : K) - 1) * X * u - ((n : K) - 1) * v)) S n

/-- `jacobi::a`, elements/jacobi_polynomials.h:7-11. -/
def a (α β : K) (n : ℤ) : K :=
  if n = 1 then (1 / 2) * (α + β) + 1
  else (2 * n + α + β - 1) * (2 * n + α + β) / (2 * n * (n + α + β))
/-- `jacobi::b`, elements/jacobi_polynomials.h:13-18. -/
def b (α β : K) (n : ℤ) : K :=
  if n = 1 then (1 / 2) * (α - β)
  else (α * α - β * β) * (2 * n + α + β - 1) / (2 * n * (n + α + β) * (2 * n + α + β - 2))
/-- `jacobi::c`, elements/jacobi_polynomials.h:20-26. -/
def c (α β : K) (n : ℤ) : K :=
  if n = 1 then 0
  else (n + α - 1) * (n + β - 1) * (2 * n + α + β) / (n * (n + α + β) * (2 * n + α + β - 2))

/-- `jacobi::eval(n, alpha, beta, X)`, elements/jacobi_polynomials.cpp:5-12. -/
def jacobiEval (α β X : K) (S : ℕ) (n : ℤ) : Option (K × ℕ) :=
  run (fun n u v => (a α β n * X + b α β n) * u - c α β n * v) S n

/-- `jacobi::eval_der(n, k, alpha, beta, X)`, elements/jacobi_polynomials.cpp:15-21, with the number of calls of
`jacobi::eval`; `S` frames are left for `jacobi::eval`.  `n - k` is an `int` subtraction. -/
noncomputable def jacobiEvalDer (α β X : ℝ) (S : ℕ) (n k : ℤ) : Option (ℝ × ℕ) :=
  if n = 0 ∨ k > n then some (0, 0)
  else if 2 ^ 31 ≤ n - k then none
  else do
    let θ : ℝ := n + (α + α) + 1
    let v ← jacobiEval (α + k) (β + k) X S (n - k)
    pure ((1 / 2 : ℝ) ^ k * Real.Gamma (θ + k) * v.1 / Real.Gamma θ, v.2)

/-- Conversion of a `SizeType` to `int` (modulo 2^32), elements/legendre_polynomials.cpp:52 and 74. -/
def toInt (j : ℕ) : ℤ := Int.bmod j (2 ^ 32)

/-- `legendre::eval_approx(N, c, X)`, elements/legendre_polynomials.cpp:49-56; state: the sum and the calls so far. -/
def evalApprox (N : ℕ) (co : ℕ → K) (X : K) (S : ℕ) : Option (K × ℕ) :=
  loopM N (fun j s => do
    let v ← eval X S (toInt j)
    pure (s.1 + co j * v.1, s.2 + v.2)) (0, 0)

/-- `legendre::eval_der_approx(N, k, c, X)`, elements/legendre_polynomials.cpp:70-78. -/
noncomputable def evalDerApprox (N k : ℕ) (co : ℕ → ℝ) (X : ℝ) (S : ℕ) : Option (ℝ × ℕ) :=
  loopM N (fun j s => do
    let v ← jacobiEvalDer 0 0 X S (toInt j) (toInt k)
    pure (s.1 + co j * v.1, s.2 + v.2)) (0, 0)

end Verif.Legendre.Rec
