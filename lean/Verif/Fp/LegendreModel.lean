import Verif.Fp.Arith
import Verif.Legendre.Element

/-!
# `elements/legendre_polynomials.cpp` and `elements/legendre_element.cpp` in rounded arithmetic

The models of `Verif/Legendre/Model.lean` and `Verif/Legendre/Element.lean` (instantiation `Real`) with a rounding after every
arithmetic operation; the conversion `double(n)` and the literals 0, 1, 2 are exact.
-/

namespace Verif.Fp.Legendre
open Verif.Fp

variable (R : Rounding)

/-- `legendre::eval(m - 1, X)`, elements/legendre_polynomials.cpp:15-20: `m = 0` is the `n == -1` test, `m = 1` the
`n == 0` test. -/
noncomputable def evalShift (X : ℝ) : ℕ → ℝ
  | 0 => 0
  | 1 => 1
  | m + 2 =>
    let n : ℝ := (m + 1 : ℕ)
    R.fl (R.fl (1 / n) *
      R.fl (R.fl (R.fl (R.fl (R.fl (2 * n) - 1) * X) * evalShift X (m + 1)) - R.fl (R.fl (n - 1) * evalShift X m)))

/-- `legendre::eval`, elements/legendre_polynomials.cpp:15-20, for `n >= 0`. -/
noncomputable def eval (n : ℕ) (X : ℝ) : ℝ := evalShift R X (n + 1)

/-- `legendre::eval_approx`, elements/legendre_polynomials.cpp:49-56. -/
noncomputable def evalApprox (N : ℕ) (c : ℕ → ℝ) (X : ℝ) : ℝ :=
  loop N (fun j sum => R.fl (sum + R.fl (c j * eval R j X))) 0

/-- `LegendreElement::eval_basis`, elements/legendre_element.cpp:30-41. -/
noncomputable def elemBasis (N I : ℕ) (X : ℕ → ℝ) : Option ℝ :=
  match LagrangeElement.digits N I with
  | none => none
  | some (i, j, k) =>
    let Pi := eval R i (X 0)
    let Pj := eval R j (X 1)
    let Pk := eval R k (X 2)
    some (R.fl (R.fl (Pi * Pj) * Pk))

/-- `LegendreElement::eval_approx`, elements/legendre_element.cpp:101-115; `C` is the work array on entry. -/
noncomputable def elemApprox (N : ℕ) (C c X : ℕ → ℝ) : ℝ :=
  let C := loop N (fun k C =>
    let C := loop N (fun j C => store C j (evalApprox R N (fun m => c (j * N + k * N * N + m)) (X 0))) C
    store C (N + k) (evalApprox R N C (X 1))) C
  evalApprox R N (fun m => C (N + m)) (X 2)

/-! ### Derivatives -/

/-- `jacobi::a`, elements/jacobi_polynomials.h:7-11. -/
noncomputable def ja (α β : ℝ) (n : ℕ) : ℝ :=
  if n = 1 then R.fl (R.fl (1 / 2 * R.fl (α + β)) + 1)
  else R.fl (R.fl (R.fl (R.fl (R.fl (R.fl (2 * n) + α) + β) - 1) * R.fl (R.fl (R.fl (2 * n) + α) + β)) /
    R.fl (R.fl (2 * n) * R.fl (R.fl (n + α) + β)))

/-- `jacobi::b`, elements/jacobi_polynomials.h:13-18. -/
noncomputable def jb (α β : ℝ) (n : ℕ) : ℝ :=
  if n = 1 then R.fl (1 / 2 * R.fl (α - β))
  else R.fl (R.fl (R.fl (R.fl (α * α) - R.fl (β * β)) * R.fl (R.fl (R.fl (R.fl (2 * n) + α) + β) - 1)) /
    R.fl (R.fl (R.fl (2 * n) * R.fl (R.fl (n + α) + β)) * R.fl (R.fl (R.fl (R.fl (2 * n) + α) + β) - 2)))

/-- `jacobi::c`, elements/jacobi_polynomials.h:20-26. -/
noncomputable def jc (α β : ℝ) (n : ℕ) : ℝ :=
  if n = 1 then 0
  else R.fl (R.fl (R.fl (R.fl (R.fl (n + α) - 1) * R.fl (R.fl (n + β) - 1)) * R.fl (R.fl (R.fl (2 * n) + α) + β)) /
    R.fl (R.fl (n * R.fl (R.fl (n + α) + β)) * R.fl (R.fl (R.fl (R.fl (2 * n) + α) + β) - 2)))

/-- `jacobi::eval(m - 1, alpha, beta, X)`, elements/jacobi_polynomials.cpp:5-12. -/
noncomputable def jacobiShift (α β X : ℝ) : ℕ → ℝ
  | 0 => 0
  | 1 => 1
  | m + 2 =>
    R.fl (R.fl (R.fl (R.fl (ja R α β (m + 1) * X) + jb R α β (m + 1)) * jacobiShift α β X (m + 1)) -
      R.fl (jc R α β (m + 1) * jacobiShift α β X m))

/-- `jacobi::eval`, elements/jacobi_polynomials.cpp:5-12, for `n >= 0`. -/
noncomputable def jacobiEval (n : ℕ) (α β X : ℝ) : ℝ := jacobiShift R α β X (n + 1)

/-- `jacobi::eval_der`, elements/jacobi_polynomials.cpp:15-21; `tg` is the library function `std::tgamma`, and `std::pow(0.5, k)` is
exact. -/
noncomputable def jacobiEvalDer (tg : ℝ → ℝ) (n k : ℕ) (α β X : ℝ) : ℝ :=
  if n = 0 ∨ k > n then 0
  else
    let θ := R.fl (R.fl (n + R.fl (α + α)) + 1)
    R.fl (R.fl (R.fl ((1 / 2) ^ k * tg (R.fl (θ + k))) * jacobiEval R (n - k) (R.fl (α + k)) (R.fl (β + k)) X) / tg θ)

/-- `legendre::eval_der`, elements/legendre_polynomials.cpp:33-35. -/
noncomputable def evalDer (tg : ℝ → ℝ) (n k : ℕ) (X : ℝ) : ℝ := jacobiEvalDer R tg n k 0 0 X

/-- `legendre::eval_der_approx`, elements/legendre_polynomials.cpp:70-78. -/
noncomputable def evalDerApprox (tg : ℝ → ℝ) (N k : ℕ) (c : ℕ → ℝ) (X : ℝ) : ℝ :=
  loop N (fun j sum => R.fl (sum + R.fl (c j * evalDer R tg j k X))) 0

/-- `LegendreElement::eval_grad_basis`, elements/legendre_element.cpp:56-77. -/
noncomputable def elemGradBasis (tg : ℝ → ℝ) (N I : ℕ) (X : ℕ → ℝ) : Option (ℝ × ℝ × ℝ) :=
  match LagrangeElement.digits N I with
  | none => none
  | some (i, j, k) =>
    let Pi := eval R i (X 0)
    let Pj := eval R j (X 1)
    let Pk := eval R k (X 2)
    let dPi := evalDer R tg i 1 (X 0)
    let dPj := evalDer R tg j 1 (X 1)
    let dPk := evalDer R tg k 1 (X 2)
    some (R.fl (R.fl (dPi * Pj) * Pk), R.fl (R.fl (Pi * dPj) * Pk), R.fl (R.fl (Pi * Pj) * dPk))

/-- The `if (l == d) eval_der_approx(N, 1, ...) else eval_approx(N, ...)` pattern of
elements/legendre_element.cpp:139-143, 147-151, 155-159. -/
noncomputable def lineEval (tg : ℝ → ℝ) (d : Bool) (N : ℕ) (c : ℕ → ℝ) (x : ℝ) : ℝ :=
  if d then evalDerApprox R tg N 1 c x else evalApprox R N c x

/-- `LegendreElement::eval_grad_approx`, elements/legendre_element.cpp:132-161. State: work array, output array. -/
noncomputable def elemGradApprox (tg : ℝ → ℝ) (N : ℕ) (C c X grad : ℕ → ℝ) : (ℕ → ℝ) × (ℕ → ℝ) :=
  loop 3 (fun l (s : (ℕ → ℝ) × (ℕ → ℝ)) =>
    let C := loop N (fun k C =>
      let C := loop N (fun j C =>
        store C j (lineEval R tg (l == 0) N (fun m => c (j * N + k * N * N + m)) (X 0))) C
      store C (N + k) (lineEval R tg (l == 1) N C (X 1))) s.1
    (C, store s.2 l (lineEval R tg (l == 2) N (fun m => C (N + m)) (X 2)))) (C, grad)

end Verif.Fp.Legendre
