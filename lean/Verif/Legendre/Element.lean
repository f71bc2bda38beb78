import Verif.Legendre.Model
import Verif.LagrangeElement.Model

/-!
# Model of `elements/legendre_element.cpp` (`LegendreElement<NumType>`)

The work array `C` has `2*N` entries. Not modelled here: allocation (see `Verif/Heap/Model.lean`), `Ne = std::pow(N, Nd)`.
The class is a template; the methods are written for any field `K`, the gradient methods with
`der n x` for `legendre::eval_der(n, 1, x)` as a parameter (suffix `At`), because `std::tgamma` is only
defined for real numbers.  The definitions without suffix are those of `LegendreElement<Real>`;
`LegendreElement<Complex>` is in `Verif/ComplexStep/Model.lean`.
-/

namespace Verif.LegendreElement
open Verif.Legendre Verif.LagrangeElement
variable {K : Type*} [Field K]

/-- Models `LegendreElement::eval_basis`, elements/legendre_element.cpp:30-41 (the conversion
`int(ijk[d])` is exact for the orders considered). -/
def evalBasis (N I : ℕ) (X : ℕ → K) : Option K :=
  match digits N I with
  | none => none
  | some (i, j, k) =>
    let Pi := eval i (X 0)
    let Pj := eval j (X 1)
    let Pk := eval k (X 2)
    some (Pi * Pj * Pk)

/-- Models `LegendreElement::eval_grad_basis`, elements/legendre_element.cpp:56-77. -/
def evalGradBasisAt (der : ℕ → K → K) (N I : ℕ) (X : ℕ → K) : Option (K × K × K) :=
  match digits N I with
  | none => none
  | some (i, j, k) =>
    let Pi := eval i (X 0)
    let Pj := eval j (X 1)
    let Pk := eval k (X 2)
    let dPi := der i (X 0)
    let dPj := der j (X 1)
    let dPk := der k (X 2)
    some (dPi * Pj * Pk, Pi * dPj * Pk, Pi * Pj * dPk)

/-- Models `LegendreElement::eval_approx`, elements/legendre_element.cpp:101-115. -/
def evalApprox (N : ℕ) (C c X : ℕ → K) : K :=
  let C := loop N (fun k C =>
    let C := loop N (fun j C =>
      store C j (Legendre.evalApprox N (fun m => c (j * N + k * N * N + m)) (X 0))) C
    store C (N + k) (Legendre.evalApprox N C (X 1))) C
  Legendre.evalApprox N (fun m => C (N + m)) (X 2)

/-- The `if (l == d) eval_der_approx(N, 1, ...) else eval_approx(N, ...)` pattern of
elements/legendre_element.cpp:139-143, 147-151, 155-159. -/
def lineEvalAt (der : ℕ → K → K) (d : Bool) (N : ℕ) (c : ℕ → K) (x : K) : K :=
  if d then evalDerApproxAt der N c x else Legendre.evalApprox N c x

/-- Models `LegendreElement::eval_grad_approx`, elements/legendre_element.cpp:132-161. State: work
array, output array. -/
def evalGradApproxAt (der : ℕ → K → K) (N : ℕ) (C c X grad : ℕ → K) : (ℕ → K) × (ℕ → K) :=
  loop 3 (fun l (s : (ℕ → K) × (ℕ → K)) =>
    let C := loop N (fun k C =>
      let C := loop N (fun j C =>
        store C j (lineEvalAt der (l == 0) N (fun m => c (j * N + k * N * N + m)) (X 0))) C
      store C (N + k) (lineEvalAt der (l == 1) N C (X 1))) s.1
    (C, store s.2 l (lineEvalAt der (l == 2) N (fun m => C (N + m)) (X 2)))) (C, grad)

/-- `legendre::eval_der(n, 1, x)` for `Real`. -/
noncomputable def derReal (n : ℕ) (x : ℝ) : ℝ := evalDer n 1 x

/-- `LegendreElement<Real>::eval_grad_basis`, elements/legendre_element.cpp:56-77. -/
noncomputable def evalGradBasis (N I : ℕ) (X : ℕ → ℝ) : Option (ℝ × ℝ × ℝ) := evalGradBasisAt derReal N I X
/-- `LegendreElement<Real>::eval_grad_approx`, elements/legendre_element.cpp:132-161. -/
noncomputable def evalGradApprox (N : ℕ) (C c X grad : ℕ → ℝ) : (ℕ → ℝ) × (ℕ → ℝ) :=
  evalGradApproxAt derReal N C c X grad

end Verif.LegendreElement
