import Verif.Common.Model
import Verif.Lagrange.Model

/-!
# Model of `/repo/elements/lagrange_element.cpp` (`LagrangeElement<Real>`)

The object is represented by its data: `N` (number of vertices per dimension), vertex coordinates
`Z` and the work array `C` of `3*N` entries, threaded explicitly through the methods that write it.
The coincidence tolerance `2*NUM_EPS` of `common::almost_equal` is the parameter `tol`.
The class is a template over `NumType`; the methods (suffix `At`) are written for any field with the search
`fnd x` for `lagrange::find_coincident_vertex(N, Z, x)` as a parameter, because `common::abs` differs between the two
instantiations.  The definitions without suffix are `LagrangeElement<Real>`; `LagrangeElement<Complex>` is in
`Verif/ComplexStep/Model.lean`.
Not modelled here: allocation and the destructor (see `Verif/Heap/Model.lean`), `Ne = std::pow(N, Nd)`.
-/

namespace Verif.LagrangeElement
open Verif.Lagrange
variable {K : Type*} [Field K]

/-- The barycentric weights computed by the constructor, elements/lagrange_element.cpp:15-16; `new`
leaves the array uninitialised, the loops overwrite every entry. -/
def weights (N : ℕ) (Z : ℕ → K) : ℕ → K := computeBarycentricWeights N Z 0

/-- `lagrange::find_coincident_vertex(N, Z, X)` as an index. -/
def find [LinearOrder K] (tol : K) (N : ℕ) (Z : ℕ → K) (x : K) : ℕ := (findCoincidentVertex tol N Z x).toNat

/-- Digits of the basis index: `common::base_10_to_mixed_radix(Nd, rad, I, ijk)` with
`rad = {N, N, N}`, elements/lagrange_element.cpp:10-12 and 40. -/
def digits (N I : ℕ) : Option (ℕ × ℕ × ℕ) :=
  match Common.base10ToMixedRadix [.ofNat N, .ofNat N, .ofNat N] (.ofNat I) with
  | some [i, j, k] => some (i.toNat, j.toNat, k.toNat)
  | _ => none

/-- Models `LagrangeElement::eval_basis`, elements/lagrange_element.cpp:37-53. -/
def evalBasisAt (fnd : K → ℕ) (N : ℕ) (Z : ℕ → K) (I : ℕ) (X : ℕ → K) : Option K :=
  match digits N I with
  | none => none
  | some (i, j, k) =>
    let w := weights N Z
    let li := eval N i (fnd (X 0)) Z w (X 0)
    let lj := eval N j (fnd (X 1)) Z w (X 1)
    let lk := eval N k (fnd (X 2)) Z w (X 2)
    some (li * lj * lk)

/-- Models `LagrangeElement::eval_grad_basis`, elements/lagrange_element.cpp:68-94; result is the
three entries of `grad_phi`. `C` is the work array on entry; each `eval_der` overwrites its first
`N` entries, the array it leaves behind is the one of `evalDerRun`. -/
def evalGradBasisAt (fnd : K → ℕ) (N : ℕ) (Z : ℕ → K) (C : ℕ → K) (I : ℕ) (X : ℕ → K) :
    Option (K × K × K) :=
  match digits N I with
  | none => none
  | some (i, j, k) =>
    let w := weights N Z
    let ix := fnd (X 0)
    let iy := fnd (X 1)
    let iz := fnd (X 2)
    let li := eval N i ix Z w (X 0)
    let lj := eval N j iy Z w (X 1)
    let lk := eval N k iz Z w (X 2)
    let dli := evalDer N 1 i ix Z w (X 0) C
    let C1 := (evalDerRun N 1 ix Z w (X 0)
      (loop N (fun m c => store c m (if m ≠ i then 0 else 1)) C)).c
    let dlj := evalDer N 1 j iy Z w (X 1) C1
    let C2 := (evalDerRun N 1 iy Z w (X 1)
      (loop N (fun m c => store c m (if m ≠ j then 0 else 1)) C1)).c
    let dlk := evalDer N 1 k iz Z w (X 2) C2
    some (dli * lj * lk, li * dlj * lk, li * lj * dlk)

/-- Models `LagrangeElement::eval_approx`, elements/lagrange_element.cpp:120-139. -/
def evalApproxAt (fnd : K → ℕ) (N : ℕ) (Z : ℕ → K) (C c : ℕ → K) (X : ℕ → K) : K :=
  let w := weights N Z
  let ix := fnd (X 0)
  let iy := fnd (X 1)
  let iz := fnd (X 2)
  let C := loop N (fun k C =>
    let C := loop N (fun j C =>
      store C j (evalInterp N ix Z w (X 0) (fun m => c (j * N + k * N * N + m)))) C
    store C (N + k) (evalInterp N iy Z w (X 1) C)) C
  evalInterp N iz Z w (X 2) (fun m => C (N + m))

/-- `std::copy(src, src + N, C)`: element-wise in increasing order. -/
def copyTo (N : ℕ) (src : (ℕ → K) → ℕ → K) (C : ℕ → K) : ℕ → K :=
  loop N (fun m C => store C m (src C m)) C

/-- A derivative or plain evaluation of the first line of the work array, and the work array it
leaves behind: lines 178-182, 187-191 and 196-200 of elements/lagrange_element.cpp. -/
def lineEval (der : Bool) (N ic : ℕ) (Z w : ℕ → K) (x : K) (C : ℕ → K) : K × (ℕ → K) :=
  if der then (evalDerInterp N 1 ic Z w x C, (evalDerRun N 1 ic Z w x C).c)
  else (evalInterp N ic Z w x C, C)

/-- Models `LagrangeElement::eval_grad_approx`, elements/lagrange_element.cpp:164-202. State: the
work array and the output array; the output pointer is `grad_f + off` (see `evalJac`). -/
def evalGradApproxAt (fnd : K → ℕ) (N : ℕ) (Z : ℕ → K) (C c : ℕ → K) (X : ℕ → K) (off : ℕ)
    (grad : ℕ → K) : (ℕ → K) × (ℕ → K) :=
  let w := weights N Z
  let ix := fnd (X 0)
  let iy := fnd (X 1)
  let iz := fnd (X 2)
  loop 3 (fun l (s : (ℕ → K) × (ℕ → K)) =>
    let C := loop N (fun k C =>
      let C := loop N (fun j C =>
        let C := copyTo N (fun _ m => c (j * N + k * N * N + m)) C
        let r := lineEval (l == 0) N ix Z w (X 0) C
        store r.2 (N + j) r.1) C
      let C := copyTo N (fun C m => C (N + m)) C
      let r := lineEval (l == 1) N iy Z w (X 1) C
      store r.2 (2 * N + k) r.1) s.1
    let C := copyTo N (fun C m => C (2 * N + m)) C
    let r := lineEval (l == 2) N iz Z w (X 2) C
    (r.2, store s.2 (off + l) r.1)) (C, grad)

/-- Models `LagrangeElement::eval_jac`, elements/lagrange_element.cpp:219-229; result is the array
`J`. -/
def evalJacAt (fnd : K → ℕ) (N : ℕ) (Z : ℕ → K) (C x y z : ℕ → K) (X J : ℕ → K) : (ℕ → K) × (ℕ → K) :=
  let s := evalGradApproxAt fnd N Z C x X 0 J
  let s := evalGradApproxAt fnd N Z s.1 y X 3 s.2
  evalGradApproxAt fnd N Z s.1 z X 6 s.2

/-- The expression of elements/lagrange_element.cpp:247-248. -/
def det9 (J : ℕ → K) : K :=
  J 0 * (J 4 * J 8 - J 5 * J 7) - J 1 * (J 3 * J 8 - J 5 * J 6) + J 2 * (J 3 * J 7 - J 4 * J 6)

/-- Models `LagrangeElement::eval_det_jac`, elements/lagrange_element.cpp:242-249 (`J0` is the
uninitialised local array). -/
def evalDetJacAt (fnd : K → ℕ) (N : ℕ) (Z : ℕ → K) (C x y z : ℕ → K) (X J0 : ℕ → K) : K × (ℕ → K) :=
  let s := evalJacAt fnd N Z C x y z X J0
  (det9 s.2, s.1)

/-- Models `LagrangeElement::eval_inv_jac`, elements/lagrange_element.cpp:265-283. -/
def evalInvJacAt (fnd : K → ℕ) (N : ℕ) (Z : ℕ → K) (C x y z : ℕ → K) (X J0 J0' Jinv : ℕ → K) : ℕ → K :=
  let s := evalJacAt fnd N Z C x y z X J0
  let J := s.2
  let d := 1 / (evalDetJacAt fnd N Z s.1 x y z X J0').1
  let Jinv := store Jinv 0 (d * (J 4 * J 8 - J 5 * J 7))
  let Jinv := store Jinv 1 (-d * (J 1 * J 8 - J 2 * J 7))
  let Jinv := store Jinv 2 (d * (J 1 * J 5 - J 2 * J 4))
  let Jinv := store Jinv 3 (-d * (J 3 * J 8 - J 5 * J 6))
  let Jinv := store Jinv 4 (d * (J 0 * J 8 - J 2 * J 6))
  let Jinv := store Jinv 5 (-d * (J 0 * J 5 - J 2 * J 3))
  let Jinv := store Jinv 6 (d * (J 3 * J 7 - J 4 * J 6))
  let Jinv := store Jinv 7 (-d * (J 0 * J 7 - J 1 * J 6))
  store Jinv 8 (d * (J 0 * J 4 - J 1 * J 3))


/-! ### `LagrangeElement<Real>` -/

section Real
variable [LinearOrder K]

/-- `LagrangeElement<Real>::eval_basis`, elements/lagrange_element.cpp:37-53. -/
def evalBasis (tol : K) (N : ℕ) (Z : ℕ → K) (I : ℕ) (X : ℕ → K) : Option K := evalBasisAt (find tol N Z) N Z I X
/-- `LagrangeElement<Real>::eval_grad_basis`, elements/lagrange_element.cpp:68-94. -/
def evalGradBasis (tol : K) (N : ℕ) (Z : ℕ → K) (C : ℕ → K) (I : ℕ) (X : ℕ → K) : Option (K × K × K) :=
  evalGradBasisAt (find tol N Z) N Z C I X
/-- `LagrangeElement<Real>::eval_approx`, elements/lagrange_element.cpp:120-139. -/
def evalApprox (tol : K) (N : ℕ) (Z : ℕ → K) (C c : ℕ → K) (X : ℕ → K) : K :=
  evalApproxAt (find tol N Z) N Z C c X
/-- `LagrangeElement<Real>::eval_grad_approx`, elements/lagrange_element.cpp:164-202. -/
def evalGradApprox (tol : K) (N : ℕ) (Z : ℕ → K) (C c : ℕ → K) (X : ℕ → K) (off : ℕ) (grad : ℕ → K) :
    (ℕ → K) × (ℕ → K) := evalGradApproxAt (find tol N Z) N Z C c X off grad
/-- `LagrangeElement<Real>::eval_jac`, elements/lagrange_element.cpp:219-229. -/
def evalJac (tol : K) (N : ℕ) (Z : ℕ → K) (C x y z : ℕ → K) (X J : ℕ → K) : (ℕ → K) × (ℕ → K) :=
  evalJacAt (find tol N Z) N Z C x y z X J
/-- `LagrangeElement<Real>::eval_det_jac`, elements/lagrange_element.cpp:242-249. -/
def evalDetJac (tol : K) (N : ℕ) (Z : ℕ → K) (C x y z : ℕ → K) (X J0 : ℕ → K) : K × (ℕ → K) :=
  evalDetJacAt (find tol N Z) N Z C x y z X J0
/-- `LagrangeElement<Real>::eval_inv_jac`, elements/lagrange_element.cpp:265-283. -/
def evalInvJac (tol : K) (N : ℕ) (Z : ℕ → K) (C x y z : ℕ → K) (X J0 J0' Jinv : ℕ → K) : ℕ → K :=
  evalInvJacAt (find tol N Z) N Z C x y z X J0 J0' Jinv

end Real

end Verif.LagrangeElement
