import Verif.Fp.Arith
import Verif.LagrangeElement.Model

/-!
# `elements/lagrange_polynomials.cpp` and `elements/lagrange_element.cpp` in rounded arithmetic

The models of `Verif/Lagrange/Model.lean` and `Verif/LagrangeElement/Model.lean` (instantiation `Real`) with a rounding `R.fl` after
every arithmetic operation.  Negation, comparison, the literals 0 and 1 and the tolerance `2.0*NUM_EPS` are exact.
-/

namespace Verif.Fp.Interp
open Verif.Fp

variable (R : Rounding)

open Classical in
/-- `lagrange::find_coincident_vertex`, elements/lagrange_polynomials.cpp:22-34, with `common::almost_equal`,
common/common.h:33-35: the difference is rounded. `k` starts at `SizeType(-1)` and wraps. -/
noncomputable def findVertex (tol : ℝ) (N : ℕ) (z : ℕ → ℝ) (x : ℝ) : ℕ :=
  (loop N (fun j (k : UInt64) => k + (UInt64.ofNat j + 1) * (if |R.fl (z j - x)| < tol then 1 else 0)) (0 - 1)).toNat

/-- `lagrange::compute_barycentric_weights`, elements/lagrange_polynomials.cpp:57-67. -/
noncomputable def weights (N : ℕ) (z w : ℕ → ℝ) : ℕ → ℝ :=
  loop N (fun j w => store w j
    (loop N (fun k wj => if j ≠ k then R.fl (wj * R.fl (1 / R.fl (z j - z k))) else wj) 1)) w

/-- `lagrange::eval`, elements/lagrange_polynomials.cpp:83-92. -/
noncomputable def eval (Nv i ic : ℕ) (Z w : ℕ → ℝ) (X : ℝ) : ℝ :=
  if ic < Nv then (if i = ic then 1 else 0)
  else
    let L := loop Nv (fun j L => R.fl (L * R.fl (X - Z j))) 1
    R.fl (R.fl (L * w i) / R.fl (X - Z i))

/-- The loop of elements/lagrange_polynomials.cpp:158-164 and 204-210: state `(p, L)`. -/
noncomputable def sumLoop (Nv : ℕ) (Z w : ℕ → ℝ) (X : ℝ) (c : ℕ → ℝ) : ℝ × ℝ :=
  loop Nv (fun j (s : ℝ × ℝ) =>
    (R.fl (s.1 + R.fl (R.fl (w j * c j) / R.fl (X - Z j))), R.fl (s.2 * R.fl (X - Z j)))) (0, 1)

/-- `lagrange::eval_interp`, elements/lagrange_polynomials.cpp:147-171. -/
noncomputable def evalInterp (Nv i : ℕ) (Z w : ℕ → ℝ) (X : ℝ) (c : ℕ → ℝ) : ℝ :=
  if i < Nv then c i
  else R.fl ((sumLoop R Nv Z w X c).1 * (sumLoop R Nv Z w X c).2)

/-- One iteration `k` of the coincident branch, elements/lagrange_polynomials.cpp:220-236. -/
noncomputable def derStepCoincident (Nv i : ℕ) (Z w : ℕ → ℝ) (k : ℕ) (s : Lagrange.DerState ℝ) : Lagrange.DerState ℝ :=
  let t := loop Nv (fun j (t : (ℕ → ℝ) × ℝ) =>
      let cj := R.fl (R.fl (1 / R.fl (Z i - Z j)) * R.fl (s.dkp - t.1 j))
      (store t.1 j cj, if j ≠ i then R.fl (t.2 + R.fl (w j * cj)) else t.2)) (s.c, 0)
  let M := R.fl (s.M * k)
  let dnp := R.fl (t.2 * R.fl (-M / w i))
  { c := t.1, dkp := dnp, dnp := dnp, M := M }

/-- One iteration `k` of the non-coincident branch, elements/lagrange_polynomials.cpp:240-255. -/
noncomputable def derStepNonCoincident (Nv : ℕ) (Z w : ℕ → ℝ) (X L : ℝ) (k : ℕ) (s : Lagrange.DerState ℝ) :
    Lagrange.DerState ℝ :=
  let t := loop Nv (fun j (t : (ℕ → ℝ) × ℝ) =>
      let cj := R.fl (R.fl (1 / R.fl (X - Z j)) * R.fl (s.dkp - t.1 j))
      (store t.1 j cj, R.fl (t.2 + R.fl (R.fl (w j * cj) / R.fl (X - Z j))))) (s.c, 0)
  let M := R.fl (s.M * k)
  let dnp := R.fl (t.2 * R.fl (L * M))
  { c := t.1, dkp := dnp, dnp := dnp, M := M }

/-- `lagrange::eval_der_interp`, elements/lagrange_polynomials.cpp:193-260: final values of the loop variables. -/
noncomputable def evalDerRun (Nv n i : ℕ) (Z w : ℕ → ℝ) (X : ℝ) (c : ℕ → ℝ) : Lagrange.DerState ℝ :=
  if i < Nv then loop n (fun k s => derStepCoincident R Nv i Z w (k + 1) s) ⟨c, c i, 0, 1⟩
  else
    let s := sumLoop R Nv Z w X c
    loop n (fun k t => derStepNonCoincident R Nv Z w X s.2 (k + 1) t) ⟨c, R.fl (s.1 * s.2), 0, 1⟩

/-- Return value of `lagrange::eval_der_interp`, elements/lagrange_polynomials.cpp:259. -/
noncomputable def evalDerInterp (Nv n i : ℕ) (Z w : ℕ → ℝ) (X : ℝ) (c : ℕ → ℝ) : ℝ := (evalDerRun R Nv n i Z w X c).dnp

/-! ### `LagrangeElement<Real>` -/

/-- The constructor's weights, elements/lagrange_element.cpp:15-16. -/
noncomputable def elemWeights (N : ℕ) (Z : ℕ → ℝ) : ℕ → ℝ := weights R N Z 0

/-- `LagrangeElement::eval_basis`, elements/lagrange_element.cpp:37-53. -/
noncomputable def evalBasis (tol : ℝ) (N : ℕ) (Z : ℕ → ℝ) (I : ℕ) (X : ℕ → ℝ) : Option ℝ :=
  match LagrangeElement.digits N I with
  | none => none
  | some (i, j, k) =>
    let w := elemWeights R N Z
    let li := eval R N i (findVertex R tol N Z (X 0)) Z w (X 0)
    let lj := eval R N j (findVertex R tol N Z (X 1)) Z w (X 1)
    let lk := eval R N k (findVertex R tol N Z (X 2)) Z w (X 2)
    some (R.fl (R.fl (li * lj) * lk))

/-- `LagrangeElement::eval_approx`, elements/lagrange_element.cpp:120-139; `C` is the work array on entry. -/
noncomputable def evalApprox (tol : ℝ) (N : ℕ) (Z : ℕ → ℝ) (C c : ℕ → ℝ) (X : ℕ → ℝ) : ℝ :=
  let w := elemWeights R N Z
  let ix := findVertex R tol N Z (X 0)
  let iy := findVertex R tol N Z (X 1)
  let iz := findVertex R tol N Z (X 2)
  let C := loop N (fun k C =>
    let C := loop N (fun j C => store C j (evalInterp R N ix Z w (X 0) (fun m => c (j * N + k * N * N + m)))) C
    store C (N + k) (evalInterp R N iy Z w (X 1) C)) C
  evalInterp R N iz Z w (X 2) (fun m => C (N + m))

end Verif.Fp.Interp
