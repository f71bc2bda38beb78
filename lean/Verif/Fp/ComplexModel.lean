import Verif.Fp.LegendreModel

/-!
# The `Complex` instantiations of `elements/legendre_polynomials.cpp` and `elements/legendre_element.cpp` in rounded arithmetic

`typedef std::complex<double> Complex`, common/common.h:10.  A complex number is the pair of its real and imaginary part; a rounding follows
every operation on the parts.  The operations are those of `std::complex<double>` for finite numbers: a sum, a difference and
a product with a real number act on each part, a product is `(a c - b d) + (a d + b c) i` (without fused operations).
-/

namespace Verif.Fp.Cx
open Verif.Fp

variable (R : Rounding)

/-- `std::complex<double>::operator+`. -/
noncomputable def cadd (z w : ℝ × ℝ) : ℝ × ℝ := (R.fl (z.1 + w.1), R.fl (z.2 + w.2))

/-- `std::complex<double>::operator-`. -/
noncomputable def csub (z w : ℝ × ℝ) : ℝ × ℝ := (R.fl (z.1 - w.1), R.fl (z.2 - w.2))

/-- The product of a `double` and a `std::complex<double>`. -/
noncomputable def rmul (a : ℝ) (z : ℝ × ℝ) : ℝ × ℝ := (R.fl (a * z.1), R.fl (a * z.2))

/-- The product of two `std::complex<double>`. -/
noncomputable def cmul (z w : ℝ × ℝ) : ℝ × ℝ :=
  (R.fl (R.fl (z.1 * w.1) - R.fl (z.2 * w.2)), R.fl (R.fl (z.1 * w.2) + R.fl (z.2 * w.1)))

/-- `legendre::eval<Complex>(m - 1, X)`, elements/legendre_polynomials.cpp:14-20: `m = 0` is the `n == -1` test, `m = 1` the
`n == 0` test. -/
noncomputable def evalShift (X : ℝ × ℝ) : ℕ → ℝ × ℝ
  | 0 => (0, 0)
  | 1 => (1, 0)
  | m + 2 =>
    let n : ℝ := (m + 1 : ℕ)
    rmul R (R.fl (1 / n))
      (csub R (cmul R (rmul R (R.fl (R.fl (2 * n) - 1)) X) (evalShift X (m + 1))) (rmul R (R.fl (n - 1)) (evalShift X m)))

/-- `legendre::eval<Complex>`, elements/legendre_polynomials.cpp:14-20, for `n >= 0`. -/
noncomputable def eval (n : ℕ) (X : ℝ × ℝ) : ℝ × ℝ := evalShift R X (n + 1)

/-- `legendre::eval_approx<Complex>`, elements/legendre_polynomials.cpp:48-56. -/
noncomputable def evalApprox (N : ℕ) (c : ℕ → ℝ × ℝ) (X : ℝ × ℝ) : ℝ × ℝ :=
  loop N (fun j sum => cadd R sum (cmul R (c j) (eval R j X))) (0, 0)

/-- `LegendreElement<Complex>::eval_basis`, elements/legendre_element.cpp:30-41. -/
noncomputable def elemBasis (N I : ℕ) (X : ℕ → ℝ × ℝ) : Option (ℝ × ℝ) :=
  match LagrangeElement.digits N I with
  | none => none
  | some (i, j, k) =>
    let Pi := eval R i (X 0)
    let Pj := eval R j (X 1)
    let Pk := eval R k (X 2)
    some (cmul R (cmul R Pi Pj) Pk)

/-- The complex step, tests/test_legendre_polynomials.cpp:135-137: `common::imag(f)/h`. -/
noncomputable def step (f : ℝ × ℝ) (h : ℝ) : ℝ := R.fl (f.2 / h)

end Verif.Fp.Cx
