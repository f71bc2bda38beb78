import Mathlib.Analysis.Complex.Basic

/-!
# Specification: the complex step method

Evaluate a function at `x + i h`; the real part is read as the value and the imaginary part divided by `h` as the derivative.
-/

namespace Verif.ComplexStep
open Complex

/-- The complex step through `f` at the real point `x` returns the value `v` and the derivative `d`, both with an error of at most
a constant times `h²`, for every step `0 < |h| ≤ 1`. -/
def Step (f : ℂ → ℂ) (x v d : ℝ) : Prop :=
  ∃ B : ℝ, ∀ h : ℝ, h ≠ 0 → |h| ≤ 1 →
    |(f (x + h * I)).re - v| ≤ B * h ^ 2 ∧ |(f (x + h * I)).im / h - d| ≤ B * h ^ 2

end Verif.ComplexStep
