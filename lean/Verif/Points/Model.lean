import Verif.Loop
import Mathlib.Analysis.SpecialFunctions.Trigonometric.Basic

/-!
# Model of `elements/point_distributions.cpp` and of `elements::chebyshev_nodes_1D`
-/

namespace Verif.Points

/-- Models `equispaced_points`, elements/point_distributions.cpp:16-20 (`Z[i] = Zl + double(i)/double(N-1)
*(Zr - Zl)`), for `Real`.  `N - 1 = 0` makes `double(i)/double(N - 1)` equal to `0/0`, a NaN:
modelled as `none` (some array entry is not a number). -/
def equispacedPoints {K : Type*} [Field K] (N : ℕ) (Zl Zr : K) (Z : ℕ → K) : Option (ℕ → K) :=
  if N = 1 then none
  else some (loop N (fun i Z => store Z i (Zl + (i : K) / ((N - 1 : ℕ) : K) * (Zr - Zl))) Z)

/-- Models `chebyshev_points`, elements/point_distributions.cpp:37-49, for `Real`
(its comment calls the points "second kind"; they are the first-kind points, see C57); `j` is a signed `int`. -/
noncomputable def chebyshevPoints (N : ℕ) (Zl Zr : ℝ) (Z : ℕ → ℝ) : ℕ → ℝ :=
  let f := (1 / 2) * Real.pi / (N : ℝ)
  let Z := loop N (fun i Z =>
    let j : ℤ := (-1 * (N : ℤ) + 1) + 2 * (i : ℤ)
    store Z i (Real.sin (f * (j : ℝ)))) Z
  loop N (fun i Z => store Z i ((1 / 2) * (1 - Z i) * Zl + (1 / 2) * (1 + Z i) * Zr)) Z

/-- Models `elements::chebyshev_nodes_1D`, elements/elements.cpp:2276-2291 (the literal `pi` is
taken as the real number π). The loop counter `i = 1..order` is index + 1. -/
noncomputable def chebyshevNodes1D (order : ℕ) (a : ℕ → ℝ) : ℕ → ℝ :=
  let a := loop order (fun i a =>
    store a i (-Real.cos (Real.pi * (2 * ((i : ℝ) + 1) - 1) / (2 * ((order : ℝ) + 1))))) a
  let a := store a 0 (-1)
  store a order 1

end Verif.Points
