import Verif.Shape.Entries
import Verif.Shape.Spec
import Mathlib.Tactic.IntervalCases
import Mathlib.Tactic.NormNum
import Mathlib.Tactic.Ring
import Mathlib.Analysis.Calculus.Deriv.Pow
import Mathlib.Analysis.Calculus.Deriv.Mul
import Mathlib.Analysis.Calculus.Deriv.Add

/-!
Per-element proofs that the partial-derivative routines return the derivatives of the shape functions.
-/

namespace Verif.Shape

/-- A cubic function is determined by four values, and so is its derivative. -/
theorem cubic {f : ℝ → ℝ} {f' x : ℝ}
    (hf : ∀ t, f t = f 0 + ((6 * f 1 - 2 * f (-1) - f 2 - 3 * f 0) / 6) * t
      + ((f 1 + f (-1)) / 2 - f 0) * t ^ 2 + ((f 2 + 3 * f 0 - 3 * f 1 - f (-1)) / 6) * t ^ 3)
    (h' : f' = ((6 * f 1 - 2 * f (-1) - f 2 - 3 * f 0) / 6) + 2 * ((f 1 + f (-1)) / 2 - f 0) * x
      + 3 * ((f 2 + 3 * f 0 - 3 * f 1 - f (-1)) / 6) * x ^ 2) : HasDerivAt f f' x := by
  rw [funext hf, h']
  generalize (6 * f 1 - 2 * f (-1) - f 2 - 3 * f 0) / 6 = b
  generalize (f 1 + f (-1)) / 2 - f 0 = c
  generalize (f 2 + 3 * f 0 - 3 * f 1 - f (-1)) / 6 = d
  have h1 := (hasDerivAt_const x (f 0)).add ((hasDerivAt_id x).const_mul b)
  have h2 := (h1.add ((hasDerivAt_pow 2 x).const_mul c)).add ((hasDerivAt_pow 3 x).const_mul d)
  refine h2.congr_deriv ?_
  push_cast; ring

section
variable {x : ℕ → ℝ} {t : ℝ}
@[shape_entry] theorem u00 : Function.update x 0 t 0 = t := rfl
@[shape_entry] theorem u01 : Function.update x 0 t 1 = x 1 := rfl
@[shape_entry] theorem u02 : Function.update x 0 t 2 = x 2 := rfl
@[shape_entry] theorem u03 : Function.update x 0 t 3 = x 3 := rfl
@[shape_entry] theorem u10 : Function.update x 1 t 0 = x 0 := rfl
@[shape_entry] theorem u11 : Function.update x 1 t 1 = t := rfl
@[shape_entry] theorem u12 : Function.update x 1 t 2 = x 2 := rfl
@[shape_entry] theorem u13 : Function.update x 1 t 3 = x 3 := rfl
@[shape_entry] theorem u20 : Function.update x 2 t 0 = x 0 := rfl
@[shape_entry] theorem u21 : Function.update x 2 t 1 = x 1 := rfl
@[shape_entry] theorem u22 : Function.update x 2 t 2 = t := rfl
@[shape_entry] theorem u23 : Function.update x 2 t 3 = x 3 := rfl
@[shape_entry] theorem u30 : Function.update x 3 t 0 = x 0 := rfl
@[shape_entry] theorem u31 : Function.update x 3 t 1 = x 1 := rfl
@[shape_entry] theorem u32 : Function.update x 3 t 2 = x 2 := rfl
@[shape_entry] theorem u33 : Function.update x 3 t 3 = t := rfl
end

/-- One derivative goal: a concrete vertex, a concrete coordinate. -/
macro "shape_deriv" : tactic => `(tactic| (
  apply cubic
  · intro t
    simp only [shape_entry]
    ring1
  · simp only [shape_entry]
    ring1))

namespace Quad4
set_option maxHeartbeats 4000000 in
theorem deriv0 (b b' x : ℕ → ℝ) (v : ℕ) (hv : v < 4) :
    HasDerivAt (fun t => basis (Function.update x 0 t) b v) (partialXi x b' v) (x 0) := by
  interval_cases v <;> shape_deriv

set_option maxHeartbeats 4000000 in
theorem deriv1 (b b' x : ℕ → ℝ) (v : ℕ) (hv : v < 4) :
    HasDerivAt (fun t => basis (Function.update x 1 t) b v) (partialEta x b' v) (x 1) := by
  interval_cases v <;> shape_deriv

end Quad4

namespace Quad8
set_option maxHeartbeats 4000000 in
theorem deriv0 (b b' x : ℕ → ℝ) (v : ℕ) (hv : v < 8) :
    HasDerivAt (fun t => basis (Function.update x 0 t) b v) (partialXi x b' v) (x 0) := by
  interval_cases v <;> shape_deriv

set_option maxHeartbeats 4000000 in
theorem deriv1 (b b' x : ℕ → ℝ) (v : ℕ) (hv : v < 8) :
    HasDerivAt (fun t => basis (Function.update x 1 t) b v) (partialEta x b' v) (x 1) := by
  interval_cases v <;> shape_deriv

end Quad8

namespace Quad12
set_option maxHeartbeats 4000000 in
theorem deriv0 (b b' x : ℕ → ℝ) (v : ℕ) (hv : v < 12) :
    HasDerivAt (fun t => basis (Function.update x 0 t) b v) (partialXi x b' v) (x 0) := by
  interval_cases v <;> shape_deriv

set_option maxHeartbeats 4000000 in
theorem deriv1 (b b' x : ℕ → ℝ) (v : ℕ) (hv : v < 12) :
    HasDerivAt (fun t => basis (Function.update x 1 t) b v) (partialEta x b' v) (x 1) := by
  interval_cases v <;> shape_deriv

end Quad12

namespace Hex8
set_option maxHeartbeats 4000000 in
theorem deriv0 (b b' x : ℕ → ℝ) (v : ℕ) (hv : v < 8) :
    HasDerivAt (fun t => basis (Function.update x 0 t) b v) (partialXi x b' v) (x 0) := by
  interval_cases v <;> shape_deriv

set_option maxHeartbeats 4000000 in
theorem deriv1 (b b' x : ℕ → ℝ) (v : ℕ) (hv : v < 8) :
    HasDerivAt (fun t => basis (Function.update x 1 t) b v) (partialEta x b' v) (x 1) := by
  interval_cases v <;> shape_deriv

set_option maxHeartbeats 4000000 in
theorem deriv2 (b b' x : ℕ → ℝ) (v : ℕ) (hv : v < 8) :
    HasDerivAt (fun t => basis (Function.update x 2 t) b v) (partialMu x b' v) (x 2) := by
  interval_cases v <;> shape_deriv

end Hex8

namespace Hex20
set_option maxHeartbeats 4000000 in
theorem deriv0 (b b' x : ℕ → ℝ) (v : ℕ) (hv : v < 20) (hg : v < 9 ∨ v = 10 ∨ v = 12 ∨ v = 14) :
    HasDerivAt (fun t => basis (Function.update x 0 t) b v) (partialXi x b' v) (x 0) := by
  interval_cases v <;> first | (exfalso; omega) | shape_deriv

set_option maxHeartbeats 4000000 in
theorem deriv1 (b b' x : ℕ → ℝ) (v : ℕ) (hv : v < 20) :
    HasDerivAt (fun t => basis (Function.update x 1 t) b v) (partialEta x b' v) (x 1) := by
  interval_cases v <;> shape_deriv

set_option maxHeartbeats 4000000 in
theorem deriv2 (b b' x : ℕ → ℝ) (v : ℕ) (hv : v < 20) :
    HasDerivAt (fun t => basis (Function.update x 2 t) b v) (partialMu x b' v) (x 2) := by
  interval_cases v <;> shape_deriv

end Hex20

namespace Hex32
set_option maxHeartbeats 4000000 in
theorem deriv0 (b b' x : ℕ → ℝ) (v : ℕ) (hv : v < 32) (hg : v < 8 ∨ 16 ≤ v ∧ v < 24) :
    HasDerivAt (fun t => basis (Function.update x 0 t) b v) (partialXi x b' v) (x 0) := by
  interval_cases v <;> first | (exfalso; omega) | shape_deriv

set_option maxHeartbeats 4000000 in
theorem deriv1 (b b' x : ℕ → ℝ) (v : ℕ) (hv : v < 32) :
    HasDerivAt (fun t => basis (Function.update x 1 t) b v) (partialEta x b' v) (x 1) := by
  interval_cases v <;> shape_deriv

set_option maxHeartbeats 4000000 in
theorem deriv2 (b b' x : ℕ → ℝ) (v : ℕ) (hv : v < 32) :
    HasDerivAt (fun t => basis (Function.update x 2 t) b v) (partialMu x b' v) (x 2) := by
  interval_cases v <;> shape_deriv

end Hex32

namespace Tess16
set_option maxHeartbeats 4000000 in
theorem deriv0 (b b' x : ℕ → ℝ) (v : ℕ) (hv : v < 16) :
    HasDerivAt (fun t => basis (Function.update x 0 t) b v) (partialXi x b' v) (x 0) := by
  interval_cases v <;> shape_deriv

set_option maxHeartbeats 4000000 in
theorem deriv1 (b b' x : ℕ → ℝ) (v : ℕ) (hv : v < 16) :
    HasDerivAt (fun t => basis (Function.update x 1 t) b v) (partialEta x b' v) (x 1) := by
  interval_cases v <;> shape_deriv

set_option maxHeartbeats 4000000 in
theorem deriv2 (b b' x : ℕ → ℝ) (v : ℕ) (hv : v < 16) :
    HasDerivAt (fun t => basis (Function.update x 2 t) b v) (partialMu x b' v) (x 2) := by
  interval_cases v <;> shape_deriv

set_option maxHeartbeats 4000000 in
theorem deriv3 (b b' x : ℕ → ℝ) (v : ℕ) (hv : v < 16) :
    HasDerivAt (fun t => basis (Function.update x 3 t) b v) (partialTau x b' v) (x 3) := by
  interval_cases v <;> shape_deriv

end Tess16

end Verif.Shape
