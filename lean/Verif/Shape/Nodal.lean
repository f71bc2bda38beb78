import Verif.Shape.Entries
import Verif.Shape.Spec
import Mathlib.Tactic.IntervalCases
import Mathlib.Tactic.NormNum
import Mathlib.Tactic.Ring
import Mathlib.Algebra.CharZero.Defs
import Mathlib.Algebra.BigOperators.Intervals
import Mathlib.Data.Rat.Cast.CharZero

/-!
Per-element proofs that the shape functions are nodal, sum to one and reproduce the coordinates.
-/

set_option linter.unusedSectionVars false

namespace Verif.Shape
variable {K : Type*} [Field K] [CharZero K]
open Finset


namespace Quad4
theorem rv_cast (v d : ℕ) (hv : v < 4) (hd : d < 2) : (rv v d : K) = ((rv v d : ℚ) : K) := by
  interval_cases v <;> interval_cases d <;> simp only [shape_entry] <;> push_cast <;> rfl

theorem nodal (b : ℕ → K) (v w : ℕ) (hv : v < 4) (hw : w < 4) :
    basis (rv w) b v = if v = w then 1 else 0 := by
  have h : ∀ v < 4, ∀ w < 4, basis (rv w) (fun _ => (0 : ℚ)) v = if v = w then 1 else 0 := by
    decide +kernel
  have e : basis (rv w) b v = ((basis (rv w) (fun _ => (0 : ℚ)) v : ℚ) : K) := by
    have h0 := rv_cast (K := K) w 0 hw (by norm_num)
    have h1 := rv_cast (K := K) w 1 hw (by norm_num)
    interval_cases v <;> simp only [shape_entry, h0, h1] <;> push_cast <;> rfl
  rw [e, h v hv w hw]; split_ifs <;> simp

theorem sum_one (x b : ℕ → K) : ∑ v ∈ range 4, basis x b v = 1 := by
  simp only [sum_range_succ, sum_range_zero, shape_entry]
  ring

theorem linear (x b : ℕ → K) (d : ℕ) (hd : d < 2) : ∑ v ∈ range 4, basis x b v * rv v d = x d := by
  interval_cases d <;>
  · simp only [sum_range_succ, sum_range_zero, shape_entry]
    ring
end Quad4


namespace Quad8
theorem rv_cast (v d : ℕ) (hv : v < 8) (hd : d < 2) : (rv v d : K) = ((rv v d : ℚ) : K) := by
  interval_cases v <;> interval_cases d <;> simp only [shape_entry] <;> push_cast <;> rfl

theorem nodal (b : ℕ → K) (v w : ℕ) (hv : v < 8) (hw : w < 8) :
    basis (rv w) b v = if v = w then 1 else 0 := by
  have h : ∀ v < 8, ∀ w < 8, basis (rv w) (fun _ => (0 : ℚ)) v = if v = w then 1 else 0 := by
    decide +kernel
  have e : basis (rv w) b v = ((basis (rv w) (fun _ => (0 : ℚ)) v : ℚ) : K) := by
    have h0 := rv_cast (K := K) w 0 hw (by norm_num)
    have h1 := rv_cast (K := K) w 1 hw (by norm_num)
    interval_cases v <;> simp only [shape_entry, h0, h1] <;> push_cast <;> rfl
  rw [e, h v hv w hw]; split_ifs <;> simp

theorem sum_one (x b : ℕ → K) : ∑ v ∈ range 8, basis x b v = 1 := by
  simp only [sum_range_succ, sum_range_zero, shape_entry]
  ring

theorem linear (x b : ℕ → K) (d : ℕ) (hd : d < 2) : ∑ v ∈ range 8, basis x b v * rv v d = x d := by
  interval_cases d <;>
  · simp only [sum_range_succ, sum_range_zero, shape_entry]
    ring
end Quad8


namespace Quad12
theorem rv_cast (v d : ℕ) (hv : v < 12) (hd : d < 2) : (rv v d : K) = ((rv v d : ℚ) : K) := by
  interval_cases v <;> interval_cases d <;> simp only [shape_entry] <;> push_cast <;> rfl

theorem nodal (b : ℕ → K) (v w : ℕ) (hv : v < 12) (hw : w < 12) :
    basis (rv w) b v = if v = w then 1 else 0 := by
  have h : ∀ v < 12, ∀ w < 12, basis (rv w) (fun _ => (0 : ℚ)) v = if v = w then 1 else 0 := by
    decide +kernel
  have e : basis (rv w) b v = ((basis (rv w) (fun _ => (0 : ℚ)) v : ℚ) : K) := by
    have h0 := rv_cast (K := K) w 0 hw (by norm_num)
    have h1 := rv_cast (K := K) w 1 hw (by norm_num)
    interval_cases v <;> simp only [shape_entry, h0, h1] <;> push_cast <;> rfl
  rw [e, h v hv w hw]; split_ifs <;> simp

theorem sum_one (x b : ℕ → K) : ∑ v ∈ range 12, basis x b v = 1 := by
  simp only [sum_range_succ, sum_range_zero, shape_entry]
  ring

theorem linear (x b : ℕ → K) (d : ℕ) (hd : d < 2) : ∑ v ∈ range 12, basis x b v * rv v d = x d := by
  interval_cases d <;>
  · simp only [sum_range_succ, sum_range_zero, shape_entry]
    ring
end Quad12


namespace Hex8
theorem rv_cast (v d : ℕ) (hv : v < 8) (hd : d < 3) : (rv v d : K) = ((rv v d : ℚ) : K) := by
  interval_cases v <;> interval_cases d <;> simp only [shape_entry] <;> push_cast <;> rfl

theorem nodal (b : ℕ → K) (v w : ℕ) (hv : v < 8) (hw : w < 8) :
    basis (rv w) b v = if v = w then 1 else 0 := by
  have h : ∀ v < 8, ∀ w < 8, basis (rv w) (fun _ => (0 : ℚ)) v = if v = w then 1 else 0 := by
    decide +kernel
  have e : basis (rv w) b v = ((basis (rv w) (fun _ => (0 : ℚ)) v : ℚ) : K) := by
    have h0 := rv_cast (K := K) w 0 hw (by norm_num)
    have h1 := rv_cast (K := K) w 1 hw (by norm_num)
    have h2 := rv_cast (K := K) w 2 hw (by norm_num)
    interval_cases v <;> simp only [shape_entry, h0, h1, h2] <;> push_cast <;> rfl
  rw [e, h v hv w hw]; split_ifs <;> simp

theorem sum_one (x b : ℕ → K) : ∑ v ∈ range 8, basis x b v = 1 := by
  simp only [sum_range_succ, sum_range_zero, shape_entry]
  ring

theorem linear (x b : ℕ → K) (d : ℕ) (hd : d < 3) : ∑ v ∈ range 8, basis x b v * rv v d = x d := by
  interval_cases d <;>
  · simp only [sum_range_succ, sum_range_zero, shape_entry]
    ring
end Hex8


namespace Hex20
theorem rv_cast (v d : ℕ) (hv : v < 20) (hd : d < 3) : (rv v d : K) = ((rv v d : ℚ) : K) := by
  interval_cases v <;> interval_cases d <;> simp only [shape_entry] <;> push_cast <;> rfl

theorem nodal (b : ℕ → K) (v w : ℕ) (hv : v < 20) (hw : w < 20) :
    basis (rv w) b v = if v = w then 1 else 0 := by
  have h : ∀ v < 20, ∀ w < 20, basis (rv w) (fun _ => (0 : ℚ)) v = if v = w then 1 else 0 := by
    decide +kernel
  have e : basis (rv w) b v = ((basis (rv w) (fun _ => (0 : ℚ)) v : ℚ) : K) := by
    have h0 := rv_cast (K := K) w 0 hw (by norm_num)
    have h1 := rv_cast (K := K) w 1 hw (by norm_num)
    have h2 := rv_cast (K := K) w 2 hw (by norm_num)
    interval_cases v <;> simp only [shape_entry, h0, h1, h2] <;> push_cast <;> rfl
  rw [e, h v hv w hw]; split_ifs <;> simp

theorem sum_one (x b : ℕ → K) : ∑ v ∈ range 20, basis x b v = 1 := by
  simp only [sum_range_succ, sum_range_zero, shape_entry]
  ring

theorem linear (x b : ℕ → K) (d : ℕ) (hd : d < 3) : ∑ v ∈ range 20, basis x b v * rv v d = x d := by
  interval_cases d <;>
  · simp only [sum_range_succ, sum_range_zero, shape_entry]
    ring
end Hex20


namespace Hex32
theorem rv_cast (v d : ℕ) (hv : v < 32) (hd : d < 3) : (rv v d : K) = ((rv v d : ℚ) : K) := by
  interval_cases v <;> interval_cases d <;> simp only [shape_entry] <;> push_cast <;> rfl

theorem nodal (b : ℕ → K) (v w : ℕ) (hv : v < 32) (hw : w < 32) :
    basis (rv w) b v = if v = w then 1 else 0 := by
  have h : ∀ v < 32, ∀ w < 32, basis (rv w) (fun _ => (0 : ℚ)) v = if v = w then 1 else 0 := by
    decide +kernel
  have e : basis (rv w) b v = ((basis (rv w) (fun _ => (0 : ℚ)) v : ℚ) : K) := by
    have h0 := rv_cast (K := K) w 0 hw (by norm_num)
    have h1 := rv_cast (K := K) w 1 hw (by norm_num)
    have h2 := rv_cast (K := K) w 2 hw (by norm_num)
    interval_cases v <;> simp only [shape_entry, h0, h1, h2] <;> push_cast <;> rfl
  rw [e, h v hv w hw]; split_ifs <;> simp

theorem sum_one (x b : ℕ → K) : ∑ v ∈ range 32, basis x b v = 1 := by
  simp only [sum_range_succ, sum_range_zero, shape_entry]
  ring

theorem linear (x b : ℕ → K) (d : ℕ) (hd : d < 3) : ∑ v ∈ range 32, basis x b v * rv v d = x d := by
  interval_cases d <;>
  · simp only [sum_range_succ, sum_range_zero, shape_entry]
    ring
end Hex32


namespace Tess16
theorem rv_cast (v d : ℕ) (hv : v < 16) (hd : d < 4) : (rv v d : K) = ((rv v d : ℚ) : K) := by
  interval_cases v <;> interval_cases d <;> simp only [shape_entry] <;> push_cast <;> rfl

theorem nodal (b : ℕ → K) (v w : ℕ) (hv : v < 16) (hw : w < 16) :
    basis (rv w) b v = if v = w then 1 else 0 := by
  have h : ∀ v < 16, ∀ w < 16, basis (rv w) (fun _ => (0 : ℚ)) v = if v = w then 1 else 0 := by
    decide +kernel
  have e : basis (rv w) b v = ((basis (rv w) (fun _ => (0 : ℚ)) v : ℚ) : K) := by
    have h0 := rv_cast (K := K) w 0 hw (by norm_num)
    have h1 := rv_cast (K := K) w 1 hw (by norm_num)
    have h2 := rv_cast (K := K) w 2 hw (by norm_num)
    have h3 := rv_cast (K := K) w 3 hw (by norm_num)
    interval_cases v <;> simp only [shape_entry, h0, h1, h2, h3] <;> push_cast <;> rfl
  rw [e, h v hv w hw]; split_ifs <;> simp

theorem sum_one (x b : ℕ → K) : ∑ v ∈ range 16, basis x b v = 1 := by
  simp only [sum_range_succ, sum_range_zero, shape_entry]
  ring

theorem linear (x b : ℕ → K) (d : ℕ) (hd : d < 4) : ∑ v ∈ range 16, basis x b v * rv v d = x d := by
  interval_cases d <;>
  · simp only [sum_range_succ, sum_range_zero, shape_entry]
    ring
end Tess16

end Verif.Shape
