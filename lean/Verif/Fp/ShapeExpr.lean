import Verif.Fp.ShapeModel
import Verif.Fp.Expr
import Verif.Shape.Entries
import Mathlib.Tactic.IntervalCases

/-!
# The shape functions as syntax trees

Generated by `tools/gen_fpshape.py`.  Array 0 is the point, array 1 the row of the vertex table, array 2 the constants.
-/

namespace Verif.Fp.Elem
open Expr

/-- The constants. -/
noncomputable def cst : ℕ → ℝ
  | 0 => 1/4
  | 1 => 1
  | 2 => 1/2
  | 3 => 2
  | 4 => -1
  | 5 => 1/32
  | 6 => 9
  | 7 => 10
  | 8 => 9/32
  | 9 => 18
  | 10 => 3
  | 11 => 1/8
  | 12 => -1/2
  | 13 => 1/64
  | 14 => 19
  | 15 => 9/64
  | 16 => 1/16
  | _ => 0
/-- The constants as rational numbers. -/
def cstQ : ℕ → ℚ
  | 0 => 1/4
  | 1 => 1
  | 2 => 1/2
  | 3 => 2
  | 4 => -1
  | 5 => 1/32
  | 6 => 9
  | 7 => 10
  | 8 => 9/32
  | 9 => 18
  | 10 => 3
  | 11 => 1/8
  | 12 => -1/2
  | 13 => 1/64
  | 14 => 19
  | 15 => 9/64
  | 16 => 1/16
  | _ => 0
theorem cst_eq (i : ℕ) : cst i = (cstQ i : ℝ) := by
  unfold cst cstQ; split <;> norm_num

/-- The variables. -/
noncomputable def vars (x r : ℕ → ℝ) (a i : ℕ) : ℝ := match a with
  | 0 => x i
  | 1 => r i
  | _ => cst i

/-- Coordinate of the point. -/
abbrev X (i : ℕ) : Expr := var 0 i
/-- Coordinate of the reference vertex. -/
abbrev V (i : ℕ) : Expr := var 1 i
/-- Constant. -/
abbrev C (i : ℕ) : Expr := var 2 i

namespace Quad4

/-- The trees of `basis`, vertex by vertex. -/
def basisE : ℕ → Expr := fun v => [(mul (mul (C 0) (add (C 1) (mul (X 0) (V 0)))) (add (C 1) (mul (X 1) (V 1)))),
  (mul (mul (C 0) (add (C 1) (mul (X 0) (V 0)))) (add (C 1) (mul (X 1) (V 1)))),
  (mul (mul (C 0) (add (C 1) (mul (X 0) (V 0)))) (add (C 1) (mul (X 1) (V 1)))),
  (mul (mul (C 0) (add (C 1) (mul (X 0) (V 0)))) (add (C 1) (mul (X 1) (V 1))))].getD v (X 0)
theorem basis_expr (R : Rounding) (x b : ℕ → ℝ) (v : ℕ) (hv : v < 4) :
    basis R x b v = (basisE v).evalFl R (vars x fun d => table R Shape.Quad4.rv v d) := by
  interval_cases v <;> rfl
theorem basis_eval (x b : ℕ → ℝ) (v : ℕ) (hv : v < 4) :
    Shape.Quad4.basis x b v = (basisE v).eval (vars x fun d => Shape.Quad4.rv v d) := by
  interval_cases v <;> rfl

/-- The trees of `partialXi`, vertex by vertex. -/
def partialXiE : ℕ → Expr := fun v => [(mul (mul (C 0) (V 0)) (add (C 1) (mul (X 1) (V 1)))),
  (mul (mul (C 0) (V 0)) (add (C 1) (mul (X 1) (V 1)))),
  (mul (mul (C 0) (V 0)) (add (C 1) (mul (X 1) (V 1)))),
  (mul (mul (C 0) (V 0)) (add (C 1) (mul (X 1) (V 1))))].getD v (X 0)
theorem partialXi_expr (R : Rounding) (x b : ℕ → ℝ) (v : ℕ) (hv : v < 4) :
    partialXi R x b v = (partialXiE v).evalFl R (vars x fun d => table R Shape.Quad4.rv v d) := by
  interval_cases v <;> rfl
theorem partialXi_eval (x b : ℕ → ℝ) (v : ℕ) (hv : v < 4) :
    Shape.Quad4.partialXi x b v = (partialXiE v).eval (vars x fun d => Shape.Quad4.rv v d) := by
  interval_cases v <;> rfl

/-- The trees of `partialEta`, vertex by vertex. -/
def partialEtaE : ℕ → Expr := fun v => [(mul (mul (C 0) (add (C 1) (mul (X 0) (V 0)))) (V 1)),
  (mul (mul (C 0) (add (C 1) (mul (X 0) (V 0)))) (V 1)),
  (mul (mul (C 0) (add (C 1) (mul (X 0) (V 0)))) (V 1)),
  (mul (mul (C 0) (add (C 1) (mul (X 0) (V 0)))) (V 1))].getD v (X 0)
theorem partialEta_expr (R : Rounding) (x b : ℕ → ℝ) (v : ℕ) (hv : v < 4) :
    partialEta R x b v = (partialEtaE v).evalFl R (vars x fun d => table R Shape.Quad4.rv v d) := by
  interval_cases v <;> rfl
theorem partialEta_eval (x b : ℕ → ℝ) (v : ℕ) (hv : v < 4) :
    Shape.Quad4.partialEta x b v = (partialEtaE v).eval (vars x fun d => Shape.Quad4.rv v d) := by
  interval_cases v <;> rfl

/-- The trees of `posBasis`, vertex by vertex. -/
def posBasisE : ℕ → Expr := fun v => [(mul (mul (C 0) (add (C 1) (mul (X 0) (V 0)))) (add (C 1) (mul (X 1) (V 1)))),
  (mul (mul (C 0) (add (C 1) (mul (X 0) (V 0)))) (add (C 1) (mul (X 1) (V 1)))),
  (mul (mul (C 0) (add (C 1) (mul (X 0) (V 0)))) (add (C 1) (mul (X 1) (V 1)))),
  (mul (mul (C 0) (add (C 1) (mul (X 0) (V 0)))) (add (C 1) (mul (X 1) (V 1))))].getD v (X 0)
theorem posBasis_expr (R : Rounding) (x b : ℕ → ℝ) (v : ℕ) (hv : v < 4) :
    posBasis R x b v = (posBasisE v).evalFl R (vars x fun d => table R Shape.Quad4.rv v d) := by
  interval_cases v <;> rfl
theorem posBasis_eval (x : ℕ → ℝ) (v : ℕ) (hv : v < 4) (b : ℕ → ℝ) :
    Shape.Quad4.basis x b v = (posBasisE v).eval (vars x fun d => Shape.Quad4.rv v d) := by
  interval_cases v <;> rfl

end Quad4

namespace Quad8

/-- The trees of `basis`, vertex by vertex. -/
def basisE : ℕ → Expr := fun v => [(mul (mul (mul (C 0) (add (C 1) (mul (X 0) (V 0)))) (add (C 1) (mul (X 1) (V 1)))) (sub (add (mul (X 0) (V 0)) (mul (X 1) (V 1))) (C 1))),
  (mul (mul (mul (C 0) (add (C 1) (mul (X 0) (V 0)))) (add (C 1) (mul (X 1) (V 1)))) (sub (add (mul (X 0) (V 0)) (mul (X 1) (V 1))) (C 1))),
  (mul (mul (mul (C 0) (add (C 1) (mul (X 0) (V 0)))) (add (C 1) (mul (X 1) (V 1)))) (sub (add (mul (X 0) (V 0)) (mul (X 1) (V 1))) (C 1))),
  (mul (mul (mul (C 0) (add (C 1) (mul (X 0) (V 0)))) (add (C 1) (mul (X 1) (V 1)))) (sub (add (mul (X 0) (V 0)) (mul (X 1) (V 1))) (C 1))),
  (mul (mul (C 2) (sub (C 1) (mul (X 0) (X 0)))) (add (C 1) (mul (X 1) (V 1)))),
  (mul (mul (C 2) (add (C 1) (mul (X 0) (V 0)))) (sub (C 1) (mul (X 1) (X 1)))),
  (mul (mul (C 2) (sub (C 1) (mul (X 0) (X 0)))) (add (C 1) (mul (X 1) (V 1)))),
  (mul (mul (C 2) (add (C 1) (mul (X 0) (V 0)))) (sub (C 1) (mul (X 1) (X 1))))].getD v (X 0)
theorem basis_expr (R : Rounding) (x b : ℕ → ℝ) (v : ℕ) (hv : v < 8) :
    basis R x b v = (basisE v).evalFl R (vars x fun d => table R Shape.Quad8.rv v d) := by
  interval_cases v <;> rfl
theorem basis_eval (x b : ℕ → ℝ) (v : ℕ) (hv : v < 8) :
    Shape.Quad8.basis x b v = (basisE v).eval (vars x fun d => Shape.Quad8.rv v d) := by
  interval_cases v <;> rfl

/-- The trees of `partialXi`, vertex by vertex. -/
def partialXiE : ℕ → Expr := fun v => [(mul (mul (mul (C 0) (V 0)) (add (C 1) (mul (V 1) (X 1)))) (add (mul (mul (C 3) (V 0)) (X 0)) (mul (V 1) (X 1)))),
  (mul (mul (mul (C 0) (V 0)) (add (C 1) (mul (V 1) (X 1)))) (add (mul (mul (C 3) (V 0)) (X 0)) (mul (V 1) (X 1)))),
  (mul (mul (mul (C 0) (V 0)) (add (C 1) (mul (V 1) (X 1)))) (add (mul (mul (C 3) (V 0)) (X 0)) (mul (V 1) (X 1)))),
  (mul (mul (mul (C 0) (V 0)) (add (C 1) (mul (V 1) (X 1)))) (add (mul (mul (C 3) (V 0)) (X 0)) (mul (V 1) (X 1)))),
  (mul (mul (C 4) (X 0)) (add (C 1) (mul (V 1) (X 1)))),
  (mul (mul (C 2) (V 0)) (sub (C 1) (mul (X 1) (X 1)))),
  (mul (mul (C 4) (X 0)) (add (C 1) (mul (V 1) (X 1)))),
  (mul (mul (C 2) (V 0)) (sub (C 1) (mul (X 1) (X 1))))].getD v (X 0)
theorem partialXi_expr (R : Rounding) (x b : ℕ → ℝ) (v : ℕ) (hv : v < 8) :
    partialXi R x b v = (partialXiE v).evalFl R (vars x fun d => table R Shape.Quad8.rv v d) := by
  interval_cases v <;> rfl
theorem partialXi_eval (x b : ℕ → ℝ) (v : ℕ) (hv : v < 8) :
    Shape.Quad8.partialXi x b v = (partialXiE v).eval (vars x fun d => Shape.Quad8.rv v d) := by
  interval_cases v <;> rfl

/-- The trees of `partialEta`, vertex by vertex. -/
def partialEtaE : ℕ → Expr := fun v => [(mul (mul (mul (C 0) (add (C 1) (mul (V 0) (X 0)))) (V 1)) (add (mul (V 0) (X 0)) (mul (mul (C 3) (V 1)) (X 1)))),
  (mul (mul (mul (C 0) (add (C 1) (mul (V 0) (X 0)))) (V 1)) (add (mul (V 0) (X 0)) (mul (mul (C 3) (V 1)) (X 1)))),
  (mul (mul (mul (C 0) (add (C 1) (mul (V 0) (X 0)))) (V 1)) (add (mul (V 0) (X 0)) (mul (mul (C 3) (V 1)) (X 1)))),
  (mul (mul (mul (C 0) (add (C 1) (mul (V 0) (X 0)))) (V 1)) (add (mul (V 0) (X 0)) (mul (mul (C 3) (V 1)) (X 1)))),
  (mul (mul (C 2) (sub (C 1) (mul (X 0) (X 0)))) (V 1)),
  (mul (mul (C 4) (add (C 1) (mul (V 0) (X 0)))) (X 1)),
  (mul (mul (C 2) (sub (C 1) (mul (X 0) (X 0)))) (V 1)),
  (mul (mul (C 4) (add (C 1) (mul (V 0) (X 0)))) (X 1))].getD v (X 0)
theorem partialEta_expr (R : Rounding) (x b : ℕ → ℝ) (v : ℕ) (hv : v < 8) :
    partialEta R x b v = (partialEtaE v).evalFl R (vars x fun d => table R Shape.Quad8.rv v d) := by
  interval_cases v <;> rfl
theorem partialEta_eval (x b : ℕ → ℝ) (v : ℕ) (hv : v < 8) :
    Shape.Quad8.partialEta x b v = (partialEtaE v).eval (vars x fun d => Shape.Quad8.rv v d) := by
  interval_cases v <;> rfl

/-- The trees of `posBasis`, vertex by vertex. -/
def posBasisE : ℕ → Expr := fun v => [(mul (mul (mul (C 0) (add (C 1) (mul (X 0) (V 0)))) (add (C 1) (mul (X 1) (V 1)))) (sub (add (mul (X 0) (V 0)) (mul (X 1) (V 1))) (C 1))),
  (mul (mul (mul (C 0) (add (C 1) (mul (X 0) (V 0)))) (add (C 1) (mul (X 1) (V 1)))) (sub (add (mul (X 0) (V 0)) (mul (X 1) (V 1))) (C 1))),
  (mul (mul (mul (C 0) (add (C 1) (mul (X 0) (V 0)))) (add (C 1) (mul (X 1) (V 1)))) (sub (add (mul (X 0) (V 0)) (mul (X 1) (V 1))) (C 1))),
  (mul (mul (mul (C 0) (add (C 1) (mul (X 0) (V 0)))) (add (C 1) (mul (X 1) (V 1)))) (sub (add (mul (X 0) (V 0)) (mul (X 1) (V 1))) (C 1))),
  (mul (mul (C 2) (sub (C 1) (mul (X 0) (X 0)))) (add (C 1) (mul (X 1) (V 1)))),
  (mul (mul (C 2) (add (C 1) (mul (X 0) (V 0)))) (sub (C 1) (mul (X 1) (X 1)))),
  (mul (mul (C 2) (sub (C 1) (mul (X 0) (X 0)))) (add (C 1) (mul (X 1) (V 1)))),
  (mul (mul (C 2) (add (C 1) (mul (X 0) (V 0)))) (sub (C 1) (mul (X 1) (X 1))))].getD v (X 0)
theorem posBasis_expr (R : Rounding) (x b : ℕ → ℝ) (v : ℕ) (hv : v < 8) :
    posBasis R x b v = (posBasisE v).evalFl R (vars x fun d => table R Shape.Quad8.rv v d) := by
  interval_cases v <;> rfl
theorem posBasis_eval (x : ℕ → ℝ) (v : ℕ) (hv : v < 8) (b : ℕ → ℝ) :
    Shape.Quad8.basis x b v = (posBasisE v).eval (vars x fun d => Shape.Quad8.rv v d) := by
  interval_cases v <;> rfl

end Quad8

namespace Quad12

/-- The trees of `basis`, vertex by vertex. -/
def basisE : ℕ → Expr := fun v => [(mul (mul (mul (C 5) (add (C 1) (mul (V 0) (X 0)))) (add (C 1) (mul (V 1) (X 1)))) (sub (mul (C 6) (add (mul (X 0) (X 0)) (mul (X 1) (X 1)))) (C 7))),
  (mul (mul (mul (C 5) (add (C 1) (mul (V 0) (X 0)))) (add (C 1) (mul (V 1) (X 1)))) (sub (mul (C 6) (add (mul (X 0) (X 0)) (mul (X 1) (X 1)))) (C 7))),
  (mul (mul (mul (C 5) (add (C 1) (mul (V 0) (X 0)))) (add (C 1) (mul (V 1) (X 1)))) (sub (mul (C 6) (add (mul (X 0) (X 0)) (mul (X 1) (X 1)))) (C 7))),
  (mul (mul (mul (C 5) (add (C 1) (mul (V 0) (X 0)))) (add (C 1) (mul (V 1) (X 1)))) (sub (mul (C 6) (add (mul (X 0) (X 0)) (mul (X 1) (X 1)))) (C 7))),
  (mul (mul (mul (C 8) (sub (C 1) (mul (X 0) (X 0)))) (add (C 1) (mul (X 1) (V 1)))) (add (C 1) (mul (mul (C 6) (X 0)) (V 0)))),
  (mul (mul (mul (C 8) (sub (C 1) (mul (X 0) (X 0)))) (add (C 1) (mul (X 1) (V 1)))) (add (C 1) (mul (mul (C 6) (X 0)) (V 0)))),
  (mul (mul (mul (C 8) (sub (C 1) (mul (X 0) (X 0)))) (add (C 1) (mul (X 1) (V 1)))) (add (C 1) (mul (mul (C 6) (X 0)) (V 0)))),
  (mul (mul (mul (C 8) (sub (C 1) (mul (X 0) (X 0)))) (add (C 1) (mul (X 1) (V 1)))) (add (C 1) (mul (mul (C 6) (X 0)) (V 0)))),
  (mul (mul (mul (C 8) (add (C 1) (mul (X 0) (V 0)))) (sub (C 1) (mul (X 1) (X 1)))) (add (C 1) (mul (mul (C 6) (X 1)) (V 1)))),
  (mul (mul (mul (C 8) (add (C 1) (mul (X 0) (V 0)))) (sub (C 1) (mul (X 1) (X 1)))) (add (C 1) (mul (mul (C 6) (X 1)) (V 1)))),
  (mul (mul (mul (C 8) (add (C 1) (mul (X 0) (V 0)))) (sub (C 1) (mul (X 1) (X 1)))) (add (C 1) (mul (mul (C 6) (X 1)) (V 1)))),
  (mul (mul (mul (C 8) (add (C 1) (mul (X 0) (V 0)))) (sub (C 1) (mul (X 1) (X 1)))) (add (C 1) (mul (mul (C 6) (X 1)) (V 1))))].getD v (X 0)
theorem basis_expr (R : Rounding) (x b : ℕ → ℝ) (v : ℕ) (hv : v < 12) :
    basis R x b v = (basisE v).evalFl R (vars x fun d => table R Shape.Quad12.rv v d) := by
  interval_cases v <;> rfl
theorem basis_eval (x b : ℕ → ℝ) (v : ℕ) (hv : v < 12) :
    Shape.Quad12.basis x b v = (basisE v).eval (vars x fun d => Shape.Quad12.rv v d) := by
  interval_cases v <;> rfl

/-- The trees of `partialXi`, vertex by vertex. -/
def partialXiE : ℕ → Expr := fun v => [(mul (mul (C 5) (add (C 1) (mul (X 1) (V 1)))) (sub (add (mul (mul (C 6) (V 0)) (add (mul (X 0) (X 0)) (mul (X 1) (X 1)))) (mul (mul (C 9) (X 0)) (add (C 1) (mul (X 0) (V 0))))) (mul (C 7) (V 0)))),
  (mul (mul (C 5) (add (C 1) (mul (X 1) (V 1)))) (sub (add (mul (mul (C 6) (V 0)) (add (mul (X 0) (X 0)) (mul (X 1) (X 1)))) (mul (mul (C 9) (X 0)) (add (C 1) (mul (X 0) (V 0))))) (mul (C 7) (V 0)))),
  (mul (mul (C 5) (add (C 1) (mul (X 1) (V 1)))) (sub (add (mul (mul (C 6) (V 0)) (add (mul (X 0) (X 0)) (mul (X 1) (X 1)))) (mul (mul (C 9) (X 0)) (add (C 1) (mul (X 0) (V 0))))) (mul (C 7) (V 0)))),
  (mul (mul (C 5) (add (C 1) (mul (X 1) (V 1)))) (sub (add (mul (mul (C 6) (V 0)) (add (mul (X 0) (X 0)) (mul (X 1) (X 1)))) (mul (mul (C 9) (X 0)) (add (C 1) (mul (X 0) (V 0))))) (mul (C 7) (V 0)))),
  (mul (mul (C 8) (add (C 1) (mul (X 1) (V 1)))) (sub (mul (mul (C 6) (V 0)) (sub (C 1) (mul (mul (C 10) (X 0)) (X 0)))) (mul (C 3) (X 0)))),
  (mul (mul (C 8) (add (C 1) (mul (X 1) (V 1)))) (sub (mul (mul (C 6) (V 0)) (sub (C 1) (mul (mul (C 10) (X 0)) (X 0)))) (mul (C 3) (X 0)))),
  (mul (mul (C 8) (add (C 1) (mul (X 1) (V 1)))) (sub (mul (mul (C 6) (V 0)) (sub (C 1) (mul (mul (C 10) (X 0)) (X 0)))) (mul (C 3) (X 0)))),
  (mul (mul (C 8) (add (C 1) (mul (X 1) (V 1)))) (sub (mul (mul (C 6) (V 0)) (sub (C 1) (mul (mul (C 10) (X 0)) (X 0)))) (mul (C 3) (X 0)))),
  (mul (mul (mul (C 8) (V 0)) (sub (C 1) (mul (X 1) (X 1)))) (add (C 1) (mul (mul (C 6) (X 1)) (V 1)))),
  (mul (mul (mul (C 8) (V 0)) (sub (C 1) (mul (X 1) (X 1)))) (add (C 1) (mul (mul (C 6) (X 1)) (V 1)))),
  (mul (mul (mul (C 8) (V 0)) (sub (C 1) (mul (X 1) (X 1)))) (add (C 1) (mul (mul (C 6) (X 1)) (V 1)))),
  (mul (mul (mul (C 8) (V 0)) (sub (C 1) (mul (X 1) (X 1)))) (add (C 1) (mul (mul (C 6) (X 1)) (V 1))))].getD v (X 0)
theorem partialXi_expr (R : Rounding) (x b : ℕ → ℝ) (v : ℕ) (hv : v < 12) :
    partialXi R x b v = (partialXiE v).evalFl R (vars x fun d => table R Shape.Quad12.rv v d) := by
  interval_cases v <;> rfl
theorem partialXi_eval (x b : ℕ → ℝ) (v : ℕ) (hv : v < 12) :
    Shape.Quad12.partialXi x b v = (partialXiE v).eval (vars x fun d => Shape.Quad12.rv v d) := by
  interval_cases v <;> rfl

/-- The trees of `partialEta`, vertex by vertex. -/
def partialEtaE : ℕ → Expr := fun v => [(mul (mul (C 5) (add (C 1) (mul (X 0) (V 0)))) (sub (add (mul (mul (C 6) (V 1)) (add (mul (X 0) (X 0)) (mul (X 1) (X 1)))) (mul (mul (C 9) (X 1)) (add (C 1) (mul (X 1) (V 1))))) (mul (C 7) (V 1)))),
  (mul (mul (C 5) (add (C 1) (mul (X 0) (V 0)))) (sub (add (mul (mul (C 6) (V 1)) (add (mul (X 0) (X 0)) (mul (X 1) (X 1)))) (mul (mul (C 9) (X 1)) (add (C 1) (mul (X 1) (V 1))))) (mul (C 7) (V 1)))),
  (mul (mul (C 5) (add (C 1) (mul (X 0) (V 0)))) (sub (add (mul (mul (C 6) (V 1)) (add (mul (X 0) (X 0)) (mul (X 1) (X 1)))) (mul (mul (C 9) (X 1)) (add (C 1) (mul (X 1) (V 1))))) (mul (C 7) (V 1)))),
  (mul (mul (C 5) (add (C 1) (mul (X 0) (V 0)))) (sub (add (mul (mul (C 6) (V 1)) (add (mul (X 0) (X 0)) (mul (X 1) (X 1)))) (mul (mul (C 9) (X 1)) (add (C 1) (mul (X 1) (V 1))))) (mul (C 7) (V 1)))),
  (mul (mul (mul (C 8) (sub (C 1) (mul (X 0) (X 0)))) (add (C 1) (mul (mul (C 6) (X 0)) (V 0)))) (V 1)),
  (mul (mul (mul (C 8) (sub (C 1) (mul (X 0) (X 0)))) (add (C 1) (mul (mul (C 6) (X 0)) (V 0)))) (V 1)),
  (mul (mul (mul (C 8) (sub (C 1) (mul (X 0) (X 0)))) (add (C 1) (mul (mul (C 6) (X 0)) (V 0)))) (V 1)),
  (mul (mul (mul (C 8) (sub (C 1) (mul (X 0) (X 0)))) (add (C 1) (mul (mul (C 6) (X 0)) (V 0)))) (V 1)),
  (mul (mul (C 8) (add (C 1) (mul (X 0) (V 0)))) (sub (mul (mul (C 6) (V 1)) (sub (C 1) (mul (mul (C 10) (X 1)) (X 1)))) (mul (C 3) (X 1)))),
  (mul (mul (C 8) (add (C 1) (mul (X 0) (V 0)))) (sub (mul (mul (C 6) (V 1)) (sub (C 1) (mul (mul (C 10) (X 1)) (X 1)))) (mul (C 3) (X 1)))),
  (mul (mul (C 8) (add (C 1) (mul (X 0) (V 0)))) (sub (mul (mul (C 6) (V 1)) (sub (C 1) (mul (mul (C 10) (X 1)) (X 1)))) (mul (C 3) (X 1)))),
  (mul (mul (C 8) (add (C 1) (mul (X 0) (V 0)))) (sub (mul (mul (C 6) (V 1)) (sub (C 1) (mul (mul (C 10) (X 1)) (X 1)))) (mul (C 3) (X 1))))].getD v (X 0)
theorem partialEta_expr (R : Rounding) (x b : ℕ → ℝ) (v : ℕ) (hv : v < 12) :
    partialEta R x b v = (partialEtaE v).evalFl R (vars x fun d => table R Shape.Quad12.rv v d) := by
  interval_cases v <;> rfl
theorem partialEta_eval (x b : ℕ → ℝ) (v : ℕ) (hv : v < 12) :
    Shape.Quad12.partialEta x b v = (partialEtaE v).eval (vars x fun d => Shape.Quad12.rv v d) := by
  interval_cases v <;> rfl

/-- The trees of `posBasis`, vertex by vertex. -/
def posBasisE : ℕ → Expr := fun v => [(mul (mul (mul (C 5) (add (C 1) (mul (V 0) (X 0)))) (add (C 1) (mul (V 1) (X 1)))) (sub (mul (C 6) (add (mul (X 0) (X 0)) (mul (X 1) (X 1)))) (C 7))),
  (mul (mul (mul (C 5) (add (C 1) (mul (V 0) (X 0)))) (add (C 1) (mul (V 1) (X 1)))) (sub (mul (C 6) (add (mul (X 0) (X 0)) (mul (X 1) (X 1)))) (C 7))),
  (mul (mul (mul (C 5) (add (C 1) (mul (V 0) (X 0)))) (add (C 1) (mul (V 1) (X 1)))) (sub (mul (C 6) (add (mul (X 0) (X 0)) (mul (X 1) (X 1)))) (C 7))),
  (mul (mul (mul (C 5) (add (C 1) (mul (V 0) (X 0)))) (add (C 1) (mul (V 1) (X 1)))) (sub (mul (C 6) (add (mul (X 0) (X 0)) (mul (X 1) (X 1)))) (C 7))),
  (mul (mul (mul (C 8) (sub (C 1) (mul (X 0) (X 0)))) (add (C 1) (mul (X 1) (V 1)))) (add (C 1) (mul (mul (C 6) (X 0)) (V 0)))),
  (mul (mul (mul (C 8) (sub (C 1) (mul (X 0) (X 0)))) (add (C 1) (mul (X 1) (V 1)))) (add (C 1) (mul (mul (C 6) (X 0)) (V 0)))),
  (mul (mul (mul (C 8) (sub (C 1) (mul (X 0) (X 0)))) (add (C 1) (mul (X 1) (V 1)))) (add (C 1) (mul (mul (C 6) (X 0)) (V 0)))),
  (mul (mul (mul (C 8) (sub (C 1) (mul (X 0) (X 0)))) (add (C 1) (mul (X 1) (V 1)))) (add (C 1) (mul (mul (C 6) (X 0)) (V 0)))),
  (mul (mul (mul (C 8) (add (C 1) (mul (X 0) (V 0)))) (sub (C 1) (mul (X 1) (X 1)))) (add (C 1) (mul (mul (C 6) (X 1)) (V 1)))),
  (mul (mul (mul (C 8) (add (C 1) (mul (X 0) (V 0)))) (sub (C 1) (mul (X 1) (X 1)))) (add (C 1) (mul (mul (C 6) (X 1)) (V 1)))),
  (mul (mul (mul (C 8) (add (C 1) (mul (X 0) (V 0)))) (sub (C 1) (mul (X 1) (X 1)))) (add (C 1) (mul (mul (C 6) (X 1)) (V 1)))),
  (mul (mul (mul (C 8) (add (C 1) (mul (X 0) (V 0)))) (sub (C 1) (mul (X 1) (X 1)))) (add (C 1) (mul (mul (C 6) (X 1)) (V 1))))].getD v (X 0)
theorem posBasis_expr (R : Rounding) (x b : ℕ → ℝ) (v : ℕ) (hv : v < 12) :
    posBasis R x b v = (posBasisE v).evalFl R (vars x fun d => table R Shape.Quad12.rv v d) := by
  interval_cases v <;> rfl
theorem posBasis_eval (x : ℕ → ℝ) (v : ℕ) (hv : v < 12) (b : ℕ → ℝ) :
    Shape.Quad12.basis x b v = (posBasisE v).eval (vars x fun d => Shape.Quad12.rv v d) := by
  interval_cases v <;> rfl

end Quad12

namespace Hex8

/-- The trees of `basis`, vertex by vertex. -/
def basisE : ℕ → Expr := fun v => [(mul (mul (mul (C 11) (add (C 1) (mul (X 0) (V 0)))) (add (C 1) (mul (X 1) (V 1)))) (add (C 1) (mul (X 2) (V 2)))),
  (mul (mul (mul (C 11) (add (C 1) (mul (X 0) (V 0)))) (add (C 1) (mul (X 1) (V 1)))) (add (C 1) (mul (X 2) (V 2)))),
  (mul (mul (mul (C 11) (add (C 1) (mul (X 0) (V 0)))) (add (C 1) (mul (X 1) (V 1)))) (add (C 1) (mul (X 2) (V 2)))),
  (mul (mul (mul (C 11) (add (C 1) (mul (X 0) (V 0)))) (add (C 1) (mul (X 1) (V 1)))) (add (C 1) (mul (X 2) (V 2)))),
  (mul (mul (mul (C 11) (add (C 1) (mul (X 0) (V 0)))) (add (C 1) (mul (X 1) (V 1)))) (add (C 1) (mul (X 2) (V 2)))),
  (mul (mul (mul (C 11) (add (C 1) (mul (X 0) (V 0)))) (add (C 1) (mul (X 1) (V 1)))) (add (C 1) (mul (X 2) (V 2)))),
  (mul (mul (mul (C 11) (add (C 1) (mul (X 0) (V 0)))) (add (C 1) (mul (X 1) (V 1)))) (add (C 1) (mul (X 2) (V 2)))),
  (mul (mul (mul (C 11) (add (C 1) (mul (X 0) (V 0)))) (add (C 1) (mul (X 1) (V 1)))) (add (C 1) (mul (X 2) (V 2))))].getD v (X 0)
theorem basis_expr (R : Rounding) (x b : ℕ → ℝ) (v : ℕ) (hv : v < 8) :
    basis R x b v = (basisE v).evalFl R (vars x fun d => table R Shape.Hex8.rv v d) := by
  interval_cases v <;> rfl
theorem basis_eval (x b : ℕ → ℝ) (v : ℕ) (hv : v < 8) :
    Shape.Hex8.basis x b v = (basisE v).eval (vars x fun d => Shape.Hex8.rv v d) := by
  interval_cases v <;> rfl

/-- The trees of `partialXi`, vertex by vertex. -/
def partialXiE : ℕ → Expr := fun v => [(mul (mul (mul (C 11) (V 0)) (add (C 1) (mul (X 1) (V 1)))) (add (C 1) (mul (X 2) (V 2)))),
  (mul (mul (mul (C 11) (V 0)) (add (C 1) (mul (X 1) (V 1)))) (add (C 1) (mul (X 2) (V 2)))),
  (mul (mul (mul (C 11) (V 0)) (add (C 1) (mul (X 1) (V 1)))) (add (C 1) (mul (X 2) (V 2)))),
  (mul (mul (mul (C 11) (V 0)) (add (C 1) (mul (X 1) (V 1)))) (add (C 1) (mul (X 2) (V 2)))),
  (mul (mul (mul (C 11) (V 0)) (add (C 1) (mul (X 1) (V 1)))) (add (C 1) (mul (X 2) (V 2)))),
  (mul (mul (mul (C 11) (V 0)) (add (C 1) (mul (X 1) (V 1)))) (add (C 1) (mul (X 2) (V 2)))),
  (mul (mul (mul (C 11) (V 0)) (add (C 1) (mul (X 1) (V 1)))) (add (C 1) (mul (X 2) (V 2)))),
  (mul (mul (mul (C 11) (V 0)) (add (C 1) (mul (X 1) (V 1)))) (add (C 1) (mul (X 2) (V 2))))].getD v (X 0)
theorem partialXi_expr (R : Rounding) (x b : ℕ → ℝ) (v : ℕ) (hv : v < 8) :
    partialXi R x b v = (partialXiE v).evalFl R (vars x fun d => table R Shape.Hex8.rv v d) := by
  interval_cases v <;> rfl
theorem partialXi_eval (x b : ℕ → ℝ) (v : ℕ) (hv : v < 8) :
    Shape.Hex8.partialXi x b v = (partialXiE v).eval (vars x fun d => Shape.Hex8.rv v d) := by
  interval_cases v <;> rfl

/-- The trees of `partialEta`, vertex by vertex. -/
def partialEtaE : ℕ → Expr := fun v => [(mul (mul (mul (C 11) (add (C 1) (mul (X 0) (V 0)))) (V 1)) (add (C 1) (mul (X 2) (V 2)))),
  (mul (mul (mul (C 11) (add (C 1) (mul (X 0) (V 0)))) (V 1)) (add (C 1) (mul (X 2) (V 2)))),
  (mul (mul (mul (C 11) (add (C 1) (mul (X 0) (V 0)))) (V 1)) (add (C 1) (mul (X 2) (V 2)))),
  (mul (mul (mul (C 11) (add (C 1) (mul (X 0) (V 0)))) (V 1)) (add (C 1) (mul (X 2) (V 2)))),
  (mul (mul (mul (C 11) (add (C 1) (mul (X 0) (V 0)))) (V 1)) (add (C 1) (mul (X 2) (V 2)))),
  (mul (mul (mul (C 11) (add (C 1) (mul (X 0) (V 0)))) (V 1)) (add (C 1) (mul (X 2) (V 2)))),
  (mul (mul (mul (C 11) (add (C 1) (mul (X 0) (V 0)))) (V 1)) (add (C 1) (mul (X 2) (V 2)))),
  (mul (mul (mul (C 11) (add (C 1) (mul (X 0) (V 0)))) (V 1)) (add (C 1) (mul (X 2) (V 2))))].getD v (X 0)
theorem partialEta_expr (R : Rounding) (x b : ℕ → ℝ) (v : ℕ) (hv : v < 8) :
    partialEta R x b v = (partialEtaE v).evalFl R (vars x fun d => table R Shape.Hex8.rv v d) := by
  interval_cases v <;> rfl
theorem partialEta_eval (x b : ℕ → ℝ) (v : ℕ) (hv : v < 8) :
    Shape.Hex8.partialEta x b v = (partialEtaE v).eval (vars x fun d => Shape.Hex8.rv v d) := by
  interval_cases v <;> rfl

/-- The trees of `partialMu`, vertex by vertex. -/
def partialMuE : ℕ → Expr := fun v => [(mul (mul (mul (C 11) (add (C 1) (mul (X 0) (V 0)))) (add (C 1) (mul (X 1) (V 1)))) (V 2)),
  (mul (mul (mul (C 11) (add (C 1) (mul (X 0) (V 0)))) (add (C 1) (mul (X 1) (V 1)))) (V 2)),
  (mul (mul (mul (C 11) (add (C 1) (mul (X 0) (V 0)))) (add (C 1) (mul (X 1) (V 1)))) (V 2)),
  (mul (mul (mul (C 11) (add (C 1) (mul (X 0) (V 0)))) (add (C 1) (mul (X 1) (V 1)))) (V 2)),
  (mul (mul (mul (C 11) (add (C 1) (mul (X 0) (V 0)))) (add (C 1) (mul (X 1) (V 1)))) (V 2)),
  (mul (mul (mul (C 11) (add (C 1) (mul (X 0) (V 0)))) (add (C 1) (mul (X 1) (V 1)))) (V 2)),
  (mul (mul (mul (C 11) (add (C 1) (mul (X 0) (V 0)))) (add (C 1) (mul (X 1) (V 1)))) (V 2)),
  (mul (mul (mul (C 11) (add (C 1) (mul (X 0) (V 0)))) (add (C 1) (mul (X 1) (V 1)))) (V 2))].getD v (X 0)
theorem partialMu_expr (R : Rounding) (x b : ℕ → ℝ) (v : ℕ) (hv : v < 8) :
    partialMu R x b v = (partialMuE v).evalFl R (vars x fun d => table R Shape.Hex8.rv v d) := by
  interval_cases v <;> rfl
theorem partialMu_eval (x b : ℕ → ℝ) (v : ℕ) (hv : v < 8) :
    Shape.Hex8.partialMu x b v = (partialMuE v).eval (vars x fun d => Shape.Hex8.rv v d) := by
  interval_cases v <;> rfl

/-- The trees of `posBasis`, vertex by vertex. -/
def posBasisE : ℕ → Expr := fun v => [(mul (mul (mul (C 11) (add (C 1) (mul (X 0) (V 0)))) (add (C 1) (mul (X 1) (V 1)))) (add (C 1) (mul (X 2) (V 2)))),
  (mul (mul (mul (C 11) (add (C 1) (mul (X 0) (V 0)))) (add (C 1) (mul (X 1) (V 1)))) (add (C 1) (mul (X 2) (V 2)))),
  (mul (mul (mul (C 11) (add (C 1) (mul (X 0) (V 0)))) (add (C 1) (mul (X 1) (V 1)))) (add (C 1) (mul (X 2) (V 2)))),
  (mul (mul (mul (C 11) (add (C 1) (mul (X 0) (V 0)))) (add (C 1) (mul (X 1) (V 1)))) (add (C 1) (mul (X 2) (V 2)))),
  (mul (mul (mul (C 11) (add (C 1) (mul (X 0) (V 0)))) (add (C 1) (mul (X 1) (V 1)))) (add (C 1) (mul (X 2) (V 2)))),
  (mul (mul (mul (C 11) (add (C 1) (mul (X 0) (V 0)))) (add (C 1) (mul (X 1) (V 1)))) (add (C 1) (mul (X 2) (V 2)))),
  (mul (mul (mul (C 11) (add (C 1) (mul (X 0) (V 0)))) (add (C 1) (mul (X 1) (V 1)))) (add (C 1) (mul (X 2) (V 2)))),
  (mul (mul (mul (C 11) (add (C 1) (mul (X 0) (V 0)))) (add (C 1) (mul (X 1) (V 1)))) (add (C 1) (mul (X 2) (V 2))))].getD v (X 0)
theorem posBasis_expr (R : Rounding) (x b : ℕ → ℝ) (v : ℕ) (hv : v < 8) :
    posBasis R x b v = (posBasisE v).evalFl R (vars x fun d => table R Shape.Hex8.rv v d) := by
  interval_cases v <;> rfl
theorem posBasis_eval (x : ℕ → ℝ) (v : ℕ) (hv : v < 8) (b : ℕ → ℝ) :
    Shape.Hex8.basis x b v = (posBasisE v).eval (vars x fun d => Shape.Hex8.rv v d) := by
  interval_cases v <;> rfl

end Hex8

namespace Hex20

/-- The trees of `basis`, vertex by vertex. -/
def basisE : ℕ → Expr := fun v => [(mul (mul (mul (mul (C 11) (add (C 1) (mul (X 0) (V 0)))) (add (C 1) (mul (X 1) (V 1)))) (add (C 1) (mul (X 2) (V 2)))) (sub (add (add (mul (X 0) (V 0)) (mul (X 1) (V 1))) (mul (X 2) (V 2))) (C 3))),
  (mul (mul (mul (mul (C 11) (add (C 1) (mul (X 0) (V 0)))) (add (C 1) (mul (X 1) (V 1)))) (add (C 1) (mul (X 2) (V 2)))) (sub (add (add (mul (X 0) (V 0)) (mul (X 1) (V 1))) (mul (X 2) (V 2))) (C 3))),
  (mul (mul (mul (mul (C 11) (add (C 1) (mul (X 0) (V 0)))) (add (C 1) (mul (X 1) (V 1)))) (add (C 1) (mul (X 2) (V 2)))) (sub (add (add (mul (X 0) (V 0)) (mul (X 1) (V 1))) (mul (X 2) (V 2))) (C 3))),
  (mul (mul (mul (mul (C 11) (add (C 1) (mul (X 0) (V 0)))) (add (C 1) (mul (X 1) (V 1)))) (add (C 1) (mul (X 2) (V 2)))) (sub (add (add (mul (X 0) (V 0)) (mul (X 1) (V 1))) (mul (X 2) (V 2))) (C 3))),
  (mul (mul (mul (mul (C 11) (add (C 1) (mul (X 0) (V 0)))) (add (C 1) (mul (X 1) (V 1)))) (add (C 1) (mul (X 2) (V 2)))) (sub (add (add (mul (X 0) (V 0)) (mul (X 1) (V 1))) (mul (X 2) (V 2))) (C 3))),
  (mul (mul (mul (mul (C 11) (add (C 1) (mul (X 0) (V 0)))) (add (C 1) (mul (X 1) (V 1)))) (add (C 1) (mul (X 2) (V 2)))) (sub (add (add (mul (X 0) (V 0)) (mul (X 1) (V 1))) (mul (X 2) (V 2))) (C 3))),
  (mul (mul (mul (mul (C 11) (add (C 1) (mul (X 0) (V 0)))) (add (C 1) (mul (X 1) (V 1)))) (add (C 1) (mul (X 2) (V 2)))) (sub (add (add (mul (X 0) (V 0)) (mul (X 1) (V 1))) (mul (X 2) (V 2))) (C 3))),
  (mul (mul (mul (mul (C 11) (add (C 1) (mul (X 0) (V 0)))) (add (C 1) (mul (X 1) (V 1)))) (add (C 1) (mul (X 2) (V 2)))) (sub (add (add (mul (X 0) (V 0)) (mul (X 1) (V 1))) (mul (X 2) (V 2))) (C 3))),
  (mul (mul (mul (C 0) (sub (C 1) (mul (X 0) (X 0)))) (add (C 1) (mul (X 1) (V 1)))) (add (C 1) (mul (X 2) (V 2)))),
  (mul (mul (mul (C 0) (add (C 1) (mul (X 0) (V 0)))) (sub (C 1) (mul (X 1) (X 1)))) (add (C 1) (mul (X 2) (V 2)))),
  (mul (mul (mul (C 0) (sub (C 1) (mul (X 0) (X 0)))) (add (C 1) (mul (X 1) (V 1)))) (add (C 1) (mul (X 2) (V 2)))),
  (mul (mul (mul (C 0) (add (C 1) (mul (X 0) (V 0)))) (sub (C 1) (mul (X 1) (X 1)))) (add (C 1) (mul (X 2) (V 2)))),
  (mul (mul (mul (C 0) (sub (C 1) (mul (X 0) (X 0)))) (add (C 1) (mul (X 1) (V 1)))) (add (C 1) (mul (X 2) (V 2)))),
  (mul (mul (mul (C 0) (add (C 1) (mul (X 0) (V 0)))) (sub (C 1) (mul (X 1) (X 1)))) (add (C 1) (mul (X 2) (V 2)))),
  (mul (mul (mul (C 0) (sub (C 1) (mul (X 0) (X 0)))) (add (C 1) (mul (X 1) (V 1)))) (add (C 1) (mul (X 2) (V 2)))),
  (mul (mul (mul (C 0) (add (C 1) (mul (X 0) (V 0)))) (sub (C 1) (mul (X 1) (X 1)))) (add (C 1) (mul (X 2) (V 2)))),
  (mul (mul (mul (C 0) (add (C 1) (mul (X 0) (V 0)))) (add (C 1) (mul (X 1) (V 1)))) (sub (C 1) (mul (X 2) (X 2)))),
  (mul (mul (mul (C 0) (add (C 1) (mul (X 0) (V 0)))) (add (C 1) (mul (X 1) (V 1)))) (sub (C 1) (mul (X 2) (X 2)))),
  (mul (mul (mul (C 0) (add (C 1) (mul (X 0) (V 0)))) (add (C 1) (mul (X 1) (V 1)))) (sub (C 1) (mul (X 2) (X 2)))),
  (mul (mul (mul (C 0) (add (C 1) (mul (X 0) (V 0)))) (add (C 1) (mul (X 1) (V 1)))) (sub (C 1) (mul (X 2) (X 2))))].getD v (X 0)
theorem basis_expr (R : Rounding) (x b : ℕ → ℝ) (v : ℕ) (hv : v < 20) :
    basis R x b v = (basisE v).evalFl R (vars x fun d => table R Shape.Hex20.rv v d) := by
  interval_cases v <;> rfl
theorem basis_eval (x b : ℕ → ℝ) (v : ℕ) (hv : v < 20) :
    Shape.Hex20.basis x b v = (basisE v).eval (vars x fun d => Shape.Hex20.rv v d) := by
  interval_cases v <;> rfl

/-- The trees of `partialXi`, vertex by vertex. -/
def partialXiE : ℕ → Expr := fun v => [(mul (mul (mul (mul (C 11) (V 0)) (add (C 1) (mul (X 1) (V 1)))) (add (C 1) (mul (X 2) (V 2)))) (sub (add (add (mul (C 3) (mul (X 0) (V 0))) (mul (X 1) (V 1))) (mul (X 2) (V 2))) (C 1))),
  (mul (mul (mul (mul (C 11) (V 0)) (add (C 1) (mul (X 1) (V 1)))) (add (C 1) (mul (X 2) (V 2)))) (sub (add (add (mul (C 3) (mul (X 0) (V 0))) (mul (X 1) (V 1))) (mul (X 2) (V 2))) (C 1))),
  (mul (mul (mul (mul (C 11) (V 0)) (add (C 1) (mul (X 1) (V 1)))) (add (C 1) (mul (X 2) (V 2)))) (sub (add (add (mul (C 3) (mul (X 0) (V 0))) (mul (X 1) (V 1))) (mul (X 2) (V 2))) (C 1))),
  (mul (mul (mul (mul (C 11) (V 0)) (add (C 1) (mul (X 1) (V 1)))) (add (C 1) (mul (X 2) (V 2)))) (sub (add (add (mul (C 3) (mul (X 0) (V 0))) (mul (X 1) (V 1))) (mul (X 2) (V 2))) (C 1))),
  (mul (mul (mul (mul (C 11) (V 0)) (add (C 1) (mul (X 1) (V 1)))) (add (C 1) (mul (X 2) (V 2)))) (sub (add (add (mul (C 3) (mul (X 0) (V 0))) (mul (X 1) (V 1))) (mul (X 2) (V 2))) (C 1))),
  (mul (mul (mul (mul (C 11) (V 0)) (add (C 1) (mul (X 1) (V 1)))) (add (C 1) (mul (X 2) (V 2)))) (sub (add (add (mul (C 3) (mul (X 0) (V 0))) (mul (X 1) (V 1))) (mul (X 2) (V 2))) (C 1))),
  (mul (mul (mul (mul (C 11) (V 0)) (add (C 1) (mul (X 1) (V 1)))) (add (C 1) (mul (X 2) (V 2)))) (sub (add (add (mul (C 3) (mul (X 0) (V 0))) (mul (X 1) (V 1))) (mul (X 2) (V 2))) (C 1))),
  (mul (mul (mul (mul (C 11) (V 0)) (add (C 1) (mul (X 1) (V 1)))) (add (C 1) (mul (X 2) (V 2)))) (sub (add (add (mul (C 3) (mul (X 0) (V 0))) (mul (X 1) (V 1))) (mul (X 2) (V 2))) (C 1))),
  (mul (mul (mul (C 12) (X 0)) (add (C 1) (mul (X 1) (V 1)))) (add (C 1) (mul (X 2) (V 2)))),
  (mul (mul (mul (C 0) (V 0)) (add (C 1) (mul (X 1) (V 1)))) (sub (C 1) (mul (X 2) (X 2)))),
  (mul (mul (mul (C 12) (X 0)) (add (C 1) (mul (X 1) (V 1)))) (add (C 1) (mul (X 2) (V 2)))),
  (mul (mul (mul (C 0) (V 0)) (add (C 1) (mul (X 1) (V 1)))) (sub (C 1) (mul (X 2) (X 2)))),
  (mul (mul (mul (C 12) (X 0)) (add (C 1) (mul (X 1) (V 1)))) (add (C 1) (mul (X 2) (V 2)))),
  (mul (mul (mul (C 0) (V 0)) (add (C 1) (mul (X 1) (V 1)))) (sub (C 1) (mul (X 2) (X 2)))),
  (mul (mul (mul (C 12) (X 0)) (add (C 1) (mul (X 1) (V 1)))) (add (C 1) (mul (X 2) (V 2)))),
  (mul (mul (mul (C 0) (V 0)) (add (C 1) (mul (X 1) (V 1)))) (sub (C 1) (mul (X 2) (X 2)))),
  (mul (mul (mul (C 0) (V 0)) (sub (C 1) (mul (X 1) (X 1)))) (add (C 1) (mul (X 2) (V 2)))),
  (mul (mul (mul (C 0) (V 0)) (sub (C 1) (mul (X 1) (X 1)))) (add (C 1) (mul (X 2) (V 2)))),
  (mul (mul (mul (C 0) (V 0)) (sub (C 1) (mul (X 1) (X 1)))) (add (C 1) (mul (X 2) (V 2)))),
  (mul (mul (mul (C 0) (V 0)) (sub (C 1) (mul (X 1) (X 1)))) (add (C 1) (mul (X 2) (V 2))))].getD v (X 0)
theorem partialXi_expr (R : Rounding) (x b : ℕ → ℝ) (v : ℕ) (hv : v < 20) :
    partialXi R x b v = (partialXiE v).evalFl R (vars x fun d => table R Shape.Hex20.rv v d) := by
  interval_cases v <;> rfl
theorem partialXi_eval (x b : ℕ → ℝ) (v : ℕ) (hv : v < 20) :
    Shape.Hex20.partialXi x b v = (partialXiE v).eval (vars x fun d => Shape.Hex20.rv v d) := by
  interval_cases v <;> rfl

/-- The trees of `partialEta`, vertex by vertex. -/
def partialEtaE : ℕ → Expr := fun v => [(mul (mul (mul (mul (C 11) (add (C 1) (mul (X 0) (V 0)))) (V 1)) (add (C 1) (mul (X 2) (V 2)))) (sub (add (add (mul (X 0) (V 0)) (mul (mul (C 3) (X 1)) (V 1))) (mul (X 2) (V 2))) (C 1))),
  (mul (mul (mul (mul (C 11) (add (C 1) (mul (X 0) (V 0)))) (V 1)) (add (C 1) (mul (X 2) (V 2)))) (sub (add (add (mul (X 0) (V 0)) (mul (mul (C 3) (X 1)) (V 1))) (mul (X 2) (V 2))) (C 1))),
  (mul (mul (mul (mul (C 11) (add (C 1) (mul (X 0) (V 0)))) (V 1)) (add (C 1) (mul (X 2) (V 2)))) (sub (add (add (mul (X 0) (V 0)) (mul (mul (C 3) (X 1)) (V 1))) (mul (X 2) (V 2))) (C 1))),
  (mul (mul (mul (mul (C 11) (add (C 1) (mul (X 0) (V 0)))) (V 1)) (add (C 1) (mul (X 2) (V 2)))) (sub (add (add (mul (X 0) (V 0)) (mul (mul (C 3) (X 1)) (V 1))) (mul (X 2) (V 2))) (C 1))),
  (mul (mul (mul (mul (C 11) (add (C 1) (mul (X 0) (V 0)))) (V 1)) (add (C 1) (mul (X 2) (V 2)))) (sub (add (add (mul (X 0) (V 0)) (mul (mul (C 3) (X 1)) (V 1))) (mul (X 2) (V 2))) (C 1))),
  (mul (mul (mul (mul (C 11) (add (C 1) (mul (X 0) (V 0)))) (V 1)) (add (C 1) (mul (X 2) (V 2)))) (sub (add (add (mul (X 0) (V 0)) (mul (mul (C 3) (X 1)) (V 1))) (mul (X 2) (V 2))) (C 1))),
  (mul (mul (mul (mul (C 11) (add (C 1) (mul (X 0) (V 0)))) (V 1)) (add (C 1) (mul (X 2) (V 2)))) (sub (add (add (mul (X 0) (V 0)) (mul (mul (C 3) (X 1)) (V 1))) (mul (X 2) (V 2))) (C 1))),
  (mul (mul (mul (mul (C 11) (add (C 1) (mul (X 0) (V 0)))) (V 1)) (add (C 1) (mul (X 2) (V 2)))) (sub (add (add (mul (X 0) (V 0)) (mul (mul (C 3) (X 1)) (V 1))) (mul (X 2) (V 2))) (C 1))),
  (mul (mul (mul (C 0) (sub (C 1) (mul (X 0) (X 0)))) (V 1)) (add (C 1) (mul (X 2) (V 2)))),
  (mul (mul (mul (C 12) (add (C 1) (mul (X 0) (V 0)))) (X 1)) (add (C 1) (mul (X 2) (V 2)))),
  (mul (mul (mul (C 0) (sub (C 1) (mul (X 0) (X 0)))) (V 1)) (add (C 1) (mul (X 2) (V 2)))),
  (mul (mul (mul (C 12) (add (C 1) (mul (X 0) (V 0)))) (X 1)) (add (C 1) (mul (X 2) (V 2)))),
  (mul (mul (mul (C 0) (sub (C 1) (mul (X 0) (X 0)))) (V 1)) (add (C 1) (mul (X 2) (V 2)))),
  (mul (mul (mul (C 12) (add (C 1) (mul (X 0) (V 0)))) (X 1)) (add (C 1) (mul (X 2) (V 2)))),
  (mul (mul (mul (C 0) (sub (C 1) (mul (X 0) (X 0)))) (V 1)) (add (C 1) (mul (X 2) (V 2)))),
  (mul (mul (mul (C 12) (add (C 1) (mul (X 0) (V 0)))) (X 1)) (add (C 1) (mul (X 2) (V 2)))),
  (mul (mul (mul (C 0) (add (C 1) (mul (X 0) (V 0)))) (V 1)) (sub (C 1) (mul (X 2) (X 2)))),
  (mul (mul (mul (C 0) (add (C 1) (mul (X 0) (V 0)))) (V 1)) (sub (C 1) (mul (X 2) (X 2)))),
  (mul (mul (mul (C 0) (add (C 1) (mul (X 0) (V 0)))) (V 1)) (sub (C 1) (mul (X 2) (X 2)))),
  (mul (mul (mul (C 0) (add (C 1) (mul (X 0) (V 0)))) (V 1)) (sub (C 1) (mul (X 2) (X 2))))].getD v (X 0)
theorem partialEta_expr (R : Rounding) (x b : ℕ → ℝ) (v : ℕ) (hv : v < 20) :
    partialEta R x b v = (partialEtaE v).evalFl R (vars x fun d => table R Shape.Hex20.rv v d) := by
  interval_cases v <;> rfl
theorem partialEta_eval (x b : ℕ → ℝ) (v : ℕ) (hv : v < 20) :
    Shape.Hex20.partialEta x b v = (partialEtaE v).eval (vars x fun d => Shape.Hex20.rv v d) := by
  interval_cases v <;> rfl

/-- The trees of `partialMu`, vertex by vertex. -/
def partialMuE : ℕ → Expr := fun v => [(mul (mul (mul (mul (C 11) (add (C 1) (mul (X 0) (V 0)))) (add (C 1) (mul (X 1) (V 1)))) (V 2)) (sub (add (add (mul (X 0) (V 0)) (mul (X 1) (V 1))) (mul (mul (C 3) (X 2)) (V 2))) (C 1))),
  (mul (mul (mul (mul (C 11) (add (C 1) (mul (X 0) (V 0)))) (add (C 1) (mul (X 1) (V 1)))) (V 2)) (sub (add (add (mul (X 0) (V 0)) (mul (X 1) (V 1))) (mul (mul (C 3) (X 2)) (V 2))) (C 1))),
  (mul (mul (mul (mul (C 11) (add (C 1) (mul (X 0) (V 0)))) (add (C 1) (mul (X 1) (V 1)))) (V 2)) (sub (add (add (mul (X 0) (V 0)) (mul (X 1) (V 1))) (mul (mul (C 3) (X 2)) (V 2))) (C 1))),
  (mul (mul (mul (mul (C 11) (add (C 1) (mul (X 0) (V 0)))) (add (C 1) (mul (X 1) (V 1)))) (V 2)) (sub (add (add (mul (X 0) (V 0)) (mul (X 1) (V 1))) (mul (mul (C 3) (X 2)) (V 2))) (C 1))),
  (mul (mul (mul (mul (C 11) (add (C 1) (mul (X 0) (V 0)))) (add (C 1) (mul (X 1) (V 1)))) (V 2)) (sub (add (add (mul (X 0) (V 0)) (mul (X 1) (V 1))) (mul (mul (C 3) (X 2)) (V 2))) (C 1))),
  (mul (mul (mul (mul (C 11) (add (C 1) (mul (X 0) (V 0)))) (add (C 1) (mul (X 1) (V 1)))) (V 2)) (sub (add (add (mul (X 0) (V 0)) (mul (X 1) (V 1))) (mul (mul (C 3) (X 2)) (V 2))) (C 1))),
  (mul (mul (mul (mul (C 11) (add (C 1) (mul (X 0) (V 0)))) (add (C 1) (mul (X 1) (V 1)))) (V 2)) (sub (add (add (mul (X 0) (V 0)) (mul (X 1) (V 1))) (mul (mul (C 3) (X 2)) (V 2))) (C 1))),
  (mul (mul (mul (mul (C 11) (add (C 1) (mul (X 0) (V 0)))) (add (C 1) (mul (X 1) (V 1)))) (V 2)) (sub (add (add (mul (X 0) (V 0)) (mul (X 1) (V 1))) (mul (mul (C 3) (X 2)) (V 2))) (C 1))),
  (mul (mul (mul (C 0) (sub (C 1) (mul (X 0) (X 0)))) (add (C 1) (mul (X 1) (V 1)))) (V 2)),
  (mul (mul (mul (C 0) (add (C 1) (mul (X 0) (V 0)))) (sub (C 1) (mul (X 1) (X 1)))) (V 2)),
  (mul (mul (mul (C 0) (sub (C 1) (mul (X 0) (X 0)))) (add (C 1) (mul (X 1) (V 1)))) (V 2)),
  (mul (mul (mul (C 0) (add (C 1) (mul (X 0) (V 0)))) (sub (C 1) (mul (X 1) (X 1)))) (V 2)),
  (mul (mul (mul (C 0) (sub (C 1) (mul (X 0) (X 0)))) (add (C 1) (mul (X 1) (V 1)))) (V 2)),
  (mul (mul (mul (C 0) (add (C 1) (mul (X 0) (V 0)))) (sub (C 1) (mul (X 1) (X 1)))) (V 2)),
  (mul (mul (mul (C 0) (sub (C 1) (mul (X 0) (X 0)))) (add (C 1) (mul (X 1) (V 1)))) (V 2)),
  (mul (mul (mul (C 0) (add (C 1) (mul (X 0) (V 0)))) (sub (C 1) (mul (X 1) (X 1)))) (V 2)),
  (mul (mul (mul (C 12) (add (C 1) (mul (X 0) (V 0)))) (add (C 1) (mul (X 1) (V 1)))) (X 2)),
  (mul (mul (mul (C 12) (add (C 1) (mul (X 0) (V 0)))) (add (C 1) (mul (X 1) (V 1)))) (X 2)),
  (mul (mul (mul (C 12) (add (C 1) (mul (X 0) (V 0)))) (add (C 1) (mul (X 1) (V 1)))) (X 2)),
  (mul (mul (mul (C 12) (add (C 1) (mul (X 0) (V 0)))) (add (C 1) (mul (X 1) (V 1)))) (X 2))].getD v (X 0)
theorem partialMu_expr (R : Rounding) (x b : ℕ → ℝ) (v : ℕ) (hv : v < 20) :
    partialMu R x b v = (partialMuE v).evalFl R (vars x fun d => table R Shape.Hex20.rv v d) := by
  interval_cases v <;> rfl
theorem partialMu_eval (x b : ℕ → ℝ) (v : ℕ) (hv : v < 20) :
    Shape.Hex20.partialMu x b v = (partialMuE v).eval (vars x fun d => Shape.Hex20.rv v d) := by
  interval_cases v <;> rfl

/-- The trees of `posBasis`, vertex by vertex. -/
def posBasisE : ℕ → Expr := fun v => [(mul (mul (mul (mul (C 11) (add (C 1) (mul (X 0) (V 0)))) (add (C 1) (mul (X 1) (V 1)))) (add (C 1) (mul (X 2) (V 2)))) (sub (add (add (mul (X 0) (V 0)) (mul (X 1) (V 1))) (mul (X 2) (V 2))) (C 3))),
  (mul (mul (mul (mul (C 11) (add (C 1) (mul (X 0) (V 0)))) (add (C 1) (mul (X 1) (V 1)))) (add (C 1) (mul (X 2) (V 2)))) (sub (add (add (mul (X 0) (V 0)) (mul (X 1) (V 1))) (mul (X 2) (V 2))) (C 3))),
  (mul (mul (mul (mul (C 11) (add (C 1) (mul (X 0) (V 0)))) (add (C 1) (mul (X 1) (V 1)))) (add (C 1) (mul (X 2) (V 2)))) (sub (add (add (mul (X 0) (V 0)) (mul (X 1) (V 1))) (mul (X 2) (V 2))) (C 3))),
  (mul (mul (mul (mul (C 11) (add (C 1) (mul (X 0) (V 0)))) (add (C 1) (mul (X 1) (V 1)))) (add (C 1) (mul (X 2) (V 2)))) (sub (add (add (mul (X 0) (V 0)) (mul (X 1) (V 1))) (mul (X 2) (V 2))) (C 3))),
  (mul (mul (mul (mul (C 11) (add (C 1) (mul (X 0) (V 0)))) (add (C 1) (mul (X 1) (V 1)))) (add (C 1) (mul (X 2) (V 2)))) (sub (add (add (mul (X 0) (V 0)) (mul (X 1) (V 1))) (mul (X 2) (V 2))) (C 3))),
  (mul (mul (mul (mul (C 11) (add (C 1) (mul (X 0) (V 0)))) (add (C 1) (mul (X 1) (V 1)))) (add (C 1) (mul (X 2) (V 2)))) (sub (add (add (mul (X 0) (V 0)) (mul (X 1) (V 1))) (mul (X 2) (V 2))) (C 3))),
  (mul (mul (mul (mul (C 11) (add (C 1) (mul (X 0) (V 0)))) (add (C 1) (mul (X 1) (V 1)))) (add (C 1) (mul (X 2) (V 2)))) (sub (add (add (mul (X 0) (V 0)) (mul (X 1) (V 1))) (mul (X 2) (V 2))) (C 3))),
  (mul (mul (mul (mul (C 11) (add (C 1) (mul (X 0) (V 0)))) (add (C 1) (mul (X 1) (V 1)))) (add (C 1) (mul (X 2) (V 2)))) (sub (add (add (mul (X 0) (V 0)) (mul (X 1) (V 1))) (mul (X 2) (V 2))) (C 3))),
  (mul (mul (mul (C 0) (sub (C 1) (mul (X 0) (X 0)))) (add (C 1) (mul (X 1) (V 1)))) (add (C 1) (mul (X 2) (V 2)))),
  (mul (mul (mul (C 0) (add (C 1) (mul (X 0) (V 0)))) (sub (C 1) (mul (X 1) (X 1)))) (add (C 1) (mul (X 2) (V 2)))),
  (mul (mul (mul (C 0) (sub (C 1) (mul (X 0) (X 0)))) (add (C 1) (mul (X 1) (V 1)))) (add (C 1) (mul (X 2) (V 2)))),
  (mul (mul (mul (C 0) (add (C 1) (mul (X 0) (V 0)))) (sub (C 1) (mul (X 1) (X 1)))) (add (C 1) (mul (X 2) (V 2)))),
  (mul (mul (mul (C 0) (sub (C 1) (mul (X 0) (X 0)))) (add (C 1) (mul (X 1) (V 1)))) (add (C 1) (mul (X 2) (V 2)))),
  (mul (mul (mul (C 0) (add (C 1) (mul (X 0) (V 0)))) (sub (C 1) (mul (X 1) (X 1)))) (add (C 1) (mul (X 2) (V 2)))),
  (mul (mul (mul (C 0) (sub (C 1) (mul (X 0) (X 0)))) (add (C 1) (mul (X 1) (V 1)))) (add (C 1) (mul (X 2) (V 2)))),
  (mul (mul (mul (C 0) (add (C 1) (mul (X 0) (V 0)))) (sub (C 1) (mul (X 1) (X 1)))) (add (C 1) (mul (X 2) (V 2)))),
  (mul (mul (mul (C 0) (add (C 1) (mul (X 0) (V 0)))) (add (C 1) (mul (X 1) (V 1)))) (sub (C 1) (mul (X 2) (X 2)))),
  (mul (mul (mul (C 0) (add (C 1) (mul (X 0) (V 0)))) (add (C 1) (mul (X 1) (V 1)))) (sub (C 1) (mul (X 2) (X 2)))),
  (mul (mul (mul (C 0) (add (C 1) (mul (X 0) (V 0)))) (add (C 1) (mul (X 1) (V 1)))) (sub (C 1) (mul (X 2) (X 2)))),
  (mul (mul (mul (C 0) (add (C 1) (mul (X 0) (V 0)))) (add (C 1) (mul (X 1) (V 1)))) (sub (C 1) (mul (X 2) (X 2))))].getD v (X 0)
theorem posBasis_expr (R : Rounding) (x b : ℕ → ℝ) (v : ℕ) (hv : v < 20) :
    posBasis R x b v = (posBasisE v).evalFl R (vars x fun d => table R Shape.Hex20.rv v d) := by
  interval_cases v <;> rfl
theorem posBasis_eval (x : ℕ → ℝ) (v : ℕ) (hv : v < 20) (b : ℕ → ℝ) :
    Shape.Hex20.basis x b v = (posBasisE v).eval (vars x fun d => Shape.Hex20.rv v d) := by
  interval_cases v <;> rfl

end Hex20

namespace Hex32

/-- The trees of `basis`, vertex by vertex. -/
def basisE : ℕ → Expr := fun v => [(mul (mul (mul (mul (C 13) (add (C 1) (mul (X 0) (V 0)))) (add (C 1) (mul (X 1) (V 1)))) (add (C 1) (mul (X 2) (V 2)))) (sub (add (add (mul (mul (C 6) (X 0)) (X 0)) (mul (mul (C 6) (X 1)) (X 1))) (mul (mul (C 6) (X 2)) (X 2))) (C 14))),
  (mul (mul (mul (mul (C 13) (add (C 1) (mul (X 0) (V 0)))) (add (C 1) (mul (X 1) (V 1)))) (add (C 1) (mul (X 2) (V 2)))) (sub (add (add (mul (mul (C 6) (X 0)) (X 0)) (mul (mul (C 6) (X 1)) (X 1))) (mul (mul (C 6) (X 2)) (X 2))) (C 14))),
  (mul (mul (mul (mul (C 13) (add (C 1) (mul (X 0) (V 0)))) (add (C 1) (mul (X 1) (V 1)))) (add (C 1) (mul (X 2) (V 2)))) (sub (add (add (mul (mul (C 6) (X 0)) (X 0)) (mul (mul (C 6) (X 1)) (X 1))) (mul (mul (C 6) (X 2)) (X 2))) (C 14))),
  (mul (mul (mul (mul (C 13) (add (C 1) (mul (X 0) (V 0)))) (add (C 1) (mul (X 1) (V 1)))) (add (C 1) (mul (X 2) (V 2)))) (sub (add (add (mul (mul (C 6) (X 0)) (X 0)) (mul (mul (C 6) (X 1)) (X 1))) (mul (mul (C 6) (X 2)) (X 2))) (C 14))),
  (mul (mul (mul (mul (C 13) (add (C 1) (mul (X 0) (V 0)))) (add (C 1) (mul (X 1) (V 1)))) (add (C 1) (mul (X 2) (V 2)))) (sub (add (add (mul (mul (C 6) (X 0)) (X 0)) (mul (mul (C 6) (X 1)) (X 1))) (mul (mul (C 6) (X 2)) (X 2))) (C 14))),
  (mul (mul (mul (mul (C 13) (add (C 1) (mul (X 0) (V 0)))) (add (C 1) (mul (X 1) (V 1)))) (add (C 1) (mul (X 2) (V 2)))) (sub (add (add (mul (mul (C 6) (X 0)) (X 0)) (mul (mul (C 6) (X 1)) (X 1))) (mul (mul (C 6) (X 2)) (X 2))) (C 14))),
  (mul (mul (mul (mul (C 13) (add (C 1) (mul (X 0) (V 0)))) (add (C 1) (mul (X 1) (V 1)))) (add (C 1) (mul (X 2) (V 2)))) (sub (add (add (mul (mul (C 6) (X 0)) (X 0)) (mul (mul (C 6) (X 1)) (X 1))) (mul (mul (C 6) (X 2)) (X 2))) (C 14))),
  (mul (mul (mul (mul (C 13) (add (C 1) (mul (X 0) (V 0)))) (add (C 1) (mul (X 1) (V 1)))) (add (C 1) (mul (X 2) (V 2)))) (sub (add (add (mul (mul (C 6) (X 0)) (X 0)) (mul (mul (C 6) (X 1)) (X 1))) (mul (mul (C 6) (X 2)) (X 2))) (C 14))),
  (mul (mul (mul (mul (C 15) (add (C 1) (mul (X 0) (V 0)))) (sub (C 1) (mul (X 1) (X 1)))) (add (C 1) (mul (mul (C 6) (X 1)) (V 1)))) (add (C 1) (mul (X 2) (V 2)))),
  (mul (mul (mul (mul (C 15) (add (C 1) (mul (X 0) (V 0)))) (sub (C 1) (mul (X 1) (X 1)))) (add (C 1) (mul (mul (C 6) (X 1)) (V 1)))) (add (C 1) (mul (X 2) (V 2)))),
  (mul (mul (mul (mul (C 15) (add (C 1) (mul (X 0) (V 0)))) (sub (C 1) (mul (X 1) (X 1)))) (add (C 1) (mul (mul (C 6) (X 1)) (V 1)))) (add (C 1) (mul (X 2) (V 2)))),
  (mul (mul (mul (mul (C 15) (add (C 1) (mul (X 0) (V 0)))) (sub (C 1) (mul (X 1) (X 1)))) (add (C 1) (mul (mul (C 6) (X 1)) (V 1)))) (add (C 1) (mul (X 2) (V 2)))),
  (mul (mul (mul (mul (C 15) (add (C 1) (mul (X 0) (V 0)))) (sub (C 1) (mul (X 1) (X 1)))) (add (C 1) (mul (mul (C 6) (X 1)) (V 1)))) (add (C 1) (mul (X 2) (V 2)))),
  (mul (mul (mul (mul (C 15) (add (C 1) (mul (X 0) (V 0)))) (sub (C 1) (mul (X 1) (X 1)))) (add (C 1) (mul (mul (C 6) (X 1)) (V 1)))) (add (C 1) (mul (X 2) (V 2)))),
  (mul (mul (mul (mul (C 15) (add (C 1) (mul (X 0) (V 0)))) (sub (C 1) (mul (X 1) (X 1)))) (add (C 1) (mul (mul (C 6) (X 1)) (V 1)))) (add (C 1) (mul (X 2) (V 2)))),
  (mul (mul (mul (mul (C 15) (add (C 1) (mul (X 0) (V 0)))) (sub (C 1) (mul (X 1) (X 1)))) (add (C 1) (mul (mul (C 6) (X 1)) (V 1)))) (add (C 1) (mul (X 2) (V 2)))),
  (mul (mul (mul (mul (C 15) (sub (C 1) (mul (X 0) (X 0)))) (add (C 1) (mul (mul (C 6) (X 0)) (V 0)))) (add (C 1) (mul (X 1) (V 1)))) (add (C 1) (mul (X 2) (V 2)))),
  (mul (mul (mul (mul (C 15) (sub (C 1) (mul (X 0) (X 0)))) (add (C 1) (mul (mul (C 6) (X 0)) (V 0)))) (add (C 1) (mul (X 1) (V 1)))) (add (C 1) (mul (X 2) (V 2)))),
  (mul (mul (mul (mul (C 15) (sub (C 1) (mul (X 0) (X 0)))) (add (C 1) (mul (mul (C 6) (X 0)) (V 0)))) (add (C 1) (mul (X 1) (V 1)))) (add (C 1) (mul (X 2) (V 2)))),
  (mul (mul (mul (mul (C 15) (sub (C 1) (mul (X 0) (X 0)))) (add (C 1) (mul (mul (C 6) (X 0)) (V 0)))) (add (C 1) (mul (X 1) (V 1)))) (add (C 1) (mul (X 2) (V 2)))),
  (mul (mul (mul (mul (C 15) (sub (C 1) (mul (X 0) (X 0)))) (add (C 1) (mul (mul (C 6) (X 0)) (V 0)))) (add (C 1) (mul (X 1) (V 1)))) (add (C 1) (mul (X 2) (V 2)))),
  (mul (mul (mul (mul (C 15) (sub (C 1) (mul (X 0) (X 0)))) (add (C 1) (mul (mul (C 6) (X 0)) (V 0)))) (add (C 1) (mul (X 1) (V 1)))) (add (C 1) (mul (X 2) (V 2)))),
  (mul (mul (mul (mul (C 15) (sub (C 1) (mul (X 0) (X 0)))) (add (C 1) (mul (mul (C 6) (X 0)) (V 0)))) (add (C 1) (mul (X 1) (V 1)))) (add (C 1) (mul (X 2) (V 2)))),
  (mul (mul (mul (mul (C 15) (sub (C 1) (mul (X 0) (X 0)))) (add (C 1) (mul (mul (C 6) (X 0)) (V 0)))) (add (C 1) (mul (X 1) (V 1)))) (add (C 1) (mul (X 2) (V 2)))),
  (mul (mul (mul (mul (C 15) (add (C 1) (mul (X 0) (V 0)))) (add (C 1) (mul (X 1) (V 1)))) (add (C 1) (mul (mul (C 6) (X 2)) (V 2)))) (sub (C 1) (mul (X 2) (X 2)))),
  (mul (mul (mul (mul (C 15) (add (C 1) (mul (X 0) (V 0)))) (add (C 1) (mul (X 1) (V 1)))) (add (C 1) (mul (mul (C 6) (X 2)) (V 2)))) (sub (C 1) (mul (X 2) (X 2)))),
  (mul (mul (mul (mul (C 15) (add (C 1) (mul (X 0) (V 0)))) (add (C 1) (mul (X 1) (V 1)))) (add (C 1) (mul (mul (C 6) (X 2)) (V 2)))) (sub (C 1) (mul (X 2) (X 2)))),
  (mul (mul (mul (mul (C 15) (add (C 1) (mul (X 0) (V 0)))) (add (C 1) (mul (X 1) (V 1)))) (add (C 1) (mul (mul (C 6) (X 2)) (V 2)))) (sub (C 1) (mul (X 2) (X 2)))),
  (mul (mul (mul (mul (C 15) (add (C 1) (mul (X 0) (V 0)))) (add (C 1) (mul (X 1) (V 1)))) (add (C 1) (mul (mul (C 6) (X 2)) (V 2)))) (sub (C 1) (mul (X 2) (X 2)))),
  (mul (mul (mul (mul (C 15) (add (C 1) (mul (X 0) (V 0)))) (add (C 1) (mul (X 1) (V 1)))) (add (C 1) (mul (mul (C 6) (X 2)) (V 2)))) (sub (C 1) (mul (X 2) (X 2)))),
  (mul (mul (mul (mul (C 15) (add (C 1) (mul (X 0) (V 0)))) (add (C 1) (mul (X 1) (V 1)))) (add (C 1) (mul (mul (C 6) (X 2)) (V 2)))) (sub (C 1) (mul (X 2) (X 2)))),
  (mul (mul (mul (mul (C 15) (add (C 1) (mul (X 0) (V 0)))) (add (C 1) (mul (X 1) (V 1)))) (add (C 1) (mul (mul (C 6) (X 2)) (V 2)))) (sub (C 1) (mul (X 2) (X 2))))].getD v (X 0)
theorem basis_expr (R : Rounding) (x b : ℕ → ℝ) (v : ℕ) (hv : v < 32) :
    basis R x b v = (basisE v).evalFl R (vars x fun d => table R Shape.Hex32.rv v d) := by
  interval_cases v <;> rfl
theorem basis_eval (x b : ℕ → ℝ) (v : ℕ) (hv : v < 32) :
    Shape.Hex32.basis x b v = (basisE v).eval (vars x fun d => Shape.Hex32.rv v d) := by
  interval_cases v <;> rfl

/-- The trees of `partialXi`, vertex by vertex. -/
def partialXiE : ℕ → Expr := fun v => [(mul (mul (mul (C 13) (add (C 1) (mul (X 1) (V 1)))) (add (C 1) (mul (X 2) (V 2)))) (sub (add (mul (mul (C 6) (V 0)) (add (add (mul (X 0) (X 0)) (mul (X 1) (X 1))) (mul (X 2) (X 2)))) (mul (mul (C 9) (X 0)) (add (C 1) (mul (X 0) (V 0))))) (mul (C 14) (V 0)))),
  (mul (mul (mul (C 13) (add (C 1) (mul (X 1) (V 1)))) (add (C 1) (mul (X 2) (V 2)))) (sub (add (mul (mul (C 6) (V 0)) (add (add (mul (X 0) (X 0)) (mul (X 1) (X 1))) (mul (X 2) (X 2)))) (mul (mul (C 9) (X 0)) (add (C 1) (mul (X 0) (V 0))))) (mul (C 14) (V 0)))),
  (mul (mul (mul (C 13) (add (C 1) (mul (X 1) (V 1)))) (add (C 1) (mul (X 2) (V 2)))) (sub (add (mul (mul (C 6) (V 0)) (add (add (mul (X 0) (X 0)) (mul (X 1) (X 1))) (mul (X 2) (X 2)))) (mul (mul (C 9) (X 0)) (add (C 1) (mul (X 0) (V 0))))) (mul (C 14) (V 0)))),
  (mul (mul (mul (C 13) (add (C 1) (mul (X 1) (V 1)))) (add (C 1) (mul (X 2) (V 2)))) (sub (add (mul (mul (C 6) (V 0)) (add (add (mul (X 0) (X 0)) (mul (X 1) (X 1))) (mul (X 2) (X 2)))) (mul (mul (C 9) (X 0)) (add (C 1) (mul (X 0) (V 0))))) (mul (C 14) (V 0)))),
  (mul (mul (mul (C 13) (add (C 1) (mul (X 1) (V 1)))) (add (C 1) (mul (X 2) (V 2)))) (sub (add (mul (mul (C 6) (V 0)) (add (add (mul (X 0) (X 0)) (mul (X 1) (X 1))) (mul (X 2) (X 2)))) (mul (mul (C 9) (X 0)) (add (C 1) (mul (X 0) (V 0))))) (mul (C 14) (V 0)))),
  (mul (mul (mul (C 13) (add (C 1) (mul (X 1) (V 1)))) (add (C 1) (mul (X 2) (V 2)))) (sub (add (mul (mul (C 6) (V 0)) (add (add (mul (X 0) (X 0)) (mul (X 1) (X 1))) (mul (X 2) (X 2)))) (mul (mul (C 9) (X 0)) (add (C 1) (mul (X 0) (V 0))))) (mul (C 14) (V 0)))),
  (mul (mul (mul (C 13) (add (C 1) (mul (X 1) (V 1)))) (add (C 1) (mul (X 2) (V 2)))) (sub (add (mul (mul (C 6) (V 0)) (add (add (mul (X 0) (X 0)) (mul (X 1) (X 1))) (mul (X 2) (X 2)))) (mul (mul (C 9) (X 0)) (add (C 1) (mul (X 0) (V 0))))) (mul (C 14) (V 0)))),
  (mul (mul (mul (C 13) (add (C 1) (mul (X 1) (V 1)))) (add (C 1) (mul (X 2) (V 2)))) (sub (add (mul (mul (C 6) (V 0)) (add (add (mul (X 0) (X 0)) (mul (X 1) (X 1))) (mul (X 2) (X 2)))) (mul (mul (C 9) (X 0)) (add (C 1) (mul (X 0) (V 0))))) (mul (C 14) (V 0)))),
  (mul (mul (mul (mul (C 15) (V 0)) (add (C 1) (mul (X 1) (V 1)))) (add (C 1) (mul (mul (C 6) (X 2)) (V 2)))) (sub (C 1) (mul (X 2) (X 2)))),
  (mul (mul (mul (mul (C 15) (V 0)) (add (C 1) (mul (X 1) (V 1)))) (add (C 1) (mul (mul (C 6) (X 2)) (V 2)))) (sub (C 1) (mul (X 2) (X 2)))),
  (mul (mul (mul (mul (C 15) (V 0)) (add (C 1) (mul (X 1) (V 1)))) (add (C 1) (mul (mul (C 6) (X 2)) (V 2)))) (sub (C 1) (mul (X 2) (X 2)))),
  (mul (mul (mul (mul (C 15) (V 0)) (add (C 1) (mul (X 1) (V 1)))) (add (C 1) (mul (mul (C 6) (X 2)) (V 2)))) (sub (C 1) (mul (X 2) (X 2)))),
  (mul (mul (mul (mul (C 15) (V 0)) (add (C 1) (mul (X 1) (V 1)))) (add (C 1) (mul (mul (C 6) (X 2)) (V 2)))) (sub (C 1) (mul (X 2) (X 2)))),
  (mul (mul (mul (mul (C 15) (V 0)) (add (C 1) (mul (X 1) (V 1)))) (add (C 1) (mul (mul (C 6) (X 2)) (V 2)))) (sub (C 1) (mul (X 2) (X 2)))),
  (mul (mul (mul (mul (C 15) (V 0)) (add (C 1) (mul (X 1) (V 1)))) (add (C 1) (mul (mul (C 6) (X 2)) (V 2)))) (sub (C 1) (mul (X 2) (X 2)))),
  (mul (mul (mul (mul (C 15) (V 0)) (add (C 1) (mul (X 1) (V 1)))) (add (C 1) (mul (mul (C 6) (X 2)) (V 2)))) (sub (C 1) (mul (X 2) (X 2)))),
  (mul (mul (mul (C 15) (add (C 1) (mul (X 1) (V 1)))) (add (C 1) (mul (X 2) (V 2)))) (sub (mul (mul (C 6) (V 0)) (sub (C 1) (mul (mul (C 10) (X 0)) (X 0)))) (mul (C 3) (X 0)))),
  (mul (mul (mul (C 15) (add (C 1) (mul (X 1) (V 1)))) (add (C 1) (mul (X 2) (V 2)))) (sub (mul (mul (C 6) (V 0)) (sub (C 1) (mul (mul (C 10) (X 0)) (X 0)))) (mul (C 3) (X 0)))),
  (mul (mul (mul (C 15) (add (C 1) (mul (X 1) (V 1)))) (add (C 1) (mul (X 2) (V 2)))) (sub (mul (mul (C 6) (V 0)) (sub (C 1) (mul (mul (C 10) (X 0)) (X 0)))) (mul (C 3) (X 0)))),
  (mul (mul (mul (C 15) (add (C 1) (mul (X 1) (V 1)))) (add (C 1) (mul (X 2) (V 2)))) (sub (mul (mul (C 6) (V 0)) (sub (C 1) (mul (mul (C 10) (X 0)) (X 0)))) (mul (C 3) (X 0)))),
  (mul (mul (mul (C 15) (add (C 1) (mul (X 1) (V 1)))) (add (C 1) (mul (X 2) (V 2)))) (sub (mul (mul (C 6) (V 0)) (sub (C 1) (mul (mul (C 10) (X 0)) (X 0)))) (mul (C 3) (X 0)))),
  (mul (mul (mul (C 15) (add (C 1) (mul (X 1) (V 1)))) (add (C 1) (mul (X 2) (V 2)))) (sub (mul (mul (C 6) (V 0)) (sub (C 1) (mul (mul (C 10) (X 0)) (X 0)))) (mul (C 3) (X 0)))),
  (mul (mul (mul (C 15) (add (C 1) (mul (X 1) (V 1)))) (add (C 1) (mul (X 2) (V 2)))) (sub (mul (mul (C 6) (V 0)) (sub (C 1) (mul (mul (C 10) (X 0)) (X 0)))) (mul (C 3) (X 0)))),
  (mul (mul (mul (C 15) (add (C 1) (mul (X 1) (V 1)))) (add (C 1) (mul (X 2) (V 2)))) (sub (mul (mul (C 6) (V 0)) (sub (C 1) (mul (mul (C 10) (X 0)) (X 0)))) (mul (C 3) (X 0)))),
  (mul (mul (mul (mul (C 15) (V 0)) (sub (C 1) (mul (X 1) (X 1)))) (add (C 1) (mul (mul (C 6) (X 1)) (V 1)))) (add (C 1) (mul (X 2) (V 2)))),
  (mul (mul (mul (mul (C 15) (V 0)) (sub (C 1) (mul (X 1) (X 1)))) (add (C 1) (mul (mul (C 6) (X 1)) (V 1)))) (add (C 1) (mul (X 2) (V 2)))),
  (mul (mul (mul (mul (C 15) (V 0)) (sub (C 1) (mul (X 1) (X 1)))) (add (C 1) (mul (mul (C 6) (X 1)) (V 1)))) (add (C 1) (mul (X 2) (V 2)))),
  (mul (mul (mul (mul (C 15) (V 0)) (sub (C 1) (mul (X 1) (X 1)))) (add (C 1) (mul (mul (C 6) (X 1)) (V 1)))) (add (C 1) (mul (X 2) (V 2)))),
  (mul (mul (mul (mul (C 15) (V 0)) (sub (C 1) (mul (X 1) (X 1)))) (add (C 1) (mul (mul (C 6) (X 1)) (V 1)))) (add (C 1) (mul (X 2) (V 2)))),
  (mul (mul (mul (mul (C 15) (V 0)) (sub (C 1) (mul (X 1) (X 1)))) (add (C 1) (mul (mul (C 6) (X 1)) (V 1)))) (add (C 1) (mul (X 2) (V 2)))),
  (mul (mul (mul (mul (C 15) (V 0)) (sub (C 1) (mul (X 1) (X 1)))) (add (C 1) (mul (mul (C 6) (X 1)) (V 1)))) (add (C 1) (mul (X 2) (V 2)))),
  (mul (mul (mul (mul (C 15) (V 0)) (sub (C 1) (mul (X 1) (X 1)))) (add (C 1) (mul (mul (C 6) (X 1)) (V 1)))) (add (C 1) (mul (X 2) (V 2))))].getD v (X 0)
theorem partialXi_expr (R : Rounding) (x b : ℕ → ℝ) (v : ℕ) (hv : v < 32) :
    partialXi R x b v = (partialXiE v).evalFl R (vars x fun d => table R Shape.Hex32.rv v d) := by
  interval_cases v <;> rfl
theorem partialXi_eval (x b : ℕ → ℝ) (v : ℕ) (hv : v < 32) :
    Shape.Hex32.partialXi x b v = (partialXiE v).eval (vars x fun d => Shape.Hex32.rv v d) := by
  interval_cases v <;> rfl

/-- The trees of `partialEta`, vertex by vertex. -/
def partialEtaE : ℕ → Expr := fun v => [(mul (mul (mul (C 13) (add (C 1) (mul (X 0) (V 0)))) (add (C 1) (mul (X 2) (V 2)))) (sub (add (mul (mul (C 6) (V 1)) (add (add (mul (X 0) (X 0)) (mul (X 1) (X 1))) (mul (X 2) (X 2)))) (mul (mul (C 9) (X 1)) (add (C 1) (mul (X 1) (V 1))))) (mul (C 14) (V 1)))),
  (mul (mul (mul (C 13) (add (C 1) (mul (X 0) (V 0)))) (add (C 1) (mul (X 2) (V 2)))) (sub (add (mul (mul (C 6) (V 1)) (add (add (mul (X 0) (X 0)) (mul (X 1) (X 1))) (mul (X 2) (X 2)))) (mul (mul (C 9) (X 1)) (add (C 1) (mul (X 1) (V 1))))) (mul (C 14) (V 1)))),
  (mul (mul (mul (C 13) (add (C 1) (mul (X 0) (V 0)))) (add (C 1) (mul (X 2) (V 2)))) (sub (add (mul (mul (C 6) (V 1)) (add (add (mul (X 0) (X 0)) (mul (X 1) (X 1))) (mul (X 2) (X 2)))) (mul (mul (C 9) (X 1)) (add (C 1) (mul (X 1) (V 1))))) (mul (C 14) (V 1)))),
  (mul (mul (mul (C 13) (add (C 1) (mul (X 0) (V 0)))) (add (C 1) (mul (X 2) (V 2)))) (sub (add (mul (mul (C 6) (V 1)) (add (add (mul (X 0) (X 0)) (mul (X 1) (X 1))) (mul (X 2) (X 2)))) (mul (mul (C 9) (X 1)) (add (C 1) (mul (X 1) (V 1))))) (mul (C 14) (V 1)))),
  (mul (mul (mul (C 13) (add (C 1) (mul (X 0) (V 0)))) (add (C 1) (mul (X 2) (V 2)))) (sub (add (mul (mul (C 6) (V 1)) (add (add (mul (X 0) (X 0)) (mul (X 1) (X 1))) (mul (X 2) (X 2)))) (mul (mul (C 9) (X 1)) (add (C 1) (mul (X 1) (V 1))))) (mul (C 14) (V 1)))),
  (mul (mul (mul (C 13) (add (C 1) (mul (X 0) (V 0)))) (add (C 1) (mul (X 2) (V 2)))) (sub (add (mul (mul (C 6) (V 1)) (add (add (mul (X 0) (X 0)) (mul (X 1) (X 1))) (mul (X 2) (X 2)))) (mul (mul (C 9) (X 1)) (add (C 1) (mul (X 1) (V 1))))) (mul (C 14) (V 1)))),
  (mul (mul (mul (C 13) (add (C 1) (mul (X 0) (V 0)))) (add (C 1) (mul (X 2) (V 2)))) (sub (add (mul (mul (C 6) (V 1)) (add (add (mul (X 0) (X 0)) (mul (X 1) (X 1))) (mul (X 2) (X 2)))) (mul (mul (C 9) (X 1)) (add (C 1) (mul (X 1) (V 1))))) (mul (C 14) (V 1)))),
  (mul (mul (mul (C 13) (add (C 1) (mul (X 0) (V 0)))) (add (C 1) (mul (X 2) (V 2)))) (sub (add (mul (mul (C 6) (V 1)) (add (add (mul (X 0) (X 0)) (mul (X 1) (X 1))) (mul (X 2) (X 2)))) (mul (mul (C 9) (X 1)) (add (C 1) (mul (X 1) (V 1))))) (mul (C 14) (V 1)))),
  (mul (mul (mul (C 15) (add (C 1) (mul (X 0) (V 0)))) (add (C 1) (mul (X 2) (V 2)))) (sub (mul (mul (C 6) (V 1)) (sub (C 1) (mul (mul (C 10) (X 1)) (X 1)))) (mul (C 3) (X 1)))),
  (mul (mul (mul (C 15) (add (C 1) (mul (X 0) (V 0)))) (add (C 1) (mul (X 2) (V 2)))) (sub (mul (mul (C 6) (V 1)) (sub (C 1) (mul (mul (C 10) (X 1)) (X 1)))) (mul (C 3) (X 1)))),
  (mul (mul (mul (C 15) (add (C 1) (mul (X 0) (V 0)))) (add (C 1) (mul (X 2) (V 2)))) (sub (mul (mul (C 6) (V 1)) (sub (C 1) (mul (mul (C 10) (X 1)) (X 1)))) (mul (C 3) (X 1)))),
  (mul (mul (mul (C 15) (add (C 1) (mul (X 0) (V 0)))) (add (C 1) (mul (X 2) (V 2)))) (sub (mul (mul (C 6) (V 1)) (sub (C 1) (mul (mul (C 10) (X 1)) (X 1)))) (mul (C 3) (X 1)))),
  (mul (mul (mul (C 15) (add (C 1) (mul (X 0) (V 0)))) (add (C 1) (mul (X 2) (V 2)))) (sub (mul (mul (C 6) (V 1)) (sub (C 1) (mul (mul (C 10) (X 1)) (X 1)))) (mul (C 3) (X 1)))),
  (mul (mul (mul (C 15) (add (C 1) (mul (X 0) (V 0)))) (add (C 1) (mul (X 2) (V 2)))) (sub (mul (mul (C 6) (V 1)) (sub (C 1) (mul (mul (C 10) (X 1)) (X 1)))) (mul (C 3) (X 1)))),
  (mul (mul (mul (C 15) (add (C 1) (mul (X 0) (V 0)))) (add (C 1) (mul (X 2) (V 2)))) (sub (mul (mul (C 6) (V 1)) (sub (C 1) (mul (mul (C 10) (X 1)) (X 1)))) (mul (C 3) (X 1)))),
  (mul (mul (mul (C 15) (add (C 1) (mul (X 0) (V 0)))) (add (C 1) (mul (X 2) (V 2)))) (sub (mul (mul (C 6) (V 1)) (sub (C 1) (mul (mul (C 10) (X 1)) (X 1)))) (mul (C 3) (X 1)))),
  (mul (mul (mul (mul (C 15) (sub (C 1) (mul (X 0) (X 0)))) (add (C 1) (mul (mul (C 6) (X 0)) (V 0)))) (V 1)) (add (C 1) (mul (X 2) (V 2)))),
  (mul (mul (mul (mul (C 15) (sub (C 1) (mul (X 0) (X 0)))) (add (C 1) (mul (mul (C 6) (X 0)) (V 0)))) (V 1)) (add (C 1) (mul (X 2) (V 2)))),
  (mul (mul (mul (mul (C 15) (sub (C 1) (mul (X 0) (X 0)))) (add (C 1) (mul (mul (C 6) (X 0)) (V 0)))) (V 1)) (add (C 1) (mul (X 2) (V 2)))),
  (mul (mul (mul (mul (C 15) (sub (C 1) (mul (X 0) (X 0)))) (add (C 1) (mul (mul (C 6) (X 0)) (V 0)))) (V 1)) (add (C 1) (mul (X 2) (V 2)))),
  (mul (mul (mul (mul (C 15) (sub (C 1) (mul (X 0) (X 0)))) (add (C 1) (mul (mul (C 6) (X 0)) (V 0)))) (V 1)) (add (C 1) (mul (X 2) (V 2)))),
  (mul (mul (mul (mul (C 15) (sub (C 1) (mul (X 0) (X 0)))) (add (C 1) (mul (mul (C 6) (X 0)) (V 0)))) (V 1)) (add (C 1) (mul (X 2) (V 2)))),
  (mul (mul (mul (mul (C 15) (sub (C 1) (mul (X 0) (X 0)))) (add (C 1) (mul (mul (C 6) (X 0)) (V 0)))) (V 1)) (add (C 1) (mul (X 2) (V 2)))),
  (mul (mul (mul (mul (C 15) (sub (C 1) (mul (X 0) (X 0)))) (add (C 1) (mul (mul (C 6) (X 0)) (V 0)))) (V 1)) (add (C 1) (mul (X 2) (V 2)))),
  (mul (mul (mul (mul (C 15) (add (C 1) (mul (X 0) (V 0)))) (V 1)) (add (C 1) (mul (mul (C 6) (X 2)) (V 2)))) (sub (C 1) (mul (X 2) (X 2)))),
  (mul (mul (mul (mul (C 15) (add (C 1) (mul (X 0) (V 0)))) (V 1)) (add (C 1) (mul (mul (C 6) (X 2)) (V 2)))) (sub (C 1) (mul (X 2) (X 2)))),
  (mul (mul (mul (mul (C 15) (add (C 1) (mul (X 0) (V 0)))) (V 1)) (add (C 1) (mul (mul (C 6) (X 2)) (V 2)))) (sub (C 1) (mul (X 2) (X 2)))),
  (mul (mul (mul (mul (C 15) (add (C 1) (mul (X 0) (V 0)))) (V 1)) (add (C 1) (mul (mul (C 6) (X 2)) (V 2)))) (sub (C 1) (mul (X 2) (X 2)))),
  (mul (mul (mul (mul (C 15) (add (C 1) (mul (X 0) (V 0)))) (V 1)) (add (C 1) (mul (mul (C 6) (X 2)) (V 2)))) (sub (C 1) (mul (X 2) (X 2)))),
  (mul (mul (mul (mul (C 15) (add (C 1) (mul (X 0) (V 0)))) (V 1)) (add (C 1) (mul (mul (C 6) (X 2)) (V 2)))) (sub (C 1) (mul (X 2) (X 2)))),
  (mul (mul (mul (mul (C 15) (add (C 1) (mul (X 0) (V 0)))) (V 1)) (add (C 1) (mul (mul (C 6) (X 2)) (V 2)))) (sub (C 1) (mul (X 2) (X 2)))),
  (mul (mul (mul (mul (C 15) (add (C 1) (mul (X 0) (V 0)))) (V 1)) (add (C 1) (mul (mul (C 6) (X 2)) (V 2)))) (sub (C 1) (mul (X 2) (X 2))))].getD v (X 0)
theorem partialEta_expr (R : Rounding) (x b : ℕ → ℝ) (v : ℕ) (hv : v < 32) :
    partialEta R x b v = (partialEtaE v).evalFl R (vars x fun d => table R Shape.Hex32.rv v d) := by
  interval_cases v <;> rfl
theorem partialEta_eval (x b : ℕ → ℝ) (v : ℕ) (hv : v < 32) :
    Shape.Hex32.partialEta x b v = (partialEtaE v).eval (vars x fun d => Shape.Hex32.rv v d) := by
  interval_cases v <;> rfl

/-- The trees of `partialMu`, vertex by vertex. -/
def partialMuE : ℕ → Expr := fun v => [(mul (mul (mul (C 13) (add (C 1) (mul (X 0) (V 0)))) (add (C 1) (mul (X 1) (V 1)))) (sub (add (mul (mul (C 6) (V 2)) (add (add (mul (X 0) (X 0)) (mul (X 1) (X 1))) (mul (X 2) (X 2)))) (mul (mul (C 9) (X 2)) (add (C 1) (mul (X 2) (V 2))))) (mul (C 14) (V 2)))),
  (mul (mul (mul (C 13) (add (C 1) (mul (X 0) (V 0)))) (add (C 1) (mul (X 1) (V 1)))) (sub (add (mul (mul (C 6) (V 2)) (add (add (mul (X 0) (X 0)) (mul (X 1) (X 1))) (mul (X 2) (X 2)))) (mul (mul (C 9) (X 2)) (add (C 1) (mul (X 2) (V 2))))) (mul (C 14) (V 2)))),
  (mul (mul (mul (C 13) (add (C 1) (mul (X 0) (V 0)))) (add (C 1) (mul (X 1) (V 1)))) (sub (add (mul (mul (C 6) (V 2)) (add (add (mul (X 0) (X 0)) (mul (X 1) (X 1))) (mul (X 2) (X 2)))) (mul (mul (C 9) (X 2)) (add (C 1) (mul (X 2) (V 2))))) (mul (C 14) (V 2)))),
  (mul (mul (mul (C 13) (add (C 1) (mul (X 0) (V 0)))) (add (C 1) (mul (X 1) (V 1)))) (sub (add (mul (mul (C 6) (V 2)) (add (add (mul (X 0) (X 0)) (mul (X 1) (X 1))) (mul (X 2) (X 2)))) (mul (mul (C 9) (X 2)) (add (C 1) (mul (X 2) (V 2))))) (mul (C 14) (V 2)))),
  (mul (mul (mul (C 13) (add (C 1) (mul (X 0) (V 0)))) (add (C 1) (mul (X 1) (V 1)))) (sub (add (mul (mul (C 6) (V 2)) (add (add (mul (X 0) (X 0)) (mul (X 1) (X 1))) (mul (X 2) (X 2)))) (mul (mul (C 9) (X 2)) (add (C 1) (mul (X 2) (V 2))))) (mul (C 14) (V 2)))),
  (mul (mul (mul (C 13) (add (C 1) (mul (X 0) (V 0)))) (add (C 1) (mul (X 1) (V 1)))) (sub (add (mul (mul (C 6) (V 2)) (add (add (mul (X 0) (X 0)) (mul (X 1) (X 1))) (mul (X 2) (X 2)))) (mul (mul (C 9) (X 2)) (add (C 1) (mul (X 2) (V 2))))) (mul (C 14) (V 2)))),
  (mul (mul (mul (C 13) (add (C 1) (mul (X 0) (V 0)))) (add (C 1) (mul (X 1) (V 1)))) (sub (add (mul (mul (C 6) (V 2)) (add (add (mul (X 0) (X 0)) (mul (X 1) (X 1))) (mul (X 2) (X 2)))) (mul (mul (C 9) (X 2)) (add (C 1) (mul (X 2) (V 2))))) (mul (C 14) (V 2)))),
  (mul (mul (mul (C 13) (add (C 1) (mul (X 0) (V 0)))) (add (C 1) (mul (X 1) (V 1)))) (sub (add (mul (mul (C 6) (V 2)) (add (add (mul (X 0) (X 0)) (mul (X 1) (X 1))) (mul (X 2) (X 2)))) (mul (mul (C 9) (X 2)) (add (C 1) (mul (X 2) (V 2))))) (mul (C 14) (V 2)))),
  (mul (mul (mul (mul (C 15) (add (C 1) (mul (X 0) (V 0)))) (sub (C 1) (mul (X 1) (X 1)))) (add (C 1) (mul (mul (C 6) (X 1)) (V 1)))) (V 2)),
  (mul (mul (mul (mul (C 15) (add (C 1) (mul (X 0) (V 0)))) (sub (C 1) (mul (X 1) (X 1)))) (add (C 1) (mul (mul (C 6) (X 1)) (V 1)))) (V 2)),
  (mul (mul (mul (mul (C 15) (add (C 1) (mul (X 0) (V 0)))) (sub (C 1) (mul (X 1) (X 1)))) (add (C 1) (mul (mul (C 6) (X 1)) (V 1)))) (V 2)),
  (mul (mul (mul (mul (C 15) (add (C 1) (mul (X 0) (V 0)))) (sub (C 1) (mul (X 1) (X 1)))) (add (C 1) (mul (mul (C 6) (X 1)) (V 1)))) (V 2)),
  (mul (mul (mul (mul (C 15) (add (C 1) (mul (X 0) (V 0)))) (sub (C 1) (mul (X 1) (X 1)))) (add (C 1) (mul (mul (C 6) (X 1)) (V 1)))) (V 2)),
  (mul (mul (mul (mul (C 15) (add (C 1) (mul (X 0) (V 0)))) (sub (C 1) (mul (X 1) (X 1)))) (add (C 1) (mul (mul (C 6) (X 1)) (V 1)))) (V 2)),
  (mul (mul (mul (mul (C 15) (add (C 1) (mul (X 0) (V 0)))) (sub (C 1) (mul (X 1) (X 1)))) (add (C 1) (mul (mul (C 6) (X 1)) (V 1)))) (V 2)),
  (mul (mul (mul (mul (C 15) (add (C 1) (mul (X 0) (V 0)))) (sub (C 1) (mul (X 1) (X 1)))) (add (C 1) (mul (mul (C 6) (X 1)) (V 1)))) (V 2)),
  (mul (mul (mul (mul (C 15) (sub (C 1) (mul (X 0) (X 0)))) (add (C 1) (mul (mul (C 6) (X 0)) (V 0)))) (add (C 1) (mul (X 1) (V 1)))) (V 2)),
  (mul (mul (mul (mul (C 15) (sub (C 1) (mul (X 0) (X 0)))) (add (C 1) (mul (mul (C 6) (X 0)) (V 0)))) (add (C 1) (mul (X 1) (V 1)))) (V 2)),
  (mul (mul (mul (mul (C 15) (sub (C 1) (mul (X 0) (X 0)))) (add (C 1) (mul (mul (C 6) (X 0)) (V 0)))) (add (C 1) (mul (X 1) (V 1)))) (V 2)),
  (mul (mul (mul (mul (C 15) (sub (C 1) (mul (X 0) (X 0)))) (add (C 1) (mul (mul (C 6) (X 0)) (V 0)))) (add (C 1) (mul (X 1) (V 1)))) (V 2)),
  (mul (mul (mul (mul (C 15) (sub (C 1) (mul (X 0) (X 0)))) (add (C 1) (mul (mul (C 6) (X 0)) (V 0)))) (add (C 1) (mul (X 1) (V 1)))) (V 2)),
  (mul (mul (mul (mul (C 15) (sub (C 1) (mul (X 0) (X 0)))) (add (C 1) (mul (mul (C 6) (X 0)) (V 0)))) (add (C 1) (mul (X 1) (V 1)))) (V 2)),
  (mul (mul (mul (mul (C 15) (sub (C 1) (mul (X 0) (X 0)))) (add (C 1) (mul (mul (C 6) (X 0)) (V 0)))) (add (C 1) (mul (X 1) (V 1)))) (V 2)),
  (mul (mul (mul (mul (C 15) (sub (C 1) (mul (X 0) (X 0)))) (add (C 1) (mul (mul (C 6) (X 0)) (V 0)))) (add (C 1) (mul (X 1) (V 1)))) (V 2)),
  (mul (mul (mul (C 15) (add (C 1) (mul (X 0) (V 0)))) (add (C 1) (mul (X 1) (V 1)))) (sub (mul (mul (C 6) (V 2)) (sub (C 1) (mul (mul (C 10) (X 2)) (X 2)))) (mul (C 3) (X 2)))),
  (mul (mul (mul (C 15) (add (C 1) (mul (X 0) (V 0)))) (add (C 1) (mul (X 1) (V 1)))) (sub (mul (mul (C 6) (V 2)) (sub (C 1) (mul (mul (C 10) (X 2)) (X 2)))) (mul (C 3) (X 2)))),
  (mul (mul (mul (C 15) (add (C 1) (mul (X 0) (V 0)))) (add (C 1) (mul (X 1) (V 1)))) (sub (mul (mul (C 6) (V 2)) (sub (C 1) (mul (mul (C 10) (X 2)) (X 2)))) (mul (C 3) (X 2)))),
  (mul (mul (mul (C 15) (add (C 1) (mul (X 0) (V 0)))) (add (C 1) (mul (X 1) (V 1)))) (sub (mul (mul (C 6) (V 2)) (sub (C 1) (mul (mul (C 10) (X 2)) (X 2)))) (mul (C 3) (X 2)))),
  (mul (mul (mul (C 15) (add (C 1) (mul (X 0) (V 0)))) (add (C 1) (mul (X 1) (V 1)))) (sub (mul (mul (C 6) (V 2)) (sub (C 1) (mul (mul (C 10) (X 2)) (X 2)))) (mul (C 3) (X 2)))),
  (mul (mul (mul (C 15) (add (C 1) (mul (X 0) (V 0)))) (add (C 1) (mul (X 1) (V 1)))) (sub (mul (mul (C 6) (V 2)) (sub (C 1) (mul (mul (C 10) (X 2)) (X 2)))) (mul (C 3) (X 2)))),
  (mul (mul (mul (C 15) (add (C 1) (mul (X 0) (V 0)))) (add (C 1) (mul (X 1) (V 1)))) (sub (mul (mul (C 6) (V 2)) (sub (C 1) (mul (mul (C 10) (X 2)) (X 2)))) (mul (C 3) (X 2)))),
  (mul (mul (mul (C 15) (add (C 1) (mul (X 0) (V 0)))) (add (C 1) (mul (X 1) (V 1)))) (sub (mul (mul (C 6) (V 2)) (sub (C 1) (mul (mul (C 10) (X 2)) (X 2)))) (mul (C 3) (X 2))))].getD v (X 0)
theorem partialMu_expr (R : Rounding) (x b : ℕ → ℝ) (v : ℕ) (hv : v < 32) :
    partialMu R x b v = (partialMuE v).evalFl R (vars x fun d => table R Shape.Hex32.rv v d) := by
  interval_cases v <;> rfl
theorem partialMu_eval (x b : ℕ → ℝ) (v : ℕ) (hv : v < 32) :
    Shape.Hex32.partialMu x b v = (partialMuE v).eval (vars x fun d => Shape.Hex32.rv v d) := by
  interval_cases v <;> rfl

/-- The trees of `posBasis`, vertex by vertex. -/
def posBasisE : ℕ → Expr := fun v => [(mul (mul (mul (mul (C 13) (add (C 1) (mul (X 0) (V 0)))) (add (C 1) (mul (X 1) (V 1)))) (add (C 1) (mul (X 2) (V 2)))) (sub (add (add (mul (mul (C 6) (X 0)) (X 0)) (mul (mul (C 6) (X 1)) (X 1))) (mul (mul (C 6) (X 2)) (X 2))) (C 14))),
  (mul (mul (mul (mul (C 13) (add (C 1) (mul (X 0) (V 0)))) (add (C 1) (mul (X 1) (V 1)))) (add (C 1) (mul (X 2) (V 2)))) (sub (add (add (mul (mul (C 6) (X 0)) (X 0)) (mul (mul (C 6) (X 1)) (X 1))) (mul (mul (C 6) (X 2)) (X 2))) (C 14))),
  (mul (mul (mul (mul (C 13) (add (C 1) (mul (X 0) (V 0)))) (add (C 1) (mul (X 1) (V 1)))) (add (C 1) (mul (X 2) (V 2)))) (sub (add (add (mul (mul (C 6) (X 0)) (X 0)) (mul (mul (C 6) (X 1)) (X 1))) (mul (mul (C 6) (X 2)) (X 2))) (C 14))),
  (mul (mul (mul (mul (C 13) (add (C 1) (mul (X 0) (V 0)))) (add (C 1) (mul (X 1) (V 1)))) (add (C 1) (mul (X 2) (V 2)))) (sub (add (add (mul (mul (C 6) (X 0)) (X 0)) (mul (mul (C 6) (X 1)) (X 1))) (mul (mul (C 6) (X 2)) (X 2))) (C 14))),
  (mul (mul (mul (mul (C 13) (add (C 1) (mul (X 0) (V 0)))) (add (C 1) (mul (X 1) (V 1)))) (add (C 1) (mul (X 2) (V 2)))) (sub (add (add (mul (mul (C 6) (X 0)) (X 0)) (mul (mul (C 6) (X 1)) (X 1))) (mul (mul (C 6) (X 2)) (X 2))) (C 14))),
  (mul (mul (mul (mul (C 13) (add (C 1) (mul (X 0) (V 0)))) (add (C 1) (mul (X 1) (V 1)))) (add (C 1) (mul (X 2) (V 2)))) (sub (add (add (mul (mul (C 6) (X 0)) (X 0)) (mul (mul (C 6) (X 1)) (X 1))) (mul (mul (C 6) (X 2)) (X 2))) (C 14))),
  (mul (mul (mul (mul (C 13) (add (C 1) (mul (X 0) (V 0)))) (add (C 1) (mul (X 1) (V 1)))) (add (C 1) (mul (X 2) (V 2)))) (sub (add (add (mul (mul (C 6) (X 0)) (X 0)) (mul (mul (C 6) (X 1)) (X 1))) (mul (mul (C 6) (X 2)) (X 2))) (C 14))),
  (mul (mul (mul (mul (C 13) (add (C 1) (mul (X 0) (V 0)))) (add (C 1) (mul (X 1) (V 1)))) (add (C 1) (mul (X 2) (V 2)))) (sub (add (add (mul (mul (C 6) (X 0)) (X 0)) (mul (mul (C 6) (X 1)) (X 1))) (mul (mul (C 6) (X 2)) (X 2))) (C 14))),
  (mul (mul (mul (mul (C 15) (add (C 1) (mul (X 0) (V 0)))) (sub (C 1) (mul (X 1) (X 1)))) (add (C 1) (mul (mul (C 6) (X 1)) (V 1)))) (add (C 1) (mul (X 2) (V 2)))),
  (mul (mul (mul (mul (C 15) (add (C 1) (mul (X 0) (V 0)))) (sub (C 1) (mul (X 1) (X 1)))) (add (C 1) (mul (mul (C 6) (X 1)) (V 1)))) (add (C 1) (mul (X 2) (V 2)))),
  (mul (mul (mul (mul (C 15) (add (C 1) (mul (X 0) (V 0)))) (sub (C 1) (mul (X 1) (X 1)))) (add (C 1) (mul (mul (C 6) (X 1)) (V 1)))) (add (C 1) (mul (X 2) (V 2)))),
  (mul (mul (mul (mul (C 15) (add (C 1) (mul (X 0) (V 0)))) (sub (C 1) (mul (X 1) (X 1)))) (add (C 1) (mul (mul (C 6) (X 1)) (V 1)))) (add (C 1) (mul (X 2) (V 2)))),
  (mul (mul (mul (mul (C 15) (add (C 1) (mul (X 0) (V 0)))) (sub (C 1) (mul (X 1) (X 1)))) (add (C 1) (mul (mul (C 6) (X 1)) (V 1)))) (add (C 1) (mul (X 2) (V 2)))),
  (mul (mul (mul (mul (C 15) (add (C 1) (mul (X 0) (V 0)))) (sub (C 1) (mul (X 1) (X 1)))) (add (C 1) (mul (mul (C 6) (X 1)) (V 1)))) (add (C 1) (mul (X 2) (V 2)))),
  (mul (mul (mul (mul (C 15) (add (C 1) (mul (X 0) (V 0)))) (sub (C 1) (mul (X 1) (X 1)))) (add (C 1) (mul (mul (C 6) (X 1)) (V 1)))) (add (C 1) (mul (X 2) (V 2)))),
  (mul (mul (mul (mul (C 15) (add (C 1) (mul (X 0) (V 0)))) (sub (C 1) (mul (X 1) (X 1)))) (add (C 1) (mul (mul (C 6) (X 1)) (V 1)))) (add (C 1) (mul (X 2) (V 2)))),
  (mul (mul (mul (mul (C 15) (sub (C 1) (mul (X 0) (X 0)))) (add (C 1) (mul (mul (C 6) (X 0)) (V 0)))) (add (C 1) (mul (X 1) (V 1)))) (add (C 1) (mul (X 2) (V 2)))),
  (mul (mul (mul (mul (C 15) (sub (C 1) (mul (X 0) (X 0)))) (add (C 1) (mul (mul (C 6) (X 0)) (V 0)))) (add (C 1) (mul (X 1) (V 1)))) (add (C 1) (mul (X 2) (V 2)))),
  (mul (mul (mul (mul (C 15) (sub (C 1) (mul (X 0) (X 0)))) (add (C 1) (mul (mul (C 6) (X 0)) (V 0)))) (add (C 1) (mul (X 1) (V 1)))) (add (C 1) (mul (X 2) (V 2)))),
  (mul (mul (mul (mul (C 15) (sub (C 1) (mul (X 0) (X 0)))) (add (C 1) (mul (mul (C 6) (X 0)) (V 0)))) (add (C 1) (mul (X 1) (V 1)))) (add (C 1) (mul (X 2) (V 2)))),
  (mul (mul (mul (mul (C 15) (sub (C 1) (mul (X 0) (X 0)))) (add (C 1) (mul (mul (C 6) (X 0)) (V 0)))) (add (C 1) (mul (X 1) (V 1)))) (add (C 1) (mul (X 2) (V 2)))),
  (mul (mul (mul (mul (C 15) (sub (C 1) (mul (X 0) (X 0)))) (add (C 1) (mul (mul (C 6) (X 0)) (V 0)))) (add (C 1) (mul (X 1) (V 1)))) (add (C 1) (mul (X 2) (V 2)))),
  (mul (mul (mul (mul (C 15) (sub (C 1) (mul (X 0) (X 0)))) (add (C 1) (mul (mul (C 6) (X 0)) (V 0)))) (add (C 1) (mul (X 1) (V 1)))) (add (C 1) (mul (X 2) (V 2)))),
  (mul (mul (mul (mul (C 15) (sub (C 1) (mul (X 0) (X 0)))) (add (C 1) (mul (mul (C 6) (X 0)) (V 0)))) (add (C 1) (mul (X 1) (V 1)))) (add (C 1) (mul (X 2) (V 2)))),
  (mul (mul (mul (mul (C 15) (add (C 1) (mul (X 0) (V 0)))) (add (C 1) (mul (X 1) (V 1)))) (add (C 1) (mul (mul (C 6) (X 2)) (V 2)))) (sub (C 1) (mul (X 2) (X 2)))),
  (mul (mul (mul (mul (C 15) (add (C 1) (mul (X 0) (V 0)))) (add (C 1) (mul (X 1) (V 1)))) (add (C 1) (mul (mul (C 6) (X 2)) (V 2)))) (sub (C 1) (mul (X 2) (X 2)))),
  (mul (mul (mul (mul (C 15) (add (C 1) (mul (X 0) (V 0)))) (add (C 1) (mul (X 1) (V 1)))) (add (C 1) (mul (mul (C 6) (X 2)) (V 2)))) (sub (C 1) (mul (X 2) (X 2)))),
  (mul (mul (mul (mul (C 15) (add (C 1) (mul (X 0) (V 0)))) (add (C 1) (mul (X 1) (V 1)))) (add (C 1) (mul (mul (C 6) (X 2)) (V 2)))) (sub (C 1) (mul (X 2) (X 2)))),
  (mul (mul (mul (mul (C 15) (add (C 1) (mul (X 0) (V 0)))) (add (C 1) (mul (X 1) (V 1)))) (add (C 1) (mul (mul (C 6) (X 2)) (V 2)))) (sub (C 1) (mul (X 2) (X 2)))),
  (mul (mul (mul (mul (C 15) (add (C 1) (mul (X 0) (V 0)))) (add (C 1) (mul (X 1) (V 1)))) (add (C 1) (mul (mul (C 6) (X 2)) (V 2)))) (sub (C 1) (mul (X 2) (X 2)))),
  (mul (mul (mul (mul (C 15) (add (C 1) (mul (X 0) (V 0)))) (add (C 1) (mul (X 1) (V 1)))) (add (C 1) (mul (mul (C 6) (X 2)) (V 2)))) (sub (C 1) (mul (X 2) (X 2)))),
  (mul (mul (mul (mul (C 15) (add (C 1) (mul (X 0) (V 0)))) (add (C 1) (mul (X 1) (V 1)))) (add (C 1) (mul (mul (C 6) (X 2)) (V 2)))) (sub (C 1) (mul (X 2) (X 2))))].getD v (X 0)
theorem posBasis_expr (R : Rounding) (x b : ℕ → ℝ) (v : ℕ) (hv : v < 32) :
    posBasis R x b v = (posBasisE v).evalFl R (vars x fun d => table R Shape.Hex32.rv v d) := by
  interval_cases v <;> rfl
theorem posBasis_eval (x : ℕ → ℝ) (v : ℕ) (hv : v < 32) (b : ℕ → ℝ) :
    Shape.Hex32.basis x b v = (posBasisE v).eval (vars x fun d => Shape.Hex32.rv v d) := by
  interval_cases v <;> rfl

end Hex32

namespace Tess16

/-- The trees of `basis`, vertex by vertex. -/
def basisE : ℕ → Expr := fun v => [(mul (mul (mul (mul (C 16) (add (C 1) (mul (X 0) (V 0)))) (add (C 1) (mul (X 1) (V 1)))) (add (C 1) (mul (X 2) (V 2)))) (add (C 1) (mul (X 3) (V 3)))),
  (mul (mul (mul (mul (C 16) (add (C 1) (mul (X 0) (V 0)))) (add (C 1) (mul (X 1) (V 1)))) (add (C 1) (mul (X 2) (V 2)))) (add (C 1) (mul (X 3) (V 3)))),
  (mul (mul (mul (mul (C 16) (add (C 1) (mul (X 0) (V 0)))) (add (C 1) (mul (X 1) (V 1)))) (add (C 1) (mul (X 2) (V 2)))) (add (C 1) (mul (X 3) (V 3)))),
  (mul (mul (mul (mul (C 16) (add (C 1) (mul (X 0) (V 0)))) (add (C 1) (mul (X 1) (V 1)))) (add (C 1) (mul (X 2) (V 2)))) (add (C 1) (mul (X 3) (V 3)))),
  (mul (mul (mul (mul (C 16) (add (C 1) (mul (X 0) (V 0)))) (add (C 1) (mul (X 1) (V 1)))) (add (C 1) (mul (X 2) (V 2)))) (add (C 1) (mul (X 3) (V 3)))),
  (mul (mul (mul (mul (C 16) (add (C 1) (mul (X 0) (V 0)))) (add (C 1) (mul (X 1) (V 1)))) (add (C 1) (mul (X 2) (V 2)))) (add (C 1) (mul (X 3) (V 3)))),
  (mul (mul (mul (mul (C 16) (add (C 1) (mul (X 0) (V 0)))) (add (C 1) (mul (X 1) (V 1)))) (add (C 1) (mul (X 2) (V 2)))) (add (C 1) (mul (X 3) (V 3)))),
  (mul (mul (mul (mul (C 16) (add (C 1) (mul (X 0) (V 0)))) (add (C 1) (mul (X 1) (V 1)))) (add (C 1) (mul (X 2) (V 2)))) (add (C 1) (mul (X 3) (V 3)))),
  (mul (mul (mul (mul (C 16) (add (C 1) (mul (X 0) (V 0)))) (add (C 1) (mul (X 1) (V 1)))) (add (C 1) (mul (X 2) (V 2)))) (add (C 1) (mul (X 3) (V 3)))),
  (mul (mul (mul (mul (C 16) (add (C 1) (mul (X 0) (V 0)))) (add (C 1) (mul (X 1) (V 1)))) (add (C 1) (mul (X 2) (V 2)))) (add (C 1) (mul (X 3) (V 3)))),
  (mul (mul (mul (mul (C 16) (add (C 1) (mul (X 0) (V 0)))) (add (C 1) (mul (X 1) (V 1)))) (add (C 1) (mul (X 2) (V 2)))) (add (C 1) (mul (X 3) (V 3)))),
  (mul (mul (mul (mul (C 16) (add (C 1) (mul (X 0) (V 0)))) (add (C 1) (mul (X 1) (V 1)))) (add (C 1) (mul (X 2) (V 2)))) (add (C 1) (mul (X 3) (V 3)))),
  (mul (mul (mul (mul (C 16) (add (C 1) (mul (X 0) (V 0)))) (add (C 1) (mul (X 1) (V 1)))) (add (C 1) (mul (X 2) (V 2)))) (add (C 1) (mul (X 3) (V 3)))),
  (mul (mul (mul (mul (C 16) (add (C 1) (mul (X 0) (V 0)))) (add (C 1) (mul (X 1) (V 1)))) (add (C 1) (mul (X 2) (V 2)))) (add (C 1) (mul (X 3) (V 3)))),
  (mul (mul (mul (mul (C 16) (add (C 1) (mul (X 0) (V 0)))) (add (C 1) (mul (X 1) (V 1)))) (add (C 1) (mul (X 2) (V 2)))) (add (C 1) (mul (X 3) (V 3)))),
  (mul (mul (mul (mul (C 16) (add (C 1) (mul (X 0) (V 0)))) (add (C 1) (mul (X 1) (V 1)))) (add (C 1) (mul (X 2) (V 2)))) (add (C 1) (mul (X 3) (V 3))))].getD v (X 0)
theorem basis_expr (R : Rounding) (x b : ℕ → ℝ) (v : ℕ) (hv : v < 16) :
    basis R x b v = (basisE v).evalFl R (vars x fun d => table R Shape.Tess16.rv v d) := by
  interval_cases v <;> rfl
theorem basis_eval (x b : ℕ → ℝ) (v : ℕ) (hv : v < 16) :
    Shape.Tess16.basis x b v = (basisE v).eval (vars x fun d => Shape.Tess16.rv v d) := by
  interval_cases v <;> rfl

/-- The trees of `partialXi`, vertex by vertex. -/
def partialXiE : ℕ → Expr := fun v => [(mul (mul (mul (mul (C 16) (V 0)) (add (C 1) (mul (X 1) (V 1)))) (add (C 1) (mul (X 2) (V 2)))) (add (C 1) (mul (X 3) (V 3)))),
  (mul (mul (mul (mul (C 16) (V 0)) (add (C 1) (mul (X 1) (V 1)))) (add (C 1) (mul (X 2) (V 2)))) (add (C 1) (mul (X 3) (V 3)))),
  (mul (mul (mul (mul (C 16) (V 0)) (add (C 1) (mul (X 1) (V 1)))) (add (C 1) (mul (X 2) (V 2)))) (add (C 1) (mul (X 3) (V 3)))),
  (mul (mul (mul (mul (C 16) (V 0)) (add (C 1) (mul (X 1) (V 1)))) (add (C 1) (mul (X 2) (V 2)))) (add (C 1) (mul (X 3) (V 3)))),
  (mul (mul (mul (mul (C 16) (V 0)) (add (C 1) (mul (X 1) (V 1)))) (add (C 1) (mul (X 2) (V 2)))) (add (C 1) (mul (X 3) (V 3)))),
  (mul (mul (mul (mul (C 16) (V 0)) (add (C 1) (mul (X 1) (V 1)))) (add (C 1) (mul (X 2) (V 2)))) (add (C 1) (mul (X 3) (V 3)))),
  (mul (mul (mul (mul (C 16) (V 0)) (add (C 1) (mul (X 1) (V 1)))) (add (C 1) (mul (X 2) (V 2)))) (add (C 1) (mul (X 3) (V 3)))),
  (mul (mul (mul (mul (C 16) (V 0)) (add (C 1) (mul (X 1) (V 1)))) (add (C 1) (mul (X 2) (V 2)))) (add (C 1) (mul (X 3) (V 3)))),
  (mul (mul (mul (mul (C 16) (V 0)) (add (C 1) (mul (X 1) (V 1)))) (add (C 1) (mul (X 2) (V 2)))) (add (C 1) (mul (X 3) (V 3)))),
  (mul (mul (mul (mul (C 16) (V 0)) (add (C 1) (mul (X 1) (V 1)))) (add (C 1) (mul (X 2) (V 2)))) (add (C 1) (mul (X 3) (V 3)))),
  (mul (mul (mul (mul (C 16) (V 0)) (add (C 1) (mul (X 1) (V 1)))) (add (C 1) (mul (X 2) (V 2)))) (add (C 1) (mul (X 3) (V 3)))),
  (mul (mul (mul (mul (C 16) (V 0)) (add (C 1) (mul (X 1) (V 1)))) (add (C 1) (mul (X 2) (V 2)))) (add (C 1) (mul (X 3) (V 3)))),
  (mul (mul (mul (mul (C 16) (V 0)) (add (C 1) (mul (X 1) (V 1)))) (add (C 1) (mul (X 2) (V 2)))) (add (C 1) (mul (X 3) (V 3)))),
  (mul (mul (mul (mul (C 16) (V 0)) (add (C 1) (mul (X 1) (V 1)))) (add (C 1) (mul (X 2) (V 2)))) (add (C 1) (mul (X 3) (V 3)))),
  (mul (mul (mul (mul (C 16) (V 0)) (add (C 1) (mul (X 1) (V 1)))) (add (C 1) (mul (X 2) (V 2)))) (add (C 1) (mul (X 3) (V 3)))),
  (mul (mul (mul (mul (C 16) (V 0)) (add (C 1) (mul (X 1) (V 1)))) (add (C 1) (mul (X 2) (V 2)))) (add (C 1) (mul (X 3) (V 3))))].getD v (X 0)
theorem partialXi_expr (R : Rounding) (x b : ℕ → ℝ) (v : ℕ) (hv : v < 16) :
    partialXi R x b v = (partialXiE v).evalFl R (vars x fun d => table R Shape.Tess16.rv v d) := by
  interval_cases v <;> rfl
theorem partialXi_eval (x b : ℕ → ℝ) (v : ℕ) (hv : v < 16) :
    Shape.Tess16.partialXi x b v = (partialXiE v).eval (vars x fun d => Shape.Tess16.rv v d) := by
  interval_cases v <;> rfl

/-- The trees of `partialEta`, vertex by vertex. -/
def partialEtaE : ℕ → Expr := fun v => [(mul (mul (mul (mul (C 16) (add (C 1) (mul (X 0) (V 0)))) (V 1)) (add (C 1) (mul (X 2) (V 2)))) (add (C 1) (mul (X 3) (V 3)))),
  (mul (mul (mul (mul (C 16) (add (C 1) (mul (X 0) (V 0)))) (V 1)) (add (C 1) (mul (X 2) (V 2)))) (add (C 1) (mul (X 3) (V 3)))),
  (mul (mul (mul (mul (C 16) (add (C 1) (mul (X 0) (V 0)))) (V 1)) (add (C 1) (mul (X 2) (V 2)))) (add (C 1) (mul (X 3) (V 3)))),
  (mul (mul (mul (mul (C 16) (add (C 1) (mul (X 0) (V 0)))) (V 1)) (add (C 1) (mul (X 2) (V 2)))) (add (C 1) (mul (X 3) (V 3)))),
  (mul (mul (mul (mul (C 16) (add (C 1) (mul (X 0) (V 0)))) (V 1)) (add (C 1) (mul (X 2) (V 2)))) (add (C 1) (mul (X 3) (V 3)))),
  (mul (mul (mul (mul (C 16) (add (C 1) (mul (X 0) (V 0)))) (V 1)) (add (C 1) (mul (X 2) (V 2)))) (add (C 1) (mul (X 3) (V 3)))),
  (mul (mul (mul (mul (C 16) (add (C 1) (mul (X 0) (V 0)))) (V 1)) (add (C 1) (mul (X 2) (V 2)))) (add (C 1) (mul (X 3) (V 3)))),
  (mul (mul (mul (mul (C 16) (add (C 1) (mul (X 0) (V 0)))) (V 1)) (add (C 1) (mul (X 2) (V 2)))) (add (C 1) (mul (X 3) (V 3)))),
  (mul (mul (mul (mul (C 16) (add (C 1) (mul (X 0) (V 0)))) (V 1)) (add (C 1) (mul (X 2) (V 2)))) (add (C 1) (mul (X 3) (V 3)))),
  (mul (mul (mul (mul (C 16) (add (C 1) (mul (X 0) (V 0)))) (V 1)) (add (C 1) (mul (X 2) (V 2)))) (add (C 1) (mul (X 3) (V 3)))),
  (mul (mul (mul (mul (C 16) (add (C 1) (mul (X 0) (V 0)))) (V 1)) (add (C 1) (mul (X 2) (V 2)))) (add (C 1) (mul (X 3) (V 3)))),
  (mul (mul (mul (mul (C 16) (add (C 1) (mul (X 0) (V 0)))) (V 1)) (add (C 1) (mul (X 2) (V 2)))) (add (C 1) (mul (X 3) (V 3)))),
  (mul (mul (mul (mul (C 16) (add (C 1) (mul (X 0) (V 0)))) (V 1)) (add (C 1) (mul (X 2) (V 2)))) (add (C 1) (mul (X 3) (V 3)))),
  (mul (mul (mul (mul (C 16) (add (C 1) (mul (X 0) (V 0)))) (V 1)) (add (C 1) (mul (X 2) (V 2)))) (add (C 1) (mul (X 3) (V 3)))),
  (mul (mul (mul (mul (C 16) (add (C 1) (mul (X 0) (V 0)))) (V 1)) (add (C 1) (mul (X 2) (V 2)))) (add (C 1) (mul (X 3) (V 3)))),
  (mul (mul (mul (mul (C 16) (add (C 1) (mul (X 0) (V 0)))) (V 1)) (add (C 1) (mul (X 2) (V 2)))) (add (C 1) (mul (X 3) (V 3))))].getD v (X 0)
theorem partialEta_expr (R : Rounding) (x b : ℕ → ℝ) (v : ℕ) (hv : v < 16) :
    partialEta R x b v = (partialEtaE v).evalFl R (vars x fun d => table R Shape.Tess16.rv v d) := by
  interval_cases v <;> rfl
theorem partialEta_eval (x b : ℕ → ℝ) (v : ℕ) (hv : v < 16) :
    Shape.Tess16.partialEta x b v = (partialEtaE v).eval (vars x fun d => Shape.Tess16.rv v d) := by
  interval_cases v <;> rfl

/-- The trees of `partialMu`, vertex by vertex. -/
def partialMuE : ℕ → Expr := fun v => [(mul (mul (mul (mul (C 16) (add (C 1) (mul (X 0) (V 0)))) (add (C 1) (mul (X 1) (V 1)))) (V 2)) (add (C 1) (mul (X 3) (V 3)))),
  (mul (mul (mul (mul (C 16) (add (C 1) (mul (X 0) (V 0)))) (add (C 1) (mul (X 1) (V 1)))) (V 2)) (add (C 1) (mul (X 3) (V 3)))),
  (mul (mul (mul (mul (C 16) (add (C 1) (mul (X 0) (V 0)))) (add (C 1) (mul (X 1) (V 1)))) (V 2)) (add (C 1) (mul (X 3) (V 3)))),
  (mul (mul (mul (mul (C 16) (add (C 1) (mul (X 0) (V 0)))) (add (C 1) (mul (X 1) (V 1)))) (V 2)) (add (C 1) (mul (X 3) (V 3)))),
  (mul (mul (mul (mul (C 16) (add (C 1) (mul (X 0) (V 0)))) (add (C 1) (mul (X 1) (V 1)))) (V 2)) (add (C 1) (mul (X 3) (V 3)))),
  (mul (mul (mul (mul (C 16) (add (C 1) (mul (X 0) (V 0)))) (add (C 1) (mul (X 1) (V 1)))) (V 2)) (add (C 1) (mul (X 3) (V 3)))),
  (mul (mul (mul (mul (C 16) (add (C 1) (mul (X 0) (V 0)))) (add (C 1) (mul (X 1) (V 1)))) (V 2)) (add (C 1) (mul (X 3) (V 3)))),
  (mul (mul (mul (mul (C 16) (add (C 1) (mul (X 0) (V 0)))) (add (C 1) (mul (X 1) (V 1)))) (V 2)) (add (C 1) (mul (X 3) (V 3)))),
  (mul (mul (mul (mul (C 16) (add (C 1) (mul (X 0) (V 0)))) (add (C 1) (mul (X 1) (V 1)))) (V 2)) (add (C 1) (mul (X 3) (V 3)))),
  (mul (mul (mul (mul (C 16) (add (C 1) (mul (X 0) (V 0)))) (add (C 1) (mul (X 1) (V 1)))) (V 2)) (add (C 1) (mul (X 3) (V 3)))),
  (mul (mul (mul (mul (C 16) (add (C 1) (mul (X 0) (V 0)))) (add (C 1) (mul (X 1) (V 1)))) (V 2)) (add (C 1) (mul (X 3) (V 3)))),
  (mul (mul (mul (mul (C 16) (add (C 1) (mul (X 0) (V 0)))) (add (C 1) (mul (X 1) (V 1)))) (V 2)) (add (C 1) (mul (X 3) (V 3)))),
  (mul (mul (mul (mul (C 16) (add (C 1) (mul (X 0) (V 0)))) (add (C 1) (mul (X 1) (V 1)))) (V 2)) (add (C 1) (mul (X 3) (V 3)))),
  (mul (mul (mul (mul (C 16) (add (C 1) (mul (X 0) (V 0)))) (add (C 1) (mul (X 1) (V 1)))) (V 2)) (add (C 1) (mul (X 3) (V 3)))),
  (mul (mul (mul (mul (C 16) (add (C 1) (mul (X 0) (V 0)))) (add (C 1) (mul (X 1) (V 1)))) (V 2)) (add (C 1) (mul (X 3) (V 3)))),
  (mul (mul (mul (mul (C 16) (add (C 1) (mul (X 0) (V 0)))) (add (C 1) (mul (X 1) (V 1)))) (V 2)) (add (C 1) (mul (X 3) (V 3))))].getD v (X 0)
theorem partialMu_expr (R : Rounding) (x b : ℕ → ℝ) (v : ℕ) (hv : v < 16) :
    partialMu R x b v = (partialMuE v).evalFl R (vars x fun d => table R Shape.Tess16.rv v d) := by
  interval_cases v <;> rfl
theorem partialMu_eval (x b : ℕ → ℝ) (v : ℕ) (hv : v < 16) :
    Shape.Tess16.partialMu x b v = (partialMuE v).eval (vars x fun d => Shape.Tess16.rv v d) := by
  interval_cases v <;> rfl

/-- The trees of `partialTau`, vertex by vertex. -/
def partialTauE : ℕ → Expr := fun v => [(mul (mul (mul (mul (C 16) (add (C 1) (mul (X 0) (V 0)))) (add (C 1) (mul (X 1) (V 1)))) (add (C 1) (mul (X 2) (V 2)))) (V 3)),
  (mul (mul (mul (mul (C 16) (add (C 1) (mul (X 0) (V 0)))) (add (C 1) (mul (X 1) (V 1)))) (add (C 1) (mul (X 2) (V 2)))) (V 3)),
  (mul (mul (mul (mul (C 16) (add (C 1) (mul (X 0) (V 0)))) (add (C 1) (mul (X 1) (V 1)))) (add (C 1) (mul (X 2) (V 2)))) (V 3)),
  (mul (mul (mul (mul (C 16) (add (C 1) (mul (X 0) (V 0)))) (add (C 1) (mul (X 1) (V 1)))) (add (C 1) (mul (X 2) (V 2)))) (V 3)),
  (mul (mul (mul (mul (C 16) (add (C 1) (mul (X 0) (V 0)))) (add (C 1) (mul (X 1) (V 1)))) (add (C 1) (mul (X 2) (V 2)))) (V 3)),
  (mul (mul (mul (mul (C 16) (add (C 1) (mul (X 0) (V 0)))) (add (C 1) (mul (X 1) (V 1)))) (add (C 1) (mul (X 2) (V 2)))) (V 3)),
  (mul (mul (mul (mul (C 16) (add (C 1) (mul (X 0) (V 0)))) (add (C 1) (mul (X 1) (V 1)))) (add (C 1) (mul (X 2) (V 2)))) (V 3)),
  (mul (mul (mul (mul (C 16) (add (C 1) (mul (X 0) (V 0)))) (add (C 1) (mul (X 1) (V 1)))) (add (C 1) (mul (X 2) (V 2)))) (V 3)),
  (mul (mul (mul (mul (C 16) (add (C 1) (mul (X 0) (V 0)))) (add (C 1) (mul (X 1) (V 1)))) (add (C 1) (mul (X 2) (V 2)))) (V 3)),
  (mul (mul (mul (mul (C 16) (add (C 1) (mul (X 0) (V 0)))) (add (C 1) (mul (X 1) (V 1)))) (add (C 1) (mul (X 2) (V 2)))) (V 3)),
  (mul (mul (mul (mul (C 16) (add (C 1) (mul (X 0) (V 0)))) (add (C 1) (mul (X 1) (V 1)))) (add (C 1) (mul (X 2) (V 2)))) (V 3)),
  (mul (mul (mul (mul (C 16) (add (C 1) (mul (X 0) (V 0)))) (add (C 1) (mul (X 1) (V 1)))) (add (C 1) (mul (X 2) (V 2)))) (V 3)),
  (mul (mul (mul (mul (C 16) (add (C 1) (mul (X 0) (V 0)))) (add (C 1) (mul (X 1) (V 1)))) (add (C 1) (mul (X 2) (V 2)))) (V 3)),
  (mul (mul (mul (mul (C 16) (add (C 1) (mul (X 0) (V 0)))) (add (C 1) (mul (X 1) (V 1)))) (add (C 1) (mul (X 2) (V 2)))) (V 3)),
  (mul (mul (mul (mul (C 16) (add (C 1) (mul (X 0) (V 0)))) (add (C 1) (mul (X 1) (V 1)))) (add (C 1) (mul (X 2) (V 2)))) (V 3)),
  (mul (mul (mul (mul (C 16) (add (C 1) (mul (X 0) (V 0)))) (add (C 1) (mul (X 1) (V 1)))) (add (C 1) (mul (X 2) (V 2)))) (V 3))].getD v (X 0)
theorem partialTau_expr (R : Rounding) (x b : ℕ → ℝ) (v : ℕ) (hv : v < 16) :
    partialTau R x b v = (partialTauE v).evalFl R (vars x fun d => table R Shape.Tess16.rv v d) := by
  interval_cases v <;> rfl
theorem partialTau_eval (x b : ℕ → ℝ) (v : ℕ) (hv : v < 16) :
    Shape.Tess16.partialTau x b v = (partialTauE v).eval (vars x fun d => Shape.Tess16.rv v d) := by
  interval_cases v <;> rfl

/-- The trees of `posBasis`, vertex by vertex. -/
def posBasisE : ℕ → Expr := fun v => [(mul (mul (mul (mul (C 16) (add (C 1) (mul (X 0) (V 0)))) (add (C 1) (mul (X 1) (V 1)))) (add (C 1) (mul (X 2) (V 2)))) (add (C 1) (mul (X 3) (V 3)))),
  (mul (mul (mul (mul (C 16) (add (C 1) (mul (X 0) (V 0)))) (add (C 1) (mul (X 1) (V 1)))) (add (C 1) (mul (X 2) (V 2)))) (add (C 1) (mul (X 3) (V 3)))),
  (mul (mul (mul (mul (C 16) (add (C 1) (mul (X 0) (V 0)))) (add (C 1) (mul (X 1) (V 1)))) (add (C 1) (mul (X 2) (V 2)))) (add (C 1) (mul (X 3) (V 3)))),
  (mul (mul (mul (mul (C 16) (add (C 1) (mul (X 0) (V 0)))) (add (C 1) (mul (X 1) (V 1)))) (add (C 1) (mul (X 2) (V 2)))) (add (C 1) (mul (X 3) (V 3)))),
  (mul (mul (mul (mul (C 16) (add (C 1) (mul (X 0) (V 0)))) (add (C 1) (mul (X 1) (V 1)))) (add (C 1) (mul (X 2) (V 2)))) (add (C 1) (mul (X 3) (V 3)))),
  (mul (mul (mul (mul (C 16) (add (C 1) (mul (X 0) (V 0)))) (add (C 1) (mul (X 1) (V 1)))) (add (C 1) (mul (X 2) (V 2)))) (add (C 1) (mul (X 3) (V 3)))),
  (mul (mul (mul (mul (C 16) (add (C 1) (mul (X 0) (V 0)))) (add (C 1) (mul (X 1) (V 1)))) (add (C 1) (mul (X 2) (V 2)))) (add (C 1) (mul (X 3) (V 3)))),
  (mul (mul (mul (mul (C 16) (add (C 1) (mul (X 0) (V 0)))) (add (C 1) (mul (X 1) (V 1)))) (add (C 1) (mul (X 2) (V 2)))) (add (C 1) (mul (X 3) (V 3)))),
  (mul (mul (mul (mul (C 16) (add (C 1) (mul (X 0) (V 0)))) (add (C 1) (mul (X 1) (V 1)))) (add (C 1) (mul (X 2) (V 2)))) (add (C 1) (mul (X 3) (V 3)))),
  (mul (mul (mul (mul (C 16) (add (C 1) (mul (X 0) (V 0)))) (add (C 1) (mul (X 1) (V 1)))) (add (C 1) (mul (X 2) (V 2)))) (add (C 1) (mul (X 3) (V 3)))),
  (mul (mul (mul (mul (C 16) (add (C 1) (mul (X 0) (V 0)))) (add (C 1) (mul (X 1) (V 1)))) (add (C 1) (mul (X 2) (V 2)))) (add (C 1) (mul (X 3) (V 3)))),
  (mul (mul (mul (mul (C 16) (add (C 1) (mul (X 0) (V 0)))) (add (C 1) (mul (X 1) (V 1)))) (add (C 1) (mul (X 2) (V 2)))) (add (C 1) (mul (X 3) (V 3)))),
  (mul (mul (mul (mul (C 16) (add (C 1) (mul (X 0) (V 0)))) (add (C 1) (mul (X 1) (V 1)))) (add (C 1) (mul (X 2) (V 2)))) (add (C 1) (mul (X 3) (V 3)))),
  (mul (mul (mul (mul (C 16) (add (C 1) (mul (X 0) (V 0)))) (add (C 1) (mul (X 1) (V 1)))) (add (C 1) (mul (X 2) (V 2)))) (add (C 1) (mul (X 3) (V 3)))),
  (mul (mul (mul (mul (C 16) (add (C 1) (mul (X 0) (V 0)))) (add (C 1) (mul (X 1) (V 1)))) (add (C 1) (mul (X 2) (V 2)))) (add (C 1) (mul (X 3) (V 3)))),
  (mul (mul (mul (mul (C 16) (add (C 1) (mul (X 0) (V 0)))) (add (C 1) (mul (X 1) (V 1)))) (add (C 1) (mul (X 2) (V 2)))) (add (C 1) (mul (X 3) (V 3))))].getD v (X 0)
theorem posBasis_expr (R : Rounding) (x b : ℕ → ℝ) (v : ℕ) (hv : v < 16) :
    posBasis R x b v = (posBasisE v).evalFl R (vars x fun d => table R Shape.Tess16.rv v d) := by
  interval_cases v <;> rfl
theorem posBasis_eval (x : ℕ → ℝ) (v : ℕ) (hv : v < 16) (b : ℕ → ℝ) :
    Shape.Tess16.basis x b v = (posBasisE v).eval (vars x fun d => Shape.Tess16.rv v d) := by
  interval_cases v <;> rfl

end Tess16

end Verif.Fp.Elem
