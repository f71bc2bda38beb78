import Verif.Ieee.Expr
import Verif.Fp.ShapeExpr

/-!
# The fixed-order elements in floating-point arithmetic with overflow and underflow

Generated by `tools/gen_ieeeshape.py` from `Shape/Model.lean`: the same routines of elements/elements.cpp on `FNum` (a finite number,
or `none` for an infinity or a NaN), in the order of the source, and for each of them the theorem that it computes the trees of
`Fp/ShapeExpr.lean`.  The factors (`1.0/4.0`, `9.0/32.0`, ...) are dyadic, so their division is exact; the tables of reference
vertices contain `1./3.`, which is rounded.  The coordinates of the point and of the vertices are finite.
-/

namespace Verif.Fp.ElemI
open Verif.Fp.Elem (vars)
variable (A : Ieee)

/-- A constant. -/
def cn {A : Ieee} (x : ℝ) : FNum A := FNum.fin x

/-- Entry `(v, d)` of a table of reference vertices as stored: the quotient is rounded; it is at most 1 in modulus. -/
noncomputable def table (rv : ℕ → ℕ → ℝ) (v d : ℕ) : FNum A := FNum.fin (A.fl (rv v d))

/-- The accumulation at the end of every `physical_position` (e.g. elements/elements.cpp:3346-3353). -/
noncomputable def accumulateI (dim nv trips : ℕ) (V : ℕ → ℕ → ℝ) (basis x0 : ℕ → FNum A) : Option (ℕ → FNum A) :=
  loop trips (fun v s => s.bind fun p =>
      if v < nv then some (loop dim (fun d p => store p d (p d + cn (V v d) * basis v)) p) else none)
    (some (loop dim (fun d p => store p d (cn 0)) x0))

/-- The variant of `Hex20::physical_position`, elements/elements.cpp:4638-4645. -/
noncomputable def accumulateDimOuterI (dim nv trips : ℕ) (V : ℕ → ℕ → ℝ) (basis x0 : ℕ → FNum A) : Option (ℕ → FNum A) :=
  loop dim (fun d s => loop trips (fun v s => s.bind fun p =>
      if v < nv then some (store p d (p d + cn (V v d) * basis v)) else none) s)
    (some (loop dim (fun d p => store p d (cn 0)) x0))

/-! ## Quad4 -/
namespace Quad4
open Shape.Quad4 (rv numVerts numDim)

/-- `Quad4::basis`, elements/elements.cpp:3359-3374. -/
noncomputable def basis (x : ℕ → ℝ) (b : ℕ → FNum A) : ℕ → FNum A :=
  let r := table A rv
  let X : ℕ → FNum A := fun i => cn (x i)
  let b := Shape.fillFrom 0 numVerts 1 (fun v => ((cn (1/4) * (cn 1 + (X 0 * r v 0))) * (cn 1 + (X 1 * r v 1)))) b
  b

theorem basis_expr (x : ℕ → ℝ) (b : ℕ → FNum A) (v : ℕ) (hv : v < 4) :
    basis A x b v = (Elem.Quad4.basisE v).evalI A (vars x fun d => A.fl (rv v d)) := by
  interval_cases v <;> rfl

/-- `Quad4::partial_xi_basis`, elements/elements.cpp:3378-3390. -/
noncomputable def partialXi (x : ℕ → ℝ) (b : ℕ → FNum A) : ℕ → FNum A :=
  let r := table A rv
  let X : ℕ → FNum A := fun i => cn (x i)
  let b := Shape.fillFrom 0 numVerts 1 (fun v => ((cn (1/4) * r v 0) * (cn 1 + (X 1 * r v 1)))) b
  b

theorem partialXi_expr (x : ℕ → ℝ) (b : ℕ → FNum A) (v : ℕ) (hv : v < 4) :
    partialXi A x b v = (Elem.Quad4.partialXiE v).evalI A (vars x fun d => A.fl (rv v d)) := by
  interval_cases v <;> rfl

/-- `Quad4::partial_eta_basis`, elements/elements.cpp:3394-3406. -/
noncomputable def partialEta (x : ℕ → ℝ) (b : ℕ → FNum A) : ℕ → FNum A :=
  let r := table A rv
  let X : ℕ → FNum A := fun i => cn (x i)
  let b := Shape.fillFrom 0 numVerts 1 (fun v => ((cn (1/4) * (cn 1 + (X 0 * r v 0))) * r v 1)) b
  b

theorem partialEta_expr (x : ℕ → ℝ) (b : ℕ → FNum A) (v : ℕ) (hv : v < 4) :
    partialEta A x b v = (Elem.Quad4.partialEtaE v).evalI A (vars x fun d => A.fl (rv v d)) := by
  interval_cases v <;> rfl

/-- The shape functions computed by `Quad4::physical_position`, elements/elements.cpp:3329-3355. -/
noncomputable def posBasis (x : ℕ → ℝ) (b : ℕ → FNum A) : ℕ → FNum A :=
  let r := table A rv
  let X : ℕ → FNum A := fun i => cn (x i)
  let b := Shape.fillFrom 0 numVerts 1 (fun v => ((cn (1/4) * (cn 1 + (X 0 * r v 0))) * (cn 1 + (X 1 * r v 1)))) b
  b

theorem posBasis_expr (x : ℕ → ℝ) (b : ℕ → FNum A) (v : ℕ) (hv : v < 4) :
    posBasis A x b v = (Elem.Quad4.posBasisE v).evalI A (vars x fun d => A.fl (rv v d)) := by
  interval_cases v <;> rfl

/-- `Quad4::physical_position`, elements/elements.cpp:3329-3355. -/
noncomputable def physicalPosition (x : ℕ → ℝ) (V : ℕ → ℕ → ℝ) (b x0 : ℕ → FNum A) : Option (ℕ → FNum A) :=
  accumulateI A numDim numVerts numVerts V (posBasis A x b) x0

end Quad4

/-! ## Quad8 -/
namespace Quad8
open Shape.Quad8 (rv numVerts numDim)

/-- `Quad8::basis`, elements/elements.cpp:3556-3587. -/
noncomputable def basis (x : ℕ → ℝ) (b : ℕ → FNum A) : ℕ → FNum A :=
  let r := table A rv
  let X : ℕ → FNum A := fun i => cn (x i)
  let b := Shape.fillFrom 0 4 1 (fun v => (((cn (1/4) * (cn 1 + (X 0 * r v 0))) * (cn 1 + (X 1 * r v 1))) * (((X 0 * r v 0) + (X 1 * r v 1)) - cn 1))) b
  let b := Shape.fillFrom 4 (6 + 1) 2 (fun v => ((cn (1/2) * (cn 1 - (X 0 * X 0))) * (cn 1 + (X 1 * r v 1)))) b
  let b := Shape.fillFrom 5 (7 + 1) 2 (fun v => ((cn (1/2) * (cn 1 + (X 0 * r v 0))) * (cn 1 - (X 1 * X 1)))) b
  b

theorem basis_expr (x : ℕ → ℝ) (b : ℕ → FNum A) (v : ℕ) (hv : v < 8) :
    basis A x b v = (Elem.Quad8.basisE v).evalI A (vars x fun d => A.fl (rv v d)) := by
  interval_cases v <;> rfl

/-- `Quad8::partial_xi_basis`, elements/elements.cpp:3591-3622. -/
noncomputable def partialXi (x : ℕ → ℝ) (b : ℕ → FNum A) : ℕ → FNum A :=
  let r := table A rv
  let X : ℕ → FNum A := fun i => cn (x i)
  let b := Shape.fillFrom 0 4 1 (fun v => (((cn (1/4) * r v 0) * (cn 1 + (r v 1 * X 1))) * (((cn 2 * r v 0) * X 0) + (r v 1 * X 1)))) b
  let b := Shape.fillFrom 4 (6 + 1) 2 (fun v => ((cn (-1) * X 0) * (cn 1 + (r v 1 * X 1)))) b
  let b := Shape.fillFrom 5 (7 + 1) 2 (fun v => ((cn (1/2) * r v 0) * (cn 1 - (X 1 * X 1)))) b
  b

theorem partialXi_expr (x : ℕ → ℝ) (b : ℕ → FNum A) (v : ℕ) (hv : v < 8) :
    partialXi A x b v = (Elem.Quad8.partialXiE v).evalI A (vars x fun d => A.fl (rv v d)) := by
  interval_cases v <;> rfl

/-- `Quad8::partial_eta_basis`, elements/elements.cpp:3626-3655. -/
noncomputable def partialEta (x : ℕ → ℝ) (b : ℕ → FNum A) : ℕ → FNum A :=
  let r := table A rv
  let X : ℕ → FNum A := fun i => cn (x i)
  let b := Shape.fillFrom 0 4 1 (fun v => (((cn (1/4) * (cn 1 + (r v 0 * X 0))) * r v 1) * ((r v 0 * X 0) + ((cn 2 * r v 1) * X 1)))) b
  let b := Shape.fillFrom 4 (6 + 1) 2 (fun v => ((cn (1/2) * (cn 1 - (X 0 * X 0))) * r v 1)) b
  let b := Shape.fillFrom 5 (7 + 1) 2 (fun v => ((cn (-1) * (cn 1 + (r v 0 * X 0))) * X 1)) b
  b

theorem partialEta_expr (x : ℕ → ℝ) (b : ℕ → FNum A) (v : ℕ) (hv : v < 8) :
    partialEta A x b v = (Elem.Quad8.partialEtaE v).evalI A (vars x fun d => A.fl (rv v d)) := by
  interval_cases v <;> rfl

/-- The shape functions computed by `Quad8::physical_position`, elements/elements.cpp:3510-3552. -/
noncomputable def posBasis (x : ℕ → ℝ) (b : ℕ → FNum A) : ℕ → FNum A :=
  let r := table A rv
  let X : ℕ → FNum A := fun i => cn (x i)
  let b := Shape.fillFrom 0 4 1 (fun v => (((cn (1/4) * (cn 1 + (X 0 * r v 0))) * (cn 1 + (X 1 * r v 1))) * (((X 0 * r v 0) + (X 1 * r v 1)) - cn 1))) b
  let b := Shape.fillFrom 4 (6 + 1) 2 (fun v => ((cn (1/2) * (cn 1 - (X 0 * X 0))) * (cn 1 + (X 1 * r v 1)))) b
  let b := Shape.fillFrom 5 (7 + 1) 2 (fun v => ((cn (1/2) * (cn 1 + (X 0 * r v 0))) * (cn 1 - (X 1 * X 1)))) b
  b

theorem posBasis_expr (x : ℕ → ℝ) (b : ℕ → FNum A) (v : ℕ) (hv : v < 8) :
    posBasis A x b v = (Elem.Quad8.posBasisE v).evalI A (vars x fun d => A.fl (rv v d)) := by
  interval_cases v <;> rfl

/-- `Quad8::physical_position`, elements/elements.cpp:3510-3552. -/
noncomputable def physicalPosition (x : ℕ → ℝ) (V : ℕ → ℕ → ℝ) (b x0 : ℕ → FNum A) : Option (ℕ → FNum A) :=
  accumulateI A numDim numVerts numVerts V (posBasis A x b) x0

end Quad8

/-! ## Quad12 -/
namespace Quad12
open Shape.Quad12 (rv numVerts numDim)

/-- `Quad12::basis`, elements/elements.cpp:3826-3858. -/
noncomputable def basis (x : ℕ → ℝ) (b : ℕ → FNum A) : ℕ → FNum A :=
  let r := table A rv
  let X : ℕ → FNum A := fun i => cn (x i)
  let b := Shape.fillFrom 0 4 1 (fun v => (((cn (1/32) * (cn 1 + (r v 0 * X 0))) * (cn 1 + (r v 1 * X 1))) * ((cn 9 * ((X 0 * X 0) + (X 1 * X 1))) - cn 10))) b
  let b := Shape.fillFrom 4 (7 + 1) 1 (fun v => (((cn (9/32) * (cn 1 - (X 0 * X 0))) * (cn 1 + (X 1 * r v 1))) * (cn 1 + ((cn 9 * X 0) * r v 0)))) b
  let b := Shape.fillFrom 8 (11 + 1) 1 (fun v => (((cn (9/32) * (cn 1 + (X 0 * r v 0))) * (cn 1 - (X 1 * X 1))) * (cn 1 + ((cn 9 * X 1) * r v 1)))) b
  b

theorem basis_expr (x : ℕ → ℝ) (b : ℕ → FNum A) (v : ℕ) (hv : v < 12) :
    basis A x b v = (Elem.Quad12.basisE v).evalI A (vars x fun d => A.fl (rv v d)) := by
  interval_cases v <;> rfl

/-- `Quad12::partial_xi_basis`, elements/elements.cpp:3862-3895. -/
noncomputable def partialXi (x : ℕ → ℝ) (b : ℕ → FNum A) : ℕ → FNum A :=
  let r := table A rv
  let X : ℕ → FNum A := fun i => cn (x i)
  let b := Shape.fillFrom 0 4 1 (fun v => ((cn (1/32) * (cn 1 + (X 1 * r v 1))) * ((((cn 9 * r v 0) * ((X 0 * X 0) + (X 1 * X 1))) + ((cn 18 * X 0) * (cn 1 + (X 0 * r v 0)))) - (cn 10 * r v 0)))) b
  let b := Shape.fillFrom 4 8 1 (fun v => ((cn (9/32) * (cn 1 + (X 1 * r v 1))) * (((cn 9 * r v 0) * (cn 1 - ((cn 3 * X 0) * X 0))) - (cn 2 * X 0)))) b
  let b := Shape.fillFrom 8 (11 + 1) 1 (fun v => (((cn (9/32) * r v 0) * (cn 1 - (X 1 * X 1))) * (cn 1 + ((cn 9 * X 1) * r v 1)))) b
  b

theorem partialXi_expr (x : ℕ → ℝ) (b : ℕ → FNum A) (v : ℕ) (hv : v < 12) :
    partialXi A x b v = (Elem.Quad12.partialXiE v).evalI A (vars x fun d => A.fl (rv v d)) := by
  interval_cases v <;> rfl

/-- `Quad12::partial_eta_basis`, elements/elements.cpp:3899-3931. -/
noncomputable def partialEta (x : ℕ → ℝ) (b : ℕ → FNum A) : ℕ → FNum A :=
  let r := table A rv
  let X : ℕ → FNum A := fun i => cn (x i)
  let b := Shape.fillFrom 0 4 1 (fun v => ((cn (1/32) * (cn 1 + (X 0 * r v 0))) * ((((cn 9 * r v 1) * ((X 0 * X 0) + (X 1 * X 1))) + ((cn 18 * X 1) * (cn 1 + (X 1 * r v 1)))) - (cn 10 * r v 1)))) b
  let b := Shape.fillFrom 4 (7 + 1) 1 (fun v => (((cn (9/32) * (cn 1 - (X 0 * X 0))) * (cn 1 + ((cn 9 * X 0) * r v 0))) * r v 1)) b
  let b := Shape.fillFrom 8 (11 + 1) 1 (fun v => ((cn (9/32) * (cn 1 + (X 0 * r v 0))) * (((cn 9 * r v 1) * (cn 1 - ((cn 3 * X 1) * X 1))) - (cn 2 * X 1)))) b
  b

theorem partialEta_expr (x : ℕ → ℝ) (b : ℕ → FNum A) (v : ℕ) (hv : v < 12) :
    partialEta A x b v = (Elem.Quad12.partialEtaE v).evalI A (vars x fun d => A.fl (rv v d)) := by
  interval_cases v <;> rfl

/-- The shape functions computed by `Quad12::physical_position`, elements/elements.cpp:3774-3822. -/
noncomputable def posBasis (x : ℕ → ℝ) (b : ℕ → FNum A) : ℕ → FNum A :=
  let r := table A rv
  let X : ℕ → FNum A := fun i => cn (x i)
  let b := Shape.fillFrom 0 4 1 (fun v => (((cn (1/32) * (cn 1 + (r v 0 * X 0))) * (cn 1 + (r v 1 * X 1))) * ((cn 9 * ((X 0 * X 0) + (X 1 * X 1))) - cn 10))) b
  let b := Shape.fillFrom 4 (7 + 1) 1 (fun v => (((cn (9/32) * (cn 1 - (X 0 * X 0))) * (cn 1 + (X 1 * r v 1))) * (cn 1 + ((cn 9 * X 0) * r v 0)))) b
  let b := Shape.fillFrom 8 (11 + 1) 1 (fun v => (((cn (9/32) * (cn 1 + (X 0 * r v 0))) * (cn 1 - (X 1 * X 1))) * (cn 1 + ((cn 9 * X 1) * r v 1)))) b
  b

theorem posBasis_expr (x : ℕ → ℝ) (b : ℕ → FNum A) (v : ℕ) (hv : v < 12) :
    posBasis A x b v = (Elem.Quad12.posBasisE v).evalI A (vars x fun d => A.fl (rv v d)) := by
  interval_cases v <;> rfl

/-- `Quad12::physical_position`, elements/elements.cpp:3774-3822. -/
noncomputable def physicalPosition (x : ℕ → ℝ) (V : ℕ → ℕ → ℝ) (b x0 : ℕ → FNum A) : Option (ℕ → FNum A) :=
  accumulateI A numDim numVerts numVerts V (posBasis A x b) x0

end Quad12

/-! ## Hex8 -/
namespace Hex8
open Shape.Hex8 (rv numVerts numDim)

/-- `Hex8::basis`, elements/elements.cpp:4336-4350. -/
noncomputable def basis (x : ℕ → ℝ) (b : ℕ → FNum A) : ℕ → FNum A :=
  let r := table A rv
  let X : ℕ → FNum A := fun i => cn (x i)
  let b := Shape.fillFrom 0 numVerts 1 (fun v => (((cn (1/8) * (cn 1 + (X 0 * r v 0))) * (cn 1 + (X 1 * r v 1))) * (cn 1 + (X 2 * r v 2)))) b
  b

theorem basis_expr (x : ℕ → ℝ) (b : ℕ → FNum A) (v : ℕ) (hv : v < 8) :
    basis A x b v = (Elem.Hex8.basisE v).evalI A (vars x fun d => A.fl (rv v d)) := by
  interval_cases v <;> rfl

/-- `Hex8::partial_xi_basis`, elements/elements.cpp:4355-4371. -/
noncomputable def partialXi (x : ℕ → ℝ) (b : ℕ → FNum A) : ℕ → FNum A :=
  let r := table A rv
  let X : ℕ → FNum A := fun i => cn (x i)
  let b := Shape.fillFrom 0 numVerts 1 (fun v => (((cn (1/8) * r v 0) * (cn 1 + (X 1 * r v 1))) * (cn 1 + (X 2 * r v 2)))) b
  b

theorem partialXi_expr (x : ℕ → ℝ) (b : ℕ → FNum A) (v : ℕ) (hv : v < 8) :
    partialXi A x b v = (Elem.Hex8.partialXiE v).evalI A (vars x fun d => A.fl (rv v d)) := by
  interval_cases v <;> rfl

/-- `Hex8::partial_eta_basis`, elements/elements.cpp:4375-4388. -/
noncomputable def partialEta (x : ℕ → ℝ) (b : ℕ → FNum A) : ℕ → FNum A :=
  let r := table A rv
  let X : ℕ → FNum A := fun i => cn (x i)
  let b := Shape.fillFrom 0 numVerts 1 (fun v => (((cn (1/8) * (cn 1 + (X 0 * r v 0))) * r v 1) * (cn 1 + (X 2 * r v 2)))) b
  b

theorem partialEta_expr (x : ℕ → ℝ) (b : ℕ → FNum A) (v : ℕ) (hv : v < 8) :
    partialEta A x b v = (Elem.Hex8.partialEtaE v).evalI A (vars x fun d => A.fl (rv v d)) := by
  interval_cases v <;> rfl

/-- `Hex8::partial_mu_basis`, elements/elements.cpp:4392-4405. -/
noncomputable def partialMu (x : ℕ → ℝ) (b : ℕ → FNum A) : ℕ → FNum A :=
  let r := table A rv
  let X : ℕ → FNum A := fun i => cn (x i)
  let b := Shape.fillFrom 0 numVerts 1 (fun v => (((cn (1/8) * (cn 1 + (X 0 * r v 0))) * (cn 1 + (X 1 * r v 1))) * r v 2)) b
  b

theorem partialMu_expr (x : ℕ → ℝ) (b : ℕ → FNum A) (v : ℕ) (hv : v < 8) :
    partialMu A x b v = (Elem.Hex8.partialMuE v).evalI A (vars x fun d => A.fl (rv v d)) := by
  interval_cases v <;> rfl

/-- The shape functions computed by `Hex8::physical_position`, elements/elements.cpp:4303-4332. -/
noncomputable def posBasis (x : ℕ → ℝ) (b : ℕ → FNum A) : ℕ → FNum A :=
  let r := table A rv
  let X : ℕ → FNum A := fun i => cn (x i)
  let b := Shape.fillFrom 0 numVerts 1 (fun v => (((cn (1/8) * (cn 1 + (X 0 * r v 0))) * (cn 1 + (X 1 * r v 1))) * (cn 1 + (X 2 * r v 2)))) b
  b

theorem posBasis_expr (x : ℕ → ℝ) (b : ℕ → FNum A) (v : ℕ) (hv : v < 8) :
    posBasis A x b v = (Elem.Hex8.posBasisE v).evalI A (vars x fun d => A.fl (rv v d)) := by
  interval_cases v <;> rfl

/-- `Hex8::physical_position`, elements/elements.cpp:4303-4332. -/
noncomputable def physicalPosition (x : ℕ → ℝ) (V : ℕ → ℕ → ℝ) (b x0 : ℕ → FNum A) : Option (ℕ → FNum A) :=
  accumulateI A numDim numVerts numVerts V (posBasis A x b) x0

end Hex8

/-! ## Hex20 -/
namespace Hex20
open Shape.Hex20 (rv numVerts numDim)

/-- `Hex20::basis`, elements/elements.cpp:4651-4692. -/
noncomputable def basis (x : ℕ → ℝ) (b : ℕ → FNum A) : ℕ → FNum A :=
  let r := table A rv
  let X : ℕ → FNum A := fun i => cn (x i)
  let b := Shape.fillFrom 0 8 1 (fun v => ((((cn (1/8) * (cn 1 + (X 0 * r v 0))) * (cn 1 + (X 1 * r v 1))) * (cn 1 + (X 2 * r v 2))) * ((((X 0 * r v 0) + (X 1 * r v 1)) + (X 2 * r v 2)) - cn 2))) b
  let b := Shape.fillFrom 8 (14 + 1) 2 (fun v => (((cn (1/4) * (cn 1 - (X 0 * X 0))) * (cn 1 + (X 1 * r v 1))) * (cn 1 + (X 2 * r v 2)))) b
  let b := Shape.fillFrom 16 (19 + 1) 1 (fun v => (((cn (1/4) * (cn 1 + (X 0 * r v 0))) * (cn 1 + (X 1 * r v 1))) * (cn 1 - (X 2 * X 2)))) b
  let b := Shape.fillFrom 9 (15 + 1) 2 (fun v => (((cn (1/4) * (cn 1 + (X 0 * r v 0))) * (cn 1 - (X 1 * X 1))) * (cn 1 + (X 2 * r v 2)))) b
  b

theorem basis_expr (x : ℕ → ℝ) (b : ℕ → FNum A) (v : ℕ) (hv : v < 20) :
    basis A x b v = (Elem.Hex20.basisE v).evalI A (vars x fun d => A.fl (rv v d)) := by
  interval_cases v <;> rfl

/-- `Hex20::partial_xi_basis`, elements/elements.cpp:4697-4739. -/
noncomputable def partialXi (x : ℕ → ℝ) (b : ℕ → FNum A) : ℕ → FNum A :=
  let r := table A rv
  let X : ℕ → FNum A := fun i => cn (x i)
  let b := Shape.fillFrom 0 8 1 (fun v => ((((cn (1/8) * r v 0) * (cn 1 + (X 1 * r v 1))) * (cn 1 + (X 2 * r v 2))) * ((((cn 2 * (X 0 * r v 0)) + (X 1 * r v 1)) + (X 2 * r v 2)) - cn 1))) b
  let b := Shape.fillFrom 8 (14 + 1) 2 (fun v => (((cn (-1/2) * X 0) * (cn 1 + (X 1 * r v 1))) * (cn 1 + (X 2 * r v 2)))) b
  let b := Shape.fillFrom 9 (15 + 1) 2 (fun v => (((cn (1/4) * r v 0) * (cn 1 + (X 1 * r v 1))) * (cn 1 - (X 2 * X 2)))) b
  let b := Shape.fillFrom 16 (19 + 1) 1 (fun v => (((cn (1/4) * r v 0) * (cn 1 - (X 1 * X 1))) * (cn 1 + (X 2 * r v 2)))) b
  b

theorem partialXi_expr (x : ℕ → ℝ) (b : ℕ → FNum A) (v : ℕ) (hv : v < 20) :
    partialXi A x b v = (Elem.Hex20.partialXiE v).evalI A (vars x fun d => A.fl (rv v d)) := by
  interval_cases v <;> rfl

/-- `Hex20::partial_eta_basis`, elements/elements.cpp:4743-4784. -/
noncomputable def partialEta (x : ℕ → ℝ) (b : ℕ → FNum A) : ℕ → FNum A :=
  let r := table A rv
  let X : ℕ → FNum A := fun i => cn (x i)
  let b := Shape.fillFrom 0 8 1 (fun v => ((((cn (1/8) * (cn 1 + (X 0 * r v 0))) * r v 1) * (cn 1 + (X 2 * r v 2))) * ((((X 0 * r v 0) + ((cn 2 * X 1) * r v 1)) + (X 2 * r v 2)) - cn 1))) b
  let b := Shape.fillFrom 8 (14 + 1) 2 (fun v => (((cn (1/4) * (cn 1 - (X 0 * X 0))) * r v 1) * (cn 1 + (X 2 * r v 2)))) b
  let b := Shape.fillFrom 9 (15 + 1) 2 (fun v => (((cn (-1/2) * (cn 1 + (X 0 * r v 0))) * X 1) * (cn 1 + (X 2 * r v 2)))) b
  let b := Shape.fillFrom 16 (19 + 1) 1 (fun v => (((cn (1/4) * (cn 1 + (X 0 * r v 0))) * r v 1) * (cn 1 - (X 2 * X 2)))) b
  b

theorem partialEta_expr (x : ℕ → ℝ) (b : ℕ → FNum A) (v : ℕ) (hv : v < 20) :
    partialEta A x b v = (Elem.Hex20.partialEtaE v).evalI A (vars x fun d => A.fl (rv v d)) := by
  interval_cases v <;> rfl

/-- `Hex20::partial_mu_basis`, elements/elements.cpp:4788-4829. -/
noncomputable def partialMu (x : ℕ → ℝ) (b : ℕ → FNum A) : ℕ → FNum A :=
  let r := table A rv
  let X : ℕ → FNum A := fun i => cn (x i)
  let b := Shape.fillFrom 0 8 1 (fun v => ((((cn (1/8) * (cn 1 + (X 0 * r v 0))) * (cn 1 + (X 1 * r v 1))) * r v 2) * ((((X 0 * r v 0) + (X 1 * r v 1)) + ((cn 2 * X 2) * r v 2)) - cn 1))) b
  let b := Shape.fillFrom 8 (14 + 1) 2 (fun v => (((cn (1/4) * (cn 1 - (X 0 * X 0))) * (cn 1 + (X 1 * r v 1))) * r v 2)) b
  let b := Shape.fillFrom 9 (15 + 1) 2 (fun v => (((cn (1/4) * (cn 1 + (X 0 * r v 0))) * (cn 1 - (X 1 * X 1))) * r v 2)) b
  let b := Shape.fillFrom 16 (19 + 1) 1 (fun v => (((cn (-1/2) * (cn 1 + (X 0 * r v 0))) * (cn 1 + (X 1 * r v 1))) * X 2)) b
  b

theorem partialMu_expr (x : ℕ → ℝ) (b : ℕ → FNum A) (v : ℕ) (hv : v < 20) :
    partialMu A x b v = (Elem.Hex20.partialMuE v).evalI A (vars x fun d => A.fl (rv v d)) := by
  interval_cases v <;> rfl

/-- The shape functions computed by `Hex20::physical_position`, elements/elements.cpp:4592-4647. -/
noncomputable def posBasis (x : ℕ → ℝ) (b : ℕ → FNum A) : ℕ → FNum A :=
  let r := table A rv
  let X : ℕ → FNum A := fun i => cn (x i)
  let b := Shape.fillFrom 0 8 1 (fun v => ((((cn (1/8) * (cn 1 + (X 0 * r v 0))) * (cn 1 + (X 1 * r v 1))) * (cn 1 + (X 2 * r v 2))) * ((((X 0 * r v 0) + (X 1 * r v 1)) + (X 2 * r v 2)) - cn 2))) b
  let b := Shape.fillFrom 8 (14 + 1) 2 (fun v => (((cn (1/4) * (cn 1 - (X 0 * X 0))) * (cn 1 + (X 1 * r v 1))) * (cn 1 + (X 2 * r v 2)))) b
  let b := Shape.fillFrom 16 (19 + 1) 1 (fun v => (((cn (1/4) * (cn 1 + (X 0 * r v 0))) * (cn 1 + (X 1 * r v 1))) * (cn 1 - (X 2 * X 2)))) b
  let b := Shape.fillFrom 9 (15 + 1) 2 (fun v => (((cn (1/4) * (cn 1 + (X 0 * r v 0))) * (cn 1 - (X 1 * X 1))) * (cn 1 + (X 2 * r v 2)))) b
  b

theorem posBasis_expr (x : ℕ → ℝ) (b : ℕ → FNum A) (v : ℕ) (hv : v < 20) :
    posBasis A x b v = (Elem.Hex20.posBasisE v).evalI A (vars x fun d => A.fl (rv v d)) := by
  interval_cases v <;> rfl

/-- `Hex20::physical_position`, elements/elements.cpp:4592-4647. -/
noncomputable def physicalPosition (x : ℕ → ℝ) (V : ℕ → ℕ → ℝ) (b x0 : ℕ → FNum A) : Option (ℕ → FNum A) :=
  accumulateDimOuterI A numDim numVerts numVerts V (posBasis A x b) x0

end Hex20

/-! ## Hex32 -/
namespace Hex32
open Shape.Hex32 (rv numVerts numDim)

/-- `Hex32::basis`, elements/elements.cpp:5131-5175. -/
noncomputable def basis (x : ℕ → ℝ) (b : ℕ → FNum A) : ℕ → FNum A :=
  let r := table A rv
  let X : ℕ → FNum A := fun i => cn (x i)
  let b := Shape.fillFrom 0 8 1 (fun v => ((((cn (1/64) * (cn 1 + (X 0 * r v 0))) * (cn 1 + (X 1 * r v 1))) * (cn 1 + (X 2 * r v 2))) * (((((cn 9 * X 0) * X 0) + ((cn 9 * X 1) * X 1)) + ((cn 9 * X 2) * X 2)) - cn 19))) b
  let b := Shape.fillFrom 8 (15 + 1) 1 (fun v => ((((cn (9/64) * (cn 1 + (X 0 * r v 0))) * (cn 1 - (X 1 * X 1))) * (cn 1 + ((cn 9 * X 1) * r v 1))) * (cn 1 + (X 2 * r v 2)))) b
  let b := Shape.fillFrom 16 (23 + 1) 1 (fun v => ((((cn (9/64) * (cn 1 - (X 0 * X 0))) * (cn 1 + ((cn 9 * X 0) * r v 0))) * (cn 1 + (X 1 * r v 1))) * (cn 1 + (X 2 * r v 2)))) b
  let b := Shape.fillFrom 24 numVerts 1 (fun v => ((((cn (9/64) * (cn 1 + (X 0 * r v 0))) * (cn 1 + (X 1 * r v 1))) * (cn 1 + ((cn 9 * X 2) * r v 2))) * (cn 1 - (X 2 * X 2)))) b
  b

theorem basis_expr (x : ℕ → ℝ) (b : ℕ → FNum A) (v : ℕ) (hv : v < 32) :
    basis A x b v = (Elem.Hex32.basisE v).evalI A (vars x fun d => A.fl (rv v d)) := by
  interval_cases v <;> rfl

/-- `Hex32::partial_xi_basis`, elements/elements.cpp:5179-5223. -/
noncomputable def partialXi (x : ℕ → ℝ) (b : ℕ → FNum A) : ℕ → FNum A :=
  let r := table A rv
  let X : ℕ → FNum A := fun i => cn (x i)
  let b := Shape.fillFrom 0 8 1 (fun v => (((cn (1/64) * (cn 1 + (X 1 * r v 1))) * (cn 1 + (X 2 * r v 2))) * ((((cn 9 * r v 0) * (((X 0 * X 0) + (X 1 * X 1)) + (X 2 * X 2))) + ((cn 18 * X 0) * (cn 1 + (X 0 * r v 0)))) - (cn 19 * r v 0)))) b
  let b := Shape.fillFrom 8 (15 + 1) 1 (fun v => ((((cn (9/64) * r v 0) * (cn 1 + (X 1 * r v 1))) * (cn 1 + ((cn 9 * X 2) * r v 2))) * (cn 1 - (X 2 * X 2)))) b
  let b := Shape.fillFrom 16 (23 + 1) 1 (fun v => (((cn (9/64) * (cn 1 + (X 1 * r v 1))) * (cn 1 + (X 2 * r v 2))) * (((cn 9 * r v 0) * (cn 1 - ((cn 3 * X 0) * X 0))) - (cn 2 * X 0)))) b
  let b := Shape.fillFrom 24 (31 + 1) 1 (fun v => ((((cn (9/64) * r v 0) * (cn 1 - (X 1 * X 1))) * (cn 1 + ((cn 9 * X 1) * r v 1))) * (cn 1 + (X 2 * r v 2)))) b
  b

theorem partialXi_expr (x : ℕ → ℝ) (b : ℕ → FNum A) (v : ℕ) (hv : v < 32) :
    partialXi A x b v = (Elem.Hex32.partialXiE v).evalI A (vars x fun d => A.fl (rv v d)) := by
  interval_cases v <;> rfl

/-- `Hex32::partial_eta_basis`, elements/elements.cpp:5228-5274. -/
noncomputable def partialEta (x : ℕ → ℝ) (b : ℕ → FNum A) : ℕ → FNum A :=
  let r := table A rv
  let X : ℕ → FNum A := fun i => cn (x i)
  let b := Shape.fillFrom 0 8 1 (fun v => (((cn (1/64) * (cn 1 + (X 0 * r v 0))) * (cn 1 + (X 2 * r v 2))) * ((((cn 9 * r v 1) * (((X 0 * X 0) + (X 1 * X 1)) + (X 2 * X 2))) + ((cn 18 * X 1) * (cn 1 + (X 1 * r v 1)))) - (cn 19 * r v 1)))) b
  let b := Shape.fillFrom 8 (15 + 1) 1 (fun v => (((cn (9/64) * (cn 1 + (X 0 * r v 0))) * (cn 1 + (X 2 * r v 2))) * (((cn 9 * r v 1) * (cn 1 - ((cn 3 * X 1) * X 1))) - (cn 2 * X 1)))) b
  let b := Shape.fillFrom 16 (23 + 1) 1 (fun v => ((((cn (9/64) * (cn 1 - (X 0 * X 0))) * (cn 1 + ((cn 9 * X 0) * r v 0))) * r v 1) * (cn 1 + (X 2 * r v 2)))) b
  let b := Shape.fillFrom 24 (31 + 1) 1 (fun v => ((((cn (9/64) * (cn 1 + (X 0 * r v 0))) * r v 1) * (cn 1 + ((cn 9 * X 2) * r v 2))) * (cn 1 - (X 2 * X 2)))) b
  b

theorem partialEta_expr (x : ℕ → ℝ) (b : ℕ → FNum A) (v : ℕ) (hv : v < 32) :
    partialEta A x b v = (Elem.Hex32.partialEtaE v).evalI A (vars x fun d => A.fl (rv v d)) := by
  interval_cases v <;> rfl

/-- `Hex32::partial_mu_basis`, elements/elements.cpp:5279-5327. -/
noncomputable def partialMu (x : ℕ → ℝ) (b : ℕ → FNum A) : ℕ → FNum A :=
  let r := table A rv
  let X : ℕ → FNum A := fun i => cn (x i)
  let b := Shape.fillFrom 0 8 1 (fun v => (((cn (1/64) * (cn 1 + (X 0 * r v 0))) * (cn 1 + (X 1 * r v 1))) * ((((cn 9 * r v 2) * (((X 0 * X 0) + (X 1 * X 1)) + (X 2 * X 2))) + ((cn 18 * X 2) * (cn 1 + (X 2 * r v 2)))) - (cn 19 * r v 2)))) b
  let b := Shape.fillFrom 8 (15 + 1) 1 (fun v => ((((cn (9/64) * (cn 1 + (X 0 * r v 0))) * (cn 1 - (X 1 * X 1))) * (cn 1 + ((cn 9 * X 1) * r v 1))) * r v 2)) b
  let b := Shape.fillFrom 16 (23 + 1) 1 (fun v => ((((cn (9/64) * (cn 1 - (X 0 * X 0))) * (cn 1 + ((cn 9 * X 0) * r v 0))) * (cn 1 + (X 1 * r v 1))) * r v 2)) b
  let b := Shape.fillFrom 24 (31 + 1) 1 (fun v => (((cn (9/64) * (cn 1 + (X 0 * r v 0))) * (cn 1 + (X 1 * r v 1))) * (((cn 9 * r v 2) * (cn 1 - ((cn 3 * X 2) * X 2))) - (cn 2 * X 2)))) b
  b

theorem partialMu_expr (x : ℕ → ℝ) (b : ℕ → FNum A) (v : ℕ) (hv : v < 32) :
    partialMu A x b v = (Elem.Hex32.partialMuE v).evalI A (vars x fun d => A.fl (rv v d)) := by
  interval_cases v <;> rfl

/-- The shape functions computed by `Hex32::physical_position`, elements/elements.cpp:5067-5128. -/
noncomputable def posBasis (x : ℕ → ℝ) (b : ℕ → FNum A) : ℕ → FNum A :=
  let r := table A rv
  let X : ℕ → FNum A := fun i => cn (x i)
  let b := Shape.fillFrom 0 8 1 (fun v => ((((cn (1/64) * (cn 1 + (X 0 * r v 0))) * (cn 1 + (X 1 * r v 1))) * (cn 1 + (X 2 * r v 2))) * (((((cn 9 * X 0) * X 0) + ((cn 9 * X 1) * X 1)) + ((cn 9 * X 2) * X 2)) - cn 19))) b
  let b := Shape.fillFrom 8 (15 + 1) 1 (fun v => ((((cn (9/64) * (cn 1 + (X 0 * r v 0))) * (cn 1 - (X 1 * X 1))) * (cn 1 + ((cn 9 * X 1) * r v 1))) * (cn 1 + (X 2 * r v 2)))) b
  let b := Shape.fillFrom 16 (23 + 1) 1 (fun v => ((((cn (9/64) * (cn 1 - (X 0 * X 0))) * (cn 1 + ((cn 9 * X 0) * r v 0))) * (cn 1 + (X 1 * r v 1))) * (cn 1 + (X 2 * r v 2)))) b
  let b := Shape.fillFrom 24 (31 + 1) 1 (fun v => ((((cn (9/64) * (cn 1 + (X 0 * r v 0))) * (cn 1 + (X 1 * r v 1))) * (cn 1 + ((cn 9 * X 2) * r v 2))) * (cn 1 - (X 2 * X 2)))) b
  b

theorem posBasis_expr (x : ℕ → ℝ) (b : ℕ → FNum A) (v : ℕ) (hv : v < 32) :
    posBasis A x b v = (Elem.Hex32.posBasisE v).evalI A (vars x fun d => A.fl (rv v d)) := by
  interval_cases v <;> rfl

/-- `Hex32::physical_position`, elements/elements.cpp:5067-5128. -/
noncomputable def physicalPosition (x : ℕ → ℝ) (V : ℕ → ℕ → ℝ) (b x0 : ℕ → FNum A) : Option (ℕ → FNum A) :=
  accumulateI A numDim numVerts (numVerts + 1) V (posBasis A x b) x0

end Hex32

/-! ## Tess16 -/
namespace Tess16
open Shape.Tess16 (rv numVerts numDim)

/-- `Tess16::basis`, elements/elements.cpp:5988-6003. -/
noncomputable def basis (x : ℕ → ℝ) (b : ℕ → FNum A) : ℕ → FNum A :=
  let r := table A rv
  let X : ℕ → FNum A := fun i => cn (x i)
  let b := Shape.fillFrom 0 numVerts 1 (fun v => ((((cn (1/16) * (cn 1 + (X 0 * r v 0))) * (cn 1 + (X 1 * r v 1))) * (cn 1 + (X 2 * r v 2))) * (cn 1 + (X 3 * r v 3)))) b
  b

theorem basis_expr (x : ℕ → ℝ) (b : ℕ → FNum A) (v : ℕ) (hv : v < 16) :
    basis A x b v = (Elem.Tess16.basisE v).evalI A (vars x fun d => A.fl (rv v d)) := by
  interval_cases v <;> rfl

/-- `Tess16::partial_xi_basis`, elements/elements.cpp:6007-6021. -/
noncomputable def partialXi (x : ℕ → ℝ) (b : ℕ → FNum A) : ℕ → FNum A :=
  let r := table A rv
  let X : ℕ → FNum A := fun i => cn (x i)
  let b := Shape.fillFrom 0 numVerts 1 (fun v => ((((cn (1/16) * r v 0) * (cn 1 + (X 1 * r v 1))) * (cn 1 + (X 2 * r v 2))) * (cn 1 + (X 3 * r v 3)))) b
  b

theorem partialXi_expr (x : ℕ → ℝ) (b : ℕ → FNum A) (v : ℕ) (hv : v < 16) :
    partialXi A x b v = (Elem.Tess16.partialXiE v).evalI A (vars x fun d => A.fl (rv v d)) := by
  interval_cases v <;> rfl

/-- `Tess16::partial_eta_basis`, elements/elements.cpp:6025-6039. -/
noncomputable def partialEta (x : ℕ → ℝ) (b : ℕ → FNum A) : ℕ → FNum A :=
  let r := table A rv
  let X : ℕ → FNum A := fun i => cn (x i)
  let b := Shape.fillFrom 0 numVerts 1 (fun v => ((((cn (1/16) * (cn 1 + (X 0 * r v 0))) * r v 1) * (cn 1 + (X 2 * r v 2))) * (cn 1 + (X 3 * r v 3)))) b
  b

theorem partialEta_expr (x : ℕ → ℝ) (b : ℕ → FNum A) (v : ℕ) (hv : v < 16) :
    partialEta A x b v = (Elem.Tess16.partialEtaE v).evalI A (vars x fun d => A.fl (rv v d)) := by
  interval_cases v <;> rfl

/-- `Tess16::partial_mu_basis`, elements/elements.cpp:6043-6057. -/
noncomputable def partialMu (x : ℕ → ℝ) (b : ℕ → FNum A) : ℕ → FNum A :=
  let r := table A rv
  let X : ℕ → FNum A := fun i => cn (x i)
  let b := Shape.fillFrom 0 numVerts 1 (fun v => ((((cn (1/16) * (cn 1 + (X 0 * r v 0))) * (cn 1 + (X 1 * r v 1))) * r v 2) * (cn 1 + (X 3 * r v 3)))) b
  b

theorem partialMu_expr (x : ℕ → ℝ) (b : ℕ → FNum A) (v : ℕ) (hv : v < 16) :
    partialMu A x b v = (Elem.Tess16.partialMuE v).evalI A (vars x fun d => A.fl (rv v d)) := by
  interval_cases v <;> rfl

/-- `Tess16::partial_tau_basis`, elements/elements.cpp:6061-6075. -/
noncomputable def partialTau (x : ℕ → ℝ) (b : ℕ → FNum A) : ℕ → FNum A :=
  let r := table A rv
  let X : ℕ → FNum A := fun i => cn (x i)
  let b := Shape.fillFrom 0 numVerts 1 (fun v => ((((cn (1/16) * (cn 1 + (X 0 * r v 0))) * (cn 1 + (X 1 * r v 1))) * (cn 1 + (X 2 * r v 2))) * r v 3)) b
  b

theorem partialTau_expr (x : ℕ → ℝ) (b : ℕ → FNum A) (v : ℕ) (hv : v < 16) :
    partialTau A x b v = (Elem.Tess16.partialTauE v).evalI A (vars x fun d => A.fl (rv v d)) := by
  interval_cases v <;> rfl

/-- The shape functions computed by `Tess16::physical_position`, elements/elements.cpp:5954-5984. -/
noncomputable def posBasis (x : ℕ → ℝ) (b : ℕ → FNum A) : ℕ → FNum A :=
  let r := table A rv
  let X : ℕ → FNum A := fun i => cn (x i)
  let b := Shape.fillFrom 0 numVerts 1 (fun v => ((((cn (1/16) * (cn 1 + (X 0 * r v 0))) * (cn 1 + (X 1 * r v 1))) * (cn 1 + (X 2 * r v 2))) * (cn 1 + (X 3 * r v 3)))) b
  b

theorem posBasis_expr (x : ℕ → ℝ) (b : ℕ → FNum A) (v : ℕ) (hv : v < 16) :
    posBasis A x b v = (Elem.Tess16.posBasisE v).evalI A (vars x fun d => A.fl (rv v d)) := by
  interval_cases v <;> rfl

/-- `Tess16::physical_position`, elements/elements.cpp:5954-5984. -/
noncomputable def physicalPosition (x : ℕ → ℝ) (V : ℕ → ℕ → ℝ) (b x0 : ℕ → FNum A) : Option (ℕ → FNum A) :=
  accumulateI A 4 numVerts 16 V (posBasis A x b) x0

end Tess16

end Verif.Fp.ElemI
