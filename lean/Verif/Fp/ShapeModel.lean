import Verif.Fp.Arith
import Verif.Shape.Model

/-!
# The fixed-order elements in rounded arithmetic

Generated by `tools/gen_fpshape.py` from `Shape/Model.lean`: the same routines of elements/elements.cpp with a rounding after
every addition, subtraction and multiplication, in the order of the source.  The factors (`1.0/4.0`, `9.0/32.0`, ...) are
dyadic, so their division is exact; the tables of reference vertices contain `1./3.`, which is rounded (`table`).
-/

namespace Verif.Fp.Elem
variable (R : Rounding)

/-- Entry `(v, d)` of a table of reference vertices as stored: the quotient is rounded. -/
noncomputable def table (rv : ℕ → ℕ → ℝ) (v d : ℕ) : ℝ := R.fl (rv v d)

/-- The accumulation at the end of every `physical_position` (e.g. elements/elements.cpp:3346-3353), rounded. -/
noncomputable def accumulateR (dim nv trips : ℕ) (V : ℕ → ℕ → ℝ) (basis x0 : ℕ → ℝ) : Option (ℕ → ℝ) :=
  loop trips (fun v s => s.bind fun p =>
      if v < nv then some (loop dim (fun d p => store p d (R.fl (p d + R.fl (V v d * basis v)))) p) else none)
    (some (loop dim (fun d p => store p d 0) x0))

/-- The variant of `Hex20::physical_position`, elements/elements.cpp:4638-4645, rounded. -/
noncomputable def accumulateDimOuterR (dim nv trips : ℕ) (V : ℕ → ℕ → ℝ) (basis x0 : ℕ → ℝ) : Option (ℕ → ℝ) :=
  loop dim (fun d s => loop trips (fun v s => s.bind fun p =>
      if v < nv then some (store p d (R.fl (p d + R.fl (V v d * basis v)))) else none) s)
    (some (loop dim (fun d p => store p d 0) x0))

/-! ## Quad4 -/
namespace Quad4
open Shape.Quad4 (rv numVerts numDim)

/-- `Quad4::basis`, rounded, elements/elements.cpp:3359-3374. -/
noncomputable def basis (x b : ℕ → ℝ) : ℕ → ℝ :=
  let r := table R rv
  let b := Shape.fillFrom 0 numVerts 1 (fun v => R.fl (R.fl ((1/4) * R.fl (1 + R.fl (x 0 * r v 0))) * R.fl (1 + R.fl (x 1 * r v 1)))) b
  b

/-- `Quad4::partial_xi_basis`, rounded, elements/elements.cpp:3378-3390. -/
noncomputable def partialXi (x b : ℕ → ℝ) : ℕ → ℝ :=
  let r := table R rv
  let b := Shape.fillFrom 0 numVerts 1 (fun v => R.fl (R.fl ((1/4) * r v 0) * R.fl (1 + R.fl (x 1 * r v 1)))) b
  b

/-- `Quad4::partial_eta_basis`, rounded, elements/elements.cpp:3394-3406. -/
noncomputable def partialEta (x b : ℕ → ℝ) : ℕ → ℝ :=
  let r := table R rv
  let b := Shape.fillFrom 0 numVerts 1 (fun v => R.fl (R.fl ((1/4) * R.fl (1 + R.fl (x 0 * r v 0))) * r v 1)) b
  b

/-- The shape functions computed by `Quad4::physical_position`, rounded, elements/elements.cpp:3329-3355. -/
noncomputable def posBasis (x b : ℕ → ℝ) : ℕ → ℝ :=
  let r := table R rv
  let b := Shape.fillFrom 0 numVerts 1 (fun v => R.fl (R.fl ((1/4) * R.fl (1 + R.fl (x 0 * r v 0))) * R.fl (1 + R.fl (x 1 * r v 1)))) b
  b

/-- `Quad4::physical_position`, rounded, elements/elements.cpp:3329-3355. -/
noncomputable def physicalPosition (x : ℕ → ℝ) (V : ℕ → ℕ → ℝ) (b x0 : ℕ → ℝ) : Option (ℕ → ℝ) :=
  accumulateR R numDim numVerts numVerts V (posBasis R x b) x0

end Quad4

/-! ## Quad8 -/
namespace Quad8
open Shape.Quad8 (rv numVerts numDim)

/-- `Quad8::basis`, rounded, elements/elements.cpp:3556-3587. -/
noncomputable def basis (x b : ℕ → ℝ) : ℕ → ℝ :=
  let r := table R rv
  let b := Shape.fillFrom 0 4 1 (fun v => R.fl (R.fl (R.fl ((1/4) * R.fl (1 + R.fl (x 0 * r v 0))) * R.fl (1 + R.fl (x 1 * r v 1))) * R.fl (R.fl (R.fl (x 0 * r v 0) + R.fl (x 1 * r v 1)) - 1))) b
  let b := Shape.fillFrom 4 (6 + 1) 2 (fun v => R.fl (R.fl ((1/2) * R.fl (1 - R.fl (x 0 * x 0))) * R.fl (1 + R.fl (x 1 * r v 1)))) b
  let b := Shape.fillFrom 5 (7 + 1) 2 (fun v => R.fl (R.fl ((1/2) * R.fl (1 + R.fl (x 0 * r v 0))) * R.fl (1 - R.fl (x 1 * x 1)))) b
  b

/-- `Quad8::partial_xi_basis`, rounded, elements/elements.cpp:3591-3622. -/
noncomputable def partialXi (x b : ℕ → ℝ) : ℕ → ℝ :=
  let r := table R rv
  let b := Shape.fillFrom 0 4 1 (fun v => R.fl (R.fl (R.fl ((1/4) * r v 0) * R.fl (1 + R.fl (r v 1 * x 1))) * R.fl (R.fl (R.fl (2 * r v 0) * x 0) + R.fl (r v 1 * x 1)))) b
  let b := Shape.fillFrom 4 (6 + 1) 2 (fun v => R.fl (R.fl ((-1) * x 0) * R.fl (1 + R.fl (r v 1 * x 1)))) b
  let b := Shape.fillFrom 5 (7 + 1) 2 (fun v => R.fl (R.fl ((1/2) * r v 0) * R.fl (1 - R.fl (x 1 * x 1)))) b
  b

/-- `Quad8::partial_eta_basis`, rounded, elements/elements.cpp:3626-3655. -/
noncomputable def partialEta (x b : ℕ → ℝ) : ℕ → ℝ :=
  let r := table R rv
  let b := Shape.fillFrom 0 4 1 (fun v => R.fl (R.fl (R.fl ((1/4) * R.fl (1 + R.fl (r v 0 * x 0))) * r v 1) * R.fl (R.fl (r v 0 * x 0) + R.fl (R.fl (2 * r v 1) * x 1)))) b
  let b := Shape.fillFrom 4 (6 + 1) 2 (fun v => R.fl (R.fl ((1/2) * R.fl (1 - R.fl (x 0 * x 0))) * r v 1)) b
  let b := Shape.fillFrom 5 (7 + 1) 2 (fun v => R.fl (R.fl ((-1) * R.fl (1 + R.fl (r v 0 * x 0))) * x 1)) b
  b

/-- The shape functions computed by `Quad8::physical_position`, rounded, elements/elements.cpp:3510-3552. -/
noncomputable def posBasis (x b : ℕ → ℝ) : ℕ → ℝ :=
  let r := table R rv
  let b := Shape.fillFrom 0 4 1 (fun v => R.fl (R.fl (R.fl ((1/4) * R.fl (1 + R.fl (x 0 * r v 0))) * R.fl (1 + R.fl (x 1 * r v 1))) * R.fl (R.fl (R.fl (x 0 * r v 0) + R.fl (x 1 * r v 1)) - 1))) b
  let b := Shape.fillFrom 4 (6 + 1) 2 (fun v => R.fl (R.fl ((1/2) * R.fl (1 - R.fl (x 0 * x 0))) * R.fl (1 + R.fl (x 1 * r v 1)))) b
  let b := Shape.fillFrom 5 (7 + 1) 2 (fun v => R.fl (R.fl ((1/2) * R.fl (1 + R.fl (x 0 * r v 0))) * R.fl (1 - R.fl (x 1 * x 1)))) b
  b

/-- `Quad8::physical_position`, rounded, elements/elements.cpp:3510-3552. -/
noncomputable def physicalPosition (x : ℕ → ℝ) (V : ℕ → ℕ → ℝ) (b x0 : ℕ → ℝ) : Option (ℕ → ℝ) :=
  accumulateR R numDim numVerts numVerts V (posBasis R x b) x0

end Quad8

/-! ## Quad12 -/
namespace Quad12
open Shape.Quad12 (rv numVerts numDim)

/-- `Quad12::basis`, rounded, elements/elements.cpp:3826-3858. -/
noncomputable def basis (x b : ℕ → ℝ) : ℕ → ℝ :=
  let r := table R rv
  let b := Shape.fillFrom 0 4 1 (fun v => R.fl (R.fl (R.fl ((1/32) * R.fl (1 + R.fl (r v 0 * x 0))) * R.fl (1 + R.fl (r v 1 * x 1))) * R.fl (R.fl (9 * R.fl (R.fl (x 0 * x 0) + R.fl (x 1 * x 1))) - 10))) b
  let b := Shape.fillFrom 4 (7 + 1) 1 (fun v => R.fl (R.fl (R.fl ((9/32) * R.fl (1 - R.fl (x 0 * x 0))) * R.fl (1 + R.fl (x 1 * r v 1))) * R.fl (1 + R.fl (R.fl (9 * x 0) * r v 0)))) b
  let b := Shape.fillFrom 8 (11 + 1) 1 (fun v => R.fl (R.fl (R.fl ((9/32) * R.fl (1 + R.fl (x 0 * r v 0))) * R.fl (1 - R.fl (x 1 * x 1))) * R.fl (1 + R.fl (R.fl (9 * x 1) * r v 1)))) b
  b

/-- `Quad12::partial_xi_basis`, rounded, elements/elements.cpp:3862-3895. -/
noncomputable def partialXi (x b : ℕ → ℝ) : ℕ → ℝ :=
  let r := table R rv
  let b := Shape.fillFrom 0 4 1 (fun v => R.fl (R.fl ((1/32) * R.fl (1 + R.fl (x 1 * r v 1))) * R.fl (R.fl (R.fl (R.fl (9 * r v 0) * R.fl (R.fl (x 0 * x 0) + R.fl (x 1 * x 1))) + R.fl (R.fl (18 * x 0) * R.fl (1 + R.fl (x 0 * r v 0)))) - R.fl (10 * r v 0)))) b
  let b := Shape.fillFrom 4 8 1 (fun v => R.fl (R.fl ((9/32) * R.fl (1 + R.fl (x 1 * r v 1))) * R.fl (R.fl (R.fl (9 * r v 0) * R.fl (1 - R.fl (R.fl (3 * x 0) * x 0))) - R.fl (2 * x 0)))) b
  let b := Shape.fillFrom 8 (11 + 1) 1 (fun v => R.fl (R.fl (R.fl ((9/32) * r v 0) * R.fl (1 - R.fl (x 1 * x 1))) * R.fl (1 + R.fl (R.fl (9 * x 1) * r v 1)))) b
  b

/-- `Quad12::partial_eta_basis`, rounded, elements/elements.cpp:3899-3931. -/
noncomputable def partialEta (x b : ℕ → ℝ) : ℕ → ℝ :=
  let r := table R rv
  let b := Shape.fillFrom 0 4 1 (fun v => R.fl (R.fl ((1/32) * R.fl (1 + R.fl (x 0 * r v 0))) * R.fl (R.fl (R.fl (R.fl (9 * r v 1) * R.fl (R.fl (x 0 * x 0) + R.fl (x 1 * x 1))) + R.fl (R.fl (18 * x 1) * R.fl (1 + R.fl (x 1 * r v 1)))) - R.fl (10 * r v 1)))) b
  let b := Shape.fillFrom 4 (7 + 1) 1 (fun v => R.fl (R.fl (R.fl ((9/32) * R.fl (1 - R.fl (x 0 * x 0))) * R.fl (1 + R.fl (R.fl (9 * x 0) * r v 0))) * r v 1)) b
  let b := Shape.fillFrom 8 (11 + 1) 1 (fun v => R.fl (R.fl ((9/32) * R.fl (1 + R.fl (x 0 * r v 0))) * R.fl (R.fl (R.fl (9 * r v 1) * R.fl (1 - R.fl (R.fl (3 * x 1) * x 1))) - R.fl (2 * x 1)))) b
  b

/-- The shape functions computed by `Quad12::physical_position`, rounded, elements/elements.cpp:3774-3822. -/
noncomputable def posBasis (x b : ℕ → ℝ) : ℕ → ℝ :=
  let r := table R rv
  let b := Shape.fillFrom 0 4 1 (fun v => R.fl (R.fl (R.fl ((1/32) * R.fl (1 + R.fl (r v 0 * x 0))) * R.fl (1 + R.fl (r v 1 * x 1))) * R.fl (R.fl (9 * R.fl (R.fl (x 0 * x 0) + R.fl (x 1 * x 1))) - 10))) b
  let b := Shape.fillFrom 4 (7 + 1) 1 (fun v => R.fl (R.fl (R.fl ((9/32) * R.fl (1 - R.fl (x 0 * x 0))) * R.fl (1 + R.fl (x 1 * r v 1))) * R.fl (1 + R.fl (R.fl (9 * x 0) * r v 0)))) b
  let b := Shape.fillFrom 8 (11 + 1) 1 (fun v => R.fl (R.fl (R.fl ((9/32) * R.fl (1 + R.fl (x 0 * r v 0))) * R.fl (1 - R.fl (x 1 * x 1))) * R.fl (1 + R.fl (R.fl (9 * x 1) * r v 1)))) b
  b

/-- `Quad12::physical_position`, rounded, elements/elements.cpp:3774-3822. -/
noncomputable def physicalPosition (x : ℕ → ℝ) (V : ℕ → ℕ → ℝ) (b x0 : ℕ → ℝ) : Option (ℕ → ℝ) :=
  accumulateR R numDim numVerts numVerts V (posBasis R x b) x0

end Quad12

/-! ## Hex8 -/
namespace Hex8
open Shape.Hex8 (rv numVerts numDim)

/-- `Hex8::basis`, rounded, elements/elements.cpp:4336-4350. -/
noncomputable def basis (x b : ℕ → ℝ) : ℕ → ℝ :=
  let r := table R rv
  let b := Shape.fillFrom 0 numVerts 1 (fun v => R.fl (R.fl (R.fl ((1/8) * R.fl (1 + R.fl (x 0 * r v 0))) * R.fl (1 + R.fl (x 1 * r v 1))) * R.fl (1 + R.fl (x 2 * r v 2)))) b
  b

/-- `Hex8::partial_xi_basis`, rounded, elements/elements.cpp:4355-4371. -/
noncomputable def partialXi (x b : ℕ → ℝ) : ℕ → ℝ :=
  let r := table R rv
  let b := Shape.fillFrom 0 numVerts 1 (fun v => R.fl (R.fl (R.fl ((1/8) * r v 0) * R.fl (1 + R.fl (x 1 * r v 1))) * R.fl (1 + R.fl (x 2 * r v 2)))) b
  b

/-- `Hex8::partial_eta_basis`, rounded, elements/elements.cpp:4375-4388. -/
noncomputable def partialEta (x b : ℕ → ℝ) : ℕ → ℝ :=
  let r := table R rv
  let b := Shape.fillFrom 0 numVerts 1 (fun v => R.fl (R.fl (R.fl ((1/8) * R.fl (1 + R.fl (x 0 * r v 0))) * r v 1) * R.fl (1 + R.fl (x 2 * r v 2)))) b
  b

/-- `Hex8::partial_mu_basis`, rounded, elements/elements.cpp:4392-4405. -/
noncomputable def partialMu (x b : ℕ → ℝ) : ℕ → ℝ :=
  let r := table R rv
  let b := Shape.fillFrom 0 numVerts 1 (fun v => R.fl (R.fl (R.fl ((1/8) * R.fl (1 + R.fl (x 0 * r v 0))) * R.fl (1 + R.fl (x 1 * r v 1))) * r v 2)) b
  b

/-- The shape functions computed by `Hex8::physical_position`, rounded, elements/elements.cpp:4303-4332. -/
noncomputable def posBasis (x b : ℕ → ℝ) : ℕ → ℝ :=
  let r := table R rv
  let b := Shape.fillFrom 0 numVerts 1 (fun v => R.fl (R.fl (R.fl ((1/8) * R.fl (1 + R.fl (x 0 * r v 0))) * R.fl (1 + R.fl (x 1 * r v 1))) * R.fl (1 + R.fl (x 2 * r v 2)))) b
  b

/-- `Hex8::physical_position`, rounded, elements/elements.cpp:4303-4332. -/
noncomputable def physicalPosition (x : ℕ → ℝ) (V : ℕ → ℕ → ℝ) (b x0 : ℕ → ℝ) : Option (ℕ → ℝ) :=
  accumulateR R numDim numVerts numVerts V (posBasis R x b) x0

end Hex8

/-! ## Hex20 -/
namespace Hex20
open Shape.Hex20 (rv numVerts numDim)

/-- `Hex20::basis`, rounded, elements/elements.cpp:4651-4692. -/
noncomputable def basis (x b : ℕ → ℝ) : ℕ → ℝ :=
  let r := table R rv
  let b := Shape.fillFrom 0 8 1 (fun v => R.fl (R.fl (R.fl (R.fl ((1/8) * R.fl (1 + R.fl (x 0 * r v 0))) * R.fl (1 + R.fl (x 1 * r v 1))) * R.fl (1 + R.fl (x 2 * r v 2))) * R.fl (R.fl (R.fl (R.fl (x 0 * r v 0) + R.fl (x 1 * r v 1)) + R.fl (x 2 * r v 2)) - 2))) b
  let b := Shape.fillFrom 8 (14 + 1) 2 (fun v => R.fl (R.fl (R.fl ((1/4) * R.fl (1 - R.fl (x 0 * x 0))) * R.fl (1 + R.fl (x 1 * r v 1))) * R.fl (1 + R.fl (x 2 * r v 2)))) b
  let b := Shape.fillFrom 16 (19 + 1) 1 (fun v => R.fl (R.fl (R.fl ((1/4) * R.fl (1 + R.fl (x 0 * r v 0))) * R.fl (1 + R.fl (x 1 * r v 1))) * R.fl (1 - R.fl (x 2 * x 2)))) b
  let b := Shape.fillFrom 9 (15 + 1) 2 (fun v => R.fl (R.fl (R.fl ((1/4) * R.fl (1 + R.fl (x 0 * r v 0))) * R.fl (1 - R.fl (x 1 * x 1))) * R.fl (1 + R.fl (x 2 * r v 2)))) b
  b

/-- `Hex20::partial_xi_basis`, rounded, elements/elements.cpp:4697-4739. -/
noncomputable def partialXi (x b : ℕ → ℝ) : ℕ → ℝ :=
  let r := table R rv
  let b := Shape.fillFrom 0 8 1 (fun v => R.fl (R.fl (R.fl (R.fl ((1/8) * r v 0) * R.fl (1 + R.fl (x 1 * r v 1))) * R.fl (1 + R.fl (x 2 * r v 2))) * R.fl (R.fl (R.fl (R.fl (2 * R.fl (x 0 * r v 0)) + R.fl (x 1 * r v 1)) + R.fl (x 2 * r v 2)) - 1))) b
  let b := Shape.fillFrom 8 (14 + 1) 2 (fun v => R.fl (R.fl (R.fl ((-1/2) * x 0) * R.fl (1 + R.fl (x 1 * r v 1))) * R.fl (1 + R.fl (x 2 * r v 2)))) b
  let b := Shape.fillFrom 9 (15 + 1) 2 (fun v => R.fl (R.fl (R.fl ((1/4) * r v 0) * R.fl (1 + R.fl (x 1 * r v 1))) * R.fl (1 - R.fl (x 2 * x 2)))) b
  let b := Shape.fillFrom 16 (19 + 1) 1 (fun v => R.fl (R.fl (R.fl ((1/4) * r v 0) * R.fl (1 - R.fl (x 1 * x 1))) * R.fl (1 + R.fl (x 2 * r v 2)))) b
  b

/-- `Hex20::partial_eta_basis`, rounded, elements/elements.cpp:4743-4784. -/
noncomputable def partialEta (x b : ℕ → ℝ) : ℕ → ℝ :=
  let r := table R rv
  let b := Shape.fillFrom 0 8 1 (fun v => R.fl (R.fl (R.fl (R.fl ((1/8) * R.fl (1 + R.fl (x 0 * r v 0))) * r v 1) * R.fl (1 + R.fl (x 2 * r v 2))) * R.fl (R.fl (R.fl (R.fl (x 0 * r v 0) + R.fl (R.fl (2 * x 1) * r v 1)) + R.fl (x 2 * r v 2)) - 1))) b
  let b := Shape.fillFrom 8 (14 + 1) 2 (fun v => R.fl (R.fl (R.fl ((1/4) * R.fl (1 - R.fl (x 0 * x 0))) * r v 1) * R.fl (1 + R.fl (x 2 * r v 2)))) b
  let b := Shape.fillFrom 9 (15 + 1) 2 (fun v => R.fl (R.fl (R.fl ((-1/2) * R.fl (1 + R.fl (x 0 * r v 0))) * x 1) * R.fl (1 + R.fl (x 2 * r v 2)))) b
  let b := Shape.fillFrom 16 (19 + 1) 1 (fun v => R.fl (R.fl (R.fl ((1/4) * R.fl (1 + R.fl (x 0 * r v 0))) * r v 1) * R.fl (1 - R.fl (x 2 * x 2)))) b
  b

/-- `Hex20::partial_mu_basis`, rounded, elements/elements.cpp:4788-4829. -/
noncomputable def partialMu (x b : ℕ → ℝ) : ℕ → ℝ :=
  let r := table R rv
  let b := Shape.fillFrom 0 8 1 (fun v => R.fl (R.fl (R.fl (R.fl ((1/8) * R.fl (1 + R.fl (x 0 * r v 0))) * R.fl (1 + R.fl (x 1 * r v 1))) * r v 2) * R.fl (R.fl (R.fl (R.fl (x 0 * r v 0) + R.fl (x 1 * r v 1)) + R.fl (R.fl (2 * x 2) * r v 2)) - 1))) b
  let b := Shape.fillFrom 8 (14 + 1) 2 (fun v => R.fl (R.fl (R.fl ((1/4) * R.fl (1 - R.fl (x 0 * x 0))) * R.fl (1 + R.fl (x 1 * r v 1))) * r v 2)) b
  let b := Shape.fillFrom 9 (15 + 1) 2 (fun v => R.fl (R.fl (R.fl ((1/4) * R.fl (1 + R.fl (x 0 * r v 0))) * R.fl (1 - R.fl (x 1 * x 1))) * r v 2)) b
  let b := Shape.fillFrom 16 (19 + 1) 1 (fun v => R.fl (R.fl (R.fl ((-1/2) * R.fl (1 + R.fl (x 0 * r v 0))) * R.fl (1 + R.fl (x 1 * r v 1))) * x 2)) b
  b

/-- The shape functions computed by `Hex20::physical_position`, rounded, elements/elements.cpp:4592-4647. -/
noncomputable def posBasis (x b : ℕ → ℝ) : ℕ → ℝ :=
  let r := table R rv
  let b := Shape.fillFrom 0 8 1 (fun v => R.fl (R.fl (R.fl (R.fl ((1/8) * R.fl (1 + R.fl (x 0 * r v 0))) * R.fl (1 + R.fl (x 1 * r v 1))) * R.fl (1 + R.fl (x 2 * r v 2))) * R.fl (R.fl (R.fl (R.fl (x 0 * r v 0) + R.fl (x 1 * r v 1)) + R.fl (x 2 * r v 2)) - 2))) b
  let b := Shape.fillFrom 8 (14 + 1) 2 (fun v => R.fl (R.fl (R.fl ((1/4) * R.fl (1 - R.fl (x 0 * x 0))) * R.fl (1 + R.fl (x 1 * r v 1))) * R.fl (1 + R.fl (x 2 * r v 2)))) b
  let b := Shape.fillFrom 16 (19 + 1) 1 (fun v => R.fl (R.fl (R.fl ((1/4) * R.fl (1 + R.fl (x 0 * r v 0))) * R.fl (1 + R.fl (x 1 * r v 1))) * R.fl (1 - R.fl (x 2 * x 2)))) b
  let b := Shape.fillFrom 9 (15 + 1) 2 (fun v => R.fl (R.fl (R.fl ((1/4) * R.fl (1 + R.fl (x 0 * r v 0))) * R.fl (1 - R.fl (x 1 * x 1))) * R.fl (1 + R.fl (x 2 * r v 2)))) b
  b

/-- `Hex20::physical_position`, rounded, elements/elements.cpp:4592-4647. -/
noncomputable def physicalPosition (x : ℕ → ℝ) (V : ℕ → ℕ → ℝ) (b x0 : ℕ → ℝ) : Option (ℕ → ℝ) :=
  accumulateDimOuterR R numDim numVerts numVerts V (posBasis R x b) x0

end Hex20

/-! ## Hex32 -/
namespace Hex32
open Shape.Hex32 (rv numVerts numDim)

/-- `Hex32::basis`, rounded, elements/elements.cpp:5131-5175. -/
noncomputable def basis (x b : ℕ → ℝ) : ℕ → ℝ :=
  let r := table R rv
  let b := Shape.fillFrom 0 8 1 (fun v => R.fl (R.fl (R.fl (R.fl ((1/64) * R.fl (1 + R.fl (x 0 * r v 0))) * R.fl (1 + R.fl (x 1 * r v 1))) * R.fl (1 + R.fl (x 2 * r v 2))) * R.fl (R.fl (R.fl (R.fl (R.fl (9 * x 0) * x 0) + R.fl (R.fl (9 * x 1) * x 1)) + R.fl (R.fl (9 * x 2) * x 2)) - 19))) b
  let b := Shape.fillFrom 8 (15 + 1) 1 (fun v => R.fl (R.fl (R.fl (R.fl ((9/64) * R.fl (1 + R.fl (x 0 * r v 0))) * R.fl (1 - R.fl (x 1 * x 1))) * R.fl (1 + R.fl (R.fl (9 * x 1) * r v 1))) * R.fl (1 + R.fl (x 2 * r v 2)))) b
  let b := Shape.fillFrom 16 (23 + 1) 1 (fun v => R.fl (R.fl (R.fl (R.fl ((9/64) * R.fl (1 - R.fl (x 0 * x 0))) * R.fl (1 + R.fl (R.fl (9 * x 0) * r v 0))) * R.fl (1 + R.fl (x 1 * r v 1))) * R.fl (1 + R.fl (x 2 * r v 2)))) b
  let b := Shape.fillFrom 24 numVerts 1 (fun v => R.fl (R.fl (R.fl (R.fl ((9/64) * R.fl (1 + R.fl (x 0 * r v 0))) * R.fl (1 + R.fl (x 1 * r v 1))) * R.fl (1 + R.fl (R.fl (9 * x 2) * r v 2))) * R.fl (1 - R.fl (x 2 * x 2)))) b
  b

/-- `Hex32::partial_xi_basis`, rounded, elements/elements.cpp:5179-5223. -/
noncomputable def partialXi (x b : ℕ → ℝ) : ℕ → ℝ :=
  let r := table R rv
  let b := Shape.fillFrom 0 8 1 (fun v => R.fl (R.fl (R.fl ((1/64) * R.fl (1 + R.fl (x 1 * r v 1))) * R.fl (1 + R.fl (x 2 * r v 2))) * R.fl (R.fl (R.fl (R.fl (9 * r v 0) * R.fl (R.fl (R.fl (x 0 * x 0) + R.fl (x 1 * x 1)) + R.fl (x 2 * x 2))) + R.fl (R.fl (18 * x 0) * R.fl (1 + R.fl (x 0 * r v 0)))) - R.fl (19 * r v 0)))) b
  let b := Shape.fillFrom 8 (15 + 1) 1 (fun v => R.fl (R.fl (R.fl (R.fl ((9/64) * r v 0) * R.fl (1 + R.fl (x 1 * r v 1))) * R.fl (1 + R.fl (R.fl (9 * x 2) * r v 2))) * R.fl (1 - R.fl (x 2 * x 2)))) b
  let b := Shape.fillFrom 16 (23 + 1) 1 (fun v => R.fl (R.fl (R.fl ((9/64) * R.fl (1 + R.fl (x 1 * r v 1))) * R.fl (1 + R.fl (x 2 * r v 2))) * R.fl (R.fl (R.fl (9 * r v 0) * R.fl (1 - R.fl (R.fl (3 * x 0) * x 0))) - R.fl (2 * x 0)))) b
  let b := Shape.fillFrom 24 (31 + 1) 1 (fun v => R.fl (R.fl (R.fl (R.fl ((9/64) * r v 0) * R.fl (1 - R.fl (x 1 * x 1))) * R.fl (1 + R.fl (R.fl (9 * x 1) * r v 1))) * R.fl (1 + R.fl (x 2 * r v 2)))) b
  b

/-- `Hex32::partial_eta_basis`, rounded, elements/elements.cpp:5228-5274. -/
noncomputable def partialEta (x b : ℕ → ℝ) : ℕ → ℝ :=
  let r := table R rv
  let b := Shape.fillFrom 0 8 1 (fun v => R.fl (R.fl (R.fl ((1/64) * R.fl (1 + R.fl (x 0 * r v 0))) * R.fl (1 + R.fl (x 2 * r v 2))) * R.fl (R.fl (R.fl (R.fl (9 * r v 1) * R.fl (R.fl (R.fl (x 0 * x 0) + R.fl (x 1 * x 1)) + R.fl (x 2 * x 2))) + R.fl (R.fl (18 * x 1) * R.fl (1 + R.fl (x 1 * r v 1)))) - R.fl (19 * r v 1)))) b
  let b := Shape.fillFrom 8 (15 + 1) 1 (fun v => R.fl (R.fl (R.fl ((9/64) * R.fl (1 + R.fl (x 0 * r v 0))) * R.fl (1 + R.fl (x 2 * r v 2))) * R.fl (R.fl (R.fl (9 * r v 1) * R.fl (1 - R.fl (R.fl (3 * x 1) * x 1))) - R.fl (2 * x 1)))) b
  let b := Shape.fillFrom 16 (23 + 1) 1 (fun v => R.fl (R.fl (R.fl (R.fl ((9/64) * R.fl (1 - R.fl (x 0 * x 0))) * R.fl (1 + R.fl (R.fl (9 * x 0) * r v 0))) * r v 1) * R.fl (1 + R.fl (x 2 * r v 2)))) b
  let b := Shape.fillFrom 24 (31 + 1) 1 (fun v => R.fl (R.fl (R.fl (R.fl ((9/64) * R.fl (1 + R.fl (x 0 * r v 0))) * r v 1) * R.fl (1 + R.fl (R.fl (9 * x 2) * r v 2))) * R.fl (1 - R.fl (x 2 * x 2)))) b
  b

/-- `Hex32::partial_mu_basis`, rounded, elements/elements.cpp:5279-5327. -/
noncomputable def partialMu (x b : ℕ → ℝ) : ℕ → ℝ :=
  let r := table R rv
  let b := Shape.fillFrom 0 8 1 (fun v => R.fl (R.fl (R.fl ((1/64) * R.fl (1 + R.fl (x 0 * r v 0))) * R.fl (1 + R.fl (x 1 * r v 1))) * R.fl (R.fl (R.fl (R.fl (9 * r v 2) * R.fl (R.fl (R.fl (x 0 * x 0) + R.fl (x 1 * x 1)) + R.fl (x 2 * x 2))) + R.fl (R.fl (18 * x 2) * R.fl (1 + R.fl (x 2 * r v 2)))) - R.fl (19 * r v 2)))) b
  let b := Shape.fillFrom 8 (15 + 1) 1 (fun v => R.fl (R.fl (R.fl (R.fl ((9/64) * R.fl (1 + R.fl (x 0 * r v 0))) * R.fl (1 - R.fl (x 1 * x 1))) * R.fl (1 + R.fl (R.fl (9 * x 1) * r v 1))) * r v 2)) b
  let b := Shape.fillFrom 16 (23 + 1) 1 (fun v => R.fl (R.fl (R.fl (R.fl ((9/64) * R.fl (1 - R.fl (x 0 * x 0))) * R.fl (1 + R.fl (R.fl (9 * x 0) * r v 0))) * R.fl (1 + R.fl (x 1 * r v 1))) * r v 2)) b
  let b := Shape.fillFrom 24 (31 + 1) 1 (fun v => R.fl (R.fl (R.fl ((9/64) * R.fl (1 + R.fl (x 0 * r v 0))) * R.fl (1 + R.fl (x 1 * r v 1))) * R.fl (R.fl (R.fl (9 * r v 2) * R.fl (1 - R.fl (R.fl (3 * x 2) * x 2))) - R.fl (2 * x 2)))) b
  b

/-- The shape functions computed by `Hex32::physical_position`, rounded, elements/elements.cpp:5067-5128. -/
noncomputable def posBasis (x b : ℕ → ℝ) : ℕ → ℝ :=
  let r := table R rv
  let b := Shape.fillFrom 0 8 1 (fun v => R.fl (R.fl (R.fl (R.fl ((1/64) * R.fl (1 + R.fl (x 0 * r v 0))) * R.fl (1 + R.fl (x 1 * r v 1))) * R.fl (1 + R.fl (x 2 * r v 2))) * R.fl (R.fl (R.fl (R.fl (R.fl (9 * x 0) * x 0) + R.fl (R.fl (9 * x 1) * x 1)) + R.fl (R.fl (9 * x 2) * x 2)) - 19))) b
  let b := Shape.fillFrom 8 (15 + 1) 1 (fun v => R.fl (R.fl (R.fl (R.fl ((9/64) * R.fl (1 + R.fl (x 0 * r v 0))) * R.fl (1 - R.fl (x 1 * x 1))) * R.fl (1 + R.fl (R.fl (9 * x 1) * r v 1))) * R.fl (1 + R.fl (x 2 * r v 2)))) b
  let b := Shape.fillFrom 16 (23 + 1) 1 (fun v => R.fl (R.fl (R.fl (R.fl ((9/64) * R.fl (1 - R.fl (x 0 * x 0))) * R.fl (1 + R.fl (R.fl (9 * x 0) * r v 0))) * R.fl (1 + R.fl (x 1 * r v 1))) * R.fl (1 + R.fl (x 2 * r v 2)))) b
  let b := Shape.fillFrom 24 (31 + 1) 1 (fun v => R.fl (R.fl (R.fl (R.fl ((9/64) * R.fl (1 + R.fl (x 0 * r v 0))) * R.fl (1 + R.fl (x 1 * r v 1))) * R.fl (1 + R.fl (R.fl (9 * x 2) * r v 2))) * R.fl (1 - R.fl (x 2 * x 2)))) b
  b

/-- `Hex32::physical_position`, rounded, elements/elements.cpp:5067-5128. -/
noncomputable def physicalPosition (x : ℕ → ℝ) (V : ℕ → ℕ → ℝ) (b x0 : ℕ → ℝ) : Option (ℕ → ℝ) :=
  accumulateR R numDim numVerts (numVerts + 1) V (posBasis R x b) x0

end Hex32

/-! ## Tess16 -/
namespace Tess16
open Shape.Tess16 (rv numVerts numDim)

/-- `Tess16::basis`, rounded, elements/elements.cpp:5988-6003. -/
noncomputable def basis (x b : ℕ → ℝ) : ℕ → ℝ :=
  let r := table R rv
  let b := Shape.fillFrom 0 numVerts 1 (fun v => R.fl (R.fl (R.fl (R.fl ((1/16) * R.fl (1 + R.fl (x 0 * r v 0))) * R.fl (1 + R.fl (x 1 * r v 1))) * R.fl (1 + R.fl (x 2 * r v 2))) * R.fl (1 + R.fl (x 3 * r v 3)))) b
  b

/-- `Tess16::partial_xi_basis`, rounded, elements/elements.cpp:6007-6021. -/
noncomputable def partialXi (x b : ℕ → ℝ) : ℕ → ℝ :=
  let r := table R rv
  let b := Shape.fillFrom 0 numVerts 1 (fun v => R.fl (R.fl (R.fl (R.fl ((1/16) * r v 0) * R.fl (1 + R.fl (x 1 * r v 1))) * R.fl (1 + R.fl (x 2 * r v 2))) * R.fl (1 + R.fl (x 3 * r v 3)))) b
  b

/-- `Tess16::partial_eta_basis`, rounded, elements/elements.cpp:6025-6039. -/
noncomputable def partialEta (x b : ℕ → ℝ) : ℕ → ℝ :=
  let r := table R rv
  let b := Shape.fillFrom 0 numVerts 1 (fun v => R.fl (R.fl (R.fl (R.fl ((1/16) * R.fl (1 + R.fl (x 0 * r v 0))) * r v 1) * R.fl (1 + R.fl (x 2 * r v 2))) * R.fl (1 + R.fl (x 3 * r v 3)))) b
  b

/-- `Tess16::partial_mu_basis`, rounded, elements/elements.cpp:6043-6057. -/
noncomputable def partialMu (x b : ℕ → ℝ) : ℕ → ℝ :=
  let r := table R rv
  let b := Shape.fillFrom 0 numVerts 1 (fun v => R.fl (R.fl (R.fl (R.fl ((1/16) * R.fl (1 + R.fl (x 0 * r v 0))) * R.fl (1 + R.fl (x 1 * r v 1))) * r v 2) * R.fl (1 + R.fl (x 3 * r v 3)))) b
  b

/-- `Tess16::partial_tau_basis`, rounded, elements/elements.cpp:6061-6075. -/
noncomputable def partialTau (x b : ℕ → ℝ) : ℕ → ℝ :=
  let r := table R rv
  let b := Shape.fillFrom 0 numVerts 1 (fun v => R.fl (R.fl (R.fl (R.fl ((1/16) * R.fl (1 + R.fl (x 0 * r v 0))) * R.fl (1 + R.fl (x 1 * r v 1))) * R.fl (1 + R.fl (x 2 * r v 2))) * r v 3)) b
  b

/-- The shape functions computed by `Tess16::physical_position`, rounded, elements/elements.cpp:5954-5984. -/
noncomputable def posBasis (x b : ℕ → ℝ) : ℕ → ℝ :=
  let r := table R rv
  let b := Shape.fillFrom 0 numVerts 1 (fun v => R.fl (R.fl (R.fl (R.fl ((1/16) * R.fl (1 + R.fl (x 0 * r v 0))) * R.fl (1 + R.fl (x 1 * r v 1))) * R.fl (1 + R.fl (x 2 * r v 2))) * R.fl (1 + R.fl (x 3 * r v 3)))) b
  b

/-- `Tess16::physical_position`, rounded, elements/elements.cpp:5954-5984. -/
noncomputable def physicalPosition (x : ℕ → ℝ) (V : ℕ → ℕ → ℝ) (b x0 : ℕ → ℝ) : Option (ℕ → ℝ) :=
  accumulateR R 4 numVerts 16 V (posBasis R x b) x0

end Tess16

end Verif.Fp.Elem
