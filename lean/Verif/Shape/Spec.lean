import Verif.Shape.Model
import Mathlib.Algebra.BigOperators.Group.Finset.Basic

/-!
# The element type seen through the common interface

`Kind` plays the role of the class behind an `Element2D`/`Element3D`/`Element4D` pointer
(elements/elements.h:225-330); the functions below are the virtual calls.
-/

namespace Verif.Shape

variable {K : Type*} [Field K]

/-- The fixed-order element classes. -/
inductive Kind
  | quad4 | quad8 | quad12 | hex8 | hex20 | hex32 | tess16
  deriving DecidableEq

/-- `num_dim` of the element class. -/
def Kind.dim : Kind → ℕ
  | .quad4 | .quad8 | .quad12 => 2
  | .hex8 | .hex20 | .hex32 => 3
  | .tess16 => 4

/-- `num_verts()`. -/
def Kind.numVerts : Kind → ℕ
  | .quad4 => Quad4.numVerts | .quad8 => Quad8.numVerts | .quad12 => Quad12.numVerts
  | .hex8 => Hex8.numVerts | .hex20 => Hex20.numVerts | .hex32 => Hex32.numVerts
  | .tess16 => Tess16.numVerts

/-- `ref_locs(v, d)`: reference coordinate `d` of vertex `v`. -/
def Kind.refLoc : Kind → ℕ → ℕ → K
  | .quad4 => Quad4.rv | .quad8 => Quad8.rv | .quad12 => Quad12.rv
  | .hex8 => Hex8.rv | .hex20 => Hex20.rv | .hex32 => Hex32.rv
  | .tess16 => Tess16.rv

/-- `basis(b, x)`: the array `b` after the call. -/
def Kind.basis : Kind → (ℕ → K) → (ℕ → K) → ℕ → K
  | .quad4 => Quad4.basis | .quad8 => Quad8.basis | .quad12 => Quad12.basis
  | .hex8 => Hex8.basis | .hex20 => Hex20.basis | .hex32 => Hex32.basis
  | .tess16 => Tess16.basis

/-- The partial derivative routine of coordinate `d` (`partial_xi_basis` for `d = 0`,
`partial_eta_basis` for `d = 1`, `partial_mu_basis` for `d = 2`, `partial_tau_basis` for `d = 3`); for
a coordinate the class does not have, the array is unchanged. -/
def Kind.partials (k : Kind) (d : ℕ) (x b : ℕ → K) : ℕ → K :=
  match k, d with
  | .quad4, 0 => Quad4.partialXi x b | .quad4, 1 => Quad4.partialEta x b
  | .quad8, 0 => Quad8.partialXi x b | .quad8, 1 => Quad8.partialEta x b
  | .quad12, 0 => Quad12.partialXi x b | .quad12, 1 => Quad12.partialEta x b
  | .hex8, 0 => Hex8.partialXi x b | .hex8, 1 => Hex8.partialEta x b | .hex8, 2 => Hex8.partialMu x b
  | .hex20, 0 => Hex20.partialXi x b | .hex20, 1 => Hex20.partialEta x b
  | .hex20, 2 => Hex20.partialMu x b
  | .hex32, 0 => Hex32.partialXi x b | .hex32, 1 => Hex32.partialEta x b
  | .hex32, 2 => Hex32.partialMu x b
  | .tess16, 0 => Tess16.partialXi x b | .tess16, 1 => Tess16.partialEta x b
  | .tess16, 2 => Tess16.partialMu x b | .tess16, 3 => Tess16.partialTau x b
  | _, _ => b

/-- `physical_position(x_point, xi_point, vertices)`; `none` is undefined behaviour. -/
def Kind.physicalPosition : Kind → (ℕ → K) → (ℕ → ℕ → K) → (ℕ → K) → (ℕ → K) → Option (ℕ → K)
  | .quad4 => Quad4.physicalPosition | .quad8 => Quad8.physicalPosition
  | .quad12 => Quad12.physicalPosition | .hex8 => Hex8.physicalPosition
  | .hex20 => Hex20.physicalPosition | .hex32 => Hex32.physicalPosition
  | .tess16 => Tess16.physicalPosition

end Verif.Shape
