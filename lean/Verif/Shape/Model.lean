import Verif.Loop
import Mathlib.Algebra.Field.Basic

/-!
# Model of the fixed-order elements of `elements/elements.cpp`

Generated by `tools/gen_shape.py`, which copies loop bounds, tables and expressions from the C++ text.
`real_t` is an arbitrary field `K`.  Arrays are functions of their indices; `b` (or `s`, `x0`) is the
previous content of the array that the routine fills.
-/

namespace Verif.Shape

variable {K : Type*} [Field K]

/-- `for (int v = start; v < stop; v += step) a(v) = f(v);` -/
def fillFrom (start stop step : ℕ) (f : ℕ → K) (a : ℕ → K) : ℕ → K :=
  loop ((stop - start + (step - 1)) / step) (fun t a => store a (start + step * t) (f (start + step * t))) a

/-- Entry `(v, d)` of a table stored row by row with `dim` columns (`ViewCArray(ref_vert, nv, dim)`). -/
def tableAt (dim : ℕ) (l : List K) (v d : ℕ) : K := l.getD (v * dim + d) 0

/-- The accumulation at the end of every `physical_position` (e.g. elements/elements.cpp:3346-3353):
`x_point(d) = 0` for all `d`, then for `v = 0 .. trips-1`: `x_point(d) += vertices(v,d) * basis(v)`.
`basis` (a stack array) and `vertices` have `nv` rows, so an iteration with `v >= nv` is undefined
behaviour, modelled as `none`. -/
def accumulate (dim nv trips : ℕ) (V : ℕ → ℕ → K) (basis x0 : ℕ → K) : Option (ℕ → K) :=
  loop trips (fun v s => s.bind fun p =>
      if v < nv then some (loop dim (fun d p => store p d (p d + V v d * basis v)) p) else none)
    (some (loop dim (fun d p => store p d 0) x0))

/-- The variant of `Hex20::physical_position`, elements/elements.cpp:4638-4645, with the dimension as
the outer loop. -/
def accumulateDimOuter (dim nv trips : ℕ) (V : ℕ → ℕ → K) (basis x0 : ℕ → K) : Option (ℕ → K) :=
  loop dim (fun d s => loop trips (fun v s => s.bind fun p =>
      if v < nv then some (store p d (p d + V v d * basis v)) else none) s)
    (some (loop dim (fun d p => store p d 0) x0))


/-! ## Quad4 -/
namespace Quad4

/-- `num_verts_`, elements/elements.h. -/
abbrev numVerts : ℕ := 4
/-- `num_dim_`, elements/elements.h. -/
abbrev numDim : ℕ := 2

/-- `ref_vert`, elements/elements.cpp:3296-3303. -/
def rv (v d : ℕ) : K :=
  tableAt numDim [
    -1, -1,
    1, -1,
    1, 1,
    -1, 1] v d

/-- `vert_to_node` as returned by `vert_node_map`, elements/elements.cpp:3305-3311. -/
def vertToNode (v : ℕ) : ℕ :=
  [0, 2, 6, 8].getD v 0

/-- Number of surfaces, elements/elements.cpp:3271-3290. -/
abbrev numSurf : ℕ := 4
/-- Row length of `surface_to_dof_lid`. -/
abbrev surfSize : ℕ := 2

/-- The assignments to `surface_to_dof_lid` in the constructor, in program order,
elements/elements.cpp:3271-3290; `s` is the content of the freshly allocated array. -/
def surfaceToDof (s : ℕ → ℕ → ℕ) : ℕ → ℕ → ℕ :=
  [(0, 0, 0), (0, 1, 1), (1, 0, 3), (1, 1, 2), (2, 0, 0), (2, 1, 3), (3, 0, 1), (3, 1, 2)].foldl
    (fun s t => store2 s t.1 t.2.1 t.2.2) s

/-- `Quad4::basis`, elements/elements.cpp:3359-3374. -/
def basis (x : ℕ → K) (b : ℕ → K) : ℕ → K :=
  let b := fillFrom 0 numVerts 1 (fun v =>
    (1/4) * (1 + x 0*rv v 0) * (1 + x 1*rv v 1)) b
  b

/-- `Quad4::partial_xi_basis`, elements/elements.cpp:3378-3390. -/
def partialXi (x : ℕ → K) (b : ℕ → K) : ℕ → K :=
  let b := fillFrom 0 numVerts 1 (fun v =>
    (1/4) * (rv v 0) * (1 + x 1*rv v 1)) b
  b

/-- `Quad4::partial_eta_basis`, elements/elements.cpp:3394-3406. -/
def partialEta (x : ℕ → K) (b : ℕ → K) : ℕ → K :=
  let b := fillFrom 0 numVerts 1 (fun v =>
    (1/4) * (1 + x 0*rv v 0) * (rv v 1)) b
  b

/-- `Quad4::physical_position`, elements/elements.cpp:3329-3355; `b` is the uninitialised local array,
`x0` the previous content of `x_point`, `V` the `num_verts_` rows of `vertices`. -/
def physicalPosition (x : ℕ → K) (V : ℕ → ℕ → K) (b x0 : ℕ → K) : Option (ℕ → K) :=
  let b := fillFrom 0 numVerts 1 (fun v =>
    1/4 * (1 + x 0*rv v 0) * (1 + x 1*rv v 1)) b
  accumulate numDim numVerts numVerts V b x0

end Quad4


/-! ## Quad8 -/
namespace Quad8

/-- `num_verts_`, elements/elements.h. -/
abbrev numVerts : ℕ := 8
/-- `num_dim_`, elements/elements.h. -/
abbrev numDim : ℕ := 2

/-- `ref_vert`, elements/elements.cpp:3471-3482. -/
def rv (v d : ℕ) : K :=
  tableAt numDim [
    -1, -1,
    1, -1,
    1, 1,
    -1, 1,
    0, -1,
    1, 0,
    0, 1,
    -1, 0] v d

/-- `vert_to_node` as returned by `vert_node_map`, elements/elements.cpp:3484-3494. -/
def vertToNode (v : ℕ) : ℕ :=
  [0, 4, 24, 20, 2, 14, 23, 10].getD v 0

/-- Number of surfaces, elements/elements.cpp:3441-3465. -/
abbrev numSurf : ℕ := 4
/-- Row length of `surface_to_dof_lid`. -/
abbrev surfSize : ℕ := 3

/-- The assignments to `surface_to_dof_lid` in the constructor, in program order,
elements/elements.cpp:3441-3465; `s` is the content of the freshly allocated array. -/
def surfaceToDof (s : ℕ → ℕ → ℕ) : ℕ → ℕ → ℕ :=
  [(0, 0, 0), (0, 1, 4), (0, 2, 1), (1, 0, 3), (1, 1, 6), (1, 2, 2), (2, 0, 0), (2, 1, 7), (2,
   2, 3), (3, 0, 1), (3, 1, 5), (3, 2, 2)].foldl
    (fun s t => store2 s t.1 t.2.1 t.2.2) s

/-- `Quad8::basis`, elements/elements.cpp:3556-3587. -/
def basis (x : ℕ → K) (b : ℕ → K) : ℕ → K :=
  let b := fillFrom 0 4 1 (fun v =>
    (1/4) * (1 + x 0*rv v 0) * (1 + x 1*rv v 1) * (x 0*rv v 0 + x 1*rv v 1 - 1)) b
  let b := fillFrom 4 (6 + 1) 2 (fun v =>
    (1/2) * (1 - x 0*x 0) * (1 + x 1*rv v 1)) b
  let b := fillFrom 5 (7 + 1) 2 (fun v =>
    (1/2) * (1 + x 0*rv v 0) * (1 - x 1*x 1)) b
  b

/-- `Quad8::partial_xi_basis`, elements/elements.cpp:3591-3622. -/
def partialXi (x : ℕ → K) (b : ℕ → K) : ℕ → K :=
  let b := fillFrom 0 4 1 (fun v =>
    1/4 * (rv v 0) * (1 + rv v 1*x 1) *((2 * rv v 0*x 0) + (rv v 1*x 1))) b
  let b := fillFrom 4 (6 + 1) 2 (fun v =>
    -1 * (x 0) * (1 + rv v 1*x 1)) b
  let b := fillFrom 5 (7 + 1) 2 (fun v =>
    1/2 * (rv v 0) * (1 - x 1*x 1)) b
  b

/-- `Quad8::partial_eta_basis`, elements/elements.cpp:3626-3655. -/
def partialEta (x : ℕ → K) (b : ℕ → K) : ℕ → K :=
  let b := fillFrom 0 4 1 (fun v =>
    (1/4) * (1 + rv v 0*x 0) * (rv v 1) *((rv v 0*x 0) + (2 * rv v 1*x 1))) b
  let b := fillFrom 4 (6 + 1) 2 (fun v =>
    (1/2) * (1 - x 0*x 0) * (rv v 1)) b
  let b := fillFrom 5 (7 + 1) 2 (fun v =>
    (-1) * (1 + rv v 0*x 0) * (x 1)) b
  b

/-- `Quad8::physical_position`, elements/elements.cpp:3510-3552; `b` is the uninitialised local array,
`x0` the previous content of `x_point`, `V` the `num_verts_` rows of `vertices`. -/
def physicalPosition (x : ℕ → K) (V : ℕ → ℕ → K) (b x0 : ℕ → K) : Option (ℕ → K) :=
  let b := fillFrom 0 4 1 (fun v =>
    (1/4) * (1 + x 0*rv v 0) * (1 + x 1*rv v 1) * (x 0*rv v 0 + x 1*rv v 1 - 1)) b
  let b := fillFrom 4 (6 + 1) 2 (fun v =>
    (1/2) * (1 - x 0*x 0) * (1 + x 1*rv v 1)) b
  let b := fillFrom 5 (7 + 1) 2 (fun v =>
    (1/2) * (1 + x 0*rv v 0) * (1 - x 1*x 1)) b
  accumulate numDim numVerts numVerts V b x0

end Quad8


/-! ## Quad12 -/
namespace Quad12

/-- `num_verts_`, elements/elements.h. -/
abbrev numVerts : ℕ := 12
/-- `num_dim_`, elements/elements.h. -/
abbrev numDim : ℕ := 2

/-- `ref_vert`, elements/elements.cpp:3722-3739. -/
def rv (v d : ℕ) : K :=
  tableAt numDim [
    -1, -1,
    1, -1,
    1, 1,
    -1, 1,
    -1/3, -1,
    1/3, -1,
    1/3, 1,
    -1/3, 1,
    -1, -1/3,
    1, -1/3,
    1, 1/3,
    -1, 1/3] v d

/-- `vert_to_node` as returned by `vert_node_map`, elements/elements.cpp:3741-3755. -/
def vertToNode (v : ℕ) : ℕ :=
  [0, 6, 48, 42, 2, 4, 46, 44, 14, 20, 34, 28].getD v 0

/-- Number of surfaces, elements/elements.cpp:3689-3716. -/
abbrev numSurf : ℕ := 4
/-- Row length of `surface_to_dof_lid`. -/
abbrev surfSize : ℕ := 4

/-- The assignments to `surface_to_dof_lid` in the constructor, in program order,
elements/elements.cpp:3689-3716; `s` is the content of the freshly allocated array. -/
def surfaceToDof (s : ℕ → ℕ → ℕ) : ℕ → ℕ → ℕ :=
  [(0, 0, 0), (0, 1, 4), (0, 2, 5), (0, 3, 1), (1, 0, 3), (1, 1, 7), (1, 2, 6), (1, 3, 2), (2,
   0, 0), (2, 1, 8), (2, 2, 11), (2, 3, 3), (3, 0, 1), (3, 1, 9), (3, 2, 10), (3, 3, 2)].foldl
    (fun s t => store2 s t.1 t.2.1 t.2.2) s

/-- `Quad12::basis`, elements/elements.cpp:3826-3858. -/
def basis (x : ℕ → K) (b : ℕ → K) : ℕ → K :=
  let b := fillFrom 0 4 1 (fun v =>
    1/32 * (1 + rv v 0 * x 0) * (1 + rv v 1 * x 1) * (9 * (x 0 * x 0 + x 1 * x 1) - (10))) b
  let b := fillFrom 4 (7 + 1) 1 (fun v =>
    9/32 * (1 - x 0 * x 0) * (1 + x 1 * rv v 1) * (1 + 9 * x 0 * rv v 0)) b
  let b := fillFrom 8 (11 + 1) 1 (fun v =>
    9/32 * (1 + x 0 * rv v 0) * (1 - x 1 * x 1) * (1 + 9 * x 1 * rv v 1)) b
  b

/-- `Quad12::partial_xi_basis`, elements/elements.cpp:3862-3895. -/
def partialXi (x : ℕ → K) (b : ℕ → K) : ℕ → K :=
  let b := fillFrom 0 4 1 (fun v =>
    1/32 * (1 + x 1 * rv v 1) *((9 * rv v 0 * (x 0 * x 0 + x 1 * x 1)) + (18 * x 0 * (1 + x 0 *
    rv v 0)) - (10 * rv v 0))) b
  let b := fillFrom 4 8 1 (fun v =>
    (9/32) * (1 + x 1 * rv v 1) *((9 * rv v 0 * (1 - 3 * x 0*x 0)) - (2 * x 0))) b
  let b := fillFrom 8 (11 + 1) 1 (fun v =>
    9/32 * (rv v 0) * (1 - x 1 * x 1) * (1 + 9 * x 1 * rv v 1)) b
  b

/-- `Quad12::partial_eta_basis`, elements/elements.cpp:3899-3931. -/
def partialEta (x : ℕ → K) (b : ℕ → K) : ℕ → K :=
  let b := fillFrom 0 4 1 (fun v =>
    1/32 * (1 + x 0 * rv v 0) *((9 * rv v 1 * (x 0 * x 0 + x 1 * x 1)) + (18 * x 1 * (1 + x 1 *
    rv v 1)) - (10 * rv v 1))) b
  let b := fillFrom 4 (7 + 1) 1 (fun v =>
    9/32 * (1 - x 0 * x 0) * (1 + 9 * x 0 * rv v 0) * (rv v 1)) b
  let b := fillFrom 8 (11 + 1) 1 (fun v =>
    9/32 * (1 + x 0 * rv v 0) *((9 * rv v 1 * (1 - 3 * x 1*x 1)) - (2 * x 1))) b
  b

/-- `Quad12::physical_position`, elements/elements.cpp:3774-3822; `b` is the uninitialised local array,
`x0` the previous content of `x_point`, `V` the `num_verts_` rows of `vertices`. -/
def physicalPosition (x : ℕ → K) (V : ℕ → ℕ → K) (b x0 : ℕ → K) : Option (ℕ → K) :=
  let b := fillFrom 0 4 1 (fun v =>
    1/32 * (1 + rv v 0 * x 0) * (1 + rv v 1 * x 1) * (9 * (x 0 * x 0 + x 1 * x 1) - (10))) b
  let b := fillFrom 4 (7 + 1) 1 (fun v =>
    9/32 * (1 - x 0 * x 0) * (1 + x 1 * rv v 1) * (1 + 9 * x 0 * rv v 0)) b
  let b := fillFrom 8 (11 + 1) 1 (fun v =>
    9/32 * (1 + x 0 * rv v 0) * (1 - x 1 * x 1) * (1 + 9 * x 1 * rv v 1)) b
  accumulate numDim numVerts numVerts V b x0

end Quad12


/-! ## Hex8 -/
namespace Hex8

/-- `num_verts_`, elements/elements.h. -/
abbrev numVerts : ℕ := 8
/-- `num_dim_`, elements/elements.h. -/
abbrev numDim : ℕ := 3

/-- `ref_vert`, elements/elements.cpp:4262-4274. -/
def rv (v d : ℕ) : K :=
  tableAt numDim [
    -1, -1, -1,
    1, -1, -1,
    -1, 1, -1,
    1, 1, -1,
    -1, -1, 1,
    1, -1, 1,
    -1, 1, 1,
    1, 1, 1] v d

/-- `vert_to_node` as returned by `vert_node_map`, elements/elements.cpp:4276-4286. -/
def vertToNode (v : ℕ) : ℕ :=
  [0, 2, 6, 8, 18, 20, 24, 24].getD v 0

/-- Number of surfaces, elements/elements.cpp:4215-4256. -/
abbrev numSurf : ℕ := 6
/-- Row length of `surface_to_dof_lid`. -/
abbrev surfSize : ℕ := 4

/-- The assignments to `surface_to_dof_lid` in the constructor, in program order,
elements/elements.cpp:4215-4256; `s` is the content of the freshly allocated array. -/
def surfaceToDof (s : ℕ → ℕ → ℕ) : ℕ → ℕ → ℕ :=
  [(0, 0, 0), (0, 1, 1), (0, 2, 2), (0, 3, 3), (1, 0, 4), (1, 1, 5), (1, 2, 6), (1, 3, 7), (2,
   0, 0), (2, 1, 1), (2, 2, 4), (2, 3, 5), (3, 0, 2), (3, 1, 3), (3, 2, 6), (3, 3, 7), (4, 0,
   0), (4, 1, 2), (4, 2, 4), (4, 3, 6), (5, 0, 1), (5, 1, 3), (5, 2, 5), (5, 3, 7)].foldl
    (fun s t => store2 s t.1 t.2.1 t.2.2) s

/-- `Hex8::basis`, elements/elements.cpp:4336-4350. -/
def basis (x : ℕ → K) (b : ℕ → K) : ℕ → K :=
  let b := fillFrom 0 numVerts 1 (fun v =>
    1/8 * (1 + x 0*rv v 0) * (1 + x 1*rv v 1) * (1 + x 2*rv v 2)) b
  b

/-- `Hex8::partial_xi_basis`, elements/elements.cpp:4355-4371. -/
def partialXi (x : ℕ → K) (b : ℕ → K) : ℕ → K :=
  let b := fillFrom 0 numVerts 1 (fun v =>
    (1/8) * (rv v 0) * (1 + x 1*rv v 1) * (1 + x 2*rv v 2)) b
  b

/-- `Hex8::partial_eta_basis`, elements/elements.cpp:4375-4388. -/
def partialEta (x : ℕ → K) (b : ℕ → K) : ℕ → K :=
  let b := fillFrom 0 numVerts 1 (fun v =>
    (1/8) * (1 + x 0*rv v 0) * (rv v 1) * (1 + x 2*rv v 2)) b
  b

/-- `Hex8::partial_mu_basis`, elements/elements.cpp:4392-4405. -/
def partialMu (x : ℕ → K) (b : ℕ → K) : ℕ → K :=
  let b := fillFrom 0 numVerts 1 (fun v =>
    (1/8) * (1 + x 0*rv v 0) * (1 + x 1*rv v 1) * (rv v 2)) b
  b

/-- `Hex8::physical_position`, elements/elements.cpp:4303-4332; `b` is the uninitialised local array,
`x0` the previous content of `x_point`, `V` the `num_verts_` rows of `vertices`. -/
def physicalPosition (x : ℕ → K) (V : ℕ → ℕ → K) (b x0 : ℕ → K) : Option (ℕ → K) :=
  let b := fillFrom 0 numVerts 1 (fun v =>
    1/8 * (1 + x 0*rv v 0) * (1 + x 1*rv v 1) * (1 + x 2*rv v 2)) b
  accumulate numDim numVerts numVerts V b x0

end Hex8


/-! ## Hex20 -/
namespace Hex20

/-- `num_verts_`, elements/elements.h. -/
abbrev numVerts : ℕ := 20
/-- `num_dim_`, elements/elements.h. -/
abbrev numDim : ℕ := 3

/-- `ref_vert`, elements/elements.cpp:4524-4552. -/
def rv (v d : ℕ) : K :=
  tableAt numDim [
    -1, -1, -1,
    1, -1, -1,
    1, 1, -1,
    -1, 1, -1,
    -1, -1, 1,
    1, -1, 1,
    1, 1, 1,
    -1, 1, 1,
    0, -1, -1,
    1, 0, -1,
    0, 1, -1,
    -1, 0, -1,
    0, -1, 1,
    1, 0, 1,
    0, 1, 1,
    -1, 0, 1,
    -1, -1, 0,
    1, -1, 0,
    1, 1, 0,
    -1, 1, 0] v d

/-- `vert_to_node` as returned by `vert_node_map`, elements/elements.cpp:4554-4576. -/
def vertToNode (v : ℕ) : ℕ :=
  [0, 4, 24, 20, 100, 104, 124, 120, 2, 14, 22, 10, 102, 114, 122, 110, 50, 54, 74, 70].getD v 0

/-- Number of surfaces, elements/elements.cpp:4453-4518. -/
abbrev numSurf : ℕ := 6
/-- Row length of `surface_to_dof_lid`. -/
abbrev surfSize : ℕ := 8

/-- The assignments to `surface_to_dof_lid` in the constructor, in program order,
elements/elements.cpp:4453-4518; `s` is the content of the freshly allocated array. -/
def surfaceToDof (s : ℕ → ℕ → ℕ) : ℕ → ℕ → ℕ :=
  [(0, 0, 0), (0, 1, 8), (0, 2, 1), (0, 3, 11), (0, 4, 9), (0, 5, 3), (0, 6, 10), (0, 7, 2), (1,
   0, 4), (1, 1, 12), (1, 2, 5), (1, 3, 15), (1, 4, 13), (1, 5, 7), (1, 6, 14), (1, 7, 6), (3,
   0, 0), (3, 1, 8), (3, 2, 1), (3, 3, 16), (3, 4, 17), (3, 5, 4), (3, 6, 12), (3, 7, 5), (3, 0,
   3), (3, 1, 10), (3, 2, 2), (3, 3, 19), (3, 4, 18), (3, 5, 7), (3, 6, 14), (3, 7, 6), (4, 0,
   0), (4, 1, 11), (4, 2, 3), (4, 3, 16), (4, 4, 19), (4, 5, 4), (4, 6, 15), (4, 7, 7), (5, 0,
   1), (5, 1, 9), (5, 2, 2), (5, 3, 17), (5, 4, 18), (5, 5, 5), (5, 6, 13), (5, 7, 6)].foldl
    (fun s t => store2 s t.1 t.2.1 t.2.2) s

/-- `Hex20::basis`, elements/elements.cpp:4651-4692. -/
def basis (x : ℕ → K) (b : ℕ → K) : ℕ → K :=
  let b := fillFrom 0 8 1 (fun v =>
    1/8 * (1 + x 0*rv v 0) * (1 + x 1*rv v 1) * (1 + x 2*rv v 2) * (x 0*rv v 0 + x 1*rv v 1 + x
    2*rv v 2 - 2)) b
  let b := fillFrom 8 (14 + 1) 2 (fun v =>
    1/4 * (1 - x 0*x 0) * (1 + x 1*rv v 1) * (1 + x 2*rv v 2)) b
  let b := fillFrom 16 (19 + 1) 1 (fun v =>
    1/4 * (1 + x 0*rv v 0) * (1 + x 1*rv v 1) * (1 - x 2*x 2)) b
  let b := fillFrom 9 (15 + 1) 2 (fun v =>
    1/4 * (1 + x 0*rv v 0) * (1 - x 1*x 1) * (1 + x 2*rv v 2)) b
  b

/-- `Hex20::partial_xi_basis`, elements/elements.cpp:4697-4739. -/
def partialXi (x : ℕ → K) (b : ℕ → K) : ℕ → K :=
  let b := fillFrom 0 8 1 (fun v =>
    (1/8) * (rv v 0) * (1 + (x 1*rv v 1)) * (1 + (x 2*rv v 2)) * (2 * (x 0*rv v 0) + x 1*rv v 1
    + x 2*rv v 2 - 1)) b
  let b := fillFrom 8 (14 + 1) 2 (fun v =>
    (-1/2) * (x 0) * (1 + x 1*rv v 1) * (1 + x 2*rv v 2)) b
  let b := fillFrom 9 (15 + 1) 2 (fun v =>
    (1/4) * (rv v 0) * (1 + x 1*rv v 1) * (1 - x 2*x 2)) b
  let b := fillFrom 16 (19 + 1) 1 (fun v =>
    (1/4) * (rv v 0) * (1 - x 1*x 1) * (1 + x 2*rv v 2)) b
  b

/-- `Hex20::partial_eta_basis`, elements/elements.cpp:4743-4784. -/
def partialEta (x : ℕ → K) (b : ℕ → K) : ℕ → K :=
  let b := fillFrom 0 8 1 (fun v =>
    (1/8) * (1 + x 0*rv v 0) * (rv v 1) * (1 + x 2*rv v 2) * (x 0*rv v 0 + 2 * x 1*rv v 1 + x
    2*rv v 2 - 1)) b
  let b := fillFrom 8 (14 + 1) 2 (fun v =>
    (1/4) * (1 - (x 0*x 0)) * (rv v 1) * (1 + x 2*rv v 2)) b
  let b := fillFrom 9 (15 + 1) 2 (fun v =>
    (-1/2) * (1 + x 0*rv v 0) * (x 1) * (1 + x 2*rv v 2)) b
  let b := fillFrom 16 (19 + 1) 1 (fun v =>
    (1/4) * (1 + x 0*rv v 0) * (rv v 1) * (1 - (x 2*x 2))) b
  b

/-- `Hex20::partial_mu_basis`, elements/elements.cpp:4788-4829. -/
def partialMu (x : ℕ → K) (b : ℕ → K) : ℕ → K :=
  let b := fillFrom 0 8 1 (fun v =>
    (1/8) * (1 + x 0*rv v 0) * (1 + x 1*rv v 1) * (rv v 2) * ((x 0*rv v 0) + (x 1*rv v 1) + (2 *
    x 2*rv v 2) - 1)) b
  let b := fillFrom 8 (14 + 1) 2 (fun v =>
    (1/4) * (1 - (x 0*x 0)) * (1 + x 1*rv v 1) * (rv v 2)) b
  let b := fillFrom 9 (15 + 1) 2 (fun v =>
    (1/4) * (1 + x 0*rv v 0) * (1 - x 1*x 1) * (rv v 2)) b
  let b := fillFrom 16 (19 + 1) 1 (fun v =>
    (-1/2) * (1 + x 0*rv v 0) * (1 + x 1*rv v 1) * (x 2)) b
  b

/-- `Hex20::physical_position`, elements/elements.cpp:4592-4647; `b` is the uninitialised local array,
`x0` the previous content of `x_point`, `V` the `num_verts_` rows of `vertices`. -/
def physicalPosition (x : ℕ → K) (V : ℕ → ℕ → K) (b x0 : ℕ → K) : Option (ℕ → K) :=
  let b := fillFrom 0 8 1 (fun v =>
    1/8 * (1 + x 0*rv v 0) * (1 + x 1*rv v 1) * (1 + x 2*rv v 2) * (x 0*rv v 0 + x 1*rv v 1 + x
    2*rv v 2 - 2)) b
  let b := fillFrom 8 (14 + 1) 2 (fun v =>
    1/4 * (1 - x 0*x 0) * (1 + x 1*rv v 1) * (1 + x 2*rv v 2)) b
  let b := fillFrom 16 (19 + 1) 1 (fun v =>
    1/4 * (1 + x 0*rv v 0) * (1 + x 1*rv v 1) * (1 - x 2*x 2)) b
  let b := fillFrom 9 (15 + 1) 2 (fun v =>
    1/4 * (1 + x 0*rv v 0) * (1 - x 1*x 1) * (1 + x 2*rv v 2)) b
  accumulateDimOuter numDim numVerts numVerts V b x0

end Hex20


/-! ## Hex32 -/
namespace Hex32

/-- `num_verts_`, elements/elements.h. -/
abbrev numVerts : ℕ := 32
/-- `num_dim_`, elements/elements.h. -/
abbrev numDim : ℕ := 3

/-- `ref_vert`, elements/elements.cpp:4977-5014. -/
def rv (v d : ℕ) : K :=
  tableAt numDim [
    -1, -1, -1,
    1, -1, -1,
    1, 1, -1,
    -1, 1, -1,
    -1, -1, 1,
    1, -1, 1,
    1, 1, 1,
    -1, 1, 1,
    -1, -1/3, -1,
    1, -1/3, -1,
    1, 1/3, -1,
    -1, 1/3, -1,
    -1, -1/3, 1,
    1, -1/3, 1,
    1, 1/3, 1,
    -1, 1/3, 1,
    -1/3, -1, -1,
    1/3, -1, -1,
    1/3, 1, -1,
    -1/3, 1, -1,
    -1/3, -1, 1,
    1/3, -1, 1,
    1/3, 1, 1,
    -1/3, 1, 1,
    -1, -1, -1/3,
    1, -1, -1/3,
    1, 1, -1/3,
    -1, 1, -1/3,
    -1, -1, 1/3,
    1, -1, 1/3,
    1, 1, 1/3,
    -1, 1, 1/3] v d

/-- `vert_to_node` as returned by `vert_node_map`, elements/elements.cpp:5016-5050. -/
def vertToNode (v : ℕ) : ℕ :=
  [0, 6, 48, 42, 294, 300, 342, 336, 14, 20, 32, 28, 308, 314, 328, 322, 2, 4, 46, 44, 296, 298,
   340, 338, 98, 104, 146, 140, 196, 202, 244, 298].getD v 0

/-- Number of surfaces, elements/elements.cpp:4882-4971. -/
abbrev numSurf : ℕ := 6
/-- Row length of `surface_to_dof_lid`. -/
abbrev surfSize : ℕ := 12

/-- The assignments to `surface_to_dof_lid` in the constructor, in program order,
elements/elements.cpp:4882-4971; `s` is the content of the freshly allocated array. -/
def surfaceToDof (s : ℕ → ℕ → ℕ) : ℕ → ℕ → ℕ :=
  [(0, 0, 0), (0, 1, 16), (0, 2, 17), (0, 3, 1), (0, 4, 8), (0, 5, 9), (0, 6, 11), (0, 7, 10),
   (0, 8, 3), (0, 9, 19), (0, 10, 18), (0, 11, 2), (1, 0, 4), (1, 1, 20), (1, 2, 21), (1, 3, 5),
   (1, 4, 12), (1, 5, 13), (1, 6, 15), (1, 7, 14), (1, 8, 7), (1, 9, 23), (1, 10, 22), (1, 11,
   6), (2, 0, 0), (2, 1, 16), (2, 2, 17), (2, 3, 1), (2, 4, 24), (2, 5, 25), (2, 6, 28), (2, 7,
   29), (2, 8, 4), (2, 9, 20), (2, 10, 21), (2, 11, 25), (3, 0, 3), (3, 1, 19), (3, 2, 18), (3,
   3, 2), (3, 4, 27), (3, 5, 26), (3, 6, 31), (3, 7, 30), (3, 8, 7), (3, 9, 23), (3, 10, 22),
   (3, 11, 6), (4, 0, 0), (4, 1, 8), (4, 2, 11), (4, 3, 3), (4, 4, 24), (4, 5, 27), (4, 6, 28),
   (4, 7, 31), (4, 8, 4), (4, 9, 12), (4, 10, 15), (4, 11, 7), (5, 0, 1), (5, 1, 9), (5, 2, 10),
   (5, 3, 2), (5, 4, 25), (5, 5, 26), (5, 6, 29), (5, 7, 30), (5, 8, 5), (5, 9, 13), (5, 10,
   14), (5, 11, 6)].foldl
    (fun s t => store2 s t.1 t.2.1 t.2.2) s

/-- `Hex32::basis`, elements/elements.cpp:5131-5175. -/
def basis (x : ℕ → K) (b : ℕ → K) : ℕ → K :=
  let b := fillFrom 0 8 1 (fun v =>
    (1/64) * (1 + x 0*rv v 0) * (1 + x 1*rv v 1) * (1 + x 2*rv v 2) * (9 * x 0*x 0 + 9 * x 1*x 1
    + 9 * x 2*x 2 - 19)) b
  let b := fillFrom 8 (15 + 1) 1 (fun v =>
    (9/64) * (1 + x 0*rv v 0) * (1 - x 1*x 1) * (1 + 9 * x 1*rv v 1) * (1 + x 2*rv v 2)) b
  let b := fillFrom 16 (23 + 1) 1 (fun v =>
    (9/64) * (1 - x 0*x 0) * (1 + 9 * x 0*rv v 0) * (1 + x 1*rv v 1) * (1 + x 2*rv v 2)) b
  let b := fillFrom 24 numVerts 1 (fun v =>
    (9/64) * (1 + x 0*rv v 0) * (1 + x 1*rv v 1) * (1 + 9 * x 2*rv v 2) * (1 - x 2*x 2)) b
  b

/-- `Hex32::partial_xi_basis`, elements/elements.cpp:5179-5223. -/
def partialXi (x : ℕ → K) (b : ℕ → K) : ℕ → K :=
  let b := fillFrom 0 8 1 (fun v =>
    (1/64) * (1 + x 1 * rv v 1) * (1 + x 2 * rv v 2) *((9 * (rv v 0) * (x 0*x 0 + x 1*x 1 + x
    2*x 2)) + (18 * x 0 * (1 + x 0*rv v 0)) - (19 * rv v 0))) b
  let b := fillFrom 8 (15 + 1) 1 (fun v =>
    (9/64) * (rv v 0) * (1 + x 1 * rv v 1) * (1 + 9 * x 2 * rv v 2) * (1 - x 2 * x 2)) b
  let b := fillFrom 16 (23 + 1) 1 (fun v =>
    (9/64) * (1 + x 1 * rv v 1) * (1 + x 2 * rv v 2) * (9 * rv v 0 * (1 - 3 * x 0 * x 0) - (2 *
    x 0))) b
  let b := fillFrom 24 (31 + 1) 1 (fun v =>
    (9/64) * (rv v 0) * (1 - x 1 * x 1) * (1 + 9 * x 1 * rv v 1) * (1 + x 2 * rv v 2)) b
  b

/-- `Hex32::partial_eta_basis`, elements/elements.cpp:5228-5274. -/
def partialEta (x : ℕ → K) (b : ℕ → K) : ℕ → K :=
  let b := fillFrom 0 8 1 (fun v =>
    (1/64) * (1 + x 0 * rv v 0) * (1 + x 2 * rv v 2) *((9 * rv v 1 * (x 0*x 0 + x 1*x 1 + x 2*x
    2)) + (18 * x 1 * (1 + x 1*rv v 1)) - (19 * rv v 1))) b
  let b := fillFrom 8 (15 + 1) 1 (fun v =>
    (9/64) * (1 + x 0 * rv v 0) * (1 + x 2 * rv v 2) *((9 * rv v 1 * (1 - 3 * x 1 * x 1)) - (2 *
    x 1))) b
  let b := fillFrom 16 (23 + 1) 1 (fun v =>
    (9/64) * (1 - x 0 * x 0) * (1 + 9 * x 0 * rv v 0) * (rv v 1) * (1 + x 2 * rv v 2)) b
  let b := fillFrom 24 (31 + 1) 1 (fun v =>
    (9/64) * (1 + x 0 * rv v 0) * (rv v 1) * (1 + 9 * x 2 * rv v 2) * (1 - x 2 * x 2)) b
  b

/-- `Hex32::partial_mu_basis`, elements/elements.cpp:5279-5327. -/
def partialMu (x : ℕ → K) (b : ℕ → K) : ℕ → K :=
  let b := fillFrom 0 8 1 (fun v =>
    (1/64) * (1 + x 0 * rv v 0) * (1 + x 1 * rv v 1) *((9 * (rv v 2) * (x 0*x 0 + x 1*x 1 + x
    2*x 2)) + (18 * x 2 * (1 + x 2*rv v 2)) - (19 * rv v 2))) b
  let b := fillFrom 8 (15 + 1) 1 (fun v =>
    (9/64) * (1 + x 0 * rv v 0) * (1 - x 1 * x 1) * (1 + 9 * x 1 * rv v 1) * (rv v 2)) b
  let b := fillFrom 16 (23 + 1) 1 (fun v =>
    (9/64) * (1 - x 0 * x 0) * (1 + 9 * x 0 * rv v 0) * (1 + x 1 * rv v 1) * (rv v 2)) b
  let b := fillFrom 24 (31 + 1) 1 (fun v =>
    (9/64) * (1 + x 0 * rv v 0) * (1 + x 1 * rv v 1) *((9 * rv v 2 * (1 - 3 * x 2 * x 2)) - (2 *
    x 2))) b
  b

/-- `Hex32::physical_position`, elements/elements.cpp:5067-5128; `b` is the uninitialised local array,
`x0` the previous content of `x_point`, `V` the `num_verts_` rows of `vertices`. -/
def physicalPosition (x : ℕ → K) (V : ℕ → ℕ → K) (b x0 : ℕ → K) : Option (ℕ → K) :=
  let b := fillFrom 0 8 1 (fun v =>
    (1/64) * (1 + x 0*rv v 0) * (1 + x 1*rv v 1) * (1 + x 2*rv v 2) * (9 * x 0*x 0 + 9 * x 1*x 1
    + 9 * x 2*x 2 - 19)) b
  let b := fillFrom 8 (15 + 1) 1 (fun v =>
    (9/64) * (1 + x 0*rv v 0) * (1 - x 1*x 1) * (1 + 9 * x 1*rv v 1) * (1 + x 2*rv v 2)) b
  let b := fillFrom 16 (23 + 1) 1 (fun v =>
    (9/64) * (1 - x 0*x 0) * (1 + 9 * x 0*rv v 0) * (1 + x 1*rv v 1) * (1 + x 2*rv v 2)) b
  let b := fillFrom 24 (31 + 1) 1 (fun v =>
    (9/64) * (1 + x 0*rv v 0) * (1 + x 1*rv v 1) * (1 + 9 * x 2*rv v 2) * (1 - x 2*x 2)) b
  accumulate numDim numVerts (numVerts + 1) V b x0

end Hex32


/-! ## Tess16 -/
namespace Tess16

/-- `num_verts_`, elements/elements.h. -/
abbrev numVerts : ℕ := 16
/-- `num_dim_`, elements/elements.h. -/
abbrev numDim : ℕ := 4

/-- `ref_vert`, elements/elements.cpp:5928-5950. -/
def rv (v d : ℕ) : K :=
  tableAt numDim [
    -1, -1, -1, -1,
    1, -1, -1, -1,
    1, -1, 1, -1,
    -1, -1, 1, -1,
    -1, 1, -1, -1,
    1, 1, -1, -1,
    1, 1, 1, -1,
    -1, 1, 1, -1,
    -1, -1, -1, 1,
    1, -1, -1, 1,
    1, -1, 1, 1,
    -1, -1, 1, 1,
    -1, 1, -1, 1,
    1, 1, -1, 1,
    1, 1, 1, 1,
    -1, 1, 1, 1] v d

/-- `Tess16::basis`, elements/elements.cpp:5988-6003. -/
def basis (x : ℕ → K) (b : ℕ → K) : ℕ → K :=
  let b := fillFrom 0 numVerts 1 (fun v =>
    1/16 * (1 + x 0*rv v 0) * (1 + x 1*rv v 1) * (1 + x 2*rv v 2) * (1 + x 3*rv v 3)) b
  b

/-- `Tess16::partial_xi_basis`, elements/elements.cpp:6007-6021. -/
def partialXi (x : ℕ → K) (b : ℕ → K) : ℕ → K :=
  let b := fillFrom 0 numVerts 1 (fun v =>
    1/16 * (rv v 0) * (1 + x 1*rv v 1) * (1 + x 2*rv v 2) * (1 + x 3*rv v 3)) b
  b

/-- `Tess16::partial_eta_basis`, elements/elements.cpp:6025-6039. -/
def partialEta (x : ℕ → K) (b : ℕ → K) : ℕ → K :=
  let b := fillFrom 0 numVerts 1 (fun v =>
    1/16 * (1 + x 0*rv v 0) * (rv v 1) * (1 + x 2*rv v 2) * (1 + x 3*rv v 3)) b
  b

/-- `Tess16::partial_mu_basis`, elements/elements.cpp:6043-6057. -/
def partialMu (x : ℕ → K) (b : ℕ → K) : ℕ → K :=
  let b := fillFrom 0 numVerts 1 (fun v =>
    1/16 * (1 + x 0*rv v 0) * (1 + x 1*rv v 1) * (rv v 2) * (1 + x 3*rv v 3)) b
  b

/-- `Tess16::partial_tau_basis`, elements/elements.cpp:6061-6075. -/
def partialTau (x : ℕ → K) (b : ℕ → K) : ℕ → K :=
  let b := fillFrom 0 numVerts 1 (fun v =>
    1/16 * (1 + x 0*rv v 0) * (1 + x 1*rv v 1) * (1 + x 2*rv v 2) * (rv v 3)) b
  b

/-- `Tess16::physical_position`, elements/elements.cpp:5954-5984; `b` is the uninitialised local array,
`x0` the previous content of `x_point`, `V` the `num_verts_` rows of `vertices`. -/
def physicalPosition (x : ℕ → K) (V : ℕ → ℕ → K) (b x0 : ℕ → K) : Option (ℕ → K) :=
  let b := fillFrom 0 numVerts 1 (fun v =>
    1/16 * (1 + x 0*rv v 0) * (1 + x 1*rv v 1) * (1 + x 2*rv v 2) * (1 + x 3*rv v 3)) b
  accumulate 4 numVerts 16 V b x0

end Tess16

end Verif.Shape
