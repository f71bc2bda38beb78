import Verif.Swage.Refine
import Verif.Swage.Elem

/-!
# Model of the quadrature-point state of several meshes

The class `mesh_t` keeps, for the Gauss points of its elements, for the quadrature points on its patches and for those in its cells,
a Jacobian matrix, its inverse and its determinant.  `swage.cpp` also defines a global object `mesh`, and
`mesh_t::build_patch_connectivity` calls `mesh.init_gauss_patch_pts()` and `mesh.init_gauss_cell_pts()` on that object
(swage/swage.cpp:1642-1643), whatever mesh it is called for.  So the model has a world of meshes, one of them the global one, and the
operations name the mesh they are called for.

Simplifications: only the fields that matter here are kept (the topological part of `build_patch_connectivity` is modelled in
`Swage/Patch.lean`, `Swage/PatchKey.lean`, and does not touch them); indeterminate values of a new object are arbitrary values of its record; a
refinement is the sequence of its calls that touch these fields; `int` overflow is not modelled.
-/

namespace Verif.Swage.World
open Verif.Swage

variable {K : Type} {ι : Type} [DecidableEq ι]

/-- `gauss_*_jacobian_`, `gauss_*_jacobian_inverse_`, `gauss_*_det_j_`, swage/swage.h:228-238. -/
structure PtState (K : Type) where
  /-- Jacobian matrices, `CArray (n, 3, 3)` -/
  jac : Arr K
  /-- inverse matrices -/
  inv : Arr K
  /-- determinants -/
  det : Arr K

/-- Initial contents of newly allocated arrays. -/
structure Junk (K : Type) where
  /-- of the matrices -/
  jac : ℕ → K
  /-- of the inverse matrices -/
  inv : ℕ → K
  /-- of the determinants -/
  det : ℕ → K

/-- The fields of a `mesh_t` concerned, swage/swage.h:116-178, 228-238. -/
structure Mesh (K : Type) where
  /-- `elem_order_` -/
  order : ℕ
  /-- `num_elem_` -/
  numElem : ℕ
  /-- `num_g_pts_in_elem_` -/
  gInElem : ℕ
  /-- `num_g_patch_pts_in_elem_` -/
  patchPtsInElem : ℕ
  /-- `num_cells_` -/
  numCells : ℕ
  /-- `num_g_pts_`, read by `num_gauss_pts()` -/
  numG : ℕ
  /-- `num_g_patch_pts_`, read by `num_gauss_patch_pts()` -/
  numGPatch : ℕ
  /-- `num_g_cell_pts_`, read by `num_gauss_cell_pts()` -/
  numGCell : ℕ
  /-- `node_in_gauss_list_` -/
  nig : Arr ℤ
  /-- Gauss points -/
  pt : PtState K
  /-- quadrature points of the patches -/
  patchPt : PtState K
  /-- quadrature points of the cells -/
  cellPt : PtState K

/-- Allocation for `n` points with `num_dim_ = 3`, swage/swage.cpp:502-504, 518-520, 532-534. -/
def alloc (n : ℕ) (q : Junk K) : PtState K := ⟨⟨n * 3 * 3, q.jac⟩, ⟨n * 3 * 3, q.inv⟩, ⟨n, q.det⟩⟩

/-- `mesh_t::init_element`, swage/swage.cpp:364-430. -/
def initElement (p dim E : ℕ) (m : Mesh K) : Mesh K :=
  let c := Refine.initElement p dim E
  { m with order := p, numElem := c.numElem, gInElem := c.gPts, patchPtsInElem := c.patches, numCells := c.numCells }

/-- `mesh_t::init_cells`, swage/swage.cpp:440-456. -/
def initCells (n : ℕ) (m : Mesh K) : Mesh K := { m with numCells := n }

/-- `mesh_t::init_gauss_pts`, swage/swage.cpp:492-506. -/
def initGauss (qn : ℕ → ℤ) (q : Junk K) (m : Mesh K) : Mesh K :=
  { m with numG := m.numElem * m.gInElem, nig := ⟨m.numElem * m.gInElem, qn⟩, pt := alloc (m.numElem * m.gInElem) q }

/-- `mesh_t::init_gauss_patch_pts`, swage/swage.cpp:509-522. -/
def initGaussPatch (q : Junk K) (m : Mesh K) : Mesh K :=
  { m with numGPatch := m.numElem * m.patchPtsInElem, patchPt := alloc (m.numElem * m.patchPtsInElem) q }

/-- `mesh_t::init_gauss_cell_pts`, swage/swage.cpp:527-534. -/
def initGaussCell (q : Junk K) (m : Mesh K) : Mesh K := { m with cellPt := alloc m.numCells q }

/-- Replacing one mesh of the world. -/
def upd (w : ι → Mesh K) (a : ι) (f : Mesh K → Mesh K) : ι → Mesh K := fun b => if b = a then f (w a) else w b

/-- `build_patch_connectivity()` called for mesh `a`, swage/swage.cpp:1360-1645: the state of the global mesh `g` is allocated
(1642-1643). -/
def buildPatch (g _a : ι) (qp qc : Junk K) (w : ι → Mesh K) : ι → Mesh K :=
  upd (upd w g (initGaussPatch qp)) g (initGaussCell qc)

/-- Initial contents of the arrays allocated by a refinement. -/
structure RJunk (K : Type) where
  /-- of `node_in_gauss_list_` -/
  nig : ℕ → ℤ
  /-- of the state of the Gauss points -/
  pt : Junk K
  /-- of the state of the patch points -/
  patchPt : Junk K
  /-- of the state of the cell points -/
  cellPt : Junk K

/-- `refine_mesh(init_mesh, a, p, 3)` of a mesh with `E` cells (swage/swage.cpp:2088-2090, 2501) and
`refine_high_order_mesh(input, a)` of a mesh with `E` elements of order `p` (swage/refine_high_order_mesh.cpp:27-29, 367): the calls that
touch the state; `build_connectivity` (swage/swage.cpp:1076-1093) calls `build_patch_connectivity`. -/
def refine (g a : ι) (p E : ℕ) (q : RJunk K) (w : ι → Mesh K) : ι → Mesh K :=
  buildPatch g a q.patchPt q.cellPt
    (upd (upd (upd w a (initElement p 3 E)) a (initCells (E * Refine.sub1d p ^ 3))) a (initGauss q.nig q.pt))

/-- Which of the three families of points. -/
inductive Kind | gauss | patch | cell

/-- Which of the three arrays. -/
inductive Part | jac | inv | det

/-- The family of points of a mesh. -/
def Mesh.state (m : Mesh K) : Kind → PtState K
  | .gauss => m.pt | .patch => m.patchPt | .cell => m.cellPt

/-- The array of a family. -/
def PtState.arr (s : PtState K) : Part → Arr K
  | .jac => s.jac | .inv => s.inv | .det => s.det

/-- Position in the array: MATAR's `CArray (i, j, k)` is row-major; for the determinants `i`, `j` are not used. -/
def slot (r : Part) (pt i j : ℕ) : ℕ := match r with
  | .det => pt | _ => pt * 3 * 3 + i * 3 + j

/-- Valid matrix indices. -/
def okIJ (r : Part) (i j : ℕ) : Prop := match r with
  | .det => i = 0 ∧ j = 0 | _ => i < 3 ∧ j < 3

instance (r : Part) (i j : ℕ) : Decidable (okIJ r i j) := by cases r <;> unfold okIJ <;> infer_instance

/-- Reading through `gauss_pt_jacobian (pt, i, j)`, `gauss_patch_pt_det_j (pt)`, ..., swage/swage.cpp:983-1036. -/
def read (m : Mesh K) (k : Kind) (r : Part) (pt i j : ℕ) : Option K :=
  if okIJ r i j then ((m.state k).arr r).get (slot r pt i j) else none

/-- Replacing an array of a family. -/
def PtState.put (s : PtState K) (r : Part) (a : Arr K) : PtState K := match r with
  | .jac => { s with jac := a } | .inv => { s with inv := a } | .det => { s with det := a }

/-- Replacing a family of a mesh. -/
def Mesh.put (m : Mesh K) (k : Kind) (s : PtState K) : Mesh K := match k with
  | .gauss => { m with pt := s } | .patch => { m with patchPt := s } | .cell => { m with cellPt := s }

/-- Writing through the same accessors (they return references), swage/swage.cpp:983-1036. -/
def write (m : Mesh K) (k : Kind) (r : Part) (pt i j : ℕ) (v : K) : Option (Mesh K) :=
  if okIJ r i j then (((m.state k).arr r).set (slot r pt i j) v).map fun a => m.put k ((m.state k).put r a) else none

/-- What a program may do with the meshes. -/
inductive Op (K ι : Type)
  | element (a : ι) (p dim E : ℕ)
  | cells (a : ι) (n : ℕ)
  | gauss (a : ι) (qn : ℕ → ℤ) (q : Junk K)
  | gaussPatch (a : ι) (q : Junk K)
  | gaussCell (a : ι) (q : Junk K)
  | patches (a : ι) (qp qc : Junk K)
  | refine (a : ι) (p E : ℕ) (q : RJunk K)
  | write (a : ι) (k : Kind) (r : Part) (pt i j : ℕ) (v : K)

/-- The mesh an operation is called for. -/
def Op.target : Op K ι → ι
  | .element a _ _ _ => a | .cells a _ => a | .gauss a _ _ => a | .gaussPatch a _ => a | .gaussCell a _ => a
  | .patches a _ _ => a | .refine a _ _ _ => a | .write a _ _ _ _ _ _ => a

/-- Effect of an operation. -/
def Op.run (g : ι) : Op K ι → (ι → Mesh K) → Option (ι → Mesh K)
  | .element a p dim E, w => some (upd w a (initElement p dim E))
  | .cells a n, w => some (upd w a (initCells n))
  | .gauss a qn q, w => some (upd w a (initGauss qn q))
  | .gaussPatch a q, w => some (upd w a (initGaussPatch q))
  | .gaussCell a q, w => some (upd w a (initGaussCell q))
  | .patches a qp qc, w => some (buildPatch g a qp qc w)
  | .refine a p E q, w => some (World.refine g a p E q w)
  | .write a k r pt i j v, w => (World.write (w a) k r pt i j v).map fun m => upd w a fun _ => m

/-- A history. -/
def runAll (g : ι) : List (Op K ι) → (ι → Mesh K) → Option (ι → Mesh K)
  | [], w => some w
  | o :: l, w => (o.run g w).bind (runAll g l)

end Verif.Swage.World
