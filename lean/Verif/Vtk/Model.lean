import Verif.Mem
import Verif.Common.Model
import Verif.Swage.Refine

/-!
# Model of io/vtk_io.cpp: vertex maps, `init_swage_mesh`, `init_vtk_grid`

VTK itself is not in the repository: `PointIndexFromIJK` of an element of a given order is a parameter, `vtkPoints`, `vtkIdList`,
`vtkCellArray` and `vtkDoubleArray` are arrays with bounds.  `int` is unbounded except inside the mixed-radix conversion, which is the
64-bit model of `common`; `double` is `ℝ`.  `vtkNew<vtkPoints>` holds single-precision numbers unless told otherwise: the rounding to what
the point array holds is a parameter `fl : ℝ → ℝ`.  An access outside an array is `none`; freshly allocated contents are arguments `j…`.
`read_grid` and `write_grid` are in `Verif.Vtk.File`.
-/

namespace Verif.Vtk
open Verif.Common

/-- `hex->PointIndexFromIJK(I, J, K)` after `SetOrder(p, p, p)`: a function of `p`, `I`, `J`, `K`. -/
abbrev PointIndex := ℕ → ℕ → ℕ → ℕ → ℕ

/-- `swage_vert_id`, vtk_io.cpp:19-30: the mixed-radix number of `(I, J, K)`, all radices `n`. -/
def swageId (n I J K : ℕ) : ℕ :=
  (mixedRadixToBase10 [UInt64.ofNat n, UInt64.ofNat n, UInt64.ofNat n] [UInt64.ofNat I, UInt64.ofNat J, UInt64.ofNat K]).toNat

/-- `make_vtk_vert_map`, vtk_io.cpp:9-42. -/
def makeMap (V : PointIndex) (p : ℕ) (reverse : Bool) (map : Arr ℕ) : Option (Arr ℕ) :=
  loopM (p + 1) (fun I => loopM (p + 1) fun J => loopM (p + 1) fun K map =>
    if reverse then map.set (V p I J K) (swageId (p + 1) I J K) else map.set (swageId (p + 1) I J K) (V p I J K)) map

/-- The part of `swage::mesh_t` used here: nodes with their coordinates (row-major, three columns), elements with their nodes (row-major,
`stride` columns). -/
structure Mesh where
  order : ℕ
  numNodes : ℕ
  coords : Arr ℝ
  numElems : ℕ
  stride : ℕ
  nodesInElem : Arr ℕ

/-- The unstructured grid of VTK: points, cells with their types and point ids, scalar point data. -/
structure Grid where
  pts : Arr (ℝ × ℝ × ℝ)
  cells : List (Arr ℕ)
  types : List ℕ
  sol : Arr ℝ

/-- The cell types of VTK, from vtkCellType.h. -/
def VTK_LAGRANGE_HEXAHEDRON : ℕ := 72
def VTK_TRIQUADRATIC_HEXAHEDRON : ℕ := 29

/-- Local state of `init_vtk_grid`. -/
structure Wr where
  pts : Arr (ℝ × ℝ × ℝ)
  sol : Arr ℝ
  hex : Arr ℕ
  cells : List (Arr ℕ)

/-- A point as `vtkPoints::SetPoint` keeps it: `fl` is the conversion to the number type of the point array. -/
def keep (fl : ℝ → ℝ) (x : ℝ × ℝ × ℝ) : ℝ × ℝ × ℝ := (fl x.1, fl x.2.1, fl x.2.2)

/-- Body of the inner loop of `init_vtk_grid`, vtk_io.cpp:193-210; `cols` is the second dimension of the solution array. -/
def writeVert (fl : ℝ → ℝ) (m : Mesh) (map : Arr ℕ) (solution : Arr ℝ) (cols e v : ℕ) (s : Wr) : Option Wr := do
  let g ← m.nodesInElem.get (e * m.stride + v)
  let x ← m.coords.get (g * 3 + 0)
  let y ← m.coords.get (g * 3 + 1)
  let z ← m.coords.get (g * 3 + 2)
  let pts ← s.pts.set g (keep fl (x, y, z))
  let i ← map.get v
  let hex ← s.hex.set i g
  let q ← solution.get (e * cols + v)
  let sol ← s.sol.set g q
  pure ⟨pts, sol, hex, s.cells⟩

/-- `init_vtk_grid`, vtk_io.cpp:159-227: one hexahedron object is filled for every element and copied into the cell array. -/
def initVtkGrid (fl : ℝ → ℝ) (V : PointIndex) (m : Mesh) (solution : Arr ℝ) (cols : ℕ) (jpts : ℕ → ℝ × ℝ × ℝ) (jsol : ℕ → ℝ) (jhex jmap : ℕ → ℕ) :
    Option Grid := do
  let nv := (m.order + 1) ^ 3
  let map ← makeMap V m.order false ⟨nv, jmap⟩
  let s ← loopM m.numElems (fun e (s : Wr) => do
    let s ← loopM nv (writeVert fl m map solution cols e) s
    pure ⟨s.pts, s.sol, s.hex, s.cells ++ [s.hex]⟩) ⟨⟨m.numNodes, jpts⟩, ⟨m.numNodes, jsol⟩, ⟨nv, jhex⟩, []⟩
  pure ⟨s.pts, s.cells, s.cells.map fun _ => VTK_LAGRANGE_HEXAHEDRON, s.sol⟩

/-- The check of the cell types, vtk_io.cpp:106-115: the first cell of another type is reported. -/
def badCell (types : List ℕ) : Option ℕ :=
  types.findIdx? fun t => t ≠ VTK_LAGRANGE_HEXAHEDRON ∧ t ≠ VTK_TRIQUADRATIC_HEXAHEDRON

/-- The coordinate loop of `init_swage_mesh`, vtk_io.cpp:91-99. -/
def readCoords (g : Grid) (coords : Arr ℝ) : Option (Arr ℝ) :=
  loopM g.pts.size (fun v a => do
    let x ← g.pts.get v
    let a ← Arr.set a (v * 3 + 0) x.1
    let a ← Arr.set a (v * 3 + 1) x.2.1
    Arr.set a (v * 3 + 2) x.2.2) coords

/-- The connectivity loop of `init_swage_mesh`, vtk_io.cpp:129-142. -/
def readCells (g : Grid) (map : Arr ℕ) (nv stride : ℕ) (list : Arr ℕ) : Option (Arr ℕ) :=
  loopM g.cells.length (fun e => loopM nv fun i (a : Arr ℕ) => do
    let ids ← g.cells[e]?
    let gid ← ids.get i
    let v ← map.get i
    Arr.set a (e * stride + v) gid) list

/-- `init_swage_mesh`, vtk_io.cpp:87-146: `Except.error c` is the exception thrown for cell `c`.  (The mesh object is left half
initialised then; it is not returned here.)  `init_nodes` and `init_element` allocate anew, whatever the mesh held. -/
def initSwageMesh (V : PointIndex) (p : ℕ) (g : Grid) (jc : ℕ → ℝ) (jl jmap : ℕ → ℕ) : Option (Except ℕ Mesh) := do
  let coords ← readCoords g ⟨g.pts.size * 3, jc⟩
  if (badCell g.types).isSome then pure (Except.error ((badCell g.types).getD 0))
  else do
    let stride := (Swage.Refine.initElement p 3 g.cells.length).gPts
    let map ← makeMap V p true ⟨(p + 1) ^ 3, jmap⟩
    let list ← readCells g map ((p + 1) ^ 3) stride ⟨g.cells.length * stride, jl⟩
    pure (Except.ok ⟨p, g.pts.size, coords, g.cells.length, stride, list⟩)

end Verif.Vtk
