import Verif.DetJac.Model
import Verif.Vtk.File

/-!
# Model of `main` of examples/vtk/plotting_jacobian_determinants.cpp
-/

namespace Verif.DetJac

/-- The mesh object as seen by `init_vtk_grid`: the coordinates are one row-major array with three columns. -/
def Mesh.toVtk (m : Mesh) : Vtk.Mesh where
  order := m.order
  numNodes := m.coords.size
  coords := ⟨m.coords.size * 3, fun i => m.coords.val (i / 3) (i % 3)⟩
  numElems := m.numElems
  stride := m.stride
  nodesInElem := m.nodes

/-- Initial contents of the arrays `main` and the functions it calls allocate. -/
structure MainJunk where
  coords : ℕ → ℕ → ℝ
  nodes : ℕ → ℕ
  det : ℕ → ℝ
  q : Junk
  pts : ℕ → ℝ × ℝ × ℝ
  sol : ℕ → ℝ
  hex : ℕ → ℕ
  map : ℕ → ℕ

/-- `main()`, examples/vtk/plotting_jacobian_determinants.cpp:116-133, with the element order as a parameter (2 in the source, with the
comment "try increasing the order!"); the solution array has `(p + 1)^3` columns.  Result: the files afterwards, and the grid. -/
noncomputable def mainProgram {C : Type} (io : Vtk.Io C) (fl : ℝ → ℝ) (V : Vtk.PointIndex) (p : ℕ) (J : MainJunk) (fs : Vtk.Files C) :
    Option (Vtk.Files C × Vtk.Grid) := do
  let mesh ← annular p J.coords J.nodes
  let dets ← compute mesh J.det J.q
  let grid ← Vtk.initVtkGrid fl V mesh.toVtk dets ((mesh.order + 1) ^ 3) J.pts J.sol J.hex J.map
  pure (Vtk.writeGrid io fs grid "output.vtk".toList, grid)

end Verif.DetJac
