import Verif.Swage.Patch

/-!
# Model of `vtk_writer` of the Average example

examples/average/test/average.cpp:801-998.  The numbers of each `DataArray` are modelled as a list, in the order they are written; the
XML tags around them and the coordinates are left out.  `main` has the call commented out.
-/

namespace Verif.Average
open Verif.Swage (nodeInPatchInCell patchNodeTable)

/-- The integer arrays of the file. -/
structure Vtu where
  /-- `NumberOfPoints` -/
  points : ℕ
  /-- `NumberOfCells` -/
  cells : ℕ
  /-- the cell data `cell_gid` -/
  data : List ℕ
  connectivity : List ℕ
  offsets : List ℕ
  types : List ℕ
  faces : List ℕ
  faceoffsets : List ℕ

/-- `vtk_writer`, average.cpp:801-998; `nodes c l` is `nodes_in_cell(c, l)`. -/
def vtkWriter (num_nodes num_cells : ℕ) (nodes : ℕ → ℕ → ℕ) : Vtu where
  points := num_nodes
  cells := num_cells
  -- average.cpp:879-883
  data := loop num_cells (fun c l => l ++ [c]) []
  -- average.cpp:928-936
  connectivity := loop num_cells (fun c l => loop 8 (fun n l => l ++ [nodes c n]) l) []
  -- average.cpp:942-944
  offsets := loop num_cells (fun c l => l ++ [8 * (c + 1)]) []
  -- average.cpp:950-952
  types := loop num_cells (fun _ l => l ++ [42]) []
  -- average.cpp:959-973
  faces := loop num_cells (fun c l =>
    loop 6 (fun p l => loop 4 (fun q l => l ++ [nodeInPatchInCell nodes c p q]) (l ++ [4])) (l ++ [6])) []
  -- average.cpp:978-982
  faceoffsets := loop num_cells (fun c l => l ++ [31 * (c + 1)]) []

end Verif.Average
