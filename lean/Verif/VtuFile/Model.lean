import Verif.Ensight.Model
import Verif.Swage.Patch

/-!
# `vtk_writer` of the Average example, character by character

examples/average/test/average.cpp:801-998.  (`Average.vtkWriter` has only the integers of the file.)  `main` has the call
commented out.  Numbers that fit into an `int` are assumed; infinities and NaN are not modelled.
-/

namespace Verif.VtuFile
open MeshFile
open Ensight (Text Op sprintf fmt05 write)
open Verif.Swage (nodeInPatchInCell)

/-- `fprintf("%f", x)`: six decimals; `rnd` rounds a real to an integer (the rounding mode). -/
noncomputable def fmtF (rnd : ℝ → ℕ) (x : ℝ) : Text :=
  let m := rnd (|x| * 10 ^ 6)
  (if x < 0 then ['-'] else []) ++ dec (m / 10 ^ 6) ++ ['.'] ++ digitsN 6 m

/-- `fprintf(out, "s\n")` -/
def ln (s : String) : Text := chars s ++ ['\n']

/-- `vtk_writer`, the text of the file, average.cpp:850-995; `f32` is the conversion to `float`, `coords n d` is
`mesh.node_coords(n, d)`, `nodes c l` is `mesh.nodes_in_cell(c, l)`. -/
noncomputable def vtuText (rnd : ℝ → ℕ) (f32 : ℕ → ℝ) (num_dim num_nodes num_cells : ℕ) (coords : ℕ → ℕ → ℝ) (nodes : ℕ → ℕ → ℕ) : Text :=
  -- average.cpp:850-853
  let t := ln "<?xml version=\"1.0\"?> " ++ ln "<VTKFile type=\"UnstructuredGrid\" version=\"0.1\" byte_order=\"LittleEndian\">" ++
    ln "<UnstructuredGrid>"
  let t := t ++ (chars "<Piece NumberOfPoints=\"" ++ fmtD 0 num_nodes ++ chars "\" NumberOfCells=\"" ++ fmtD 0 num_cells ++ ln "\">")
  -- average.cpp:862-866
  let t := t ++ ln "<PointData> " ++ ln "</PointData> " ++ ln ""
  -- average.cpp:874-888
  let t := t ++ ln "<CellData> "
  let t := loop 1 (fun _ t =>
    let t := t ++ (chars "<DataArray type=\"Float64\" Name=\"" ++ chars "cell_gid" ++ ln "\" Format=\"ascii\">")
    loop num_cells (fun c t => t ++ (fmtF rnd (f32 c) ++ ['\n'])) t) t
  let t := t ++ ln "</DataArray> " ++ ln "</CellData> " ++ ln ""
  -- average.cpp:897-912
  let t := t ++ ln "<Points> "
  let t := t ++ (chars "<DataArray type=\"Float64\" Name=\"Points\" NumberOfComponents=\"" ++ fmtD 0 num_dim ++ ln "\" format=\"ascii\">")
  let t := loop num_nodes (fun n t =>
    t ++ (fmtF rnd (coords n 0) ++ chars "   " ++ fmtF rnd (coords n 1) ++ chars "   " ++ fmtF rnd (coords n 2) ++ ln "   ")) t
  let t := t ++ ln "</DataArray> " ++ ln "</Points> " ++ ln ""
  -- average.cpp:919-938
  let t := t ++ ln "<Cells> " ++ ln ""
  let t := t ++ ln "<DataArray type=\"Int64\" Name=\"connectivity\">"
  let t := loop num_cells (fun c t => loop 8 (fun n t => t ++ (fmtD 0 (nodes c n) ++ chars "  ")) t ++ ln "") t
  let t := t ++ ln "</DataArray> " ++ ln ""
  -- average.cpp:941-946
  let t := t ++ ln "<DataArray type=\"Int64\" Name=\"offsets\">"
  let t := loop num_cells (fun c t => t ++ (fmtD 0 (8 * (c + 1)) ++ ln "  ")) t
  let t := t ++ ln "</DataArray> " ++ ln ""
  -- average.cpp:949-954
  let t := t ++ ln "<DataArray type=\"UInt64\" Name=\"types\">"
  let t := loop num_cells (fun _ t => t ++ (fmtD 0 42 ++ ln "  ")) t
  let t := t ++ ln "</DataArray> " ++ ln ""
  -- average.cpp:957-975
  let t := t ++ ln "<DataArray type=\"Int64\" Name=\"faces\">"
  let t := loop num_cells (fun c t =>
    loop 6 (fun p t =>
      loop 4 (fun q t => t ++ (fmtD 0 (nodeInPatchInCell nodes c p q) ++ chars "  ")) (t ++ chars "4  ") ++ ln "")
      (t ++ (fmtD 0 6 ++ ln "  "))) t
  let t := t ++ ln "</DataArray> " ++ ln ""
  -- average.cpp:978-985
  let faceoffsets : ℕ := 31
  let t := t ++ ln "<DataArray type=\"Int64\" Name=\"faceoffsets\">"
  let t := loop num_cells (fun c t => t ++ (fmtD 0 (faceoffsets * (c + 1)) ++ ln "  ")) t
  let t := t ++ ln "</DataArray> " ++ ln ""
  -- average.cpp:988-995
  let t := t ++ ln "</Cells> " ++ ln "" ++ ln ""
  t ++ ln "</Piece> " ++ ln "</UnstructuredGrid> " ++ ln "</VTKFile> "

/-- `vtk_writer`, average.cpp:801-998, as calls of the operating system. -/
noncomputable def vtkOps (rnd : ℝ → ℕ) (f32 : ℕ → ℝ) (num_dim num_nodes num_cells : ℕ) (coords : ℕ → ℕ → ℝ) (nodes : ℕ → ℕ → ℕ)
    (graphics_id : ℕ) : Option (List Op) := do
  let p ← sprintf 128 (chars "vtk/data/Testing_" ++ fmt05 graphics_id ++ chars "_" ++ fmtD 0 0 ++ chars ".vtu")
  pure ([.mkdir (chars "vtk"), .mkdir (chars "vtk/data")] ++ write p (vtuText rnd f32 num_dim num_nodes num_cells coords nodes))

end Verif.VtuFile
