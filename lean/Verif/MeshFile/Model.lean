import Verif.Mem
import Verif.MeshFile.Text

/-!
# Model of the Ensight geometry writers and of the mesh reader

`Ensight` of `mesh_tools/box_mesh_creator/meshbox.cpp`, `ensight` and `read_mesh` of `examples/average/test/average.cpp`.
Node coordinates are arrays of rows, cell-node tables are flat with eight entries per cell.  The three loops over the
coordinate directions are written as one loop over the direction.  Console output, the scalar and case files and the
connectivity builders called at the end of `read_mesh` (modelled elsewhere) are left out.
-/

namespace Verif.MeshFile

/-- The three coordinate loops, meshbox.cpp:532-540, average.cpp:1149-1160. -/
noncomputable def writeCoords (rnd : ℝ → ℕ) (coords : Arr (ℕ → ℝ)) (num_points : ℕ) (t : List Char) : Option (List Char) :=
  loopM 3 (fun d => loopM num_points fun p t => do
    let x ← coords.get p
    pure (t ++ (fmtE rnd 12 (x d) ++ ['\n']))) t

/-- `Ensight` of meshbox.cpp:517-555 (the geometry file). -/
noncomputable def writeBox (rnd : ℝ → ℕ) (coords : Arr (ℕ → ℝ)) (cells : Arr ℤ) (num_points num_cells : ℕ) : Option (List Char) := do
  let t := chars "This is the 1st description line of the EnSight Gold geometry file\n" ++
    (chars "This is the 2nd description line of the EnSight Gold geometry file\n" ++ (chars "node id assign\n" ++
    (chars "element id assign\n" ++ (chars "part\n" ++ ((fmtD 10 1 ++ ['\n']) ++ (chars "Mesh\n" ++ (chars "coordinates\n" ++
    (fmtD 10 num_points ++ ['\n']))))))))
  let t ← writeCoords rnd coords num_points t
  let t := t ++ (chars "hexa8\n" ++ (fmtD 10 num_cells ++ ['\n']))
  loopM num_cells (fun c t => do
    let t ← loopM 8 (fun l t => do
      let v ← cells.get (c * 8 + l)
      pure (t ++ fmtD 10 (v + 1))) t
    pure (t ++ ['\n'])) t

/-- `convert_vert_list_ord_Ensight`, average.cpp:1003-1011. -/
def convOut (l : ℕ) : ℕ := [1, 0, 2, 3, 5, 4, 6, 7].getD l 0

/-- `ensight` of average.cpp:1130-1179 (the geometry file). -/
noncomputable def writeAvg (rnd : ℝ → ℕ) (coords : Arr (ℕ → ℝ)) (cells : Arr ℤ) (num_nodes num_cells : ℕ) : Option (List Char) := do
  let t := chars "A graphics dump by Cercion \n" ++ (chars "EnSight Gold geometry\n" ++ (chars "node id assign\n" ++
    (chars "element id assign\n" ++ (chars "part\n" ++ ((fmtD 10 1 ++ ['\n']) ++ (chars "Mesh\n" ++ (chars "coordinates\n" ++
    (fmtD 10 num_nodes ++ ['\n']))))))))
  let t ← writeCoords rnd coords num_nodes t
  let t := t ++ (chars "hexa8\n" ++ (fmtD 10 num_cells ++ ['\n']))
  loopM num_cells (fun c t => do
    let t ← loopM 8 (fun l t => do
      let v ← cells.get (c * 8 + convOut l)
      pure (t ++ (fmtD 10 (v + 1) ++ ['\t']))) t
    pure (t ++ ['\n'])) t

/-- `convert_ensight_to_ijk`, average.cpp:447-455. -/
def convIn (l : ℕ) : ℕ := [0, 1, 3, 2, 4, 5, 7, 6].getD l 0

/-- The part of the mesh that `read_mesh` fills from the file. -/
structure MeshIn where
  /-- `node_coords` -/
  coords : Arr (ℕ → ℝ)
  /-- `nodes_in_cell` -/
  cells : Arr ℤ

/-- The coordinate loops of `read_mesh`, average.cpp:389-402: state (`node_coords`, input). -/
noncomputable def readCoords (n : ℕ) (s : Arr (ℕ → ℝ) × List Char) : Option (Arr (ℕ → ℝ) × List Char) :=
  loopM 3 (fun d => loopM n fun p (s : Arr (ℕ → ℝ) × List Char) => do
    let x ← scanE s.2
    let row ← s.1.get p
    let a ← s.1.set p (store row d x.1)
    pure (a, x.2)) s

/-- The cell loop of `read_mesh`, average.cpp:435-444: state (`nodes_in_cell`, input). -/
def readCells (n : ℕ) (s : Arr ℤ × List Char) : Option (Arr ℤ × List Char) :=
  loopM n (fun c => loopM 8 fun l (s : Arr ℤ × List Char) => do
    let v ← scanD s.2
    let a ← s.1.set (c * 8 + l) v.1
    let w ← a.get (c * 8 + l)
    let a ← a.set (c * 8 + l) (w - 1)
    pure (a, v.2)) s

/-- The renumbering of `read_mesh`, average.cpp:445-470: state (`nodes_in_cell`, `tmp_ijk_indx`). -/
def convertCells (n : ℕ) (s : Arr ℤ × (ℕ → ℤ)) : Option (Arr ℤ × (ℕ → ℤ)) :=
  loopM n (fun c s => do
    let tmp ← loopM 8 (fun l tmp => do
      let v ← s.1.get (c * 8 + convIn l)
      pure (store tmp l v)) s.2
    let a ← loopM 8 (fun l a => a.set (c * 8 + l) (tmp l)) s.1
    pure (a, tmp)) s

/-- Contents of uninitialised memory. -/
structure Junk where
  r : ℕ → ℕ → ℝ
  z : ℕ → ℤ
  tmp : ℕ → ℤ

/-- `read_mesh`, average.cpp:355-470. -/
noncomputable def readMesh (q : Junk) (s : List Char) : Option MeshIn := do
  let s ← loopM 8 (fun _ s => skipLine s) s
  let n ← scanD s
  if n.1 < 0 then none else
  let r ← readCoords n.1.toNat (⟨n.1.toNat, q.r⟩, n.2)
  let s ← scanWord 20 r.2
  let e ← scanD s
  if e.1 < 0 then none else
  let c ← readCells e.1.toNat (⟨e.1.toNat * 8, q.z⟩, e.2)
  let c ← convertCells e.1.toNat (c.1, q.tmp)
  pure ⟨r.1, c.1⟩

end Verif.MeshFile
