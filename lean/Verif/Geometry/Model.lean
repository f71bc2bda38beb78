import Verif.Mem
import Verif.Jacobian.Model
import Verif.RefElem.Model

/-!
# Model of `geometry/geometry.cpp`

Over the real numbers, for `mesh.num_dim() = 3`.  Two-dimensional integer arrays are flat with row-major strides;
`node_coords`, `cell_coords` and the Jacobians are arrays of rows / of matrices.  An out-of-bounds access gives `none`.
The only other simplification: the nine entries of a Jacobian are updated in a local copy of the matrix that is
read before and written back after the two loops over the dimensions.
-/

namespace Verif.Geometry

/-- The part of `mesh_t` the functions of this file read. -/
structure Mesh where
  /-- `num_elems()` -/
  elems : ℕ
  /-- `num_cells()` -/
  cells : ℕ
  /-- `num_gauss_in_elem()`, also the row length of `nodes_in_elem` (swage/swage.cpp:419) -/
  gaussInElem : ℕ
  /-- `num_patches_in_elem()`, also `num_g_patch_pts_in_elem_` (swage/swage.cpp:428-429) -/
  patchesInElem : ℕ
  /-- `num_cells_in_elem()` -/
  cellsPerElem : ℕ
  /-- `nodes_in_elem_list_` -/
  nodesInElem : Arr ℕ
  /-- `cells_in_elem_` -/
  cellsInElem : Arr ℕ
  /-- `nodes_in_cell_list_` -/
  nodesInCell : Arr ℕ
  /-- `gauss_in_cell_list_` -/
  gaussInCell : Arr ℕ
  /-- `node_coords_` -/
  coords : Arr (ℕ → ℝ)

/-- The three arrays a Jacobian routine fills. -/
structure Jac where
  /-- `gauss_pt_jacobian_` and its patch and cell variants -/
  jac : Arr (ℕ → ℕ → ℝ)
  /-- `gauss_pt_jacobian_inverse_` -/
  inv : Arr (ℕ → ℕ → ℝ)
  /-- `gauss_pt_det_j_` -/
  det : Arr ℝ

/-- The determinant expression of geometry/geometry.cpp:38-41, 81-84, 126-129. -/
def det (J : ℕ → ℕ → ℝ) : ℝ :=
  J 0 0 * (J 1 1 * J 2 2 - J 2 1 * J 1 2) -
  J 0 1 * (J 1 0 * J 2 2 - J 1 2 * J 2 0) +
  J 0 2 * (J 1 0 * J 2 1 - J 1 1 * J 2 0)

/-- The loops over the dimensions and the vertices, geometry/geometry.cpp:20-36, 63-79, 108-124: `lid` is the point
in the element, `N = ref_elem.num_basis()`, `vm = ref_elem.vert_node_map`, `grad` the table of reference gradients. -/
noncomputable def fillJ (m : Mesh) (N : ℕ) (vm : ℕ → ℕ) (grad : Arr (ℕ → ℕ → ℝ)) (e lid : ℕ) (J : ℕ → ℕ → ℝ) :
    Option (ℕ → ℕ → ℝ) :=
  loopM 3 (fun i J => loopM 3 (fun j J =>
    loopM N (fun v J => do
      let node ← m.nodesInElem.get (e * m.gaussInElem + vm v)
      let g ← grad.get lid
      let x ← m.coords.get node
      pure (store2 J i j (J i j + g v j * x i))) (store2 J i j 0)) J) J

/-- The body of the loop over the points, geometry/geometry.cpp:18-48, 61-91, 104-136. -/
noncomputable def pointJ (m : Mesh) (N : ℕ) (vm : ℕ → ℕ) (grad : Arr (ℕ → ℕ → ℝ)) (e lid gid : ℕ) (s : Jac) :
    Option Jac := do
  let J ← s.jac.get gid
  let J ← fillJ m N vm grad e lid J
  let jac ← s.jac.set gid J
  let d ← s.det.set gid (det J)
  let I ← s.inv.get gid
  let inv ← s.inv.set gid (Jacobian.matInverse I J)
  pure ⟨jac, inv, d⟩

/-- `get_gauss_pt_jacobian`, geometry/geometry.cpp:11-51; `gauss_in_elem` is swage/swage.cpp:799-804. -/
noncomputable def gaussJacobian (m : Mesh) (N : ℕ) (vm : ℕ → ℕ) (r : RefElem.Ref) (s : Jac) : Option Jac :=
  loopM m.elems (fun e => loopM m.gaussInElem fun lid =>
    pointJ m N vm r.nodeGrad e lid (e * m.gaussInElem + lid)) s

/-- `get_gauss_patch_pt_jacobian`, geometry/geometry.cpp:54-94; `gauss_patch_pt_in_elem` is swage/swage.cpp:806-809. -/
noncomputable def patchJacobian (m : Mesh) (N : ℕ) (vm : ℕ → ℕ) (r : RefElem.Ref) (s : Jac) : Option Jac :=
  loopM m.elems (fun e => loopM m.patchesInElem fun lid =>
    pointJ m N vm r.patchGrad e lid (e * m.patchesInElem + lid)) s

/-- `get_gauss_cell_pt_jacobian`, geometry/geometry.cpp:97-139. -/
noncomputable def cellJacobian (m : Mesh) (N : ℕ) (vm : ℕ → ℕ) (r : RefElem.Ref) (s : Jac) : Option Jac :=
  loopM m.elems (fun e => loopM m.cellsPerElem fun lid s => do
    let gid ← m.cellsInElem.get (e * m.cellsPerElem + lid)
    pointJ m N vm r.cellGrad e lid gid s) s

/-- The accessor `mesh_t::cell_coords`, swage/swage.cpp:947-963: recompute the entry and return a reference to it;
here, the array after the recomputation and the value. -/
noncomputable def cellCoords (m : Mesh) (cc : Arr (ℕ → ℝ)) (c d : ℕ) : Option (Arr (ℕ → ℝ) × ℝ) := do
  let row ← cc.get c
  let row ← loopM 8 (fun l row => do
    let node ← m.nodesInCell.get (c * 8 + l)
    let x ← m.coords.get node
    pure (store row d (row d + x d))) (store row d 0)
  let row := store row d (row d / 8)
  let cc ← cc.set c row
  pure (cc, row d)

/-- `mesh.cell_coords(c, d) = v`. -/
noncomputable def assignCellCoords (m : Mesh) (cc : Arr (ℕ → ℝ)) (c d : ℕ) (v : ℝ) : Option (Arr (ℕ → ℝ)) := do
  let cc ← cellCoords m cc c d
  let row ← cc.1.get c
  cc.1.set c (store row d v)

/-- The arrays written by the volume routines. -/
structure Vol where
  /-- `cell_vol_` -/
  cell : Arr ℝ
  /-- `cell_coords_` -/
  coords : Arr (ℕ → ℝ)
  /-- `elem_vol_` -/
  elem : Arr ℝ

/-- Corner loop of `get_vol_jacobi`, geometry/geometry.cpp:163-178: state (`cell_volume`, (`x_sum`, `y_sum`, `z_sum`)). -/
noncomputable def cornerSum (m : Mesh) (r : RefElem.Ref) (detJ : Arr ℝ) (lid gid : ℕ) : Option (ℝ × (ℕ → ℝ)) :=
  loopM 8 (fun l (s : ℝ × (ℕ → ℝ)) => do
    let g ← m.gaussInCell.get (gid * 8 + l)
    let c ← r.cornersInCell lid l
    let dj ← detJ.get g
    let w ← r.cornerW.get c
    let node ← m.nodesInCell.get (gid * 8 + l)
    let x ← m.coords.get node
    pure (s.1 + dj * w, RefElem.row3 (s.2 0 + x 0) (s.2 1 + x 1) (s.2 2 + x 2))) (0, fun _ => 0)

/-- Cell body of `get_vol_jacobi`, geometry/geometry.cpp:153-187: state (arrays, `elem_vol`). -/
noncomputable def volCell (m : Mesh) (r : RefElem.Ref) (detJ : Arr ℝ) (e lid : ℕ) (s : Vol × ℝ) : Option (Vol × ℝ) := do
  let gid ← m.cellsInElem.get (e * m.cellsPerElem + lid)
  let t ← cornerSum m r detJ lid gid
  let cell ← s.1.cell.set gid t.1
  let cc ← assignCellCoords m s.1.coords gid 0 (t.2 0 * (1 / 8))
  let cc ← assignCellCoords m cc gid 1 (t.2 1 * (1 / 8))
  let cc ← assignCellCoords m cc gid 2 (t.2 2 * (1 / 8))
  pure (⟨cell, cc, s.1.elem⟩, s.2 + t.1)

/-- `get_vol_jacobi`, geometry/geometry.cpp:142-191. -/
noncomputable def volJacobi (m : Mesh) (r : RefElem.Ref) (detJ : Arr ℝ) (s : Vol) : Option Vol :=
  loopM m.elems (fun e s => do
    let t ← loopM m.cellsPerElem (volCell m r detJ e) (s, 0)
    let ev ← t.1.elem.set e t.2
    pure ⟨t.1.cell, t.1.coords, ev⟩) s

/-- `c_con`, geometry/geometry.cpp:216-224. -/
def cCon (l : ℕ) : ℕ := [0, 1, 3, 2, 4, 5, 7, 6].getD l 0

/-- The volume expression of geometry/geometry.cpp:262-270. -/
noncomputable def hexVol (x y z : ℕ → ℝ) : ℝ :=
  (x 1*(y 3*(-z 0 + z 2) + y 4*( z 0 - z 5) + y 0*(z 2 + z 3 - z 4 - z 5) + y 6*(-z 2 + z 5) + y 5*(z 0 - z 2 + z 4 - z 6) + y 2*(-z 0 - z 3 + z 5 + z 6)) +
   x 7*(y 0*(-z 3 + z 4) + y 6*( z 2 + z 3  - z 4 - z 5) + y 2*(z 3 - z 6) + y 3*(z 0 - z 2 + z 4 - z 6) + y 5*(-z 4 + z 6) + y 4*(-z 0 - z 3 + z 5 + z 6)) +
   x 3*(y 1*( z 0 - z 2) + y 7*(-z 0 + z 2  - z 4 + z 6) + y 6*(z 2 - z 7) + y 2*(z 0 + z 1 - z 6 - z 7) + y 4*(-z 0 + z 7) + y 0*(-z 1 - z 2 + z 4 + z 7)) +
   x 5*(y 0*( z 1 - z 4) + y 7*( z 4 - z 6) + y 2*(-z 1 + z 6) + y 1*(-z 0 + z 2 - z 4 + z 6) + y 4*(z 0 + z 1 - z 6 - z 7) + y 6*(-z 1 - z 2 + z 4 + z 7)) +
   x 6*(y 1*( z 2 - z 5) + y 7*(-z 2 - z 3  + z 4 + z 5) + y 5*(z 1 + z 2 - z 4 - z 7) + y 4*(z 5 - z 7) + y 3*(-z 2 + z 7) + y 2*(-z 1 + z 3 - z 5 + z 7)) +
   x 0*(y 2*( z 1 - z 3) + y 7*( z 3 - z 4) + y 5*(-z 1 + z 4) + y 1*(-z 2 - z 3 + z 4 + z 5) + y 3*(z 1 + z 2 - z 4 - z 7) + y 4*(-z 1 + z 3 - z 5 + z 7)) +
   x 2*(y 0*(-z 1 + z 3) + y 5*( z 1 - z 6) + y 1*(z 0 + z 3 - z 5 - z 6) + y 7*(-z 3 + z 6) + y 6*(z 1 - z 3 + z 5 - z 7) + y 3*(-z 0 - z 1 + z 6 + z 7)) +
   x 4*(y 1*(-z 0 + z 5) + y 7*( z 0 + z 3  - z 5 - z 6) + y 3*(z 0 - z 7) + y 0*(z 1 - z 3 + z 5 - z 7) + y 6*(-z 5 + z 7) + y 5*(-z 0 - z 1 + z 6 + z 7)))*(1 / 12)

/-- State of `get_vol_hex`: the output arrays, the local arrays `x`, `y`, `z` (component `d` of vertex `l` is
`verts l d`) and the sums. -/
structure Hex where
  vol : Vol
  verts : ℕ → ℕ → ℝ
  sum : ℕ → ℝ

/-- Vertex loop of `get_vol_hex`, geometry/geometry.cpp:242-256. -/
noncomputable def hexVerts (m : Mesh) (c : ℕ) (s : (ℕ → ℕ → ℝ) × (ℕ → ℝ)) : Option ((ℕ → ℕ → ℝ) × (ℕ → ℝ)) :=
  loopM 8 (fun l (s : (ℕ → ℕ → ℝ) × (ℕ → ℝ)) => do
    let node ← m.nodesInCell.get (c * 8 + l)
    let p ← m.coords.get node
    let verts := store s.1 (cCon l) (RefElem.row3 (p 0) (p 1) (p 2))
    pure (verts, RefElem.row3 (s.2 0 + verts l 0) (s.2 1 + verts l 1) (s.2 2 + verts l 2))) s

/-- Cell body of `get_vol_hex`, geometry/geometry.cpp:234-272. -/
noncomputable def hexCell (m : Mesh) (c : ℕ) (s : Hex) : Option Hex := do
  let t ← hexVerts m c (s.verts, fun _ => 0)
  let cc ← assignCellCoords m s.vol.coords c 0 (t.2 0 * (1 / 8))
  let cc ← assignCellCoords m cc c 1 (t.2 1 * (1 / 8))
  let cc ← assignCellCoords m cc c 2 (t.2 2 * (1 / 8))
  let cell ← s.vol.cell.set c (hexVol (fun l => t.1 l 0) (fun l => t.1 l 1) (fun l => t.1 l 2))
  pure ⟨⟨cell, cc, s.vol.elem⟩, t.1, t.2⟩

/-- `get_vol_hex`, geometry/geometry.cpp:194-273. `verts0` is the contents of the uninitialised local arrays. -/
noncomputable def volHex (m : Mesh) (verts0 : ℕ → ℕ → ℝ) (s : Vol) : Option Vol := do
  let t ← loopM m.cells (hexCell m) ⟨s, verts0, fun _ => 0⟩
  pure t.vol

end Verif.Geometry
