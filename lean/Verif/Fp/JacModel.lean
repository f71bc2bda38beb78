import Verif.Fp.GeomModel

/-!
# The Jacobian routines and `get_vol_jacobi` in rounded arithmetic

Model of geometry/geometry.cpp:11-191 with a rounding after each arithmetic operation.  The tables of the reference element (gradients
and weights) are taken as the numbers they contain.
-/

namespace Verif.Fp.Geom
open Verif.Geometry Verif.RefElem

/-- The determinant expression of geometry/geometry.cpp:38-41, 81-84, 126-129 and elements/elements.cpp:1271-1273, over any type with
`+`, `-` and `*`. -/
def det3 {α : Type} [Add α] [Sub α] [Mul α] (J : ℕ → ℕ → α) : α :=
  J 0 0 * (J 1 1 * J 2 2 - J 2 1 * J 1 2) -
  J 0 1 * (J 1 0 * J 2 2 - J 1 2 * J 2 0) +
  J 0 2 * (J 1 0 * J 2 1 - J 1 1 * J 2 0)

/-- Rounded determinant. -/
noncomputable def det (R : Rounding) (J : ℕ → ℕ → ℝ) : ℝ := (det3 fun i j => (⟨J i j⟩ : Num R)).val

/-- The cofactors of elements/elements.cpp:1277-1285. -/
def cof3 {α : Type} [Sub α] [Mul α] (M : ℕ → ℕ → α) (i j : ℕ) : α :=
  match i, j with
  | 0, 0 => M 1 1 * M 2 2 - M 2 1 * M 1 2
  | 0, 1 => M 0 2 * M 2 1 - M 0 1 * M 2 2
  | 0, _ => M 0 1 * M 1 2 - M 0 2 * M 1 1
  | 1, 0 => M 1 2 * M 2 0 - M 1 0 * M 2 2
  | 1, 1 => M 0 0 * M 2 2 - M 0 2 * M 2 0
  | 1, _ => M 1 0 * M 0 2 - M 0 0 * M 1 2
  | _, 0 => M 1 0 * M 2 1 - M 2 0 * M 1 1
  | _, 1 => M 2 0 * M 0 1 - M 0 0 * M 2 1
  | _, _ => M 0 0 * M 1 1 - M 1 0 * M 0 1

/-- `mat_inverse`, elements/elements.cpp:1266-1288; the nine assignments are independent of each other and written here as a function
of the indices. -/
noncomputable def matInverse (R : Rounding) (M : ℕ → ℕ → ℝ) (i j : ℕ) : ℝ :=
  R.fl ((cof3 (fun i j => (⟨M i j⟩ : Num R)) i j).val * R.fl (1 / det R M))

/-- The loops over the dimensions and the vertices, geometry/geometry.cpp:20-36, 63-79, 108-124. -/
noncomputable def fillJ (R : Rounding) (m : Mesh) (N : ℕ) (vm : ℕ → ℕ) (grad : Arr (ℕ → ℕ → ℝ)) (e lid : ℕ)
    (J : ℕ → ℕ → ℝ) : Option (ℕ → ℕ → ℝ) :=
  loopM 3 (fun i J => loopM 3 (fun j J =>
    loopM N (fun v J => do
      let node ← m.nodesInElem.get (e * m.gaussInElem + vm v)
      let g ← grad.get lid
      let x ← m.coords.get node
      pure (store2 J i j (R.fl (J i j + R.fl (g v j * x i))))) (store2 J i j 0)) J) J

/-- The body of the loop over the points, geometry/geometry.cpp:18-48, 61-91, 104-136. -/
noncomputable def pointJ (R : Rounding) (m : Mesh) (N : ℕ) (vm : ℕ → ℕ) (grad : Arr (ℕ → ℕ → ℝ)) (e lid gid : ℕ) (s : Jac) :
    Option Jac := do
  let J ← s.jac.get gid
  let J ← fillJ R m N vm grad e lid J
  let jac ← s.jac.set gid J
  let d ← s.det.set gid (det R J)
  let inv ← s.inv.set gid (matInverse R J)
  pure ⟨jac, inv, d⟩

/-- The three routines `get_gauss_pt_jacobian`, `get_gauss_patch_pt_jacobian` and `get_gauss_cell_pt_jacobian`,
geometry/geometry.cpp:11-51, 54-94, 97-139: `M` points per element, `grad` the table of the point kind and `gid e l` the
global number of point `l` of element `e` (`gauss_in_elem`, `gauss_patch_pt_in_elem`, `cells_in_elem`). -/
noncomputable def jacobian (R : Rounding) (m : Mesh) (N : ℕ) (vm : ℕ → ℕ) (grad : Arr (ℕ → ℕ → ℝ)) (M : ℕ)
    (gid : ℕ → ℕ → Option ℕ) (s : Jac) : Option Jac :=
  loopM m.elems (fun e => loopM M fun l s => do
    let g ← gid e l
    pointJ R m N vm grad e l g s) s

/-- Corner loop of `get_vol_jacobi`, geometry/geometry.cpp:163-178: state (`cell_volume`, (`x_sum`, `y_sum`, `z_sum`)). -/
noncomputable def cornerSum (R : Rounding) (m : Mesh) (r : RefElem.Ref) (detJ : Arr ℝ) (lid gid : ℕ) :
    Option (ℝ × (ℕ → ℝ)) :=
  loopM 8 (fun l (s : ℝ × (ℕ → ℝ)) => do
    let g ← m.gaussInCell.get (gid * 8 + l)
    let c ← r.cornersInCell lid l
    let dj ← detJ.get g
    let w ← r.cornerW.get c
    let node ← m.nodesInCell.get (gid * 8 + l)
    let x ← m.coords.get node
    pure (R.fl (s.1 + R.fl (dj * w)),
      row3 (R.fl (s.2 0 + x 0)) (R.fl (s.2 1 + x 1)) (R.fl (s.2 2 + x 2)))) (0, fun _ => 0)

/-- Cell body of `get_vol_jacobi`, geometry/geometry.cpp:153-187: state (arrays, `elem_vol`). -/
noncomputable def volCell (R : Rounding) (m : Mesh) (r : RefElem.Ref) (detJ : Arr ℝ) (e lid : ℕ) (s : Vol × ℝ) :
    Option (Vol × ℝ) := do
  let gid ← m.cellsInElem.get (e * m.cellsPerElem + lid)
  let t ← cornerSum R m r detJ lid gid
  let cell ← s.1.cell.set gid t.1
  let cc ← assignCellCoords R m s.1.coords gid 0 (R.fl (t.2 0 * (1 / 8)))
  let cc ← assignCellCoords R m cc gid 1 (R.fl (t.2 1 * (1 / 8)))
  let cc ← assignCellCoords R m cc gid 2 (R.fl (t.2 2 * (1 / 8)))
  pure (⟨cell, cc, s.1.elem⟩, R.fl (s.2 + t.1))

/-- `get_vol_jacobi`, geometry/geometry.cpp:142-191. -/
noncomputable def volJacobi (R : Rounding) (m : Mesh) (r : RefElem.Ref) (detJ : Arr ℝ) (s : Vol) : Option Vol :=
  loopM m.elems (fun e s => do
    let t ← loopM m.cellsPerElem (volCell R m r detJ e) (s, 0)
    let ev ← t.1.elem.set e t.2
    pure ⟨t.1.cell, t.1.coords, ev⟩) s

end Verif.Fp.Geom
