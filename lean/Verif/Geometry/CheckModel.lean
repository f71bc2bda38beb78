import Verif.Geometry.Model

/-!
# Model of the two geometry checks in `main` of the Average example, examples/average/test/average.cpp:195-289

The first prints, per element, the sum over all sides of all cells of the area-weighted normals; the second the volume of
the element from the cell points.  Over the real numbers.
-/

namespace Verif.Geometry

/-- The table of `ref_element::cell_side_unit_normals`, elements/elements.h:1238-1245. -/
def sideNormalTable : List ℤ := [-1, 0, 0, 1, 0, 0, 0, -1, 0, 0, 1, 0, 0, 0, -1, 0, 0, 1]

/-- `ref_element::cell_side_unit_normals`, elements/elements.cpp:3182-3186. -/
def sideNormal (side dim : ℕ) : Option ℤ := sideNormalTable[side * 3 + dim]?

/-- An `int` used as an index: negative is out of bounds. -/
def asIndex (i : ℤ) : Option ℕ := if 0 ≤ i then some i.toNat else none

/-- The loop over `dim_j`, average.cpp:231-238: the entry of `side_area_normals`, started from 0 (line 229). -/
noncomputable def areaNormal (s : Jac) (side gid : ℕ) (w : ℝ) (i : ℕ) : Option ℝ :=
  loopM 3 (fun j a => do
    let n ← sideNormal side j
    let I ← s.inv.get gid
    let d ← s.det.get gid
    pure (a + (n : ℝ) * I j i * d * w)) 0

/-- The body of the loop over the sides, average.cpp:203-245.  `side_area_normals` is a local array of
`num_cells_in_elem × 6 × 3` entries; each entry is only read right after it has been computed, so it is not kept. -/
noncomputable def sideTally (m : Mesh) (r : RefElem.Ref) (s : Jac) (e cell side : ℕ) (t : ℕ → ℝ) : Option (ℕ → ℝ) := do
  let id ← r.patchesInCell cell side
  let rid ← asIndex id
  let w ← r.pat.weights.get rid
  loopM 3 (fun i t => do
    let a ← areaNormal s side (e * m.patchesInElem + rid) w i
    pure (store t i (t i + a))) t

/-- `surf_tally` of element `e`, average.cpp:197-250. -/
noncomputable def surfTally (m : Mesh) (r : RefElem.Ref) (s : Jac) (e : ℕ) : Option (ℕ → ℝ) :=
  loopM m.cellsPerElem (fun cell => loopM 6 fun side => sideTally m r s e cell side) fun _ => 0

/-- `vol_elem` of element `e`, average.cpp:264-288. -/
noncomputable def checkVolume (m : Mesh) (r : RefElem.Ref) (det : Arr ℝ) (e : ℕ) : Option ℝ :=
  loopM m.cellsPerElem (fun lid v => do
    let gid ← m.cellsInElem.get (e * m.cellsPerElem + lid)
    let w ← r.pat.cellWeights.get lid
    let d ← det.get gid
    pure (v + d * w)) 0

end Verif.Geometry
