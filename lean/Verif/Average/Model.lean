import Verif.Swage.Patch
import Verif.Swage.NodeCell
import Mathlib.Analysis.Real.Sqrt

/-!
# Model of the state routines of `examples/average/test/average.cpp`

`initialize_state`, `apply_boundary`, `smooth_cells`, `smooth_element` and the cycle loop of `main`.  `real_t` is `ℝ`, ids are
natural numbers; an access outside an array gives `none`.  Console output, graphics dumps and the time variables are left out.
-/

namespace Verif.Average
open Verif.Swage (NodeCell Patches BdySets)

/-- The members of the mesh the routines read. -/
structure Mesh where
  /-- `num_nodes()` -/
  nodes : ℕ
  /-- `num_cells()` -/
  cells : ℕ
  /-- `num_elems()` -/
  elems : ℕ
  /-- `num_cells_in_elem()` -/
  cellsPerElem : ℕ
  /-- `num_nodes_in_elem()` -/
  nodesPerElem : ℕ
  /-- `nodes_in_cell(c, l)` at `c * 8 + l` -/
  nodesInCell : Arr ℕ
  /-- `num_cells_in_node`, `cells_in_node` -/
  conn : NodeCell
  /-- `cells_in_elem(e, c)` at `e * cellsPerElem + c` -/
  cellsInElem : Arr ℕ
  /-- `nodes_in_elem(e, n)` at `e * nodesPerElem + n` -/
  nodesInElem : Arr ℕ
  /-- `node_coords` -/
  coords : Arr (ℕ → ℝ)
  /-- `node_in_patch` -/
  patches : Patches
  /-- `num_bdy_patches_in_set`, `bdy_patches_in_set` -/
  bdy : BdySets

/-- The two fields. -/
structure State where
  /-- `node.field` -/
  node : Arr ℝ
  /-- `mat_pt.field` -/
  cell : Arr ℝ

/-- Average of the nodal field over a cell, average.cpp:703-713 (and 757-767). -/
noncomputable def cellAverage (m : Mesh) (node : Arr ℝ) (c : ℕ) : Option ℝ :=
  loopM 8 (fun l t => do
    let n ← m.nodesInCell.get (c * 8 + l)
    let v ← node.get n
    pure (t + v / 8)) 0

/-- Average of the cell field over the cells of a node, average.cpp:723-733 (and 785-793). -/
noncomputable def nodeAverage (m : Mesh) (cell : Arr ℝ) (n : ℕ) : Option ℝ := do
  let k ← m.conn.numCellsInNode n
  loopM k (fun l t => do
    let c ← m.conn.cellsInNode n l
    let v ← cell.get c
    pure (t + v / k)) 0

/-- `smooth_cells`, average.cpp:695-738. -/
noncomputable def smoothCells (m : Mesh) (s : State) : Option State := do
  let cell ← loopM m.cells (fun c cell => do
    let t ← cellAverage m s.node c
    cell.set c t) s.cell
  let node ← loopM m.nodes (fun n node => do
    let t ← nodeAverage m cell n
    node.set n t) s.node
  pure ⟨node, cell⟩

/-- `smooth_element`, average.cpp:741-797. -/
noncomputable def smoothElement (m : Mesh) (s : State) : Option State := do
  let cell ← loopM m.elems (fun e => loopM m.cellsPerElem fun i cell => do
    let c ← m.cellsInElem.get (e * m.cellsPerElem + i)
    let t ← cellAverage m s.node c
    cell.set c t) s.cell
  let node ← loopM m.elems (fun e => loopM m.nodesPerElem fun i node => do
    let n ← m.nodesInElem.get (e * m.nodesPerElem + i)
    let t ← nodeAverage m cell n
    node.set n t) s.node
  pure ⟨node, cell⟩

/-- One of the two loops of `apply_boundary`: set the nodal field on the patches of boundary set `b` to `v`,
average.cpp:658-672, 675-690. -/
def setBoundary (m : Mesh) (b : ℕ) (v : ℝ) (node : Arr ℝ) : Option (Arr ℝ) := do
  let k ← m.bdy.num.get b
  loopM k (fun i node => do
    let p ← m.bdy.inSet b i
    loopM 4 (fun q node => do
      let n ← m.patches.nodeInPatch p q
      if 0 ≤ n then node.set n.toNat v else none) node) node

/-- `apply_boundary`, average.cpp:657-692. -/
def applyBoundary (m : Mesh) (s : State) : Option State := do
  let node ← setBoundary m 3 0 s.node
  let node ← setBoundary m 0 10 node
  pure ⟨node, s.cell⟩

/-- `k` passes of the cycle loop of `main`, average.cpp:292-313. -/
noncomputable def cycles (m : Mesh) (k : ℕ) (s : State) : Option State :=
  loopM k (fun _ s => do
    let s ← smoothElement m s
    applyBoundary m s) s

/-- `region::vol_tag`, header.h:23-29. -/
inductive Region where
  | global
  | box
  | cylinder
  | sphere

/-- `mat_fill_t`, header.h:35-58 (the members that are read). -/
structure Fill where
  volume : Region
  x1 : ℝ
  x2 : ℝ
  y1 : ℝ
  y2 : ℝ
  z1 : ℝ
  z2 : ℝ
  radius1 : ℝ
  radius2 : ℝ
  field2 : ℝ

open Classical in
/-- The switch of `initialize_state`, average.cpp:612-641: there is no `break`, so control falls through to the following
cases.  The result is `fill_this == 1`. -/
noncomputable def fillThis (f : Fill) (x y z : ℝ) : Bool :=
  let radius := Real.sqrt (x * x + y * y + z * z)
  let radiusCyl := Real.sqrt (x * x + y * y)
  let atSphere := fun fill : Bool => if radius ≥ f.radius1 ∧ radius ≤ f.radius2 then true else fill
  let atCylinder := fun fill : Bool => atSphere (if radiusCyl ≥ f.radius1 ∧ radiusCyl ≤ f.radius2 then true else fill)
  let atBox := fun fill : Bool => atCylinder (if x ≥ f.x1 ∧ x ≤ f.x2 ∧ y ≥ f.y1 ∧ y ≤ f.y2 ∧ z ≥ f.z1 ∧ z ≤ f.z2 then true else fill)
  match f.volume with
  | .global => atBox true
  | .box => atBox false
  | .cylinder => atCylinder false
  | .sphere => atSphere false

/-- Sum of one coordinate over the nodes of a cell, divided by eight, average.cpp:571-590. -/
noncomputable def cellCentre (m : Mesh) (c d : ℕ) : Option ℝ := do
  let t ← loopM 8 (fun l t => do
    let n ← m.nodesInCell.get (c * 8 + l)
    let x ← m.coords.get n
    pure (t + x d)) 0
  pure (t / 8)

/-- Material-point state: `coords_` (flat) and `field_`, state.h:66-127. -/
structure MatPt where
  coords : Arr ℝ
  field : Arr ℝ

/-- `mat_pt.coords(rk_stage, c, d) = v`, state.h:107-110; `num_dim_ = 3`. -/
def MatPt.setCoord (s : MatPt) (cells rkStage c d : ℕ) (v : ℝ) : Option MatPt := do
  let a ← s.coords.set (rkStage * cells * 3 + c * 3 + d) v
  pure ⟨a, s.field⟩

/-- `initialize_state`, average.cpp:563-650. -/
noncomputable def initializeState (m : Mesh) (fills : Arr Fill) (rkStage : ℕ) (s : MatPt) : Option MatPt :=
  loopM fills.size (fun f => loopM m.cells fun c s => do
    let x ← cellCentre m c 0
    let y ← cellCentre m c 1
    let z ← cellCentre m c 2
    let s ← s.setCoord m.cells rkStage c 0 x
    let s ← s.setCoord m.cells rkStage c 1 y
    let s ← s.setCoord m.cells rkStage c 2 z
    let f ← fills.get f
    if fillThis f x y z then do
      let a ← s.field.set c f.field2
      pure ⟨s.coords, a⟩
    else pure s) s

end Verif.Average
