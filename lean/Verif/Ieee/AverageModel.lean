import Verif.Ieee.Arith
import Verif.Average.Model

/-!
# The smoothing of `examples/average/test/average.cpp` in floating-point arithmetic with overflow and underflow

The same routines as in `Verif/Average/Model.lean`, with the rounded result `A.rnd` of every arithmetic operation, in source order;
`none` is an access out of bounds or an overflow.  The denominators (`num_nodes_in_cell()`, `(real_t)num_cells_in_node`) are converted
from small integers, which is exact.
-/

namespace Verif.Average
open Verif.Fp

/-- Average of the nodal field over a cell, average.cpp:757-767: `temp_avg += node.field(node_gid)/num_nodes_in_cell()`. -/
noncomputable def cellAverageI (A : Ieee) (m : Mesh) (node : Arr ℝ) (c : ℕ) : Option ℝ :=
  loopM 8 (fun l t => do
    let n ← m.nodesInCell.get (c * 8 + l)
    let v ← node.get n
    let q ← A.rnd (v / 8)
    A.rnd (t + q)) 0

/-- Average of the cell field over the cells of a node, average.cpp:785-793. -/
noncomputable def nodeAverageI (A : Ieee) (m : Mesh) (cell : Arr ℝ) (n : ℕ) : Option ℝ := do
  let k ← m.conn.numCellsInNode n
  loopM k (fun l t => do
    let c ← m.conn.cellsInNode n l
    let v ← cell.get c
    let q ← A.rnd (v / k)
    A.rnd (t + q)) 0

/-- `smooth_element`, average.cpp:741-797. -/
noncomputable def smoothElementI (A : Ieee) (m : Mesh) (s : State) : Option State := do
  let cell ← loopM m.elems (fun e => loopM m.cellsPerElem fun i cell => do
    let c ← m.cellsInElem.get (e * m.cellsPerElem + i)
    let t ← cellAverageI A m s.node c
    cell.set c t) s.cell
  let node ← loopM m.elems (fun e => loopM m.nodesPerElem fun i node => do
    let n ← m.nodesInElem.get (e * m.nodesPerElem + i)
    let t ← nodeAverageI A m cell n
    node.set n t) s.node
  pure ⟨node, cell⟩

/-- `k` passes of the cycle loop of `main`, average.cpp:292-313; `apply_boundary` does no arithmetic. -/
noncomputable def cyclesI (A : Ieee) (m : Mesh) (k : ℕ) (s : State) : Option State :=
  loopM k (fun _ s => do
    let s ← smoothElementI A m s
    applyBoundary m s) s

end Verif.Average
