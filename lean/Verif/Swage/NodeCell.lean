import Verif.Mem

/-!
# Model of the node-to-cell and corner connectivity builders of `swage/swage.cpp`

`C` = `num_cells_`, `N` = `num_nodes_`, `nodes c l` = `nodes_in_cell(c, l)` (read only in bounds by these
loops).  Ids are natural numbers (the code's `int`, without overflow).  The loops over
(cell, local node) and over (element, local Gauss point) have the same shape; `w` is the width of the
inner loop (8, resp. `num_g_pts_in_elem_`).
-/

namespace Verif.Swage

/-- Two arrays cleared together, swage/swage.cpp:1100-1104 (and 1654-1657). -/
def clear2 (n : ℕ) (a b : Arr ℕ) : Option (Arr ℕ × Arr ℕ) :=
  loopM n (fun i s => do
    let a ← s.1.set i 0
    let b ← s.2.set i 0
    pure (a, b)) (a, b)

/-- Counting loop, swage/swage.cpp:1108-1122: returns (`num_corners`, `num_cells_in_node_`). -/
def countLoop (C w : ℕ) (key : ℕ → ℕ → ℕ) (num : Arr ℕ) : Option (ℕ × Arr ℕ) :=
  loopM C (fun c s => loopM w (fun l s => do
    let v ← s.2.get (key c l)
    let num ← s.2.set (key c l) (v + 1)
    pure (s.1 + 1, num)) s) (0, num)

/-- Start indices of a ragged list, swage/swage.cpp:1132-1140 (and 1264-1270, 1685-1690). -/
def startLoop (N : ℕ) (num start : Arr ℕ) : Option (Arr ℕ) := do
  let start ← start.set 0 0
  loopM N (fun n start => do
    let a ← start.get n
    let b ← num.get n
    start.set (n + 1) (a + b)) start

/-- Filling loop, swage/swage.cpp:1146-1161 (and 1695-1709): returns (list, saved counts). -/
def placeLoop (C w : ℕ) (key : ℕ → ℕ → ℕ) (start list saved : Arr ℕ) : Option (Arr ℕ × Arr ℕ) :=
  loopM C (fun c s => loopM w (fun l s => do
    let i ← start.get (key c l)
    let k ← s.2.get (key c l)
    let list ← s.1.set (i + k) c
    let saved ← s.2.set (key c l) (k + 1)
    pure (list, saved)) s) (list, saved)

/-- The node-to-cell members of `mesh_t`. -/
structure NodeCell where
  /-- `num_cells_in_node_` -/
  num : Arr ℕ
  /-- `cells_in_node_list_start_` -/
  start : Arr ℕ
  /-- `cells_in_node_list_` -/
  list : Arr ℕ

/-- `mesh_t::build_node_cell_connectivity`, swage/swage.cpp:1096-1162. `saved0`, `list0` are the contents
of the freshly allocated local array and list. -/
def buildNodeCell (C N : ℕ) (nodes : ℕ → ℕ → ℕ) (m : NodeCell) (saved0 list0 : ℕ → ℕ) :
    Option NodeCell := do
  let s ← clear2 N m.num ⟨N, saved0⟩
  let cnt ← countLoop C 8 nodes s.1
  let start ← startLoop N cnt.2 m.start
  let p ← placeLoop C 8 nodes start ⟨cnt.1, list0⟩ s.2
  pure ⟨cnt.2, start, p.1⟩

/-- `mesh_t::num_cells_in_node(n)`, swage/swage.cpp:733-736. -/
def NodeCell.numCellsInNode (m : NodeCell) (n : ℕ) : Option ℕ := m.num.get n

/-- `mesh_t::cells_in_node(n, l)`, swage/swage.cpp:746-755. -/
def NodeCell.cellsInNode (m : NodeCell) (n l : ℕ) : Option ℕ := do
  let s ← m.start.get n
  m.list.get (s + l)

/-- The corner members of `mesh_t`. -/
structure Corners where
  /-- `num_corners_` -/
  numCorners : ℕ
  /-- `num_corners_in_node_` -/
  num : Arr ℕ
  /-- `corners_in_node_list_` -/
  list : Arr ℕ
  /-- `corners_in_cell_list_` -/
  inCell : ℕ → ℕ → ℕ

/-- `mesh_t::build_corner_connectivity`, swage/swage.cpp:1165-1220. `start` is
`cells_in_node_list_start_`; `num0`, `inCell0` are the previous contents of `num_corners_in_node_` and
`corners_in_cell_list_`. The counting loop 1174-1182 only computes `8 * num_cells_`. -/
def buildCorners (C N : ℕ) (nodes : ℕ → ℕ → ℕ) (start num0 : Arr ℕ) (inCell0 : ℕ → ℕ → ℕ)
    (saved0 list0 : ℕ → ℕ) : Option Corners := do
  let saved ← loopM N (fun n s => s.set n 0) (⟨N, saved0⟩ : Arr ℕ)
  let total := loop C (fun _ t => loop 8 (fun _ t => t + 1) t) 0
  let r ← loopM C (fun c (s : (Arr ℕ × Arr ℕ) × (ℕ → ℕ → ℕ) × ℕ) => loopM 8 (fun l s => do
    let i ← start.get (nodes c l)
    let k ← s.1.2.get (nodes c l)
    let saved ← s.1.2.set (nodes c l) (k + 1)
    let list ← s.1.1.set (i + k) s.2.2
    pure ((list, saved), store2 s.2.1 c l s.2.2, s.2.2 + 1)) s) ((⟨total, list0⟩, saved), inCell0, 0)
  let num ← loopM N (fun n num => do
    let v ← r.1.2.get n
    num.set n v) num0
  pure ⟨total, num, r.1.1, r.2.1⟩

/-- `mesh_t::corners_in_node(n, l)`, swage/swage.cpp:834-844. -/
def Corners.cornersInNode (k : Corners) (start : Arr ℕ) (n l : ℕ) : Option ℕ := do
  let s ← start.get n
  k.list.get (s + l)

end Verif.Swage
