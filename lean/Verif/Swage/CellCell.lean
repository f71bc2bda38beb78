import Verif.Swage.NodeCell

/-!
# Model of the cell-to-cell builder of `swage/swage.cpp`

The same text is used for elements ("same coding as cells_in_cell"): `C` cells with `w` nodes each, and
the node lists `m` built before.
-/

namespace Verif.Swage

/-- The loops `for node_lid … for cell_lid … neighbor = cells_in_node(node, cell_lid)` around a body,
swage/swage.cpp:1233-1257, 1274-1318. -/
def visitLoop {σ : Type} (w : ℕ) (nodes : ℕ → ℕ → ℕ) (m : NodeCell) (c : ℕ)
    (body : ℕ → σ → Option σ) (s : σ) : Option σ :=
  loopM w (fun l s => do
    let k ← m.numCellsInNode (nodes c l)
    loopM k (fun i s => do
      let nb ← m.cellsInNode (nodes c l) i
      body nb s) s) s

/-- First pass, swage/swage.cpp:1232-1257: state (`num_c_c_pairs`, `num_cells_in_cell_`). -/
def pairBody (c nb : ℕ) (s : ℕ × Arr ℕ) : Option (ℕ × Arr ℕ) :=
  if nb ≠ c then do
    let v ← s.2.get c
    let num ← s.2.set c (v + 1)
    pure (s.1 + 1, num)
  else some s

/-- First pass over all cells. -/
def pairLoop (C w : ℕ) (nodes : ℕ → ℕ → ℕ) (m : NodeCell) (num : Arr ℕ) : Option (ℕ × Arr ℕ) :=
  loopM C (fun c s => visitLoop w nodes m c (pairBody c) s) (0, num)

/-- State of the second pass. -/
structure SaveState where
  /-- `temp_cell_in_cell_list` -/
  temp : Arr ℕ
  /-- `num_cell_cell_saved` -/
  saved : Arr ℕ
  /-- `actual_size` -/
  actual : ℕ

/-- Body of the second pass, swage/swage.cpp:1283-1315: the flag `save` is cleared for the cell itself and
for a neighbour already in the list. -/
def saveBody (start : Arr ℕ) (c nb : ℕ) (s : SaveState) : Option SaveState := do
  let st ← start.get c
  let k ← s.saved.get c
  let save ← loopM k (fun j save => do
    let v ← s.temp.get (st + j)
    pure (if nb = v then false else save)) (if nb = c then false else true)
  if save then do
    let temp ← s.temp.set (st + k) nb
    let saved ← s.saved.set c (k + 1)
    pure ⟨temp, saved, s.actual + 1⟩
  else some s

/-- Second pass, swage/swage.cpp:1273-1319. -/
def saveLoop (C w : ℕ) (nodes : ℕ → ℕ → ℕ) (m : NodeCell) (start : Arr ℕ) (s : SaveState) :
    Option SaveState :=
  loopM C (fun c s => visitLoop w nodes m c (saveBody start c) s) s

/-- The cell-to-cell members of `mesh_t`. -/
structure CellCell where
  /-- `num_cells_in_cell_` -/
  num : Arr ℕ
  /-- `cells_in_cell_list_start_` -/
  start : Arr ℕ
  /-- `cells_in_cell_list_` -/
  list : Arr ℕ

/-- Final compaction, swage/swage.cpp:1329-1354; the second component is `index`. -/
def compactLoop (C : ℕ) (temp saved : Arr ℕ) (s : CellCell × ℕ) : Option (CellCell × ℕ) :=
  loopM C (fun c s => do
    let k ← saved.get c
    let num ← s.1.num.set c k
    let st ← s.1.start.get c
    let start ← s.1.start.set c s.2
    let r ← loopM k (fun j (t : Arr ℕ × ℕ) => do
      let v ← temp.get (st + j)
      let list ← t.1.set t.2 v
      pure (list, t.2 + 1)) (s.1.list, s.2)
    pure (⟨num, start, r.1⟩, r.2)) s

/-- `mesh_t::build_cell_cell_connectivity`, swage/swage.cpp:1223-1357. `saved0`, `temp0`, `list0` are the
contents of freshly allocated arrays. The write `cells_in_cell_list_(0) = 0` (line 1327) needs a
non-empty list. -/
def buildCellCell (C w : ℕ) (nodes : ℕ → ℕ → ℕ) (m : NodeCell) (k : CellCell)
    (saved0 temp0 list0 : ℕ → ℕ) : Option CellCell := do
  let s ← clear2 C k.num ⟨C, saved0⟩
  let p ← pairLoop C w nodes m s.1
  let start ← startLoop C p.2 k.start
  let r ← saveLoop C w nodes m start ⟨⟨p.1, temp0⟩, s.2, 0⟩
  let list ← (⟨r.actual, list0⟩ : Arr ℕ).set 0 0
  let f ← compactLoop C r.temp r.saved (⟨p.2, start, list⟩, 0)
  pure f.1

/-- `mesh_t::cells_in_cell(c, l)`, swage/swage.cpp:688-697. -/
def CellCell.cellsInCell (k : CellCell) (c l : ℕ) : Option ℕ := do
  let s ← k.start.get c
  k.list.get (s + l)

end Verif.Swage
