import Verif.Swage.CellCell

/-!
# Model of `mesh_t::build_element_connectivity` of `swage/swage.cpp`
-/

namespace Verif.Swage

/-- `mesh_t::gauss_in_elem(e, g)`, swage/swage.cpp:799-804. -/
def gaussInElem (G e g : ℕ) : ℕ := e * G + g

/-- The element members of `mesh_t` written by the builder. -/
structure ElemConn where
  /-- `num_elems_in_node_`, `elems_in_node_list_start_`, `elems_in_node_list_` -/
  node : NodeCell
  /-- `nodes_in_elem_list_` -/
  nodesInElem : ℕ → ℕ → ℕ
  /-- `num_elems_in_elem_` -/
  num : Arr ℕ
  /-- `elems_in_elem_list_start_` -/
  start : Arr ℕ
  /-- row lengths of the `RaggedRightArray` `elems_in_elem_list_` -/
  stride : Arr ℕ
  /-- its entries -/
  list : ℕ → ℕ → ℕ

/-- First loop, swage/swage.cpp:1660-1673: count the hits of every node and fill `nodes_in_elem`. -/
def elemCount (E G : ℕ) (nig : Arr ℕ) (num : Arr ℕ) (nie : ℕ → ℕ → ℕ) :
    Option (Arr ℕ × (ℕ → ℕ → ℕ)) :=
  loopM E (fun e s => loopM G (fun g s => do
    let n ← nig.get (gaussInElem G e g)
    let v ← s.1.get n
    let num ← s.1.set n (v + 1)
    pure (num, store2 s.2 e g n)) s) (num, nie)

/-- `elem_in_node_size`, swage/swage.cpp:1680-1683. -/
def elemSize (N : ℕ) (num : Arr ℕ) : Option ℕ :=
  loopM N (fun n t => do let v ← num.get n; pure (t + v)) 0

/-- Filling `elems_in_node_list_`, swage/swage.cpp:1695-1709. -/
def elemPlace (E G : ℕ) (nig start list hit : Arr ℕ) : Option (Arr ℕ × Arr ℕ) :=
  loopM E (fun e s => loopM G (fun g s => do
    let n ← nig.get (gaussInElem G e g)
    let i ← start.get n
    let k ← s.2.get n
    let list ← s.1.set (i + k) e
    let hit ← s.2.set n (k + 1)
    pure (list, hit)) s) (list, hit)

/-- Row lengths of the ragged array, swage/swage.cpp:1813-1822: copy of the start table, then differences
(type `size_t`; the last entry keeps the total). -/
def strides (E : ℕ) (start eiels : Arr ℕ) : Option (Arr ℕ) := do
  let a ← loopM (E + 1) (fun i a => do let v ← start.get i; a.set i v) eiels
  loopM E (fun i a => do
    let x ← a.get (i + 1)
    let y ← a.get i
    a.set i (x - y)) a

/-- Final copy, swage/swage.cpp:1828-1851; writing entry `(e, i)` of the ragged array needs
`i < stride(e)`. -/
def elemCopy (E : ℕ) (start temp saved stride : Arr ℕ) (s : Arr ℕ × (ℕ → ℕ → ℕ)) :
    Option (Arr ℕ × (ℕ → ℕ → ℕ)) :=
  loopM E (fun e s => do
    let k ← saved.get e
    let num ← s.1.set e k
    let st ← start.get e
    let list ← loopM k (fun i list => do
      let v ← temp.get (st + i)
      let w ← stride.get e
      if i < w then pure (store2 list e i v) else none) s.2
    pure (num, list)) s

/-- `mesh_t::build_element_connectivity`, swage/swage.cpp:1648-1863. `nig` = `node_in_gauss_list_`,
`E` = `num_elem_`, `G` = `num_g_pts_in_elem_` = `num_nodes_in_elem_` (init_element, 412, 421),
`C` = `num_cells_` (only the length of a local array). The self check 1713-1720 only prints. -/
def buildElem (E G N C : ℕ) (nig : Arr ℕ) (k : ElemConn)
    (hit0 list0 saved0 temp0 eiels0 : ℕ → ℕ) (rag0 : ℕ → ℕ → ℕ) : Option ElemConn := do
  let s ← clear2 N k.node.num ⟨N, hit0⟩
  let c ← elemCount E G nig s.1 k.nodesInElem
  let size ← elemSize N c.1
  let start ← startLoop N c.1 k.node.start
  let p ← elemPlace E G nig start ⟨size, list0⟩ s.2
  let m : NodeCell := ⟨c.1, start, p.1⟩
  let s2 ← clear2 E k.num ⟨C, saved0⟩
  let q ← pairLoop E G c.2 m s2.1
  let estart ← startLoop E q.2 k.start
  let r ← saveLoop E G c.2 m estart ⟨⟨q.1, temp0⟩, s2.2, 0⟩
  let st ← strides E estart ⟨E + 1, eiels0⟩
  let f ← elemCopy E estart r.temp r.saved st (q.2, rag0)
  pure ⟨m, c.2, f.1, estart, st, f.2⟩

/-- `mesh_t::elems_in_node(n, l)`, swage/swage.cpp:758-767. -/
def ElemConn.elemsInNode (k : ElemConn) (n l : ℕ) : Option ℕ := k.node.cellsInNode n l

/-- `mesh_t::elems_in_elem(e, l)`, swage/swage.cpp:602-605: entry of the ragged array. -/
def ElemConn.elemsInElem (k : ElemConn) (e l : ℕ) : Option ℕ := do
  let w ← k.stride.get e
  if l < w then pure (k.list e l) else none

end Verif.Swage
