import Verif.Average.Model
import Verif.Swage.Elem
import Verif.Swage.RefineGrid

/-!
# Model of the setup of the Average example

The part of `read_mesh` after the file has been read (the connectivity of the initial mesh and `refine_mesh` with the connectivity of the
refined mesh), and `generate_bcs`.  The pieces are the models of `Verif.Swage`; here they are put together in the order of the calls.
Indices of the refined mesh, which the refinement model stores as integers, are converted with `Int.toNat` (they are not negative).
Console output is left out, and the reference element, which is modelled in `Verif.RefElem`.
-/

namespace Verif.Average
open Verif.Swage

/-- Contents of the memory allocated by `init_nodes`, `init_cells`, `init_element` and by the connectivity builders (arbitrary). -/
structure ConnJunk where
  ncNum : ℕ → ℕ
  ncStart : ℕ → ℕ
  ncList : ℕ → ℕ
  ncSaved : ℕ → ℕ
  coNum : ℕ → ℕ
  coCell : ℕ → ℕ → ℕ
  coSaved : ℕ → ℕ
  coList : ℕ → ℕ
  ccNum : ℕ → ℕ
  ccStart : ℕ → ℕ
  ccSaved : ℕ → ℕ
  ccTemp : ℕ → ℕ
  ccList : ℕ → ℕ
  dist : ℕ → ℝ
  dist0 : ℝ
  paTable : ℕ → ℤ
  paCells : ℕ → ℤ
  paSides : ℕ → ℤ
  paNodes : ℕ → ℤ
  paCell : ℕ → ℕ → ℤ
  paSide : ℕ → ℕ → ℕ
  enNum : ℕ → ℕ
  enStart : ℕ → ℕ
  enNodes : ℕ → ℕ → ℕ
  eeNum : ℕ → ℕ
  eeStart : ℕ → ℕ
  eeRag : ℕ → ℕ → ℕ
  enHit : ℕ → ℕ
  enList : ℕ → ℕ
  eeSaved : ℕ → ℕ
  eeTemp : ℕ → ℕ
  eeSize : ℕ → ℕ

/-- The connectivity of a mesh without the elements. -/
structure CellConn where
  nodeCell : NodeCell
  corners : Corners
  cellCell : CellCell
  patches : Patches

/-- The first four builders, in the order of examples/average/test/average.cpp:479-490 and of `mesh_t::build_connectivity`,
swage/swage.cpp:1078-1088, for `C` cells and `N` nodes; the sizes of the arrays are those of swage/swage.cpp:440-487. -/
noncomputable def buildCells (C N : ℕ) (nodes : ℕ → ℕ → ℕ) (x : ℕ → ℕ → ℝ) (q : ConnJunk) : Option CellConn := do
  let nc ← buildNodeCell C N nodes ⟨⟨N, q.ncNum⟩, ⟨N + 1, q.ncStart⟩, ⟨0, q.ncList⟩⟩ q.ncSaved q.ncList
  let co ← buildCorners C N nodes nc.start ⟨N, q.coNum⟩ q.coCell q.coSaved q.coList
  let cc ← buildCellCell C 8 nodes nc ⟨⟨C, q.ccNum⟩, ⟨C + 1, q.ccStart⟩, ⟨0, q.ccList⟩⟩ q.ccSaved q.ccTemp q.ccList
  let pa ← buildPatches C nodes (Key.key C N nodes x q.dist q.dist0) q.paTable q.paCells q.paSides q.paNodes q.paCell q.paSide
  pure ⟨nc, co, cc, pa⟩

/-- The last builder, swage/swage.cpp:1090-1091; the sizes of the arrays are those of swage/swage.cpp:419-427, 483-485. -/
def buildElems (E G N C : ℕ) (nig : Arr ℕ) (q : ConnJunk) : Option ElemConn :=
  buildElem E G N C nig ⟨⟨⟨N, q.enNum⟩, ⟨N + 1, q.enStart⟩, ⟨0, q.enList⟩⟩, q.enNodes, ⟨E, q.eeNum⟩, ⟨E + 1, q.eeStart⟩,
    ⟨0, q.eeSize⟩, q.eeRag⟩ q.enHit q.enList q.eeSaved q.eeTemp q.eeSize q.eeRag

/-- `boundary_t`, examples/average/include/header.h (`surface` as its number, and `value`). -/
structure Bdy where
  surface : ℕ
  value : ℝ

open Classical in
/-- The test of `tag_bdys` for patch `g`: `check_bdy(g, bc_tag, value)`, swage/swage.cpp:1955, 1981-2040.  The patch coordinates
are always defined (`C41_patch_coords`), so the default value 0 is never used. -/
noncomputable def onBdy (k : Patches) (x : ℕ → ℕ → ℝ) (b : Bdy) (g : ℕ) : Bool :=
  decide (Key.checkBdy (fun d => (Key.patchCoord k x g d).getD 0) b.surface b.value)

/-- `generate_bcs`, examples/average/test/average.cpp:508-537: `boundary` has `NB` entries.  The exit of `tag_bdys` for a wrong set
number gives `none` like undefined behaviour. -/
noncomputable def generateBcs (k : Patches) (x : ℕ → ℕ → ℝ) (boundary : List Bdy) (jb j1 j2 j3 : ℕ → ℕ) : Option BdySets := do
  let b ← buildBdy k jb
  let r ← tagSeq b ((List.range boundary.length).map fun i => (i, onBdy k x (boundary.getD i ⟨0, 0⟩)))
    (initBdySets boundary.length b.size j1 j2 j3)
  r

/-- Contents of all memory allocated by the setup. -/
structure SetupJunk where
  init : ConnJunk
  refine : Refine.Junk
  conn : ConnJunk
  bdy : ℕ → ℕ
  set1 : ℕ → ℕ
  set2 : ℕ → ℕ
  set3 : ℕ → ℕ

/-- `nodes_in_cell` and `node_coords` of the refined mesh with the connectivity built for them, and the boundary sets. -/
def meshOf (E : ℕ) (r : Refine.Refined) (c : CellConn) (el : ElemConn) (b : BdySets) : Mesh where
  nodes := r.numNodes
  cells := r.counts.numCells
  elems := E
  cellsPerElem := r.counts.cells
  nodesPerElem := r.counts.nodes
  nodesInCell := ⟨r.nodes.size, fun i => (r.nodes.val i).toNat⟩
  conn := c.nodeCell
  cellsInElem := r.cells.inElem
  nodesInElem := ⟨E * r.counts.nodes, fun i => el.nodesInElem (i / r.counts.nodes) (i % r.counts.nodes)⟩
  coords := r.coords
  patches := c.patches
  bdy := b

/-- From the mesh read from the file to the boundary sets: examples/average/test/average.cpp:472-495 (the connectivity of the
initial mesh is built if it has cells), `refine_mesh` with `build_connectivity`, swage/swage.cpp:2049-2502, and
`generate_bcs`.  `E`, `N`, `nodes`, `x` are the initial mesh, `p` is `p_order`. -/
noncomputable def setup (E N p : ℕ) (nodes : ℕ → ℕ → ℕ) (x : ℕ → ℕ → ℝ) (boundary : List Bdy) (q : SetupJunk) : Option Mesh := do
  let _ ← if 0 < E then (buildCells E N nodes x q.init).map (fun _ => ()) else some ()
  let r ← Refine.refineMesh E N p nodes x q.refine
  let c ← buildCells r.counts.numCells r.numNodes r.cellNode r.x q.conn
  let el ← buildElems E r.counts.gPts r.numNodes r.counts.numCells ⟨r.nig.size, fun i => (r.nig.val i).toNat⟩ q.conn
  let b ← generateBcs c.patches r.x boundary q.bdy q.set1 q.set2 q.set3
  pure (meshOf E r c el b)

end Verif.Average
