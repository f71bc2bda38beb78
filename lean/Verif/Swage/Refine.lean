import Verif.Swage.PatchKey
import Verif.Quad.Tables

/-!
# Model of `swage::refine_mesh` and `mesh_t::init_element`

Over the real numbers and for `dim = 3` (the distance loop, the vertex loop and the cell loops of the code
read three coordinates whatever `dim` is).  Input mesh: `E` cells, `N` nodes, `nodes c l` is
`init_mesh.nodes_in_cell(c, l)`, `x n d` is `init_mesh.node_coords(n, d)`.
Two- and three-dimensional `CArray`s are flat with row-major strides, as in MATAR, except arrays of coordinate
triples, which are arrays of rows.  Not modelled: rounding, overflow of `int`, printing, and the connectivity
builders called at the end (they are modelled in the other files of this directory).
-/

namespace Verif.Swage.Refine
open Verif.Swage

/-! ### `mesh_t::init_element` -/

/-- The counts set by `init_element`. -/
structure Counts where
  /-- `num_g_pts_in_elem_` -/
  gPts : ℕ
  /-- `num_cells_in_elem_` -/
  cells : ℕ
  /-- `num_zones_in_elem_` -/
  zones : ℕ
  /-- `num_cells_in_zone_` -/
  cellsInZone : ℕ
  /-- `num_nodes_in_elem_` -/
  nodes : ℕ
  /-- `num_patches_in_elem_` -/
  patches : ℕ
  /-- `num_elem_` -/
  numElem : ℕ
  /-- `num_cells_` -/
  numCells : ℕ

/-- `num_g_pts_1d`, swage/swage.cpp:374-398 and 2064-2082. -/
def pts1d (p : ℕ) : ℕ := if p = 0 then 2 else 2 * p + 1
/-- `num_sub_1d`, swage/swage.cpp:2064-2082. -/
def sub1d (p : ℕ) : ℕ := if p = 0 then 1 else p * 2

/-- `mesh_t::init_element(e_order, dim, num_elem)`, swage/swage.cpp:364-430. -/
def initElement (p dim numElem : ℕ) : Counts :=
  let cells1d := pts1d p - 1
  let sub := if p = 0 then (pts1d p - 1) ^ dim else (2 * p) ^ dim
  { gPts := pts1d p ^ dim
    cells := sub
    zones := if p = 0 then 1 else (cells1d / 2) ^ dim
    cellsInZone := 8
    nodes := pts1d p ^ dim
    patches := (cells1d + 1) * (cells1d * cells1d) * 3
    numElem := numElem
    numCells := numElem * sub }

/-! ### Gauss points -/

/-- `temp_pts(i, j, k, d)`, swage/swage.cpp:2096-2112 (the array is filled for all indices before it is read). -/
def tempPts (L : ℕ → ℝ) (i j k d : ℕ) : ℝ := if d = 0 then L i else if d = 1 then L j else L k

/-- `ref_vert`, swage/swage.cpp:2124-2136. -/
def refVert (v d : ℕ) : ℝ :=
  (([[-1, -1, -1], [1, -1, -1], [-1, 1, -1], [1, 1, -1], [-1, -1, 1], [1, -1, 1], [-1, 1, 1], [1, 1, 1]] :
    List (List ℝ)).getD v []).getD d 0

/-- `basis[v]`, swage/swage.cpp:2168-2173. -/
noncomputable def basis (L : ℕ → ℝ) (i j k v : ℕ) : ℝ :=
  1 / 8 * (1 + tempPts L i j k 0 * refVert v 0) * (1 + tempPts L i j k 1 * refVert v 1)
    * (1 + tempPts L i j k 2 * refVert v 2)

/-- One component of a Gauss point, swage/swage.cpp:2175-2184. -/
noncomputable def gPoint (b xs : ℕ → ℝ) : ℝ := loop 8 (fun v s => s + b v * xs v) 0

/-- Filling `g_points_in_mesh`, swage/swage.cpp:2150-2191: state (`g_point_count`, array of rows). -/
noncomputable def gaussPoints (E n : ℕ) (nodes : ℕ → ℕ → ℕ) (x : ℕ → ℕ → ℝ) (L : ℕ → ℝ) (a : Arr (ℕ → ℝ)) :
    Option (ℕ × Arr (ℕ → ℝ)) :=
  loopM E (fun e => loopM n fun k => loopM n fun j => loopM n fun i s => do
    let a ← s.2.set s.1 (fun d => gPoint (basis L i j k) (fun v => x (nodes e v) d))
    pure (s.1 + 1, a)) (0, a)

/-! ### Hash keys -/

/-- `pos_max`, swage/swage.cpp:2199-2218. -/
noncomputable def posMax (N : ℕ) (x : ℕ → ℕ → ℝ) (d : ℕ) : ℝ := loop N (fun n m => max m (x n d)) (-10 ^ 16)
/-- `pos_min`, swage/swage.cpp:2199-2218. -/
noncomputable def posMin (N : ℕ) (x : ℕ → ℕ → ℝ) (d : ℕ) : ℝ := loop N (fun n m => min m (x n d)) (10 ^ 16)

/-- `dist_min` of one cell, swage/swage.cpp:2232-2273: the distance loop is textually the one of
`build_patch_connectivity` (`Key.distLoop`), the minimum starts from `1e64`. -/
noncomputable def cellDist (v : ℕ → ℕ → ℝ) (junk : ℕ → ℝ) : ℝ :=
  loop 28 (fun i m => min ((Key.distLoop v junk).2 i) m) (10 ^ 64)
/-- `dist_min` after the loop over the cells, swage/swage.cpp:2230-2274 (reassigned for every cell). -/
noncomputable def distMin (E : ℕ) (nodes : ℕ → ℕ → ℕ) (x : ℕ → ℕ → ℝ) (junk : ℕ → ℝ) (junk0 : ℝ) : ℝ :=
  loop E (fun c _ => cellDist (fun l d => x (nodes c l) d) junk) junk0

/-- `h`, swage/swage.cpp:2279-2284. -/
noncomputable def hashDist (p : ℕ) (dm : ℝ) : ℝ := dm / (7 * if p = 0 then 1 else (p : ℝ))

/-- `int_bins[d]`, swage/swage.cpp:2289-2301. -/
noncomputable def bins (N : ℕ) (x : ℕ → ℕ → ℝ) (h : ℝ) (d : ℕ) : ℕ :=
  ⌊max (1 / 10 ^ 16) ((posMax N x d - posMin N x d + 1 + 1 / 10 ^ 14) / h)⌋₊
/-- `int_idx[d]` of a point, swage/swage.cpp:2316-2321. -/
noncomputable def index (N : ℕ) (x : ℕ → ℕ → ℝ) (h : ℝ) (y : ℕ → ℝ) (d : ℕ) : ℕ :=
  ⌊max (1 / 10 ^ 16) ((y d - posMin N x d + 1 / 10 ^ 14) / h)⌋₊
/-- `key` of a point, swage/swage.cpp:2330-2334. -/
noncomputable def key (N : ℕ) (x : ℕ → ℕ → ℝ) (h : ℝ) (y : ℕ → ℝ) : ℕ :=
  index N x h y 0 + index N x h y 1 * bins N x h 0 + index N x h y 2 * bins N x h 0 * bins N x h 1

/-! ### Numbering of the nodes -/

/-- Initialisation of the table, swage/swage.cpp:2346-2348. -/
def zeroTable (K : ℕ) (keys : Arr ℕ) (t : Arr ℤ) : Option (Arr ℤ) :=
  loopM K (fun g t => do let k ← keys.get g; t.set k 0) t

/-- Variables of the walk over the Gauss points. -/
structure Walk where
  /-- `hash` -/
  table : Arr ℤ
  /-- `node_to_gauss_map` -/
  ntg : Arr ℕ
  /-- `num_nodes` -/
  numNodes : ℕ
  /-- `node_gid` -/
  gid : ℕ
  /-- `node_in_gauss_list_` -/
  nig : Arr ℤ

/-- One step of the walk, swage/swage.cpp:2360-2388. -/
def walkStep (keys : Arr ℕ) (g : ℕ) (s : Walk) : Option Walk := do
  let k ← keys.get g
  let v ← s.table.get k
  let t ← if v ≤ 0 then s.table.set k (v - 1) else some s.table
  let v1 ← t.get k
  let m ← if v1 = -1 then (do
      let ntg ← s.ntg.set s.numNodes g
      pure (ntg, s.numNodes + 1)) else some (s.ntg, s.numNodes)
  if v1 ≤ -1 then do
    let t ← t.set k (s.gid : ℤ)
    let nig ← s.nig.set g (s.gid : ℤ)
    pure ⟨t, m.1, m.2, s.gid + 1, nig⟩
  else do
    let nig ← s.nig.set g v1
    pure ⟨t, m.1, m.2, s.gid, nig⟩

/-- The walk, swage/swage.cpp:2350-2389. -/
def walk (K : ℕ) (keys : Arr ℕ) (s : Walk) : Option Walk := loopM K (walkStep keys) s

/-- Writing the node positions, swage/swage.cpp:2398-2403. -/
noncomputable def writeCoords (M : ℕ) (ntg : Arr ℕ) (g : Arr (ℕ → ℝ)) (c : Arr (ℕ → ℝ)) : Option (Arr (ℕ → ℝ)) :=
  loopM M (fun m c => do
    let q ← ntg.get m
    let r ← g.get q
    c.set m r) c

/-! ### Cells -/

/-- `p0`..`p7`, swage/swage.cpp:2425-2441 and 2474-2486. -/
def corner (n e k j i l : ℕ) : ℕ :=
  [i + j * n + k * n * n, i + 1 + j * n + k * n * n, i + (j + 1) * n + k * n * n, i + 1 + (j + 1) * n + k * n * n,
   i + j * n + (k + 1) * n * n, i + 1 + j * n + (k + 1) * n * n, i + (j + 1) * n + (k + 1) * n * n,
   i + 1 + (j + 1) * n + (k + 1) * n * n].getD l 0 + n * n * n * e

/-- The index arrays of the cells. -/
structure Cells where
  /-- `gauss_in_cell_list_` (row length 8) -/
  gauss : Arr ℕ
  /-- `cells_in_elem_` (row length `num_subcells_per_elem`) -/
  inElem : Arr ℕ
  /-- `elems_in_cell_list_` -/
  elem : Arr ℕ

/-- First loop over the cells, swage/swage.cpp:2418-2463. `G` is the row length of `cells_in_elem_`. -/
def cellLoop (E S n G : ℕ) (s : Cells) : Option Cells :=
  loopM E (fun e => loopM S fun k => loopM S fun j => loopM S fun i s => do
    let lid := i + j * S + k * S * S
    let gid := lid + S * S * S * e
    let gauss ← loopM 8 (fun l a => a.set (gid * 8 + l) (corner n e k j i l)) s.gauss
    let inElem ← s.inElem.set (e * G + lid) gid
    let elem ← s.elem.set gid e
    pure ⟨gauss, inElem, elem⟩) s

/-- Second loop over the cells, swage/swage.cpp:2468-2499: state (`cell_gid`, `nodes_in_cell_list_`). -/
def nodeLoop (E S n : ℕ) (nig : Arr ℤ) (s : ℕ × Arr ℤ) : Option (ℕ × Arr ℤ) :=
  loopM E (fun e => loopM S fun k => loopM S fun j => loopM S fun i s => do
    let a ← loopM 8 (fun l a => do
      let v ← nig.get (corner n e k j i l)
      a.set (s.1 * 8 + l) v) s.2
    pure (s.1 + 1, a)) s

/-! ### The whole function -/

/-- The refined mesh. -/
structure Refined where
  /-- the counts -/
  counts : Counts
  /-- `g_points_in_mesh` (local) -/
  gauss : Arr (ℕ → ℝ)
  /-- `num_nodes_` -/
  numNodes : ℕ
  /-- `node_in_gauss_list_` -/
  nig : Arr ℤ
  /-- `node_coords_` -/
  coords : Arr (ℕ → ℝ)
  /-- index arrays -/
  cells : Cells
  /-- `nodes_in_cell_list_` (row length 8) -/
  nodes : Arr ℤ

/-- Initial contents of the arrays allocated by the function (arbitrary memory). -/
structure Junk where
  lob : ℕ → ℝ
  gauss : ℕ → ℕ → ℝ
  dist : ℕ → ℝ
  dist0 : ℝ
  table : ℕ → ℤ
  ntg : ℕ → ℕ
  nig : ℕ → ℤ
  coords : ℕ → ℕ → ℝ
  gic : ℕ → ℕ
  cie : ℕ → ℕ
  eic : ℕ → ℕ
  nic : ℕ → ℤ

/-- `refine_mesh(init_mesh, mesh, p_order, 3)`, swage/swage.cpp:2049-2502.  If `h` is zero, the quotients by `h` are
infinite and their conversion to `int` is undefined: `none`. -/
noncomputable def refineMesh (E N p : ℕ) (nodes : ℕ → ℕ → ℕ) (x : ℕ → ℕ → ℝ) (q : Junk) : Option Refined := do
  let c := initElement p 3 E
  let n := pts1d p
  let S := sub1d p
  let K := n ^ 3 * E
  let lob ← Quad.lobatto_nodes_1D n ⟨n, q.lob⟩
  let g ← gaussPoints E n nodes x lob.val ⟨E * n ^ 3, q.gauss⟩
  let h := hashDist p (distMin E nodes x q.dist q.dist0)
  let _ ← if h = 0 then none else some ()
  let keys := fun i => key N x h (g.2.val i)
  let t ← zeroTable K ⟨K, keys⟩ ⟨maxKey K keys + 10, q.table⟩
  let w ← walk K ⟨K, keys⟩ ⟨t, ⟨K, q.ntg⟩, 0, 0, ⟨E * c.gPts, q.nig⟩⟩
  let coords ← writeCoords w.numNodes w.ntg g.2 ⟨w.numNodes, q.coords⟩
  let cells ← cellLoop E S n c.cells ⟨⟨E * S ^ 3 * 8, q.gic⟩, ⟨E * c.cells, q.cie⟩, ⟨E * S ^ 3, q.eic⟩⟩
  let r ← nodeLoop E S n w.nig (0, ⟨E * S ^ 3 * 8, q.nic⟩)
  pure ⟨c, g.2, w.numNodes, w.nig, coords, cells, r.2⟩

end Verif.Swage.Refine
