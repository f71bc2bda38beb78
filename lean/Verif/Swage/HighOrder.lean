import Verif.Swage.Refine
import Verif.LagrangeElement.Model
import Verif.Points.Model

/-!
# Model of `swage::refine_high_order_mesh`

Over the real numbers.  Input mesh: `E` elements of order `p`, `N` nodes, `nodes e v` is
`input_mesh.nodes_in_elem(e, v)`, `x n d` is `input_mesh.node_coords(n, d)`.
The numbering walk, the writing of the node positions and the two cell loops are textually those of `refine_mesh`
(with `num_sub_1d = 2 p`, `num_g_pts_1d = 2 p + 1`) and use the same definitions.
Not modelled: rounding, overflow of `int`, the printed messages, the stack space of `h_keys`, and the connectivity
builders called at the end.
-/

namespace Verif.Swage.HighOrder
open Verif.Swage Verif.Swage.Refine

/-- `2.0*NUM_EPS`, common/common.h:13 and 34 (`NUM_EPS` is `2⁻⁵²`). -/
noncomputable def tol : ℝ := 2 * (1 / 2 ^ 52)
/-- `NUM_MIN`, common/common.h:14: the smallest positive normalised `double`. -/
noncomputable def numMin : ℝ := 1 / 2 ^ 1022
/-- `NUM_MAX`, common/common.h:15: the largest `double`. -/
noncomputable def numMax : ℝ := (2 - 1 / 2 ^ 52) * 2 ^ 1023

/-- Initial contents of the arrays the function allocates, and of the work array of `elem` at each call (Gauss
point, component). -/
structure Junk where
  vert : ℕ → ℝ
  lob : ℕ → ℝ
  gauss : ℕ → ℕ → ℝ
  vx : ℕ → ℝ
  vy : ℕ → ℝ
  vz : ℕ → ℝ
  work : ℕ → ℕ → ℕ → ℝ
  table : ℕ → ℤ
  ntg : ℕ → ℕ
  nig : ℕ → ℤ
  coords : ℕ → ℕ → ℝ
  gic : ℕ → ℕ
  cie : ℕ → ℕ
  eic : ℕ → ℕ
  nic : ℕ → ℤ

/-- The arrays `vert_x_coords`, `vert_y_coords`, `vert_z_coords`. -/
structure Verts where
  vx : Arr ℝ
  vy : Arr ℝ
  vz : Arr ℝ

/-- Copying the vertex coordinates of one element, swage/refine_high_order_mesh.cpp:60-67. -/
noncomputable def getVerts (V : ℕ) (nodes : ℕ → ℕ) (x : ℕ → ℕ → ℝ) (s : Verts) : Option Verts :=
  loopM V (fun v s => do
    let vx ← s.vx.set v (x (nodes v) 0)
    let vy ← s.vy.set v (x (nodes v) 1)
    let vz ← s.vz.set v (x (nodes v) 2)
    pure ⟨vx, vy, vz⟩) s

/-- State of the loop over the elements. -/
structure GState where
  verts : Verts
  /-- `g_point_count` -/
  count : ℕ
  /-- `g_points_in_mesh` -/
  g : Arr (ℕ → ℝ)

/-- Interpolating one Gauss point, swage/refine_high_order_mesh.cpp:71-96.  `Z` are the 1-D vertices of the
reference element, `L` the Lobatto nodes. -/
noncomputable def interpPoint (p n : ℕ) (Z L : ℕ → ℝ) (work : ℕ → ℕ → ℕ → ℝ) (lid : ℕ) (s : GState) :
    Option GState := do
  let d ← LagrangeElement.digits n lid
  let X : ℕ → ℝ := fun c => if c = 0 then L d.1 else if c = 1 then L d.2.1 else L d.2.2
  let ap := fun c (vs : Arr ℝ) => LagrangeElement.evalApprox tol (p + 1) Z (work s.count c) vs.val X
  let y : ℕ → ℝ := fun c => if c = 0 then ap 0 s.verts.vx else if c = 1 then ap 1 s.verts.vy else ap 2 s.verts.vz
  let g ← s.g.set s.count y
  pure ⟨s.verts, s.count + 1, g⟩

/-- Filling `g_points_in_mesh`, swage/refine_high_order_mesh.cpp:53-98. -/
noncomputable def gaussPoints (E p n : ℕ) (nodes : ℕ → ℕ → ℕ) (x : ℕ → ℕ → ℝ) (Z L : ℕ → ℝ)
    (work : ℕ → ℕ → ℕ → ℝ) (s : GState) : Option GState :=
  loopM E (fun e s => do
    let vs ← getVerts ((p + 1) ^ 3) (nodes e) x s.verts
    loopM (n ^ 3) (interpPoint p n Z L work) ⟨vs, s.count, s.g⟩) s

/-- `pos_max`, swage/refine_high_order_mesh.cpp:104-120. -/
noncomputable def posMax (N : ℕ) (x : ℕ → ℕ → ℝ) (d : ℕ) : ℝ := loop N (fun n m => max m (x n d)) numMin
/-- `pos_min`, swage/refine_high_order_mesh.cpp:104-120. -/
noncomputable def posMin (N : ℕ) (x : ℕ → ℕ → ℝ) (d : ℕ) : ℝ := loop N (fun n m => min m (x n d)) numMax

/-- `dist` of the vertices `j` and `i` of an element, swage/refine_high_order_mesh.cpp:129-141.  The last term is
`(z2 - z1)*(z1 - z1)` in the code. -/
noncomputable def pairDist (v : ℕ → ℕ → ℝ) (j i : ℕ) : ℝ :=
  √((v i 0 - v j 0) * (v i 0 - v j 0) + (v i 1 - v j 1) * (v i 1 - v j 1) + (v i 2 - v j 2) * (v j 2 - v j 2))

/-- `min_dist_elem`, swage/refine_high_order_mesh.cpp:123-149 (the inner loop runs over `i = j + 1, …, p`: counter
`i - (j + 1)`). -/
noncomputable def minDist (E p : ℕ) (nodes : ℕ → ℕ → ℕ) (x : ℕ → ℕ → ℝ) : ℝ :=
  loop E (fun e => loop (p + 1) fun j => loop (p + 1 - (j + 1)) fun t m =>
    min m (pairDist (fun l d => x (nodes e l) d) j (j + 1 + t))) numMax

/-- `h`, swage/refine_high_order_mesh.cpp:155-156. -/
noncomputable def hashDist (p : ℕ) (dm : ℝ) : ℝ := dm / (7 * (p : ℝ))

/-- `int_bins[d]`, swage/refine_high_order_mesh.cpp:161-172. -/
noncomputable def bins (N : ℕ) (x : ℕ → ℕ → ℝ) (h : ℝ) (d : ℕ) : ℕ :=
  ⌊max (1 / 10 ^ 16) ((posMax N x d - posMin N x d + 1 + 1 / 10 ^ 14) / h)⌋₊
/-- `int_idx[d]` of a point, swage/refine_high_order_mesh.cpp:185-189. -/
noncomputable def index (N : ℕ) (x : ℕ → ℕ → ℝ) (h : ℝ) (y : ℕ → ℝ) (d : ℕ) : ℕ :=
  ⌊max (1 / 10 ^ 16) ((y d - posMin N x d + 1 / 10 ^ 14) / h)⌋₊
/-- `key` of a point, swage/refine_high_order_mesh.cpp:191-198 (`dim` is 3). -/
noncomputable def key (N : ℕ) (x : ℕ → ℕ → ℝ) (h : ℝ) (y : ℕ → ℝ) : ℕ :=
  index N x h y 0 + index N x h y 1 * bins N x h 0 + index N x h y 2 * bins N x h 0 * bins N x h 1

/-- `refine_high_order_mesh(input_mesh, mesh)`, swage/refine_high_order_mesh.cpp:8-368.  If `h` is zero the
quotients by `h` are infinite (or NaN) and their conversion to `int` is undefined: `none`.  The loops of
207-257, 263-267, 285-328 and 332-365 are the textual copies of those of `refine_mesh` (`zeroTable`, `walk`,
`writeCoords`, `cellLoop`, `nodeLoop`); the counts set by `init_element` are those of `refine_mesh`. -/
noncomputable def refineHighOrder (E N p : ℕ) (nodes : ℕ → ℕ → ℕ) (x : ℕ → ℕ → ℝ) (q : Junk) : Option Refined := do
  let c := initElement p 3 E
  let n := 2 * p + 1
  let S := p * 2
  let K := n ^ 3 * E
  let Z ← Points.equispacedPoints (p + 1) (-1) 1 q.vert
  let lob ← Quad.lobatto_nodes_1D n ⟨n, q.lob⟩
  let V := (p + 1) ^ 3
  let g ← gaussPoints E p n nodes x Z lob.val q.work ⟨⟨⟨V, q.vx⟩, ⟨V, q.vy⟩, ⟨V, q.vz⟩⟩, 0, ⟨E * n ^ 3, q.gauss⟩⟩
  let h := hashDist p (minDist E p nodes x)
  let _ ← if h = 0 then none else some ()
  let keys := fun i => key N x h (g.g.val i)
  let t ← zeroTable K ⟨K, keys⟩ ⟨maxKey K keys + 10, q.table⟩
  let w ← walk K ⟨K, keys⟩ ⟨t, ⟨K, q.ntg⟩, 0, 0, ⟨E * c.gPts, q.nig⟩⟩
  let coords ← writeCoords w.numNodes w.ntg g.g ⟨w.numNodes, q.coords⟩
  let cells ← cellLoop E S n c.cells ⟨⟨E * S ^ 3 * 8, q.gic⟩, ⟨E * c.cells, q.cie⟩, ⟨E * S ^ 3, q.eic⟩⟩
  let r ← nodeLoop E S n w.nig (0, ⟨E * S ^ 3 * 8, q.nic⟩)
  pure ⟨c, g.g, w.numNodes, w.nig, coords, cells, r.2⟩

end Verif.Swage.HighOrder
