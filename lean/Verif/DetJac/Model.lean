import Verif.Swage.HighOrder

/-!
# Model of `swage::evaluate_jacobian_determinants` and of examples/vtk/plotting_jacobian_determinants.cpp

`double` is `ℝ`, `int` is unbounded except inside the mixed-radix conversions (64-bit).  An access outside an array is
`none`; initial contents of allocated arrays are arguments.  `tol` is the tolerance of `common::almost_equal`.
-/

namespace Verif.DetJac
open Verif.Swage.HighOrder (tol Verts getVerts)

/-- The parts of `swage::mesh_t` used here: `nodes(e * stride + l)` is `nodes_in_elem(e, l)`, `coords(n)` are the three
coordinates of node `n`. -/
structure Mesh where
  order : ℕ
  numElems : ℕ
  stride : ℕ
  nodes : Arr ℕ
  coords : Arr (ℕ → ℝ)

/-- Node number of the lattice point `(i, j, k)`, swage/evaluate_jacobian_determinants.cpp:26-28. -/
def nodeId (n i j k : ℕ) : ℕ :=
  (Common.mixedRadixToBase10 [.ofNat n, .ofNat n, .ofNat n] [.ofNat i, .ofNat j, .ofNat k]).toNat

/-- `vert_node_map`, swage/evaluate_jacobian_determinants.cpp:18-32.  The loop variables take the values 0, 2, 4, …, and
`num_nodes_1d` is odd: there are `p + 1` of them.  State: `vert_id` and the map. -/
def vertNodeMap (p n : ℕ) (map : Arr ℕ) : Option (ℕ × Arr ℕ) :=
  loopM (p + 1) (fun k => loopM (p + 1) fun j => loopM (p + 1) fun i (s : ℕ × Arr ℕ) => do
    let map ← s.2.set s.1 (nodeId n (2 * i) (2 * j) (2 * k))
    pure (s.1 + 1, map)) (0, map)

/-- `vert_coords_1d`, swage/evaluate_jacobian_determinants.cpp:39-43. -/
noncomputable def vertCoords (N : ℕ) (map : Arr ℕ) (lob z : Arr ℝ) : Option (Arr ℝ) :=
  loopM N (fun v z => do
    let m ← map.get v
    let x ← lob.get m
    Arr.set z v x) z

/-- Copying the coordinates of the vertices of an element, swage/evaluate_jacobian_determinants.cpp:56-64. -/
noncomputable def elemVerts (m : Mesh) (map : Arr ℕ) (V e : ℕ) (s : Verts) : Option Verts :=
  loopM V (fun v s => do
    let id ← map.get v
    let g ← m.nodes.get (e * m.stride + id)
    let x ← m.coords.get g
    let vx ← s.vx.set v (x 0)
    let vy ← s.vy.set v (x 1)
    let vz ← s.vz.set v (x 2)
    pure ⟨vx, vy, vz⟩) s

/-- State of the loop over the elements: vertex coordinates, work array of the reference element, `gauss_pt_det_j`. -/
structure St where
  verts : Verts
  work : ℕ → ℝ
  det : Arr ℝ

/-- One quadrature point, swage/evaluate_jacobian_determinants.cpp:67-86; `junk` is the uninitialised local array of
`eval_det_jac`. -/
noncomputable def detAt (m : Mesh) (N n : ℕ) (Z : ℕ → ℝ) (lob : Arr ℝ) (junk : ℕ → ℕ → ℕ → ℝ) (e lid : ℕ) (s : St) :
    Option St := do
  let d ← LagrangeElement.digits n lid
  let x0 ← lob.get d.1
  let x1 ← lob.get d.2.1
  let x2 ← lob.get d.2.2
  let X : ℕ → ℝ := fun c => if c = 0 then x0 else if c = 1 then x1 else x2
  let g ← m.nodes.get (e * m.stride + lid)
  let r := LagrangeElement.evalDetJac tol N Z s.work s.verts.vx.val s.verts.vy.val s.verts.vz.val X (junk e lid)
  let det ← s.det.set g r.1
  pure ⟨s.verts, r.2, det⟩

/-- Initial contents of the arrays the functions allocate. -/
structure Junk where
  map : ℕ → ℕ
  lob : ℕ → ℝ
  z : ℕ → ℝ
  vx : ℕ → ℝ
  vy : ℕ → ℝ
  vz : ℕ → ℝ
  work : ℕ → ℝ
  jac : ℕ → ℕ → ℕ → ℝ

/-- `evaluate_jacobian_determinants(mesh)`, swage/evaluate_jacobian_determinants.cpp:7-88; `det` is `gauss_pt_det_j` on
entry, the result is the one on exit.  (`workspace` of line 52 is not used.) -/
noncomputable def evaluate (m : Mesh) (det : Arr ℝ) (q : Junk) : Option (Arr ℝ) := do
  let p := m.order
  let N := p + 1
  let V := N ^ 3
  let n := 2 * p + 1
  let map ← vertNodeMap p n ⟨V, q.map⟩
  let lob ← Quad.lobatto_nodes_1D n ⟨n, q.lob⟩
  let z ← vertCoords N map.2 lob ⟨N, q.z⟩
  let s ← loopM m.numElems (fun e (s : St) => do
    let vs ← elemVerts m map.2 V e s.verts
    loopM (n ^ 3) (detAt m N n z.val lob q.jac e) ⟨vs, s.work, s.det⟩) ⟨⟨⟨V, q.vx⟩, ⟨V, q.vy⟩, ⟨V, q.vz⟩⟩, q.work, det⟩
  pure s.det

/-! ### examples/vtk/plotting_jacobian_determinants.cpp -/

/-- Copying the vertices, examples/vtk/plotting_jacobian_determinants.cpp:94-99. -/
noncomputable def copyVerts (m : Mesh) (V e : ℕ) (s : Verts) : Option Verts :=
  loopM V (fun v s => do
    let g ← m.nodes.get (e * m.stride + v)
    let x ← m.coords.get g
    let vx ← s.vx.set v (x 0)
    let vy ← s.vy.set v (x 1)
    let vz ← s.vz.set v (x 2)
    pure ⟨vx, vy, vz⟩) s

/-- One vertex, examples/vtk/plotting_jacobian_determinants.cpp:105-107. -/
noncomputable def vertDet (N V : ℕ) (Z : ℕ → ℝ) (junk : ℕ → ℕ → ℕ → ℝ) (e k j i : ℕ) (s : St) : Option St := do
  let ii := i + j * N + k * N * N
  let X : ℕ → ℝ := fun c => if c = 0 then Z i else if c = 1 then Z j else Z k
  let r := LagrangeElement.evalDetJac tol N Z s.work s.verts.vx.val s.verts.vy.val s.verts.vz.val X (junk e ii)
  let det ← s.det.set (e * V + ii) r.1
  pure ⟨s.verts, r.2, det⟩

/-- `compute_jacobian_determinants(mesh)`, examples/vtk/plotting_jacobian_determinants.cpp:75-115; the result is the
two-dimensional array, row-major. -/
noncomputable def compute (m : Mesh) (jdet : ℕ → ℝ) (q : Junk) : Option (Arr ℝ) := do
  let N := m.order + 1
  let Z ← Points.equispacedPoints N (-1) 1 q.z
  let V := N ^ 3
  let s ← loopM m.numElems (fun e (s : St) => do
    let vs ← copyVerts m V e s.verts
    loopM N (fun k => loopM N fun j => loopM N fun i => vertDet N V Z q.jac e k j i) ⟨vs, s.work, s.det⟩)
    ⟨⟨⟨V, q.vx⟩, ⟨V, q.vy⟩, ⟨V, q.vz⟩⟩, q.work, ⟨m.numElems * V, jdet⟩⟩
  pure s.det

/-- State of `create_annular_mesh`: `vert_cnt`, coordinates, connectivity. -/
structure Ann where
  cnt : ℕ
  coords : Arr (ℕ → ℝ)
  nodes : Arr ℕ

/-- A point of the annulus, examples/vtk/plotting_jacobian_determinants.cpp:27-32 (and 56-61): `lb`, `ub` are the bounds
of the angle. -/
noncomputable def annPoint (N : ℕ) (lb ub : ℝ) (i j k : ℕ) : ℕ → ℝ :=
  let theta := lb + i * (ub - lb) / ((N : ℝ) - 1)
  let r := (1 / 2 : ℝ) + j * (5 / 2 - 1 / 2) / ((N : ℝ) - 1)
  fun d => if d = 0 then -r * Real.cos theta else if d = 1 then r * Real.sin theta else -1 + 2 * k / ((N : ℝ) - 1)

/-- The last vertex of a row of the first element is also the first of the row of the second,
examples/vtk/plotting_jacobian_determinants.cpp:41-43. -/
def annShare (N stride i ii cnt : ℕ) (nodes : Arr ℕ) : Option (Arr ℕ) :=
  if i = N - 1 then nodes.set (1 * stride + (ii - i)) cnt else some nodes

/-- A vertex of the first element, examples/vtk/plotting_jacobian_determinants.cpp:27-45. -/
noncomputable def annFirst (N stride k j i : ℕ) (s : Ann) : Option Ann := do
  let coords ← s.coords.set s.cnt (annPoint N 0 (1 / 2 * Real.pi) i j k)
  let ii := i + j * N + k * N * N
  let nodes ← s.nodes.set (0 * stride + ii) s.cnt
  let nodes ← annShare N stride i ii s.cnt nodes
  pure ⟨s.cnt + 1, coords, nodes⟩

/-- A vertex of the second element, examples/vtk/plotting_jacobian_determinants.cpp:56-70; the loop runs over
`i = 1, …, N - 1`: counter `i - 1`. -/
noncomputable def annSecond (N stride k j i' : ℕ) (s : Ann) : Option Ann := do
  let i := i' + 1
  let coords ← s.coords.set s.cnt (annPoint N (1 / 2 * Real.pi) Real.pi i j k)
  let ii := i + j * N + k * N * N
  let nodes ← s.nodes.set (1 * stride + ii) s.cnt
  pure ⟨s.cnt + 1, coords, nodes⟩

/-- `create_annular_mesh(elem_order, mesh)`, examples/vtk/plotting_jacobian_determinants.cpp:6-74: `init_nodes` and
`init_element` allocate; `std::pow(N, 3)` is exact; the three stores of a coordinate are one. -/
noncomputable def annular (p : ℕ) (jc : ℕ → ℕ → ℝ) (jn : ℕ → ℕ) : Option Mesh := do
  let N := p + 1
  let c := Swage.Refine.initElement p 3 2
  let s ← loopM N (fun k => loopM N fun j => loopM N fun i => annFirst N c.gPts k j i)
    ⟨0, ⟨N ^ 3 * 2 - N * N, jc⟩, ⟨2 * c.gPts, jn⟩⟩
  let s ← loopM N (fun k => loopM N fun j => loopM (N - 1) fun i => annSecond N c.gPts k j i) s
  pure ⟨p, 2, c.gPts, s.nodes, s.coords⟩

end Verif.DetJac
