import Verif.Loop
import Mathlib.Algebra.Field.Basic

/-!
# Model of the arbitrary-order elements `QuadN` and `HexN` of `elements/elements.cpp`

`n` is the number of vertices per direction (`num_verts_1d_`, resp. `orderN + 1`), `z` the 1-D vertex
positions.  Arrays are functions of their indices; the previous contents are arguments.  Exact
arithmetic in a field `K`.
-/

namespace Verif.HexN

variable {K : Type*} [Field K]

/-- One iteration over `vert_j` of `HexN::lagrange_basis_1D`, elements/elements.cpp:5742-5754; the state
is (numerator, denominator, interpolant). -/
def basisStep (z : ℕ → K) (x : K) (i j : ℕ) (s : K × K × K) : K × K × K :=
  let num := if j ≠ i then s.1 * (x - z j) else s.1
  let den := if j ≠ i then s.2.1 * (z i - z j) else s.2.1
  (num, den, num / den)

/-- `HexN::lagrange_basis_1D`, elements/elements.cpp:5729-5761. -/
def lagrangeBasis1D (n : ℕ) (z : ℕ → K) (x : K) (interp : ℕ → K) : ℕ → K :=
  loop n (fun i interp => store interp i (loop n (basisStep z x i) (1, 1, 1)).2.2) interp

/-- The product over `N` of `HexN::lagrange_derivative_1D`, elements/elements.cpp:5788-5795. -/
def productGradient (n : ℕ) (z : ℕ → K) (x : K) (i j : ℕ) : K :=
  loop n (fun N p => if N ≠ j ∧ N ≠ i then p * (x - z N) else p) 1

/-- One iteration over `vert_j` of `HexN::lagrange_derivative_1D`, elements/elements.cpp:5779-5804; the
state is (denominator, num_gradient, gradient). -/
def derivStep (n : ℕ) (z : ℕ → K) (x : K) (i j : ℕ) (s : K × K × K) : K × K × K :=
  let den := if j ≠ i then s.1 * (z i - z j) else s.1
  let ng := if j ≠ i then s.2.1 + productGradient n z x i j else s.2.1
  (den, ng, ng / den)

/-- `HexN::lagrange_derivative_1D`, elements/elements.cpp:5763-5810. -/
def lagrangeDerivative1D (n : ℕ) (z : ℕ → K) (x : K) (der : ℕ → K) : ℕ → K :=
  loop n (fun i der => store der i (loop n (derivStep n z x i) (1, 0, 0)).2.2) der

/-- The save-and-clear loop after each 1-D evaluation, e.g. elements/elements.cpp:5515-5518:
`t(i, c) = v(i); v(i) = 0`. -/
def saveColumn (n c : ℕ) (v : ℕ → K) (t : ℕ → ℕ → K) : (ℕ → K) × (ℕ → ℕ → K) :=
  loop n (fun i s => (store s.1 i 0, store2 s.2 i c (s.1 i))) (v, t)

/-- The last loop of `HexN::partial_mu_basis`, elements/elements.cpp:5705-5709, saves the derivative
array but clears `val_1d` instead. -/
def saveColumnOther (n c : ℕ) (d : ℕ → K) (v : ℕ → K) (t : ℕ → ℕ → K) : (ℕ → K) × (ℕ → ℕ → K) :=
  loop n (fun i s => (store s.1 i 0, store2 s.2 i c (d i))) (v, t)

/-- `vert_rid(i,j,k)` / `node_rid(i,j,k)`, elements/elements.cpp:5495-5503. -/
def rid (n i j k : ℕ) : ℕ := i + j * n + k * n * n

/-- The final triple loop, e.g. elements/elements.cpp:5540-5548. -/
def tensor (n : ℕ) (f : ℕ → ℕ → ℕ → K) (b : ℕ → K) : ℕ → K :=
  loop n (fun k b => loop n (fun j b => loop n (fun i b => store b (rid n i j k) (f i j k)) b) b) b

/-- `HexN::basis`, elements/elements.cpp:5505-5550; `v`, `t` are the fresh local arrays `val_1d`,
`val_3d`. -/
def basis (n : ℕ) (z : ℕ → K) (pt : ℕ → K) (v : ℕ → K) (t : ℕ → ℕ → K) (b : ℕ → K) : ℕ → K :=
  let v := lagrangeBasis1D n z (pt 0) v
  let s := saveColumn n 0 v t
  let v := lagrangeBasis1D n z (pt 1) s.1
  let s := saveColumn n 1 v s.2
  let v := lagrangeBasis1D n z (pt 2) s.1
  let s := saveColumn n 2 v s.2
  tensor n (fun i j k => s.2 i 0 * s.2 j 1 * s.2 k 2) b

/-- `HexN::partial_xi_basis`, elements/elements.cpp:5552-5609. -/
def partialXi (n : ℕ) (z : ℕ → K) (pt : ℕ → K) (v dv : ℕ → K) (t dt : ℕ → ℕ → K) (b : ℕ → K) :
    ℕ → K :=
  let dv := lagrangeDerivative1D n z (pt 0) dv
  let ds := saveColumn n 0 dv dt
  let v := lagrangeBasis1D n z (pt 1) v
  let s := saveColumn n 1 v t
  let v := lagrangeBasis1D n z (pt 2) s.1
  let s := saveColumn n 2 v s.2
  tensor n (fun i j k => ds.2 i 0 * s.2 j 1 * s.2 k 2) b

/-- `HexN::partial_eta_basis`, elements/elements.cpp:5612-5667. -/
def partialEta (n : ℕ) (z : ℕ → K) (pt : ℕ → K) (v dv : ℕ → K) (t dt : ℕ → ℕ → K) (b : ℕ → K) :
    ℕ → K :=
  let v := lagrangeBasis1D n z (pt 0) v
  let s := saveColumn n 0 v t
  let dv := lagrangeDerivative1D n z (pt 1) dv
  let ds := saveColumn n 1 dv dt
  let v := lagrangeBasis1D n z (pt 2) s.1
  let s := saveColumn n 2 v s.2
  tensor n (fun i j k => s.2 i 0 * ds.2 j 1 * s.2 k 2) b

/-- `HexN::partial_mu_basis`, elements/elements.cpp:5670-5725. -/
def partialMu (n : ℕ) (z : ℕ → K) (pt : ℕ → K) (v dv : ℕ → K) (t dt : ℕ → ℕ → K) (b : ℕ → K) :
    ℕ → K :=
  let v := lagrangeBasis1D n z (pt 0) v
  let s := saveColumn n 0 v t
  let v := lagrangeBasis1D n z (pt 1) s.1
  let s := saveColumn n 1 v s.2
  let dv := lagrangeDerivative1D n z (pt 2) dv
  let ds := saveColumnOther n 2 dv s.1 dt
  tensor n (fun i j k => s.2 i 0 * s.2 j 1 * ds.2 k 2) b

/-! ### Setup -/

/-- `num_nodes_1d_`, elements/elements.cpp:5380, 5410. -/
def numNodes1d (order : ℕ) : ℕ := if order = 0 then 2 else 2 * order + 1
/-- `num_verts_1d_`, elements/elements.cpp:5388, 5418. -/
def numVerts1d (order : ℕ) : ℕ := if order = 0 then 2 else order + 1

/-- The loops of `HexN::setup_HexN` that fill `Vert_Node_map_`, elements/elements.cpp:5432-5466: three
nested loops over the nodes with step `st`, and a running counter. State: (map, vert_rid). -/
def vertNodeLoop (n st : ℕ) (m : ℕ → ℕ) : (ℕ → ℕ) × ℕ :=
  let trips := (n + st - 1) / st
  loop trips (fun k s => loop trips (fun j s => loop trips (fun i s =>
    (store s.1 s.2 (rid n (st * i) (st * j) (st * k)), s.2 + 1)) s) s) (m, 0)

/-- `Vert_Node_map_` after `setup_HexN(order)`. -/
def vertNodeMap (order : ℕ) (m : ℕ → ℕ) : ℕ → ℕ :=
  (vertNodeLoop (numNodes1d order) (if order = 0 then 1 else 2) m).1

/-- `HexN_Verts_1d_` after `create_lobatto_nodes(order)`, elements/elements.cpp:5847-5869: every node
(order 0) or every other node of the 1-D table `nodes`, with a running counter. -/
def verts1d (order : ℕ) (nodes w : ℕ → K) : ℕ → K :=
  let st := if order = 0 then 1 else 2
  (loop ((numNodes1d order + st - 1) / st) (fun i s => (store s.1 s.2 (nodes (st * i)), s.2 + 1))
    (w, 0)).1

/-- `HexN_Nodes_` after `create_lobatto_nodes`, elements/elements.cpp:5833-5845. -/
def nodeCoords (n : ℕ) (nodes : ℕ → K) (c : ℕ → ℕ → K) : ℕ → ℕ → K :=
  loop n (fun k c => loop n (fun j c => loop n (fun i c =>
    store2 (store2 (store2 c (rid n i j k) 0 (nodes i)) (rid n i j k) 1 (nodes j))
      (rid n i j k) 2 (nodes k)) c) c) c

/-! ### QuadN -/

/-- One iteration over `j` of `QuadN::lagrange_1D`, elements/elements.cpp:3996-4012; the state is
`(n, d, c, p, q)`. The inner `s` shadows the outer one and starts at 1. -/
def quadStep (n : ℕ) (z : ℕ → K) (x : K) (i j : ℕ) (s : K × K × K × K × K) : K × K × K × K × K :=
  let num := if j ≠ i then s.1 * (x - z j) else s.1
  let den := if j ≠ i then s.2.1 * (z i - z j) else s.2.1
  let p := if j ≠ i then s.2.2.2.1 + productGradient n z x i j else s.2.2.2.1
  (num, den, num / den, p, p / den)

/-- `QuadN::lagrange_1D`, elements/elements.cpp:3973-4019, `n = orderN + 1`; returns
`(interp, Dinterp)`. `q` is declared outside the loop over the nodes (its value is carried over). -/
def quadLagrange1D (n : ℕ) (z : ℕ → K) (x : K) (interp der : ℕ → K) : (ℕ → K) × (ℕ → K) :=
  let r := loop n (fun i (s : (ℕ → K) × (ℕ → K) × K) =>
    let t := loop n (quadStep n z x i) (1, 1, 1, 0, s.2.2)
    (store s.1 i t.2.2.1, store s.2.1 i t.2.2.2.2, t.2.2.2.2)) (interp, der, 0)
  (r.1, r.2.1)

/-- The arrays of `QuadN::basis_partials`. -/
structure QuadState (K : Type*) where
  /-- `lag_nodes` -/
  nodes : ℕ → ℕ → K
  /-- `val_1d` -/
  val1 : ℕ → K
  /-- `DVal_1d` -/
  dval1 : ℕ → K
  /-- `val_2d` -/
  val2 : ℕ → ℕ → K
  /-- `DVal_2d` -/
  dval2 : ℕ → ℕ → K
  /-- `lag_basis_2d` -/
  basis : ℕ → K
  /-- `lag_partial` -/
  part : ℕ → ℕ → K

/-- Body of the loop over `m` of `QuadN::basis_partials`, elements/elements.cpp:4126-4168. -/
def quadBody (n : ℕ) (z : ℕ → K) (pt : ℕ → K) (m : ℕ) (s : QuadState K) : QuadState K :=
  let j := m / n + 1
  let i := (m + 1) - n * (j - 1)
  let nodes := store2 (store2 s.nodes m 0 (z (i - 1))) m 1 (z (j - 1))
  let r := quadLagrange1D n z (pt 0) s.val1 s.dval1
  let val2 := store2 s.val2 m 0 (r.1 (i - 1))
  let dval2 := store2 s.dval2 m 0 (r.2 (i - 1))
  let c := loop n (fun i (c : (ℕ → K) × (ℕ → K)) => (store c.1 i 0, store c.2 i 0)) r
  let r := quadLagrange1D n z (pt 1) c.1 c.2
  let val2 := store2 val2 m 1 (r.1 (j - 1))
  let dval2 := store2 dval2 m 1 (r.2 (j - 1))
  let c := loop n (fun i (c : (ℕ → K) × (ℕ → K)) => (store c.1 i 0, store c.2 i 0)) r
  { nodes := nodes, val1 := c.1, dval1 := c.2, val2 := val2, dval2 := dval2
    basis := store s.basis m (val2 m 0 * val2 m 1)
    part := store2 (store2 s.part m 0 (dval2 m 0 * val2 m 1)) m 1 (val2 m 0 * dval2 m 1) }

/-- `QuadN::basis_partials`, elements/elements.cpp:4085-4170, `n = orderN + 1`. -/
def quadBasisPartials (n : ℕ) (z : ℕ → K) (pt : ℕ → K) (s : QuadState K) : QuadState K :=
  loop (n * n) (quadBody n z pt) s

/-- `QuadN::physical_position`, elements/elements.cpp:4067-4082: accumulates into `x_point` without
clearing it. -/
def quadPhysicalPosition (n : ℕ) (nodes : ℕ → ℕ → K) (b : ℕ → K) (x0 : ℕ → K) : ℕ → K :=
  loop (n * n) (fun v p => loop 2 (fun d p => store p d (p d + nodes v d * b v)) p) x0

/-- `QuadN::corners`, elements/elements.cpp:4023-4062. -/
def quadCorners (n : ℕ) (nodes : ℕ → ℕ → K) (c : ℕ → ℕ → K) : ℕ → ℕ → K :=
  let ids : ℕ → ℕ := fun c => if c = 0 then 0 else if c = 1 then n - 1 else
    if c = 2 then n * n - n else n * n - 1
  loop 4 (fun k c => loop 2 (fun d c => store2 c k d (nodes (ids k) d)) c) c

end Verif.HexN
