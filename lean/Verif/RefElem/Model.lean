import Verif.Mem
import Verif.Quad.Tables
import Verif.HexN.Model
import Mathlib.Analysis.SpecialFunctions.Pow.Real

/-!
# Model of `ref_element::init` of `elements/elements.cpp` (3-D)

Over the real numbers, for `num_dim = 3` (for other values the function only allocates).  Arrays with two indices
are flat with the row-major strides of MATAR, except arrays whose last index is a space dimension or a basis
function: these are arrays of rows.  Freshly allocated memory has arbitrary contents (`Junk`).
Not modelled: printing, overflow.
-/

namespace Verif.RefElem

/-! ### Sizes -/

/-- `num_ref_nodes_1D_`, elements/elements.cpp:2309-2324. -/
def nodes1D (p : ℕ) : ℕ := if p = 0 then 2 else 2 * p + 1
/-- `num_ref_verts_1d_`, elements/elements.cpp:2313, 2325. -/
def verts1D (p : ℕ) : ℕ := if p = 0 then 2 else p + 1
/-- `num_zones_1d_`, elements/elements.cpp:2314, 2326. -/
def zones1D (p : ℕ) : ℕ := if p = 0 then 1 else (nodes1D p - 1) / 2
/-- Row length of `cells_in_zone_list_`, elements/elements.cpp:2317, 2329. -/
def zoneRow (p : ℕ) : ℕ := if p = 0 then 1 else 8
/-- `num_ref_cells_1D_`, elements/elements.cpp:2336. -/
def cells1D (p : ℕ) : ℕ := nodes1D p - 1
/-- `num_ref_corners_1D_`, elements/elements.cpp:2338. -/
def corners1D (p : ℕ) : ℕ := 2 * (nodes1D p - 2) + 2

/-- `node_rid`, `cell_rid`, `corner_rid`, elements/elements.cpp:3056-3069 (`w` is the number of points per
direction). -/
def rid (w i j k : ℕ) : ℕ := i + j * w + k * w * w

/-- Three nested loops `for k, for j, for i` over `[0, w)`. -/
def loop3 {σ : Type} (w : ℕ) (body : ℕ → ℕ → ℕ → σ → Option σ) (s : σ) : Option σ :=
  loopM w (fun k => loopM w fun j => loopM w fun i => body k j i) s

/-- A point with the given coordinates. -/
def row3 (a b c : ℝ) (d : ℕ) : ℝ := if d = 0 then a else if d = 1 then b else c

/-! ### Nodes -/

/-- Node positions and weights, elements/elements.cpp:2403-2416: state (`ref_node_positions_`,
`ref_node_g_weights_`). -/
noncomputable def nodeLoop (n : ℕ) (lob lobw : Arr ℝ) (s : Arr (ℕ → ℝ) × Arr ℝ) : Option (Arr (ℕ → ℝ) × Arr ℝ) :=
  loop3 n (fun k j i s => do
    let x ← lob.get i
    let y ← lob.get j
    let z ← lob.get k
    let pos ← s.1.set (rid n i j k) (row3 x y z)
    let a ← lobw.get i
    let b ← lobw.get j
    let c ← lobw.get k
    let w ← s.2.set (rid n i j k) (a * b * c)
    pure (pos, w)) s

/-- `corner_lob_weights_1D`, elements/elements.cpp:2419-2436. -/
noncomputable def cornerWeights1D (n R : ℕ) (lobw c : Arr ℝ) : Option (Arr ℝ) := do
  let w ← lobw.get 0
  let c ← c.set 0 w
  let c ← loopM (n - 1 - 1) (fun i' c => do
    let i := i' + 1
    let w ← lobw.get i
    let c ← c.set (2 * i - 1) (1 / 2 * w)
    c.set (2 * i) (1 / 2 * w)) c
  let w ← lobw.get (n - 1)
  c.set (R - 1) w

/-! ### Cells and zones -/

/-- `cell_lid_in_zone`, elements/elements.cpp:2476-2503: state (`zone_rid`, `cells_in_zone_list_`). -/
def zoneLoop (p : ℕ) (a : Arr ℕ) : Option (Arr ℕ) :=
  if p = 0 then a.set (0 * zoneRow p + 0) 0
  else do
    let r ← loop3 (zones1D p) (fun k j i (s : ℕ × Arr ℕ) => do
      let C := cells1D p
      let a ← s.2.set (s.1 * zoneRow p + 0) (rid C (2 * i) (2 * j) (2 * k))
      let a ← a.set (s.1 * zoneRow p + 1) (rid C (2 * i + 1) (2 * j) (2 * k))
      let a ← a.set (s.1 * zoneRow p + 2) (rid C (2 * i) (2 * j + 1) (2 * k))
      let a ← a.set (s.1 * zoneRow p + 3) (rid C (2 * i + 1) (2 * j + 1) (2 * k))
      let a ← a.set (s.1 * zoneRow p + 4) (rid C (2 * i) (2 * j) (2 * k + 1))
      let a ← a.set (s.1 * zoneRow p + 5) (rid C (2 * i + 1) (2 * j) (2 * k + 1))
      let a ← a.set (s.1 * zoneRow p + 6) (rid C (2 * i) (2 * j + 1) (2 * k + 1))
      let a ← a.set (s.1 * zoneRow p + 7) (rid C (2 * i + 1) (2 * j + 1) (2 * k + 1))
      pure (s.1 + 1, a)) (0, a)
    pure r.2

/-- `cell_nodes_in_elem`, elements/elements.cpp:2506-2524: state (`cell_lid`, `cell_nodes_in_elem_list_`). -/
def cellNodeLoop (n : ℕ) (a : Arr ℕ) : Option (Arr ℕ) := do
  let r ← loop3 (n - 1) (fun k j i (s : ℕ × Arr ℕ) => do
    let a ← s.2.set (s.1 * 8 + 0) (rid n i j k)
    let a ← a.set (s.1 * 8 + 1) (rid n (i + 1) j k)
    let a ← a.set (s.1 * 8 + 2) (rid n i (j + 1) k)
    let a ← a.set (s.1 * 8 + 3) (rid n (i + 1) (j + 1) k)
    let a ← a.set (s.1 * 8 + 4) (rid n i j (k + 1))
    let a ← a.set (s.1 * 8 + 5) (rid n (i + 1) j (k + 1))
    let a ← a.set (s.1 * 8 + 6) (rid n i (j + 1) (k + 1))
    let a ← a.set (s.1 * 8 + 7) (rid n (i + 1) (j + 1) (k + 1))
    pure (s.1 + 1, a)) (0, a)
  pure r.2

/-! ### Corners -/

/-- Corner weights, elements/elements.cpp:2527-2542: state (`r_corner_part_g_weights`, `ref_corner_g_weights_`). -/
noncomputable def cornerWeightLoop (R : ℕ) (c1 : Arr ℝ) (s : Arr (ℕ → ℝ) × Arr ℝ) : Option (Arr (ℕ → ℝ) × Arr ℝ) :=
  loop3 R (fun k j i s => do
    let a ← c1.get i
    let b ← c1.get j
    let c ← c1.get k
    let part ← s.1.set (rid R i j k) (row3 a b c)
    let w ← s.2.set (rid R i j k) (a * b * c)
    pure (part, w)) s

/-- `set_unit_normals`, elements/elements.cpp:1357-1398: entry `(l, d)`. -/
def unitNormals (l d : ℕ) : ℝ :=
  (([[-1, -1, -1], [1, -1, -1], [-1, 1, -1], [1, 1, -1], [-1, -1, 1], [1, -1, 1], [-1, 1, 1], [1, 1, 1]] :
    List (List ℝ)).getD l []).getD d 0

/-- `surf_vec0/1/2[d]`, elements/elements.cpp:2580-2582. -/
def surfVec (l s d : ℕ) : ℝ := if d = s then unitNormals l s else 0

/-- The product of powers, elements/elements.cpp:2592-2595, 2605-2608, 2617-2620. -/
noncomputable def surfWeight (part : ℕ → ℝ) (l s : ℕ) : ℝ :=
  part 0 ^ (1 - |surfVec l s 0|) * part 1 ^ (1 - |surfVec l s 1|) * part 2 ^ (1 - |surfVec l s 2|)

/-- The corner arrays. -/
structure Corners where
  /-- `ref_corners_in_cell_` -/
  corners : Arr ℕ
  /-- `ref_nodes_in_cell_` -/
  nodes : Arr ℕ
  /-- `ref_corner_surf_normals_` -/
  normals : Arr (ℕ → ℕ → ℝ)
  /-- `ref_corner_surf_g_weights_` -/
  weights : Arr (ℕ → ℝ)
  /-- `index` -/
  index : ℕ

/-- One corner of a cell, elements/elements.cpp:2567-2624; the second component of the state is `corner_rlid`. -/
noncomputable def cornerBody (n R : ℕ) (part : Arr (ℕ → ℝ)) (k j i kk jj ii : ℕ) (s : Corners × ℕ) :
    Option (Corners × ℕ) := do
  let crn := 2 * i + 2 * R * j + 2 * R * R * k + ii + R * jj + R * R * kk
  let corners ← s.1.corners.set s.1.index crn
  let nodes ← s.1.nodes.set s.1.index (rid n (i + ii) (j + jj) (k + kk))
  let normals ← s.1.normals.set crn (surfVec s.2)
  let pw ← part.get crn
  let weights ← s.1.weights.set crn (surfWeight pw s.2)
  pure (⟨corners, nodes, normals, weights, s.1.index + 1⟩, s.2 + 1)

/-- Corner loop, elements/elements.cpp:2553-2631. -/
noncomputable def cornerLoop (n C R : ℕ) (part : Arr (ℕ → ℝ)) (s : Corners) : Option Corners :=
  loop3 C (fun k j i s => do
    let r ← loop3 2 (fun kk jj ii => cornerBody n R part k j i kk jj ii) (s, 0)
    pure r.1) s

/-! ### Surface and inside nodes -/

/-- Lists of inside and surface nodes. -/
structure Split where
  /-- `ref_inside_nodes_in_elem_` -/
  inside : Arr ℕ
  /-- `count_inside` -/
  numIn : ℕ
  /-- `ref_surface_nodes_in_elem_` -/
  surf : Arr ℕ
  /-- `count_surf` -/
  numSurf : ℕ

/-- elements/elements.cpp:2695-2718. -/
def splitLoop (n : ℕ) (s : Split) : Option Split :=
  loop3 n (fun k j i s =>
    if 0 < i ∧ i < n - 1 ∧ 0 < j ∧ j < n - 1 ∧ 0 < k ∧ k < n - 1 then do
      let a ← s.inside.set s.numIn (rid n i j k)
      pure { s with inside := a, numIn := s.numIn + 1 }
    else do
      let a ← s.surf.set s.numSurf (rid n i j k)
      pure { s with surf := a, numSurf := s.numSurf + 1 }) s

/-! ### Patches -/

/-- `patch_rlid_cell_neighbor_`, elements/elements.h:1228-1235. -/
def neighborSide (s : ℕ) : ℕ := [1, 0, 3, 2, 5, 4].getD s 0

/-- `neighbor_cell_rid`, elements/elements.cpp:2851-2872 (`none` for -1). -/
def neighborCell (C i j k s : ℕ) : Option ℕ :=
  if s = 0 ∧ 0 < i then some (rid C (i - 1) j k)
  else if s = 1 ∧ i < C - 1 then some (rid C (i + 1) j k)
  else if s = 2 ∧ 0 < j then some (rid C i (j - 1) k)
  else if s = 3 ∧ j < C - 1 then some (rid C i (j + 1) k)
  else if s = 4 ∧ 0 < k then some (rid C i j (k - 1))
  else if s = 5 ∧ k < C - 1 then some (rid C i j (k + 1))
  else none

/-- Position of a patch, elements/elements.cpp:2787-2845. -/
def patchPos (lob leg : Arr ℝ) (i j k s : ℕ) : Option (ℕ → ℝ) :=
  if s = 0 then do let a ← lob.get i; let b ← leg.get j; let c ← leg.get k; pure (row3 a b c)
  else if s = 1 then do let a ← lob.get (i + 1); let b ← leg.get j; let c ← leg.get k; pure (row3 a b c)
  else if s = 2 then do let a ← leg.get i; let b ← lob.get j; let c ← leg.get k; pure (row3 a b c)
  else if s = 3 then do let a ← leg.get i; let b ← lob.get (j + 1); let c ← leg.get k; pure (row3 a b c)
  else if s = 4 then do let a ← leg.get i; let b ← leg.get j; let c ← lob.get k; pure (row3 a b c)
  else do let a ← leg.get i; let b ← leg.get j; let c ← lob.get (k + 1); pure (row3 a b c)

/-- Weight of a patch, elements/elements.cpp:2787-2845. -/
noncomputable def patchWeight (legw : Arr ℝ) (i j k s : ℕ) : Option ℝ :=
  if s = 0 ∨ s = 1 then do let a ← legw.get j; let b ← legw.get k; pure (a * b)
  else if s = 2 ∨ s = 3 then do let a ← legw.get i; let b ← legw.get k; pure (a * b)
  else do let a ← legw.get i; let b ← legw.get j; pure (a * b)

/-- The patch arrays. -/
structure Patches where
  /-- `ref_patches_in_cell_list_` -/
  list : Arr ℤ
  /-- `patch_rid` -/
  count : ℕ
  /-- `ref_patch_positions_` -/
  pos : Arr (ℕ → ℝ)
  /-- `ref_patch_g_weights_` -/
  weights : Arr ℝ
  /-- `ref_cell_positions_` -/
  cellPos : Arr (ℕ → ℝ)
  /-- `ref_cell_g_weights_` -/
  cellWeights : Arr ℝ

/-- Store the patch at the neighbour's side, elements/elements.cpp:2875-2889. -/
def writeNeighbor (C : ℕ) (list : Arr ℤ) (nb : Option ℕ) (sd count : ℕ) : Option (Arr ℤ) :=
  match nb with
  | some nb => if nb < C * C * C then list.set (neighborSide sd + nb * 6) (count : ℤ) else some list
  | none => some list

/-- One side of a cell, elements/elements.cpp:2774-2894. -/
noncomputable def sideBody (C : ℕ) (lob leg legw : Arr ℝ) (k j i sd : ℕ) (s : Patches) : Option Patches := do
  let side := sd + rid C i j k * 6
  let v ← s.list.get side
  if v = -1 then do
    let list ← s.list.set side (s.count : ℤ)
    let x ← patchPos lob leg i j k sd
    let pos ← s.pos.set s.count x
    let w ← patchWeight legw i j k sd
    let weights ← s.weights.set s.count w
    let list ← writeNeighbor C list (neighborCell C i j k sd) sd s.count
    pure { s with list := list, count := s.count + 1, pos := pos, weights := weights }
  else some s

/-- The patch loop, elements/elements.cpp:2757-2898. -/
noncomputable def patchLoop (C : ℕ) (lob leg legw : Arr ℝ) (s : Patches) : Option Patches :=
  loop3 C (fun k j i s => do
    let x ← leg.get i
    let y ← leg.get j
    let z ← leg.get k
    let cp ← s.cellPos.set (rid C i j k) (row3 x y z)
    let a ← legw.get i
    let b ← legw.get j
    let c ← legw.get k
    let cw ← s.cellWeights.set (rid C i j k) (a * b * c)
    loopM 6 (sideBody C lob leg legw k j i) { s with cellPos := cp, cellWeights := cw }) s

/-- Clearing `ref_patches_in_cell_list_`, elements/elements.cpp:2751-2753. -/
def clearLoop (S : ℕ) (a : Arr ℤ) : Option (Arr ℤ) := loopM S (fun s a => a.set s (-1)) a

/-! ### Basis tables -/

/-- Contents of the local arrays allocated by the `HexN` members, at each call. -/
structure BasisJunk where
  b : ℕ → ℕ → ℝ
  v : ℕ → ℕ → ℝ
  dv : ℕ → ℕ → ℝ
  t : ℕ → ℕ → ℕ → ℝ
  dt : ℕ → ℕ → ℕ → ℝ

/-- Basis values at the given points, elements/elements.cpp:2638-2656, 2907-2927, 2968-2988. `V` vertices per
direction at the 1-D positions `z`; `M` points; rows of `V³` values. -/
noncomputable def basisLoop (M V : ℕ) (z : ℕ → ℝ) (pos : Arr (ℕ → ℝ)) (q : BasisJunk) (a : Arr (ℕ → ℝ)) :
    Option (Arr (ℕ → ℝ)) :=
  loopM M (fun m a => do
    let pt ← pos.get m
    let b := HexN.basis V z pt (q.v m) (q.t m) (q.b m)
    let r ← a.get m
    a.set m (loop (V * V * V) (fun b' r => store r b' (b b')) r)) a

/-- State of the gradient loops: the table (rows `(basis, dim)`), `partial_xi`, `partial_eta`, `partial_mu`. -/
structure Grad where
  table : Arr (ℕ → ℕ → ℝ)
  xi : ℕ → ℝ
  eta : ℕ → ℝ
  mu : ℕ → ℝ

/-- Copy the partials into the row of the table and clear them, elements/elements.cpp:2677-2688, 2946-2957,
3006-3017. -/
def copyGrad (N : ℕ) (r : ℕ → ℕ → ℝ) (xi eta mu : ℕ → ℝ) : (ℕ → ℕ → ℝ) × (ℕ → ℝ) × (ℕ → ℝ) × (ℕ → ℝ) :=
  loop N (fun b (s : (ℕ → ℕ → ℝ) × (ℕ → ℝ) × (ℕ → ℝ) × (ℕ → ℝ)) =>
    (store2 (store2 (store2 s.1 b 0 (s.2.1 b)) b 1 (s.2.2.1 b)) b 2 (s.2.2.2 b),
      store s.2.1 b 0, store s.2.2.1 b 0, store s.2.2.2 b 0)) (r, xi, eta, mu)

/-- Gradients at the given points, elements/elements.cpp:2667-2691, 2935-2961, 2995-3021. -/
noncomputable def gradLoop (M V : ℕ) (z : ℕ → ℝ) (pos : Arr (ℕ → ℝ)) (q : BasisJunk) (s : Grad) : Option Grad :=
  loopM M (fun m s => do
    let pt ← pos.get m
    let xi := HexN.partialXi V z pt (q.v m) (q.dv m) (q.t m) (q.dt m) s.xi
    let eta := HexN.partialEta V z pt (q.v m) (q.dv m) (q.t m) (q.dt m) s.eta
    let mu := HexN.partialMu V z pt (q.v m) (q.dv m) (q.t m) (q.dt m) s.mu
    let r ← s.table.get m
    let l := copyGrad (V * V * V) r xi eta mu
    let t ← s.table.set m l.1
    pure ⟨t, l.2.1, l.2.2.1, l.2.2.2⟩) s

/-! ### The whole function -/

/-- Contents of the allocated arrays. -/
structure Junk where
  lob : ℕ → ℝ
  lobw : ℕ → ℝ
  leg : ℕ → ℝ
  legw : ℕ → ℝ
  pos : ℕ → ℕ → ℝ
  wts : ℕ → ℝ
  c1 : ℕ → ℝ
  zone : ℕ → ℕ
  cellNodes : ℕ → ℕ
  part : ℕ → ℕ → ℝ
  cw : ℕ → ℝ
  corners : ℕ → ℕ
  cnodes : ℕ → ℕ
  normals : ℕ → ℕ → ℕ → ℝ
  sw : ℕ → ℕ → ℝ
  inside : ℕ → ℕ
  surf : ℕ → ℕ
  plist : ℕ → ℤ
  ppos : ℕ → ℕ → ℝ
  pw : ℕ → ℝ
  cpos : ℕ → ℕ → ℝ
  cwt : ℕ → ℝ
  hexNodes : ℕ → ℝ
  hexVerts : ℕ → ℝ
  nb : ℕ → ℕ → ℝ
  ng : ℕ → ℕ → ℕ → ℝ
  pb : ℕ → ℕ → ℝ
  pg : ℕ → ℕ → ℕ → ℝ
  cb : ℕ → ℕ → ℝ
  cg : ℕ → ℕ → ℕ → ℝ
  xi : ℕ → ℝ
  eta : ℕ → ℝ
  mu : ℕ → ℝ
  b : BasisJunk

/-- The reference element. -/
structure Ref where
  lob : Arr ℝ
  lobw : Arr ℝ
  leg : Arr ℝ
  legw : Arr ℝ
  nodePos : Arr (ℕ → ℝ)
  nodeW : Arr ℝ
  zone : Arr ℕ
  cellNodes : Arr ℕ
  cornerW : Arr ℝ
  crn : Corners
  split : Split
  pat : Patches
  /-- `HexN_Verts_1d_` of the element -/
  verts : ℕ → ℝ
  nodeBasis : Arr (ℕ → ℝ)
  nodeGrad : Arr (ℕ → ℕ → ℝ)
  patchBasis : Arr (ℕ → ℝ)
  patchGrad : Arr (ℕ → ℕ → ℝ)
  cellBasis : Arr (ℕ → ℝ)
  cellGrad : Arr (ℕ → ℕ → ℝ)

/-- `ref_element::init(p_order, 3, elem)`, elements/elements.cpp:2302-3026. The call of `setup_HexN`, line 2634, is
represented by the 1-D vertex positions it computes from its own Lobatto table
(`create_lobatto_nodes`, elements/elements.cpp:5815-5869). -/
noncomputable def init (p : ℕ) (q : Junk) : Option Ref := do
  let n := nodes1D p
  let C := cells1D p
  let R := corners1D p
  let V := verts1D p
  let lob ← Quad.lobatto_nodes_1D n ⟨n, q.lob⟩
  let lobw ← Quad.lobatto_weights_1D n ⟨n, q.lobw⟩
  let nodes ← nodeLoop n lob lobw (⟨n * n * n, q.pos⟩, ⟨n * n * n, q.wts⟩)
  let c1 ← cornerWeights1D n R lobw ⟨R, q.c1⟩
  let zone ← zoneLoop p ⟨zones1D p * zones1D p * zones1D p * zoneRow p, q.zone⟩
  let cn ← cellNodeLoop n ⟨(n - 1) * (n - 1) * (n - 1) * 8, q.cellNodes⟩
  let cw ← cornerWeightLoop R c1 (⟨R * R * R, q.part⟩, ⟨R * R * R, q.cw⟩)
  let crn ← cornerLoop n C R cw.1
    ⟨⟨R * R * R, q.corners⟩, ⟨R * R * R, q.cnodes⟩, ⟨R * R * R, q.normals⟩, ⟨R * R * R, q.sw⟩, 0⟩
  let hexNodes ← Quad.lobatto_nodes_1D n ⟨n * n * n, q.hexNodes⟩
  let z := HexN.verts1d p hexNodes.val q.hexVerts
  let nb ← basisLoop (n * n * n) V z nodes.1 q.b ⟨n * n * n, q.nb⟩
  let ng ← gradLoop (n * n * n) V z nodes.1 q.b ⟨⟨n * n * n, q.ng⟩, q.xi, q.eta, q.mu⟩
  let split ← splitLoop n ⟨⟨(n - 2) * (n - 2) * (n - 2), q.inside⟩, 0,
    ⟨n * n * n - (n - 2) * (n - 2) * (n - 2), q.surf⟩, 0⟩
  let P := (C + 1) * (C * C) * 3
  let leg ← Quad.legendre_nodes_1D C ⟨C, q.leg⟩
  let legw ← Quad.legendre_weights_1D C ⟨C, q.legw⟩
  let list ← clearLoop ((n - 1) * (n - 1) * (n - 1) * 6) ⟨(n - 1) * (n - 1) * (n - 1) * 6, q.plist⟩
  let pat ← patchLoop C lob leg legw
    ⟨list, 0, ⟨P, q.ppos⟩, ⟨P, q.pw⟩, ⟨(n - 1) * (n - 1) * (n - 1), q.cpos⟩, ⟨(n - 1) * (n - 1) * (n - 1), q.cwt⟩⟩
  let pb ← basisLoop P V z pat.pos q.b ⟨P, q.pb⟩
  let pg ← gradLoop P V z pat.pos q.b ⟨⟨P, q.pg⟩, ng.xi, ng.eta, ng.mu⟩
  let cb ← basisLoop ((n - 1) * (n - 1) * (n - 1)) V z pat.cellPos q.b ⟨(n - 1) * (n - 1) * (n - 1), q.cb⟩
  let cg ← gradLoop ((n - 1) * (n - 1) * (n - 1)) V z pat.cellPos q.b
    ⟨⟨(n - 1) * (n - 1) * (n - 1), q.cg⟩, pg.xi, pg.eta, pg.mu⟩
  pure ⟨lob, lobw, leg, legw, nodes.1, nodes.2, zone, cn, cw.2, crn, split, pat, z, nb, ng.table, pb, pg.table, cb,
    cg.table⟩

/-! ### Accessors -/

/-- `ref_corners_in_cell(cell, l)`, elements/elements.cpp:3074-3077. -/
def Ref.cornersInCell (r : Ref) (c l : ℕ) : Option ℕ := r.crn.corners.get (l + c * 8)
/-- `ref_nodes_in_cell(cell, l)`, elements/elements.cpp:3080-3083. -/
def Ref.nodesInCell (r : Ref) (c l : ℕ) : Option ℕ := r.crn.nodes.get (l + c * 8)
/-- `cell_lid_in_zone(zone, l)`, elements/elements.cpp:3145-3148 (`w` is the row length). -/
def Ref.cellInZone (r : Ref) (w z l : ℕ) : Option ℕ := r.zone.get (z * w + l)
/-- `cell_nodes_in_elem(cell, l)`, elements/elements.cpp:3160-3163. -/
def Ref.cellNodesInElem (r : Ref) (c l : ℕ) : Option ℕ := r.cellNodes.get (c * 8 + l)
/-- `ref_patches_in_cell(cell, side)`, elements/elements.cpp:3176-3180. -/
def Ref.patchesInCell (r : Ref) (c s : ℕ) : Option ℤ := r.pat.list.get (s + c * 6)

end Verif.RefElem
