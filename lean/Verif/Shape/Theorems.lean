import Verif.Shape.Nodal
import Verif.Shape.Deriv
import Mathlib.Tactic.FinCases
import Mathlib.Data.Fintype.Basic
import Mathlib.Tactic.Linarith

/-!
# C23 – C27: the fixed-order elements Quad4, Quad8, Quad12, Hex8, Hex20, Hex32 and Tess16
-/

set_option linter.unusedSectionVars false

namespace Verif.Shape

open Finset

variable {K : Type*} [Field K] [CharZero K]

/-- **C23** (nodal). Evaluated at the reference vertex `w`, shape function `v` is 1 if `v = w` and 0
otherwise, for each element class, whatever the output array held. -/
theorem C23_nodal (k : Kind) (b : ℕ → K) (v w : ℕ) (hv : v < k.numVerts) (hw : w < k.numVerts) :
    k.basis (k.refLoc w) b v = if v = w then 1 else 0 := by
  cases k
  · exact Quad4.nodal b v w hv hw
  · exact Quad8.nodal b v w hv hw
  · exact Quad12.nodal b v w hv hw
  · exact Hex8.nodal b v w hv hw
  · exact Hex20.nodal b v w hv hw
  · exact Hex32.nodal b v w hv hw
  · exact Tess16.nodal b v w hv hw

/-- **C23** (partition of unity). At every point the shape functions sum to one. -/
theorem C23_partition (k : Kind) (x b : ℕ → K) :
    ∑ v ∈ range k.numVerts, k.basis x b v = 1 := by
  cases k
  · exact Quad4.sum_one x b
  · exact Quad8.sum_one x b
  · exact Quad12.sum_one x b
  · exact Hex8.sum_one x b
  · exact Hex20.sum_one x b
  · exact Hex32.sum_one x b
  · exact Tess16.sum_one x b

/-- **C23** (linear completeness). The shape functions reproduce every coordinate function. -/
theorem C23_linear (k : Kind) (x b : ℕ → K) (d : ℕ) (hd : d < k.dim) :
    ∑ v ∈ range k.numVerts, k.basis x b v * k.refLoc v d = x d := by
  cases k
  · exact Quad4.linear x b d hd
  · exact Quad8.linear x b d hd
  · exact Quad12.linear x b d hd
  · exact Hex8.linear x b d hd
  · exact Hex20.linear x b d hd
  · exact Hex32.linear x b d hd
  · exact Tess16.linear x b d hd

/-- A non-trivial instance: the 31st shape function of the 32-node hexahedron at its own vertex and at
vertex 8. -/
example : Kind.hex32.basis (Kind.hex32.refLoc 31) (fun _ => (7 : ℚ)) 31 = 1 ∧
    Kind.hex32.basis (Kind.hex32.refLoc 8) (fun _ => (7 : ℚ)) 31 = 0 := by
  constructor <;> decide +kernel

/-- The vertices for which `partial_xi_basis` of Hex20 and Hex32 applies the formula of another
edge family. -/
def WrongXi (k : Kind) (d v : ℕ) : Prop :=
  (k = .hex20 ∧ d = 0 ∧ (v = 9 ∨ v = 11 ∨ v = 13 ∨ v = 15 ∨ 16 ≤ v)) ∨
  (k = .hex32 ∧ d = 0 ∧ ((8 ≤ v ∧ v < 16) ∨ 24 ≤ v))

/-- **C24** (partial). For each element class, each coordinate direction `d` and each vertex `v`, the
entry `v` filled by the partial-derivative routine is the derivative in direction `d` of the `v`-th
shape function at `x` — except for the edge vertices `WrongXi` of `partial_xi_basis` of Hex20 and
Hex32, for which this is false (`C24_negation`). -/
theorem C24_partials_partial (k : Kind) (d v : ℕ) (b b' x : ℕ → ℝ) (hd : d < k.dim)
    (hv : v < k.numVerts) (hw : ¬ WrongXi k d v) :
    HasDerivAt (fun t => k.basis (Function.update x d t) b v) (k.partials d x b' v) (x d) := by
  cases k
  · change d < 2 at hd
    interval_cases d
    · exact Quad4.deriv0 b b' x v hv
    · exact Quad4.deriv1 b b' x v hv
  · change d < 2 at hd
    interval_cases d
    · exact Quad8.deriv0 b b' x v hv
    · exact Quad8.deriv1 b b' x v hv
  · change d < 2 at hd
    interval_cases d
    · exact Quad12.deriv0 b b' x v hv
    · exact Quad12.deriv1 b b' x v hv
  · change d < 3 at hd
    interval_cases d
    · exact Hex8.deriv0 b b' x v hv
    · exact Hex8.deriv1 b b' x v hv
    · exact Hex8.deriv2 b b' x v hv
  · change d < 3 at hd
    interval_cases d
    · refine Hex20.deriv0 b b' x v hv ?_
      simp only [WrongXi] at hw
      simp at hw
      have : v < 20 := hv
      omega
    · exact Hex20.deriv1 b b' x v hv
    · exact Hex20.deriv2 b b' x v hv
  · change d < 3 at hd
    interval_cases d
    · refine Hex32.deriv0 b b' x v hv ?_
      simp only [WrongXi] at hw
      simp at hw
      have : v < 32 := hv
      omega
    · exact Hex32.deriv1 b b' x v hv
    · exact Hex32.deriv2 b b' x v hv
  · change d < 4 at hd
    interval_cases d
    · exact Tess16.deriv0 b b' x v hv
    · exact Tess16.deriv1 b b' x v hv
    · exact Tess16.deriv2 b b' x v hv
    · exact Tess16.deriv3 b b' x v hv

example : ¬ WrongXi .hex20 0 3 ∧ 3 < Kind.hex20.numVerts ∧ 0 < Kind.hex20.dim := by
  refine ⟨?_, by decide, by decide⟩
  simp [WrongXi]

/-- **C24** (negation). For every vertex `WrongXi` there is a point of the reference element at which
the value returned by `partial_xi_basis` is not the derivative. -/
theorem C24_negation (k : Kind) (v : ℕ) (hv : v < k.numVerts) (hw : WrongXi k 0 v) :
    ∃ x : ℕ → ℝ, (∀ d, -1 ≤ x d ∧ x d ≤ 1) ∧ ∀ b b' : ℕ → ℝ,
      ¬ HasDerivAt (fun t => k.basis (Function.update x 0 t) b v) (k.partials 0 x b' v) (x 0) := by
  rcases hw with ⟨rfl, -, hw⟩ | ⟨rfl, -, hw⟩
  · have hv' : v < 20 := hv
    by_cases h16 : 16 ≤ v
    · refine ⟨fun d => if d = 2 then 1 else 0, fun d => by dsimp only; split_ifs <;> norm_num, ?_⟩
      intro b b' h
      have e : (fun t => Kind.hex20.basis (Function.update (fun d => if d = 2 then 1 else 0) 0 t) b v) =
          fun _ : ℝ => 0 := by
        funext t
        interval_cases v <;> simp only [Kind.basis, shape_entry] <;> norm_num
      rw [e] at h
      have := h.unique (hasDerivAt_const _ _)
      interval_cases v <;> simp only [Kind.partials, shape_entry] at this <;> norm_num at this
    · refine ⟨fun d => if d = 1 then 1 else 0, fun d => by dsimp only; split_ifs <;> norm_num, ?_⟩
      intro b b' h
      have e : (fun t => Kind.hex20.basis (Function.update (fun d => if d = 1 then 1 else 0) 0 t) b v) =
          fun _ : ℝ => 0 := by
        funext t
        interval_cases v <;> first
          | (exfalso; omega) | (simp only [Kind.basis, shape_entry]; norm_num)
      rw [e] at h
      have := h.unique (hasDerivAt_const _ _)
      interval_cases v <;> first
        | (exfalso; omega) | (simp only [Kind.partials, shape_entry] at this; norm_num at this)
  · have hv' : v < 32 := hv
    by_cases h24 : 24 ≤ v
    · refine ⟨fun d => if d = 2 then 1 else 0, fun d => by dsimp only; split_ifs <;> norm_num, ?_⟩
      intro b b' h
      have e : (fun t => Kind.hex32.basis (Function.update (fun d => if d = 2 then 1 else 0) 0 t) b v) =
          fun _ : ℝ => 0 := by
        funext t
        interval_cases v <;> simp only [Kind.basis, shape_entry] <;> norm_num
      rw [e] at h
      have := h.unique (hasDerivAt_const _ _)
      interval_cases v <;> simp only [Kind.partials, shape_entry] at this <;> norm_num at this
    · refine ⟨fun d => if d = 1 then 1 else 0, fun d => by dsimp only; split_ifs <;> norm_num, ?_⟩
      intro b b' h
      have e : (fun t => Kind.hex32.basis (Function.update (fun d => if d = 1 then 1 else 0) 0 t) b v) =
          fun _ : ℝ => 0 := by
        funext t
        interval_cases v <;> first
          | (exfalso; omega) | (simp only [Kind.basis, shape_entry]; norm_num)
      rw [e] at h
      have := h.unique (hasDerivAt_const _ _)
      interval_cases v <;> first
        | (exfalso; omega) | (simp only [Kind.partials, shape_entry] at this; norm_num at this)

/-! ### C27 -/

theorem loop_store_zero (dim : ℕ) (x0 : ℕ → K) (d : ℕ) (hd : d < dim) :
    loop dim (fun d p => store p d 0) x0 d = 0 := by
  rw [loop_store dim (fun _ => (0 : K))]; simp [hd]

theorem loop_store_acc (dim : ℕ) (g : ℕ → K) (p : ℕ → K) :
    loop dim (fun d p => store p d (p d + g d)) p = fun d => if d < dim then p d + g d else p d := by
  induction dim with
  | zero => simp
  | succ n ih =>
    rw [loop_succ, ih]
    funext d
    by_cases h : d = n
    · subst h; simp [store]
    · by_cases h2 : d < n
      · simp [store, h, h2, Nat.lt_succ_of_lt h2]
      · simp [store, h, h2, show ¬ d < n + 1 by omega]

theorem accumulate_spec (dim nv : ℕ) (V : ℕ → ℕ → K) (basis x0 : ℕ → K) :
    ∃ p, accumulate dim nv nv V basis x0 = some p ∧
      ∀ d < dim, p d = ∑ v ∈ range nv, V v d * basis v := by
  unfold accumulate
  have := loop_inv (n := nv) (body := fun v s => s.bind fun p =>
      if v < nv then some (loop dim (fun d p => store p d (p d + V v d * basis v)) p) else none)
    (s := some (loop dim (fun d p => store p d 0) x0))
    (fun m s => ∃ p, s = some p ∧ ∀ d < dim, p d = ∑ v ∈ range m, V v d * basis v)
    ⟨_, rfl, fun d hd => by rw [loop_store_zero _ _ _ hd]; simp⟩
    (by
      rintro i s hi ⟨p, rfl, hp⟩
      refine ⟨loop dim (fun d p => store p d (p d + V i d * basis i)) p,
        by simp only [Option.bind_some, if_pos hi], ?_⟩
      intro d hd
      rw [loop_store_acc dim (fun d => V i d * basis i)]
      simp only [if_pos hd]
      rw [hp d hd, sum_range_succ])
  exact this

theorem accumulateDimOuter_spec (dim nv : ℕ) (V : ℕ → ℕ → K) (basis x0 : ℕ → K) :
    ∃ p, accumulateDimOuter dim nv nv V basis x0 = some p ∧
      ∀ d < dim, p d = ∑ v ∈ range nv, V v d * basis v := by
  unfold accumulateDimOuter
  have inner : ∀ (d : ℕ) (p : ℕ → K) (m : ℕ), m ≤ nv →
      loop m (fun v s => s.bind fun p =>
        if v < nv then some (store p d (p d + V v d * basis v)) else none) (some p) =
      some (store p d (p d + ∑ v ∈ range m, V v d * basis v)) := by
    intro d p m hm
    induction m with
    | zero =>
      simp only [loop_zero, sum_range_zero, add_zero]
      congr 1; funext e; by_cases h : e = d
      · subst h; simp
      · rw [store_ne _ _ h]
    | succ m ih =>
      rw [loop_succ, ih (by omega)]
      simp only [Option.bind_some, if_pos (show m < nv by omega), store_same]
      congr 1; funext e; by_cases h : e = d
      · subst h; simp [sum_range_succ, add_assoc]
      · simp [store_ne _ _ h]
  have := loop_inv (n := dim) (body := fun d s => loop nv (fun v s => s.bind fun p =>
        if v < nv then some (store p d (p d + V v d * basis v)) else none) s)
    (s := some (loop dim (fun d p => store p d 0) x0))
    (fun m s => ∃ p, s = some p ∧ ∀ d < dim,
      p d = if d < m then ∑ v ∈ range nv, V v d * basis v else 0)
    ⟨_, rfl, fun d hd => by rw [loop_store_zero _ _ _ hd]; simp⟩
    (by
      rintro i s hi ⟨p, rfl, hp⟩
      refine ⟨_, inner i p nv le_rfl, ?_⟩
      intro d hd
      by_cases h : d = i
      · subst h; rw [store_same, hp d hd]; simp
      · rw [store_ne _ _ h, hp d hd]
        by_cases h2 : d < i
        · simp [h2, Nat.lt_succ_of_lt h2]
        · simp [h2, show ¬ d < i + 1 by omega])
  obtain ⟨p, hp, hd⟩ := this
  refine ⟨p, hp, fun d h => ?_⟩
  rw [hd d h, if_pos h]

/-- **C27** (partial: every class but Hex32). `physical_position` is defined and stores in each
coordinate the sum of the vertex coordinates weighted by the shape functions, independently of the
previous content of the output array and of the uninitialised local array. -/
theorem C27_position_partial (k : Kind) (hk : k ≠ .hex32) (x : ℕ → K) (V : ℕ → ℕ → K)
    (b b' x0 : ℕ → K) :
    ∃ p, k.physicalPosition x V b x0 = some p ∧
      ∀ d < k.dim, p d = ∑ v ∈ range k.numVerts, V v d * k.basis x b' v := by
  have e : ∀ v < k.numVerts, k.basis x b' v = k.basis x b v := by
    intro v hv
    cases k
    · change v < 4 at hv; interval_cases v <;> simp only [Kind.basis, shape_entry]
    · change v < 8 at hv; interval_cases v <;> simp only [Kind.basis, shape_entry]
    · change v < 12 at hv; interval_cases v <;> simp only [Kind.basis, shape_entry]
    · change v < 8 at hv; interval_cases v <;> simp only [Kind.basis, shape_entry]
    · change v < 20 at hv; interval_cases v <;> simp only [Kind.basis, shape_entry]
    · exact absurd rfl hk
    · change v < 16 at hv; interval_cases v <;> simp only [Kind.basis, shape_entry]
  have e2 : ∀ d, ∑ v ∈ range k.numVerts, V v d * k.basis x b' v =
      ∑ v ∈ range k.numVerts, V v d * k.basis x b v :=
    fun d => sum_congr rfl fun v hv => by rw [e v (mem_range.1 hv)]
  simp only [e2]
  cases k
  · have h := accumulate_spec 2 4 V (Quad4.basis x b) x0
    simp only [Quad4.basis] at h
    simpa only [Kind.physicalPosition, Kind.basis, Kind.dim, Kind.numVerts, Quad4.physicalPosition,
      Quad4.basis] using h
  · have h := accumulate_spec 2 8 V (Quad8.basis x b) x0
    simp only [Quad8.basis] at h
    simpa only [Kind.physicalPosition, Kind.basis, Kind.dim, Kind.numVerts, Quad8.physicalPosition,
      Quad8.basis] using h
  · have h := accumulate_spec 2 12 V (Quad12.basis x b) x0
    simp only [Quad12.basis] at h
    simpa only [Kind.physicalPosition, Kind.basis, Kind.dim, Kind.numVerts, Quad12.physicalPosition,
      Quad12.basis] using h
  · have h := accumulate_spec 3 8 V (Hex8.basis x b) x0
    simp only [Hex8.basis] at h
    simpa only [Kind.physicalPosition, Kind.basis, Kind.dim, Kind.numVerts, Hex8.physicalPosition,
      Hex8.basis] using h
  · have h := accumulateDimOuter_spec 3 20 V (Hex20.basis x b) x0
    simp only [Hex20.basis] at h
    simpa only [Kind.physicalPosition, Kind.basis, Kind.dim, Kind.numVerts, Hex20.physicalPosition,
      Hex20.basis] using h
  · exact absurd rfl hk
  · have h := accumulate_spec 4 16 V (Tess16.basis x b) x0
    simp only [Tess16.basis] at h
    simpa only [Kind.physicalPosition, Kind.basis, Kind.dim, Kind.numVerts, Tess16.physicalPosition,
      Tess16.basis] using h

/-- **C27** (corollary). Reference vertices are mapped to the physical vertices. -/
theorem C27_vertices_partial (k : Kind) (hk : k ≠ .hex32) (V : ℕ → ℕ → K) (b x0 : ℕ → K) (w : ℕ)
    (hw : w < k.numVerts) :
    ∃ p, k.physicalPosition (k.refLoc w) V b x0 = some p ∧ ∀ d < k.dim, p d = V w d := by
  obtain ⟨p, hp, hd⟩ := C27_position_partial k hk (k.refLoc w) V b b x0
  refine ⟨p, hp, fun d h => ?_⟩
  rw [hd d h, sum_congr rfl fun v hv => by rw [C23_nodal k b v w (mem_range.1 hv) hw]]
  simp [hw]

/-- **C27** (corollary). If the vertices are the image of the reference vertices under an affine map,
`physical_position` is that map. -/
theorem C27_affine_partial (k : Kind) (hk : k ≠ .hex32) (A : ℕ → ℕ → K) (c : ℕ → K)
    (V : ℕ → ℕ → K)
    (hV : ∀ v < k.numVerts, ∀ d < k.dim, V v d = c d + ∑ e ∈ range k.dim, A d e * k.refLoc v e)
    (x b x0 : ℕ → K) :
    ∃ p, k.physicalPosition x V b x0 = some p ∧
      ∀ d < k.dim, p d = c d + ∑ e ∈ range k.dim, A d e * x e := by
  obtain ⟨p, hp, hd⟩ := C27_position_partial k hk x V b b x0
  refine ⟨p, hp, fun d h => ?_⟩
  rw [hd d h, sum_congr rfl fun v hv => by rw [hV v (mem_range.1 hv) d h, add_mul, sum_mul],
    sum_add_distrib, ← mul_sum, C23_partition, mul_one, sum_comm]
  congr 1
  refine sum_congr rfl fun e he => ?_
  rw [← C23_linear k x b e (mem_range.1 he), mul_sum]
  exact sum_congr rfl fun v _ => by ring

example : ∃ (A : ℕ → ℕ → ℚ) (c : ℕ → ℚ) (V : ℕ → ℕ → ℚ), (∃ d e, A d e ≠ 0) ∧
    ∀ v < Kind.hex20.numVerts, ∀ d < Kind.hex20.dim,
      V v d = c d + ∑ e ∈ range Kind.hex20.dim, A d e * Kind.hex20.refLoc v e :=
  ⟨fun d e => d + e, fun d => d, fun v d => d + ∑ e ∈ range Kind.hex20.dim,
    ((d : ℚ) + e) * Kind.hex20.refLoc v e, ⟨1, 1, by norm_num⟩, fun _ _ _ _ => rfl⟩

/-- **C27** (negation). `Hex32::physical_position` always reads one vertex row (and one entry of its
local array) past the end: the call is undefined for every input. -/
theorem C27_hex32_negation (x : ℕ → K) (V : ℕ → ℕ → K) (b x0 : ℕ → K) :
    Kind.hex32.physicalPosition x V b x0 = none := by
  simp only [Kind.physicalPosition, Hex32.physicalPosition, accumulate]
  rw [loop_succ]
  simp

/-! ### C25, C26 -/

/-- `vert_node_map`; Tess16 has none. -/
def Kind.vertNodeMap : Kind → ℕ → ℕ
  | .quad4 => Quad4.vertToNode | .quad8 => Quad8.vertToNode | .quad12 => Quad12.vertToNode
  | .hex8 => Hex8.vertToNode | .hex20 => Hex20.vertToNode | .hex32 => Hex32.vertToNode
  | .tess16 => fun _ => 0

/-- Polynomial order of the class. -/
def Kind.order : Kind → ℕ
  | .quad4 | .hex8 | .tess16 => 1
  | .quad8 | .hex20 => 2
  | .quad12 | .hex32 => 3

/-- Specification of the node at a point: in the lattice of `2*order+1` nodes per direction, numbered
with the first coordinate running fastest, node `n` has index `(n / N^d) % N` in direction `d`, i.e.
reference coordinate `-1 + 2*index/(N-1)`. -/
def nodeCoord (k : Kind) (n d : ℕ) : ℚ :=
  -1 + 2 * ((n / (2 * k.order + 1) ^ d % (2 * k.order + 1) : ℕ) : ℚ) / (2 * k.order : ℕ)

/-- The entry `v` of `vert_node_map` is a node of the lattice and sits at reference vertex `v`. -/
def MapOK (k : Kind) (v : ℕ) : Prop :=
  k.vertNodeMap v < (2 * k.order + 1) ^ k.dim ∧
    ∀ d < k.dim, nodeCoord k (k.vertNodeMap v) d = k.refLoc v d

instance (k : Kind) (v : ℕ) : Decidable (MapOK k v) := by unfold MapOK; infer_instance

/-- Vertices with a wrong `vert_node_map` entry. -/
def WrongMap (k : Kind) (v : ℕ) : Prop :=
  (k = .quad4 ∧ (v = 2 ∨ v = 3)) ∨ (k = .quad8 ∧ v = 6) ∨ (k = .hex8 ∧ v = 7) ∨
  (k = .hex32 ∧ (v = 10 ∨ v = 31))

instance (k : Kind) (v : ℕ) : Decidable (WrongMap k v) := by unfold WrongMap; infer_instance

/-- **C25** (partial). The exact list of correct entries: for the six classes with a vertex-to-node
map, entry `v` is the lattice node located at reference vertex `v` if and only if `(class, v)` is not
one of the six wrong entries. -/
theorem C25_map_partial (k : Kind) (hk : k ≠ .tess16) (v : ℕ) (hv : v < k.numVerts) :
    MapOK k v ↔ ¬ WrongMap k v := by
  cases k
  · revert v; change ∀ v < 4, _; decide +kernel
  · revert v; change ∀ v < 8, _; decide +kernel
  · revert v; change ∀ v < 12, _; decide +kernel
  · revert v; change ∀ v < 8, _; decide +kernel
  · revert v; change ∀ v < 20, _; decide +kernel
  · revert v; change ∀ v < 32, _; decide +kernel
  · exact absurd rfl hk

/-- **C25** (negation). Hex8 maps two different vertices to the same node, and so does Hex32. -/
theorem C25_negation :
    (∃ v w, v ≠ w ∧ v < Kind.hex8.numVerts ∧ w < Kind.hex8.numVerts ∧
      Kind.hex8.vertNodeMap v = Kind.hex8.vertNodeMap w) ∧
    (∃ v w, v ≠ w ∧ v < Kind.hex32.numVerts ∧ w < Kind.hex32.numVerts ∧
      Kind.hex32.vertNodeMap v = Kind.hex32.vertNodeMap w) :=
  ⟨⟨6, 7, by decide⟩, ⟨21, 31, by decide⟩⟩

/-- Number of surfaces and dofs per surface. -/
def Kind.numSurf : Kind → ℕ
  | .quad4 => Quad4.numSurf | .quad8 => Quad8.numSurf | .quad12 => Quad12.numSurf
  | .hex8 => Hex8.numSurf | .hex20 => Hex20.numSurf | .hex32 => Hex32.numSurf
  | .tess16 => 0
@[inherit_doc Kind.numSurf] def Kind.surfSize : Kind → ℕ
  | .quad4 => Quad4.surfSize | .quad8 => Quad8.surfSize | .quad12 => Quad12.surfSize
  | .hex8 => Hex8.surfSize | .hex20 => Hex20.surfSize | .hex32 => Hex32.surfSize
  | .tess16 => 0

/-- `surface_to_dof_lid` after the constructor, from arbitrary initial memory. -/
def Kind.surface : Kind → (ℕ → ℕ → ℕ) → ℕ → ℕ → ℕ
  | .quad4 => Quad4.surfaceToDof | .quad8 => Quad8.surfaceToDof | .quad12 => Quad12.surfaceToDof
  | .hex8 => Hex8.surfaceToDof | .hex20 => Hex20.surfaceToDof | .hex32 => Hex32.surfaceToDof
  | .tess16 => fun s => s

/-- Specification: row `s` of the table lists each vertex with coordinate `d` equal to `c` exactly once
and nothing else. -/
def ListsFacet (k : Kind) (T : ℕ → ℕ → ℕ) (s d : ℕ) (c : ℚ) : Prop :=
  (∀ i < k.surfSize, ∀ j < k.surfSize, T s i = T s j → i = j) ∧
  (∀ i < k.surfSize, T s i < k.numVerts ∧ k.refLoc (T s i) d = c) ∧
  (∀ v < k.numVerts, k.refLoc v d = c → ∃ i < k.surfSize, T s i = v)

instance (k : Kind) (T : ℕ → ℕ → ℕ) (s d : ℕ) (c : ℚ) : Decidable (ListsFacet k T s d c) := by
  unfold ListsFacet; infer_instance

/-- The facet of surface `s`: the last coordinate first, `-1` before `+1`; distinct for distinct `s`. -/
def facetDim (k : Kind) (s : ℕ) : ℕ := k.dim - 1 - s / 2
@[inherit_doc facetDim] def facetSide (s : ℕ) : ℚ := if s % 2 = 0 then -1 else 1

theorem foldl_store2 (l : List (ℕ × ℕ × ℕ)) (s0 : ℕ → ℕ → ℕ) (s i : ℕ) :
    l.foldl (fun s t => store2 s t.1 t.2.1 t.2.2) s0 s i =
      ((l.reverse.find? fun t => decide (t.1 = s ∧ t.2.1 = i)).map (·.2.2)).getD (s0 s i) := by
  induction l using List.reverseRecOn with
  | nil => rfl
  | append_singleton l t ih =>
    rw [List.foldl_append, List.reverse_append]
    simp only [List.foldl_cons, List.foldl_nil, List.reverse_cons, List.reverse_nil, List.nil_append,
      List.singleton_append, List.find?_cons]
    by_cases h : t.1 = s ∧ t.2.1 = i
    · simp [store2, h.1, h.2]
    · rw [store2_ne _ _ (fun h' => h ⟨h'.1.symm, h'.2.symm⟩), ih]
      simp [h]

theorem surface_indep (l : List (ℕ × ℕ × ℕ)) (s0 s0' : ℕ → ℕ → ℕ) {s i : ℕ}
    (h : (l.reverse.find? fun t => decide (t.1 = s ∧ t.2.1 = i)).isSome = true) :
    l.foldl (fun s t => store2 s t.1 t.2.1 t.2.2) s0 s i =
      l.foldl (fun s t => store2 s t.1 t.2.1 t.2.2) s0' s i := by
  rw [foldl_store2, foldl_store2]
  obtain ⟨t, ht⟩ := Option.isSome_iff_exists.1 h
  rw [ht]; rfl

/-- **C26** (partial). Whatever the freshly allocated table contains, after construction every row `s`
lists exactly the vertices of the facet `facetDim`, `facetSide`, each once, for all surfaces of Quad4,
Quad8, Quad12 and Hex8 and for the surfaces other than number 2 of Hex20 and Hex32. -/
theorem C26_surfaces_partial (k : Kind) (s0 : ℕ → ℕ → ℕ) (s : ℕ) (hs : s < k.numSurf)
    (hw : ¬ ((k = .hex20 ∨ k = .hex32) ∧ s = 2)) :
    ListsFacet k (k.surface s0) s (facetDim k s) (facetSide s) := by
  have e : ∀ T T' : ℕ → ℕ → ℕ, (∀ i < k.surfSize, T s i = T' s i) →
      ListsFacet k T s (facetDim k s) (facetSide s) → ListsFacet k T' s (facetDim k s) (facetSide s) := by
    rintro T T' h ⟨h1, h2, h3⟩
    refine ⟨fun i hi j hj hij => h1 i hi j hj (by rw [h i hi, h j hj, hij]),
      fun i hi => by rw [← h i hi]; exact h2 i hi, fun v hv hc => ?_⟩
    obtain ⟨i, hi, hT⟩ := h3 v hv hc
    exact ⟨i, hi, by rw [← h i hi, hT]⟩
  refine e (k.surface fun _ _ => 0) _ ?_ ?_
  · intro i hi
    cases k
    · exact surface_indep _ _ _ (by clear e; revert hi; revert i; revert s; change ∀ s < 4, _; decide +kernel)
    · exact surface_indep _ _ _ (by clear e; revert hi; revert i; revert s; change ∀ s < 4, _; decide +kernel)
    · exact surface_indep _ _ _ (by clear e; revert hi; revert i; revert s; change ∀ s < 4, _; decide +kernel)
    · exact surface_indep _ _ _ (by clear e; revert hi; revert i; revert s; change ∀ s < 6, _; decide +kernel)
    · exact surface_indep _ _ _ (by clear e; revert hi; revert i; revert s; change ∀ s < 6, _; decide +kernel)
    · exact surface_indep _ _ _ (by clear e; revert hi; revert i; revert s; change ∀ s < 6, _; decide +kernel)
    · exact absurd hs (by simp [Kind.numSurf])
  · clear e
    cases k
    · revert s; change ∀ s < 4, _; decide +kernel
    · revert s; change ∀ s < 4, _; decide +kernel
    · revert s; change ∀ s < 4, _; decide +kernel
    · revert s; change ∀ s < 6, _; decide +kernel
    · revert s; change ∀ s < 6, _; decide +kernel
    · revert s; change ∀ s < 6, _; decide +kernel
    · exact absurd hs (by simp [Kind.numSurf])

/-- Different surfaces are different facets. -/
theorem C26_distinct (k : Kind) (s s' : ℕ) (hs : s < k.numSurf) (hs' : s' < k.numSurf)
    (h : facetDim k s = facetDim k s' ∧ facetSide s = facetSide s') : s = s' := by
  have hn : k.numSurf ≤ 2 * k.dim := by cases k <;> decide
  obtain ⟨h1, h2⟩ := h
  unfold facetDim at h1
  have : s / 2 = s' / 2 := by omega
  unfold facetSide at h2
  have h3 : s % 2 = s' % 2 := by
    by_contra hne
    rcases Nat.mod_two_eq_zero_or_one s with ha | ha <;>
      rcases Nat.mod_two_eq_zero_or_one s' with hb | hb <;> simp [ha, hb] at h2 hne <;> norm_num at h2
  omega

/-- **C26** (negation). Surface 2 of Hex20 is never assigned (row 3 is assigned twice), and surface 2 of
Hex32 lists vertex 25 twice and omits vertex 5. -/
theorem C26_negation :
    (∀ s0 i, Kind.hex20.surface s0 2 i = s0 2 i) ∧
    (∀ s0 d c, ¬ ListsFacet .hex32 (Kind.hex32.surface s0) 2 d c) ∧
    (∃ s0, ∀ d c, ¬ ListsFacet .hex20 (Kind.hex20.surface s0) 2 d c) := by
  refine ⟨?_, ?_, ?_⟩
  · intro s0 i
    simp only [Kind.surface, Hex20.surfaceToDof, foldl_store2]
    rw [List.find?_eq_none.2]
    · rfl
    · intro t ht
      have : t.1 ≠ 2 := by
        revert t; decide
      simp [this]
  · rintro s0 d c ⟨h, -, -⟩
    have := h 5 (by decide) 11 (by decide) rfl
    omega
  · refine ⟨fun _ _ => 0, fun d c => ?_⟩
    rintro ⟨h, -, -⟩
    have := h 0 (by decide) 1 (by decide) rfl
    omega

end Verif.Shape
