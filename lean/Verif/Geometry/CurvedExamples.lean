import Verif.Geometry.CurvedTheorems

/-!
# C73: examples, and the linear element
-/

namespace Verif.Geometry
open Finset MeasureTheory
open Verif.DetJac (polyAt partialAt jacDet interp)
open Verif.Swage.HighOrder (polyMap pt)

/-- The mesh of one element of order `p` whose nodes are numbered like the lattice points, with node positions `x`. -/
def oneElement (p : ℕ) (x : ℕ → ℕ → ℝ) : Mesh where
  elems := 1
  cells := RefElem.cells1D p ^ 3
  gaussInElem := RefElem.nodes1D p ^ 3
  patchesInElem := 3 * RefElem.cells1D p ^ 2 * (RefElem.cells1D p + 1)
  cellsPerElem := RefElem.cells1D p ^ 3
  nodesInElem := ⟨RefElem.nodes1D p ^ 3, id⟩
  cellsInElem := ⟨RefElem.cells1D p ^ 3, id⟩
  nodesInCell := ⟨RefElem.cells1D p ^ 3 * 8, fun a =>
    a / 8 % RefElem.cells1D p + a % 8 % 2 + (a / 8 / RefElem.cells1D p % RefElem.cells1D p + a % 8 / 2 % 2) * RefElem.nodes1D p +
      (a / 8 / RefElem.cells1D p / RefElem.cells1D p + a % 8 / 4) * RefElem.nodes1D p ^ 2⟩
  gaussInCell := ⟨RefElem.cells1D p ^ 3 * 8, fun a =>
    a / 8 % RefElem.cells1D p + a % 8 % 2 + (a / 8 / RefElem.cells1D p % RefElem.cells1D p + a % 8 / 2 % 2) * RefElem.nodes1D p +
      (a / 8 / RefElem.cells1D p / RefElem.cells1D p + a % 8 / 4) * RefElem.nodes1D p ^ 2⟩
  coords := ⟨RefElem.nodes1D p ^ 3, x⟩

theorem oneElement_ok (p : ℕ) (x : ℕ → ℕ → ℝ) : MeshOK p (oneElement p x) where
  gauss := rfl
  patches := rfl
  cells := rfl
  size := by show _ = 1 * _; rw [one_mul]; rfl
  nodes := by intro a ha; rw [show (oneElement p x).elems = 1 from rfl, one_mul] at ha; exact ha

theorem oneElement_lattice (p : ℕ) (x : ℕ → ℕ → ℝ) : LatticeMesh p (oneElement p x) where
  perElem := rfl
  cells := by show _ = 1 * _; rw [one_mul]; rfl
  inElem := by
    intro e he l hl
    have he : e = 0 := by have : (oneElement p x).elems = 1 := rfl; omega
    subst he
    rw [zero_mul, zero_add]
    exact Arr.get_lt (a := ⟨RefElem.cells1D p ^ 3, id⟩) hl
  gaussSize := rfl
  gauss := by
    intro e he i j k hi hj hk a ha b hb c hc
    have he : e = 0 := by have : (oneElement p x).elems = 1 := rfl; omega
    subst he
    rw [zero_mul, zero_add, zero_mul, zero_add]
    have e1 : ((i + j * RefElem.cells1D p + k * RefElem.cells1D p ^ 2) * 8 + (a + 2 * b + 4 * c)) / 8 =
      i + j * RefElem.cells1D p + k * RefElem.cells1D p * RefElem.cells1D p := by
      rw [show k * RefElem.cells1D p ^ 2 = k * RefElem.cells1D p * RefElem.cells1D p by ring]; omega
    have e2 : ((i + j * RefElem.cells1D p + k * RefElem.cells1D p ^ 2) * 8 + (a + 2 * b + 4 * c)) % 8 = a + 2 * b + 4 * c := by omega
    show _ / 8 % _ + _ % 8 % 2 + _ + _ = _
    simp only [e1, e2, digit0 hi, digit1 hi hj, digit2 hi hj]
    rw [show (a + 2 * b + 4 * c) % 2 = a by omega, show (a + 2 * b + 4 * c) / 2 % 2 = b by omega,
      show (a + 2 * b + 4 * c) / 4 = c by omega]
  nodesSize := rfl
  nodes := by
    intro a ha
    have hC : (oneElement p x).cells = RefElem.cells1D p * RefElem.cells1D p * RefElem.cells1D p := by
      show RefElem.cells1D p ^ 3 = _; ring
    rw [hC] at ha
    have h8 : a / 8 < RefElem.cells1D p * RefElem.cells1D p * RefElem.cells1D p := by omega
    have hp : 0 < RefElem.cells1D p := RefElem.cells_pos p
    refine node_lt (Nat.mod_lt _ hp) (Nat.mod_lt _ hp) ?_ (by omega) (by omega) (by omega)
    rw [Nat.div_div_eq_div_mul]
    exact Nat.div_lt_of_lt_mul h8

/-- The element whose nodes are the images of the reference nodes under a polynomial map is curved by that map. -/
theorem oneElement_curved (p : ℕ) (m0 : ℕ → ℕ) (r : RefElem.Ref) (co : ℕ → ℕ → ℕ → ℕ → ℝ) :
    CurvedBy p m0 r (oneElement p fun n i => polyAt (degree p) (co i) (r.nodePos.val n)) 0 co := by
  intro v _ i _
  show polyAt _ _ (r.nodePos.val (0 * _ + _)) = _
  rw [zero_mul, zero_add]

/-- The frustum `(u, v, w) ↦ (u (1 + w / 2), v (1 + w / 2), w)`. -/
noncomputable def frustum (i a b c : ℕ) : ℝ :=
  if i = 0 then (if a = 1 ∧ b = 0 ∧ c = 0 then 1 else if a = 1 ∧ b = 0 ∧ c = 1 then 1 / 2 else 0)
  else if i = 1 then (if a = 0 ∧ b = 1 ∧ c = 0 then 1 else if a = 0 ∧ b = 1 ∧ c = 1 then 1 / 2 else 0)
  else (if a = 0 ∧ b = 0 ∧ c = 1 then 1 else 0)

theorem frustum_eq (X : ℕ → ℝ) : polyAt 1 (frustum 0) X = X 0 * (1 + X 2 / 2) ∧ polyAt 1 (frustum 1) X = X 1 * (1 + X 2 / 2) ∧
    polyAt 1 (frustum 2) X = X 2 := by
  unfold polyAt polyMap
  simp only [sum_range_succ, sum_range_zero, frustum]
  norm_num
  constructor <;> ring

theorem frustum_det (X : ℕ → ℝ) : jacDet (fun a => polyAt 1 (frustum a)) X = (1 + X 2 / 2) ^ 2 := by
  have h0 : polyAt 1 (frustum 0) = fun X => X 0 * (1 + X 2 / 2) := by funext X; exact (frustum_eq X).1
  have h1 : polyAt 1 (frustum 1) = fun X => X 1 * (1 + X 2 / 2) := by funext X; exact (frustum_eq X).2.1
  have h2 : polyAt 1 (frustum 2) = fun X => X 2 := by funext X; exact (frustum_eq X).2.2
  have d : ∀ (f : ℝ → ℝ) (p q : ℝ) (_ : ∀ t, f t = p + q * t) (t : ℝ), deriv f t = q := deriv_lin
  have p00 : partialAt (polyAt 1 (frustum 0)) 0 X = 1 + X 2 / 2 := by
    rw [h0]; exact d _ 0 _ (by intro t; simp [mul_comm]) _
  have p01 : partialAt (polyAt 1 (frustum 0)) 1 X = 0 := by
    rw [h0]; exact d _ (X 0 * (1 + X 2 / 2)) _ (by intro t; simp) _
  have p02 : partialAt (polyAt 1 (frustum 0)) 2 X = X 0 / 2 := by
    rw [h0]; exact d _ (X 0) _ (by intro t; simp; ring) _
  have p10 : partialAt (polyAt 1 (frustum 1)) 0 X = 0 := by
    rw [h1]; exact d _ (X 1 * (1 + X 2 / 2)) _ (by intro t; simp) _
  have p11 : partialAt (polyAt 1 (frustum 1)) 1 X = 1 + X 2 / 2 := by
    rw [h1]; exact d _ 0 _ (by intro t; simp [mul_comm]) _
  have p12 : partialAt (polyAt 1 (frustum 1)) 2 X = X 1 / 2 := by
    rw [h1]; exact d _ (X 1) _ (by intro t; simp; ring) _
  have p20 : partialAt (polyAt 1 (frustum 2)) 0 X = 0 := by
    rw [h2]; exact d _ (X 2) _ (by intro t; simp) _
  have p21 : partialAt (polyAt 1 (frustum 2)) 1 X = 0 := by
    rw [h2]; exact d _ (X 2) _ (by intro t; simp) _
  have p22 : partialAt (polyAt 1 (frustum 2)) 2 X = 1 := by
    rw [h2]; exact d _ 0 _ (by intro t; simp) _
  unfold jacDet
  rw [Matrix.det_fin_three]
  simp only [Matrix.of_apply, Fin.val_zero, Fin.val_one, Fin.val_two, p00, p01, p02, p10, p11, p12, p20, p21, p22]
  ring

theorem frustum_volume : imageVolume (fun a => polyAt 1 (frustum a)) = 26 / 3 := by
  have key := integral_mons (range 3) (fun s => if s = 0 then 1 else if s = 1 then 1 else 1 / 4) (fun _ => 0) (fun _ => 0) (fun s => s)
  unfold imageVolume
  have e : ∀ x y z : ℝ, jacDet (fun a => polyAt 1 (frustum a)) (pt x y z) = ∑ s ∈ range 3,
      (if s = 0 then 1 else if s = 1 then 1 else 1 / 4 : ℝ) * (x ^ 0 * y ^ 0 * z ^ s) := by
    intro x y z
    rw [frustum_det]
    simp only [sum_range_succ, sum_range_zero]
    norm_num [pt]
    ring
  simp only [e]
  rw [key]
  simp only [sum_range_succ, sum_range_zero, Quad.mom]
  norm_num

theorem frustum_inj : Set.InjOn (curve 1 frustum) refCube := by
  intro x hx y hy hxy
  have e : ∀ x : Fin 3 → ℝ, curve 1 frustum x 0 = x 0 * (1 + x 2 / 2) ∧ curve 1 frustum x 1 = x 1 * (1 + x 2 / 2) ∧
      curve 1 frustum x 2 = x 2 := by
    intro x
    exact frustum_eq (pt (x 0) (x 1) (x 2))
  have a0 := congrFun hxy 0; have a1 := congrFun hxy 1; have a2 := congrFun hxy 2
  rw [(e x).1, (e y).1] at a0
  rw [(e x).2.1, (e y).2.1] at a1
  rw [(e x).2.2, (e y).2.2] at a2
  have hp : 0 < 1 + y 2 / 2 := by have := hy.1 2; simp only [] at this; linarith
  rw [a2] at a0 a1
  funext d; fin_cases d
  · exact mul_right_cancel₀ hp.ne' a0
  · exact mul_right_cancel₀ hp.ne' a1
  · exact a2

theorem frustum_nonneg : ∀ x ∈ refCube, 0 ≤ jacDet (fun a => polyAt 1 (frustum a)) (pt (x 0) (x 1) (x 2)) := by
  intro x _
  rw [frustum_det]; positivity

/-- Non-vacuity: the frustum meets the hypotheses of `C73_measure`, and its computed volume is within `1e-20` of `26/3`. -/
example (q : RefElem.Junk) (m0 : ℕ → ℕ) : ∃ (m : Mesh) (r : RefElem.Ref) (s s' : Jac) (v v' : Vol), MeshOK 1 m ∧ LatticeMesh 1 m ∧
    RefElem.init 1 q = some r ∧ CurvedBy 1 m0 r m 0 frustum ∧
    gaussJacobian m (RefElem.verts1D 1 ^ 3) (HexN.vertNodeMap 1 m0) r s = some s' ∧ volJacobi m r s'.det v = some v' ∧
    |v'.elem.val 0 - 26 / 3| ≤ 1 / 10 ^ 20 := by
  obtain ⟨r, hr, R⟩ := RefElem.init_run 1 q
  have hc := oneElement_curved 1 m0 r frustum
  set m := oneElement 1 fun n i => polyAt (degree 1) (frustum i) (r.nodePos.val n) with hm
  obtain ⟨r', s', v', h1, h2, h3, h4⟩ := C73_volume 1 le_rfl (by norm_num) q m0 m (oneElement_ok _ _) (oneElement_lattice _ _)
    ⟨⟨_, fun _ _ _ => 0⟩, ⟨_, fun _ _ _ => 0⟩, ⟨_, fun _ => 0⟩⟩ ⟨rfl, rfl, rfl⟩
    ⟨⟨_, fun _ => 0⟩, ⟨_, fun _ _ => 0⟩, ⟨_, fun _ => 0⟩⟩ ⟨rfl, rfl, rfl⟩
  obtain rfl : r' = r := Option.some.inj (h1.symm.trans hr)
  refine ⟨m, r', _, s', _, v', oneElement_ok _ _, oneElement_lattice _ _, hr, hc, h2, h3, ?_⟩
  have := h4 0 (show 0 < 1 by norm_num) frustum hc
  rw [frustum_volume] at this
  refine this.trans ?_
  unfold coefSum
  simp only [sum_range_succ, sum_range_zero, frustum]
  norm_num

/-- **C73 (order 0).**  For the trilinear element (order 0) the quadrature is not exact: `get_vol_jacobi` gives a frustum of
volume `26/3` the volume 10. -/
theorem C73_linear (q : RefElem.Junk) (m0 : ℕ → ℕ) : ∃ (m : Mesh) (r : RefElem.Ref) (s s' : Jac) (v v' : Vol), MeshOK 0 m ∧
    LatticeMesh 0 m ∧ RefElem.init 0 q = some r ∧ CurvedBy 0 m0 r m 0 frustum ∧
    gaussJacobian m (RefElem.verts1D 0 ^ 3) (HexN.vertNodeMap 0 m0) r s = some s' ∧ volJacobi m r s'.det v = some v' ∧
    (MeasureTheory.volume (curve 1 frustum '' refCube)).toReal = 26 / 3 ∧ v'.elem.val 0 = 10 := by
  obtain ⟨r, hr, R⟩ := RefElem.init_run 0 q
  have hc := oneElement_curved 0 m0 r frustum
  set m := oneElement 0 fun n i => polyAt (degree 0) (frustum i) (r.nodePos.val n) with hm
  obtain ⟨r', s', v', h1, R', h2, h3, h4⟩ := volume_quad 0 (by norm_num) q m0 m (oneElement_ok _ _) (oneElement_lattice _ _)
    ⟨⟨_, fun _ _ _ => 0⟩, ⟨_, fun _ _ _ => 0⟩, ⟨_, fun _ => 0⟩⟩ ⟨rfl, rfl, rfl⟩
    ⟨⟨_, fun _ => 0⟩, ⟨_, fun _ _ => 0⟩, ⟨_, fun _ => 0⟩⟩ ⟨rfl, rfl, rfl⟩
  obtain rfl : r' = r := Option.some.inj (h1.symm.trans hr)
  refine ⟨m, r', _, s', _, v', oneElement_ok _ _, oneElement_lattice _ _, hr, hc, h2, h3, ?_, ?_⟩
  · rw [imageVolume_measure 1 frustum frustum_inj frustum_nonneg, frustum_volume, ENNReal.toReal_ofReal (by norm_num)]
  · rw [h4 0 (show 0 < 1 by norm_num) frustum hc]
    have l0 : r'.lob.val 0 = -1 := by
      rw [RefElem.lob_vals (by norm_num) R (show 0 < 2 by norm_num)]
      show (Quad.lobNodes 2).getD 0 0 = -1
      rw [Quad.lobNodes_eq (by decide), Quad.getD_map_cast]
      norm_num [Quad.lobNodesQ, Quad.dec]
    have l1 : r'.lob.val 1 = 1 := by
      rw [RefElem.lob_vals (by norm_num) R (show 1 < 2 by norm_num)]
      show (Quad.lobNodes 2).getD 1 0 = 1
      rw [Quad.lobNodes_eq (by decide), Quad.getD_map_cast]
      norm_num [Quad.lobNodesQ, Quad.dec]
    have w : ∀ i < 2, r'.lobw.val i = 1 := by
      intro i hi
      have := RefElem.assign_val R.lobw (show (Quad.lobWeights 2).length ≤ 2 by rw [Quad.lobWeights_eq (by decide)]; decide) (i := i)
        (by rw [show RefElem.nodes1D 0 = 2 from rfl, Quad.lobWeights_eq (by decide)]; exact hi)
      rw [this, show RefElem.nodes1D 0 = 2 from rfl, Quad.lobWeights_eq (by decide), Quad.getD_map_cast]
      interval_cases i <;> norm_num [Quad.lobWeightsQ, Quad.dec]
    rw [show degree 0 = 1 from rfl, show RefElem.nodes1D 0 = 2 from rfl]
    unfold tensorQuad
    simp only [frustum_det, sum_range_succ, sum_range_zero, pt, l0, l1, w 0 (by norm_num), w 1 (by norm_num)]
    norm_num

end Verif.Geometry
