import Verif.Geometry.JacobianLemmas
import Mathlib.Analysis.Calculus.Deriv.Add

/-!
# C48: Jacobians at the Gauss points, patch points and cell points
-/

namespace Verif.Geometry
open Finset

/-- A mesh of order-`p` elements: sizes as set by `init_element` (C45), and every entry of `nodes_in_elem` is a node. -/
structure MeshOK (p : ℕ) (m : Mesh) : Prop where
  gauss : m.gaussInElem = RefElem.nodes1D p ^ 3
  patches : m.patchesInElem = 3 * RefElem.cells1D p ^ 2 * (RefElem.cells1D p + 1)
  cells : m.cellsPerElem = RefElem.cells1D p ^ 3
  size : m.nodesInElem.size = m.elems * RefElem.nodes1D p ^ 3
  nodes : ∀ a < m.elems * RefElem.nodes1D p ^ 3, m.nodesInElem.val a < m.coords.size

/-- The physical position of reference point `ξ` of element `e`: the vertex positions interpolated by the basis
functions `phi`.  Vertex `v` is at node `vm v` of the element. -/
noncomputable def elemMap (m : Mesh) (N : ℕ) (vm : ℕ → ℕ) (phi : ℕ → (ℕ → ℝ) → ℝ) (e : ℕ) (ξ : ℕ → ℝ) (i : ℕ) : ℝ :=
  ∑ v ∈ range N, phi v ξ * m.coords.val (m.nodesInElem.val (e * m.gaussInElem + vm v)) i

/-- `J`, `I`, `d` are the Jacobian matrix of the map `F` at `ξ`, its inverse (when there is one) and its determinant. -/
structure IsJacobian (F : (ℕ → ℝ) → ℕ → ℝ) (ξ : ℕ → ℝ) (J I : ℕ → ℕ → ℝ) (d : ℝ) : Prop where
  entries : ∀ i < 3, ∀ j < 3, HasDerivAt (fun t => F (store ξ j t) i) (J i j) (ξ j)
  det : d = (Jacobian.mat 3 J).det
  inv : d ≠ 0 → Jacobian.mat 3 J * Jacobian.mat 3 I = 1 ∧ Jacobian.mat 3 I * Jacobian.mat 3 J = 1

theorem vm_lt (p : ℕ) (m0 : ℕ → ℕ) {v : ℕ} (hv : v < RefElem.verts1D p ^ 3) :
    HexN.vertNodeMap p m0 v < RefElem.nodes1D p ^ 3 := by
  rw [show RefElem.verts1D p ^ 3 = RefElem.verts1D p * RefElem.verts1D p * RefElem.verts1D p by ring] at hv
  obtain ⟨a, b, c, ha, hb, hc, rfl⟩ := RefElem.rid_surj hv
  rw [show RefElem.nodes1D p ^ 3 = RefElem.nodes1D p * RefElem.nodes1D p * RefElem.nodes1D p by ring]
  exact (HexN.C60_setup p (fun _ => (0 : ℝ)) (fun _ => 0) m0 (fun _ _ => 0) a b c ha hb hc).2.1

theorem row_lt {E M e l : ℕ} (he : e < E) (hl : l < M) : e * M + l < E * M :=
  calc e * M + l < e * M + M := by omega
    _ = (e + 1) * M := by ring
    _ ≤ E * M := Nat.mul_le_mul_right _ he

theorem row_inj {M e l e' l' : ℕ} (hl : l < M) (hl' : l' < M) (h : e * M + l = e' * M + l') : e = e' ∧ l = l' := by
  have hM : 0 < M := by omega
  have a1 : (e * M + l) / M = e := by rw [mul_comm, Nat.mul_add_div hM, Nat.div_eq_of_lt hl, add_zero]
  have a2 : (e' * M + l') / M = e' := by rw [mul_comm, Nat.mul_add_div hM, Nat.div_eq_of_lt hl', add_zero]
  have : e = e' := by rw [← a1, ← a2, h]
  subst this
  exact ⟨rfl, by omega⟩

theorem det_mat (J : ℕ → ℕ → ℝ) : det J = (Jacobian.mat 3 J).det := by rw [Jacobian.det3]; rfl

/-- From the computed sums and a good table to the Jacobian. -/
theorem isJacobian_of {m : Mesh} {M N : ℕ} {vm : ℕ → ℕ} {vpos : ℕ → ℕ → ℝ} {phi : ℕ → (ℕ → ℝ) → ℝ} {pos basis : Arr (ℕ → ℝ)}
    {grad : Arr (ℕ → ℕ → ℝ)} (g : RefElem.GoodTables M N vpos phi pos basis grad) {e l gid : ℕ} (hl : l < M) {s : Jac}
    (h : PointOK (jsum m N vm grad e l) s gid) :
    IsJacobian (elemMap m N vm phi e) (pos.val l) (s.jac.val gid) (s.inv.val gid) (s.det.val gid) := by
  refine ⟨?_, ?_, ?_⟩
  · intro i hi j hj
    rw [h.entries i hi j hj]
    unfold elemMap jsum
    exact HasDerivAt.fun_sum fun v hv => (g.deriv l hl v (mem_range.1 hv) j hj).mul_const _
  · rw [h.det, det_mat]
  · intro hd
    rw [h.det, det_mat] at hd
    obtain ⟨I, hI⟩ := h.inv
    rw [hI]
    exact Jacobian.C20_mat_inverse I _ hd

theorem affine_of {m : Mesh} {M N : ℕ} {vm : ℕ → ℕ} {vpos : ℕ → ℕ → ℝ} {phi : ℕ → (ℕ → ℝ) → ℝ} {pos basis : Arr (ℕ → ℝ)}
    {grad : Arr (ℕ → ℕ → ℝ)} (g : RefElem.GoodTables M N vpos phi pos basis grad) {e l gid : ℕ} (hl : l < M) {s : Jac}
    (h : PointOK (jsum m N vm grad e l) s gid) (A : ℕ → ℕ → ℝ) (b : ℕ → ℝ)
    (hA : ∀ v < N, ∀ i < 3, m.coords.val (m.nodesInElem.val (e * m.gaussInElem + vm v)) i =
      A i 0 * vpos v 0 + A i 1 * vpos v 1 + A i 2 * vpos v 2 + b i) :
    (∀ i < 3, ∀ j < 3, s.jac.val gid i j = A i j) ∧ s.det.val gid = (Jacobian.mat 3 A).det := by
  have E : ∀ i < 3, ∀ j < 3, s.jac.val gid i j = A i j := by
    intro i hi j hj
    rw [h.entries i hi j hj]
    unfold jsum
    have : ∀ v ∈ range N, grad.val l v j * m.coords.val (m.nodesInElem.val (e * m.gaussInElem + vm v)) i =
        A i 0 * (vpos v 0 * grad.val l v j) + A i 1 * (vpos v 1 * grad.val l v j) + A i 2 * (vpos v 2 * grad.val l v j) +
          b i * grad.val l v j := by
      intro v hv
      rw [hA v (mem_range.1 hv) i hi]; ring
    rw [sum_congr rfl this, sum_add_distrib, sum_add_distrib, sum_add_distrib, ← mul_sum, ← mul_sum, ← mul_sum, ← mul_sum,
      g.gradLinear l hl j hj 0 (by omega), g.gradLinear l hl j hj 1 (by omega), g.gradLinear l hl j hj 2 (by omega),
      g.gradUnity l hl j hj]
    have c : j = 0 ∨ j = 1 ∨ j = 2 := by omega
    rcases c with rfl | rfl | rfl <;> simp
  refine ⟨E, ?_⟩
  rw [h.det, det_mat]
  congr 1
  ext i j
  exact E i i.2 j j.2

/-- The three routines: what the arrays contain, for every order. -/
theorem gauss_run {p : ℕ} {q : RefElem.Junk} {r : RefElem.Ref} (hr : RefElem.InitSpec p q r) (m0 : ℕ → ℕ) {m : Mesh} (hm : MeshOK p m)
    {s : Jac} (hs : s.Sized (m.elems * RefElem.nodes1D p ^ 3)) :
    ∃ s', gaussJacobian m (RefElem.verts1D p ^ 3) (HexN.vertNodeMap p m0) r s = some s' ∧
      s'.Sized (m.elems * RefElem.nodes1D p ^ 3) ∧
      ∀ e < m.elems, ∀ l < RefElem.nodes1D p ^ 3,
      PointOK (jsum m (RefElem.verts1D p ^ 3) (HexN.vertNodeMap p m0) r.nodeGrad e l) s' (e * RefElem.nodes1D p ^ 3 + l) := by
  unfold gaussJacobian
  have := jacLoop_spec m (RefElem.verts1D p ^ 3) (HexN.vertNodeMap p m0) r.nodeGrad (RefElem.nodes1D p ^ 3)
    (m.elems * RefElem.nodes1D p ^ 3) (fun e l => e * RefElem.nodes1D p ^ 3 + l) (fun e l he hl => row_lt he hl)
    (fun e l e' l' _ hl _ hl' h => row_inj hl hl' h)
    (fun e he v hv => by rw [hm.gauss, hm.size]; exact row_lt he (vm_lt p m0 hv))
    (fun e he v hv => by rw [hm.gauss]; exact hm.nodes _ (row_lt he (vm_lt p m0 hv)))
    (le_of_eq (by rw [hr.ngSize]; ring)) s hs
  rw [hm.gauss]
  exact this

theorem patch_run {p : ℕ} {q : RefElem.Junk} {r : RefElem.Ref} (hr : RefElem.InitSpec p q r) (m0 : ℕ → ℕ) {m : Mesh} (hm : MeshOK p m)
    {s : Jac} (hs : s.Sized (m.elems * (3 * RefElem.cells1D p ^ 2 * (RefElem.cells1D p + 1)))) :
    ∃ s', patchJacobian m (RefElem.verts1D p ^ 3) (HexN.vertNodeMap p m0) r s = some s' ∧
      ∀ e < m.elems, ∀ l < 3 * RefElem.cells1D p ^ 2 * (RefElem.cells1D p + 1),
      PointOK (jsum m (RefElem.verts1D p ^ 3) (HexN.vertNodeMap p m0) r.patchGrad e l) s'
        (e * (3 * RefElem.cells1D p ^ 2 * (RefElem.cells1D p + 1)) + l) := by
  unfold patchJacobian
  obtain ⟨s', h1, -, h3⟩ := jacLoop_spec m (RefElem.verts1D p ^ 3) (HexN.vertNodeMap p m0) r.patchGrad
    (3 * RefElem.cells1D p ^ 2 * (RefElem.cells1D p + 1)) _
    (fun e l => e * (3 * RefElem.cells1D p ^ 2 * (RefElem.cells1D p + 1)) + l) (fun e l he hl => row_lt he hl)
    (fun e l e' l' _ hl _ hl' h => row_inj hl hl' h)
    (fun e he v hv => by rw [hm.gauss, hm.size]; exact row_lt he (vm_lt p m0 hv))
    (fun e he v hv => by rw [hm.gauss]; exact hm.nodes _ (row_lt he (vm_lt p m0 hv)))
    (le_of_eq (by rw [hr.pgSize]; ring)) s hs
  rw [hm.patches]
  exact ⟨s', h1, h3⟩

theorem cell_run {p : ℕ} {q : RefElem.Junk} {r : RefElem.Ref} (hr : RefElem.InitSpec p q r) (m0 : ℕ → ℕ) {m : Mesh} (hm : MeshOK p m)
    {cid : ℕ → ℕ → ℕ}
    (hc : ∀ e < m.elems, ∀ l < RefElem.cells1D p ^ 3, m.cellsInElem.get (e * RefElem.cells1D p ^ 3 + l) = some (cid e l) ∧
      cid e l < m.cells)
    (hinj : ∀ e l e' l', e < m.elems → l < RefElem.cells1D p ^ 3 → e' < m.elems → l' < RefElem.cells1D p ^ 3 →
      cid e l = cid e' l' → e = e' ∧ l = l')
    {s : Jac} (hs : s.Sized m.cells) :
    ∃ s', cellJacobian m (RefElem.verts1D p ^ 3) (HexN.vertNodeMap p m0) r s = some s' ∧
      ∀ e < m.elems, ∀ l < RefElem.cells1D p ^ 3,
      PointOK (jsum m (RefElem.verts1D p ^ 3) (HexN.vertNodeMap p m0) r.cellGrad e l) s' (cid e l) := by
  unfold cellJacobian
  obtain ⟨s', h1, -, h3⟩ := jacLoop_spec m (RefElem.verts1D p ^ 3) (HexN.vertNodeMap p m0) r.cellGrad
    (RefElem.cells1D p ^ 3) _ cid (fun e l he hl => (hc e he l hl).2) hinj
    (fun e he v hv => by rw [hm.gauss, hm.size]; exact row_lt he (vm_lt p m0 hv))
    (fun e he v hv => by rw [hm.gauss]; exact hm.nodes _ (row_lt he (vm_lt p m0 hv)))
    (le_of_eq (by rw [hr.cgSize]; unfold RefElem.cells1D; ring)) s hs
  refine ⟨s', ?_, h3⟩
  rw [← h1, hm.cells]
  refine loopM_congr fun e s he => loopM_congr fun l s hl => ?_
  simp only [Option.bind_eq_bind]
  rw [(hc e he l hl).1, Option.bind_some]

/-- **C48 (Gauss points).**  After `get_gauss_pt_jacobian` on a mesh of order-`p` elements (`p ≤ 9`), the arrays hold at
Gauss point `l` of element `e` the Jacobian matrix of the element map at the position of that point in the reference
element, its determinant and its inverse; if the vertices of the element are an affine image `ξ ↦ A ξ + b` of the
reference vertices, the matrix is `A` at all points. -/
theorem C48_gauss (p : ℕ) (hp : p ≤ 9) (q : RefElem.Junk) (m0 : ℕ → ℕ) (m : Mesh) (hm : MeshOK p m) (s : Jac)
    (hs : s.Sized (m.elems * RefElem.nodes1D p ^ 3)) : ∃ r s', RefElem.init p q = some r ∧
    gaussJacobian m (RefElem.verts1D p ^ 3) (HexN.vertNodeMap p m0) r s = some s' ∧
    ∀ e < m.elems, ∀ l < RefElem.nodes1D p ^ 3, ∀ gid, gid = e * RefElem.nodes1D p ^ 3 + l →
      IsJacobian (elemMap m (RefElem.verts1D p ^ 3) (HexN.vertNodeMap p m0) (RefElem.phi (RefElem.verts1D p) r.verts) e)
        (r.nodePos.val l) (s'.jac.val gid) (s'.inv.val gid) (s'.det.val gid) ∧
      ∀ (A : ℕ → ℕ → ℝ) (b : ℕ → ℝ),
        (∀ v < RefElem.verts1D p ^ 3, ∀ i < 3,
          m.coords.val (m.nodesInElem.val (e * m.gaussInElem + HexN.vertNodeMap p m0 v)) i =
            A i 0 * r.nodePos.val (HexN.vertNodeMap p m0 v) 0 + A i 1 * r.nodePos.val (HexN.vertNodeMap p m0 v) 1 +
            A i 2 * r.nodePos.val (HexN.vertNodeMap p m0 v) 2 + b i) →
        (∀ i < 3, ∀ j < 3, s'.jac.val gid i j = A i j) ∧ s'.det.val gid = (Jacobian.mat 3 A).det := by
  obtain ⟨r, h1, h2⟩ := RefElem.init_run p q
  obtain ⟨r', h1', g, -, -⟩ := RefElem.C65_tables p hp q m0
  obtain rfl : r' = r := Option.some.inj (h1'.symm.trans h1)
  obtain ⟨s', e1, -, e2⟩ := gauss_run h2 m0 hm hs
  refine ⟨r', s', h1, e1, ?_⟩
  rintro e he l hl gid rfl
  exact ⟨isJacobian_of g hl (e2 e he l hl), fun A b hA => affine_of g hl (e2 e he l hl) A b hA⟩

/-- **C48 (patch points).**  The same for `get_gauss_patch_pt_jacobian` at the patch points. -/
theorem C48_patch (p : ℕ) (hp : p ≤ 9) (q : RefElem.Junk) (m0 : ℕ → ℕ) (m : Mesh) (hm : MeshOK p m) (s : Jac)
    (hs : s.Sized (m.elems * (3 * RefElem.cells1D p ^ 2 * (RefElem.cells1D p + 1)))) : ∃ r s', RefElem.init p q = some r ∧
    patchJacobian m (RefElem.verts1D p ^ 3) (HexN.vertNodeMap p m0) r s = some s' ∧
    ∀ e < m.elems, ∀ l < 3 * RefElem.cells1D p ^ 2 * (RefElem.cells1D p + 1), ∀ gid,
      gid = e * (3 * RefElem.cells1D p ^ 2 * (RefElem.cells1D p + 1)) + l →
      IsJacobian (elemMap m (RefElem.verts1D p ^ 3) (HexN.vertNodeMap p m0) (RefElem.phi (RefElem.verts1D p) r.verts) e)
        (r.pat.pos.val l) (s'.jac.val gid) (s'.inv.val gid) (s'.det.val gid) ∧
      ∀ (A : ℕ → ℕ → ℝ) (b : ℕ → ℝ),
        (∀ v < RefElem.verts1D p ^ 3, ∀ i < 3,
          m.coords.val (m.nodesInElem.val (e * m.gaussInElem + HexN.vertNodeMap p m0 v)) i =
            A i 0 * r.nodePos.val (HexN.vertNodeMap p m0 v) 0 + A i 1 * r.nodePos.val (HexN.vertNodeMap p m0 v) 1 +
            A i 2 * r.nodePos.val (HexN.vertNodeMap p m0 v) 2 + b i) →
        (∀ i < 3, ∀ j < 3, s'.jac.val gid i j = A i j) ∧ s'.det.val gid = (Jacobian.mat 3 A).det := by
  obtain ⟨r, h1, h2⟩ := RefElem.init_run p q
  obtain ⟨r', h1', -, g, -⟩ := RefElem.C65_tables p hp q m0
  obtain rfl : r' = r := Option.some.inj (h1'.symm.trans h1)
  obtain ⟨s', e1, e2⟩ := patch_run h2 m0 hm hs
  refine ⟨r', s', h1, e1, ?_⟩
  rintro e he l hl gid rfl
  exact ⟨isJacobian_of g hl (e2 e he l hl), fun A b hA => affine_of g hl (e2 e he l hl) A b hA⟩

/-- **C48 (cell points).**  The same for `get_gauss_cell_pt_jacobian` at the cell points, whose global number is the
number `cid e l` of the cell (different cells have different numbers). -/
theorem C48_cell (p : ℕ) (hp : p ≤ 9) (q : RefElem.Junk) (m0 : ℕ → ℕ) (m : Mesh) (hm : MeshOK p m) (cid : ℕ → ℕ → ℕ)
    (hc : ∀ e < m.elems, ∀ l < RefElem.cells1D p ^ 3, m.cellsInElem.get (e * RefElem.cells1D p ^ 3 + l) = some (cid e l) ∧
      cid e l < m.cells)
    (hinj : ∀ e l e' l', e < m.elems → l < RefElem.cells1D p ^ 3 → e' < m.elems → l' < RefElem.cells1D p ^ 3 →
      cid e l = cid e' l' → e = e' ∧ l = l')
    (s : Jac) (hs : s.Sized m.cells) : ∃ r s', RefElem.init p q = some r ∧
    cellJacobian m (RefElem.verts1D p ^ 3) (HexN.vertNodeMap p m0) r s = some s' ∧
    ∀ e < m.elems, ∀ l < RefElem.cells1D p ^ 3, ∀ gid, gid = cid e l →
      IsJacobian (elemMap m (RefElem.verts1D p ^ 3) (HexN.vertNodeMap p m0) (RefElem.phi (RefElem.verts1D p) r.verts) e)
        (r.pat.cellPos.val l) (s'.jac.val gid) (s'.inv.val gid) (s'.det.val gid) ∧
      ∀ (A : ℕ → ℕ → ℝ) (b : ℕ → ℝ),
        (∀ v < RefElem.verts1D p ^ 3, ∀ i < 3,
          m.coords.val (m.nodesInElem.val (e * m.gaussInElem + HexN.vertNodeMap p m0 v)) i =
            A i 0 * r.nodePos.val (HexN.vertNodeMap p m0 v) 0 + A i 1 * r.nodePos.val (HexN.vertNodeMap p m0 v) 1 +
            A i 2 * r.nodePos.val (HexN.vertNodeMap p m0 v) 2 + b i) →
        (∀ i < 3, ∀ j < 3, s'.jac.val gid i j = A i j) ∧ s'.det.val gid = (Jacobian.mat 3 A).det := by
  obtain ⟨r, h1, h2⟩ := RefElem.init_run p q
  obtain ⟨r', h1', -, -, g⟩ := RefElem.C65_tables p hp q m0
  obtain rfl : r' = r := Option.some.inj (h1'.symm.trans h1)
  obtain ⟨s', e1, e2⟩ := cell_run h2 m0 hm hc hinj hs
  refine ⟨r', s', h1, e1, ?_⟩
  rintro e he l hl gid rfl
  exact ⟨isJacobian_of g hl (e2 e he l hl), fun A b hA => affine_of g hl (e2 e he l hl) A b hA⟩

/-- Non-vacuity: a mesh of one element of order 1 with 27 nodes. -/
example : MeshOK 1 ⟨1, 8, 27, 36, 8, ⟨27, id⟩, ⟨8, id⟩, ⟨64, fun _ => 0⟩, ⟨64, fun _ => 0⟩, ⟨27, fun n _ => n⟩⟩ where
  gauss := rfl
  patches := rfl
  cells := rfl
  size := rfl
  nodes := by intro a ha; simpa [RefElem.nodes1D] using ha

end Verif.Geometry
