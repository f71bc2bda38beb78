import Verif.Geometry.VolLemmas
import Verif.RefElem.IndexTheorems
import Verif.Swage.RefineTheorems

/-!
# C49: volumes from the Jacobian determinants
-/

namespace Verif.Geometry
open Finset

/-- The cells of a mesh of order-`p` elements, as `refine_mesh` builds them (C43): cell `(i, j, k)` of element `e` has
the number `lid + C³ e` with `lid = i + j C + k C²`, and its eight Gauss points are the lattice corners of the cell. -/
structure LatticeMesh (p : ℕ) (m : Mesh) : Prop where
  perElem : m.cellsPerElem = RefElem.cells1D p ^ 3
  cells : m.cells = m.elems * RefElem.cells1D p ^ 3
  inElem : ∀ e < m.elems, ∀ l < RefElem.cells1D p ^ 3,
    m.cellsInElem.get (e * RefElem.cells1D p ^ 3 + l) = some (e * RefElem.cells1D p ^ 3 + l)
  gaussSize : m.gaussInCell.size = m.cells * 8
  gauss : ∀ e < m.elems, ∀ i j k, i < RefElem.cells1D p → j < RefElem.cells1D p → k < RefElem.cells1D p →
    ∀ a < 2, ∀ b < 2, ∀ c < 2,
    m.gaussInCell.val ((e * RefElem.cells1D p ^ 3 + (i + j * RefElem.cells1D p + k * RefElem.cells1D p ^ 2)) * 8 +
      (a + 2 * b + 4 * c)) =
      e * RefElem.nodes1D p ^ 3 + (i + a + (j + b) * RefElem.nodes1D p + (k + c) * RefElem.nodes1D p ^ 2)
  nodesSize : m.nodesInCell.size = m.cells * 8
  nodes : ∀ a < m.cells * 8, m.nodesInCell.val a < m.coords.size

/-- Node `(i + a, j + b, k + c)` of the lattice is in range. -/
theorem node_lt {p i j k a b c : ℕ} (hi : i < RefElem.cells1D p) (hj : j < RefElem.cells1D p) (hk : k < RefElem.cells1D p)
    (ha : a < 2) (hb : b < 2) (hc : c < 2) :
    i + a + (j + b) * RefElem.nodes1D p + (k + c) * RefElem.nodes1D p ^ 2 < RefElem.nodes1D p ^ 3 := by
  have hC : RefElem.cells1D p = RefElem.nodes1D p - 1 := rfl
  have := RefElem.rid_lt (w := RefElem.nodes1D p) (i := i + a) (j := j + b) (k := k + c) (by omega) (by omega) (by omega)
  rw [show RefElem.nodes1D p ^ 3 = RefElem.nodes1D p * RefElem.nodes1D p * RefElem.nodes1D p by ring]
  unfold RefElem.rid at this
  rw [show (k + c) * RefElem.nodes1D p ^ 2 = (k + c) * RefElem.nodes1D p * RefElem.nodes1D p by ring]
  exact this

/-- The Gauss point number `l` of cell `x` of element `e` is the reference node number `l` of that reference cell. -/
theorem LatticeMesh.gauss_node {p : ℕ} {m : Mesh} (h : LatticeMesh p m) {q : RefElem.Junk} {r : RefElem.Ref}
    (hr : RefElem.init p q = some r) {e x l : ℕ} (he : e < m.elems) (hx : x < RefElem.cells1D p ^ 3) (hl : l < 8) :
    ∃ n < RefElem.nodes1D p ^ 3, r.nodesInCell x l = some n ∧
      m.gaussInCell.val ((e * RefElem.cells1D p ^ 3 + x) * 8 + l) = e * RefElem.nodes1D p ^ 3 + n := by
  rw [show RefElem.cells1D p ^ 3 = RefElem.cells1D p * RefElem.cells1D p * RefElem.cells1D p by ring] at hx
  obtain ⟨i, j, k, hi, hj, hk, hx'⟩ := RefElem.rid_surj hx
  obtain ⟨r', h1, h2⟩ := RefElem.C32_nodes p q
  obtain rfl : r' = r := Option.some.inj (h1.symm.trans hr)
  have ex : x = i + j * RefElem.cells1D p + k * RefElem.cells1D p ^ 2 := by rw [hx']; unfold RefElem.rid; ring
  have el : l = l % 2 + 2 * (l / 2 % 2) + 4 * (l / 4) := by omega
  have h3 := (h2 i j k hi hj hk (l % 2) (l / 2 % 2) (l / 4) (by omega) (by omega) (by omega)).1
  have h4 := h.gauss e he i j k hi hj hk (l % 2) (by omega) (l / 2 % 2) (by omega) (l / 4) (by omega)
  rw [← el, ← ex] at h3 h4
  exact ⟨_, node_lt hi hj hk (by omega) (by omega) (by omega), h3, h4⟩

/-- The corner number. -/
def crnOf (r : RefElem.Ref) (x l : ℕ) : ℕ := (r.cornersInCell x l).getD 0

theorem LatticeMesh.volMesh {p : ℕ} {m : Mesh} (h : LatticeMesh p m) {q : RefElem.Junk} {r : RefElem.Ref}
    (hr : RefElem.init p q = some r) {detJ : Arr ℝ} (hd : detJ.size = m.elems * RefElem.nodes1D p ^ 3) :
    VolMesh m r detJ (fun e l => e * RefElem.cells1D p ^ 3 + l) (crnOf r) := by
  refine ⟨?_, ?_, h.nodesSize, h.nodes, h.gaussSize, ?_, ?_⟩
  · rw [h.perElem, h.cells]
    exact fun e he l hl => ⟨h.inElem e he l hl, row_lt he hl⟩
  · rw [h.perElem]
    exact fun e l e' l' _ hl _ hl' hh => row_inj hl hl' hh
  · intro a ha
    rw [h.cells] at ha
    have hC : 0 < RefElem.cells1D p ^ 3 := by
      rcases Nat.eq_zero_or_pos (RefElem.cells1D p ^ 3) with hz | hz
      · rw [hz] at ha; omega
      · exact hz
    have ha8 : a / 8 < m.elems * RefElem.cells1D p ^ 3 := by omega
    have he : a / 8 / RefElem.cells1D p ^ 3 < m.elems := by rw [Nat.div_lt_iff_lt_mul hC]; exact ha8
    have hx : a / 8 % RefElem.cells1D p ^ 3 < RefElem.cells1D p ^ 3 := Nat.mod_lt _ hC
    obtain ⟨n, hn, -, h2⟩ := h.gauss_node hr he hx (show a % 8 < 8 by omega)
    have e1 : a / 8 / RefElem.cells1D p ^ 3 * RefElem.cells1D p ^ 3 + a / 8 % RefElem.cells1D p ^ 3 = a / 8 := by
      rw [mul_comm]; exact Nat.div_add_mod _ _
    rw [e1, show a / 8 * 8 + a % 8 = a by omega] at h2
    rw [h2, hd]
    exact row_lt he hn
  · intro l hl k hk
    rw [h.perElem] at hl
    obtain ⟨r', h1, h2, -⟩ := RefElem.C32_corners p q
    obtain rfl : r' = r := Option.some.inj (h1.symm.trans hr)
    obtain ⟨c, hc, e⟩ := h2 l hl k hk
    obtain ⟨r'', h1', h3, -⟩ := RefElem.C33_total p q
    obtain rfl : r'' = r' := Option.some.inj (h1'.symm.trans hr)
    unfold crnOf
    rw [e, h3]
    exact ⟨rfl, hc⟩

/-- **C49.**  After `get_vol_jacobi` on a mesh of order-`p` elements with determinants `detJ`: the volume of a cell is
the sum over its eight corners of determinant times corner weight, the volume of an element is the sum of the volumes
of its cells, and it is the Gauss-Lobatto quadrature of the determinant over the element; the stored cell centre is the
average of the eight nodes of the cell. -/
theorem C49_volumes (p : ℕ) (q : RefElem.Junk) (m : Mesh) (hm : LatticeMesh p m) (detJ : Arr ℝ)
    (hd : detJ.size = m.elems * RefElem.nodes1D p ^ 3) (s : Vol) (hs : s.Sized m) :
    ∃ r s', RefElem.init p q = some r ∧ volJacobi m r detJ s = some s' ∧ ∀ e < m.elems,
      (∀ x < RefElem.cells1D p ^ 3, ∀ gid, gid = e * RefElem.cells1D p ^ 3 + x →
        s'.cell.val gid = ∑ l ∈ range 8, detJ.val (m.gaussInCell.val (gid * 8 + l)) *
          ((r.cornersInCell x l).map r.cornerWeight).getD 0 ∧
        ∀ d < 3, s'.coords.val gid d = (∑ l ∈ range 8, m.coords.val (m.nodesInCell.val (gid * 8 + l)) d) / 8) ∧
      s'.elem.val e = ∑ x ∈ range (RefElem.cells1D p ^ 3), s'.cell.val (e * RefElem.cells1D p ^ 3 + x) ∧
      s'.elem.val e = ∑ g ∈ range (RefElem.nodes1D p ^ 3), r.nodeWeight g * detJ.val (e * RefElem.nodes1D p ^ 3 + g) := by
  obtain ⟨r, hr, h33⟩ := RefElem.C33_node p q
  have V := hm.volMesh hr hd
  obtain ⟨s', e1, -, e2⟩ := volJacobi_spec V s hs
  rw [hm.perElem] at e2
  refine ⟨r, s', hr, e1, ?_⟩
  intro e he
  obtain ⟨f1, f2⟩ := e2 e he
  have hw : ∀ x < RefElem.cells1D p ^ 3, ∀ l < 8,
      r.cornerW.val (crnOf r x l) = ((r.cornersInCell x l).map r.cornerWeight).getD 0 := by
    intro x hx l hl
    unfold crnOf
    rw [(V.corners x (by rw [hm.perElem]; exact hx) l hl).1]
    rfl
  refine ⟨?_, ?_, ?_⟩
  · rintro x hx gid rfl
    refine ⟨?_, (f1 x hx).2⟩
    rw [(f1 x hx).1]
    exact sum_congr rfl fun l hl => by rw [hw x hx l (mem_range.1 hl)]
  · rw [f2]
    exact sum_congr rfl fun x hx => ((f1 x (mem_range.1 hx)).1).symm
  · rw [f2]
    have step : ∀ x ∈ range (RefElem.cells1D p ^ 3), cvol m r detJ (fun e l => e * RefElem.cells1D p ^ 3 + l) (crnOf r) e x =
        ∑ g ∈ range (RefElem.nodes1D p ^ 3), (∑ l ∈ range 8, if r.nodesInCell x l = some g then
          ((r.cornersInCell x l).map r.cornerWeight).getD 0 else 0) * detJ.val (e * RefElem.nodes1D p ^ 3 + g) := by
      intro x hx
      simp only [sum_mul]
      rw [sum_comm]
      unfold cvol
      refine sum_congr rfl fun l hl => ?_
      obtain ⟨n, hn, g1, g2⟩ := hm.gauss_node hr he (mem_range.1 hx) (mem_range.1 hl)
      rw [g2, hw x (mem_range.1 hx) l (mem_range.1 hl), sum_eq_single n]
      · rw [if_pos g1, mul_comm]
      · intro b _ hb
        rw [if_neg, zero_mul]
        rw [g1]; intro hh; exact hb (Option.some.inj hh).symm
      · intro hh; exact absurd (mem_range.2 hn) hh
    rw [sum_congr rfl step, sum_comm]
    refine sum_congr rfl fun g hg => ?_
    rw [← sum_mul, h33 g (mem_range.1 hg)]

/-- If `S` is close to 2, `S³ D` is close to `8 D`. -/
theorem cube_close {S : ℝ} (w3 : |S - 2| ≤ 1 / 10 ^ 23) (D : ℝ) : |S ^ 3 * D - 8 * D| ≤ |D| / 10 ^ 21 := by
  have e1 : S ^ 3 * D - 8 * D = ((S - 2) * ((S - 2) ^ 2 + 6 * (S - 2) + 12)) * D := by ring
  rw [e1, abs_mul, div_eq_mul_inv, mul_comm |D|]
  refine mul_le_mul_of_nonneg_right ?_ (abs_nonneg _)
  rw [abs_mul]
  have b1 : |S - 2| ≤ 1 := w3.trans (by norm_num)
  have b2 : |(S - 2) ^ 2 + 6 * (S - 2) + 12| ≤ 19 := by
    rw [abs_le] at b1 ⊢
    constructor <;> nlinarith [b1.1, b1.2]
  calc |S - 2| * |(S - 2) ^ 2 + 6 * (S - 2) + 12| ≤ 1 / 10 ^ 23 * 19 :=
        mul_le_mul w3 b2 (abs_nonneg _) (by positivity)
    _ ≤ (10 ^ 21)⁻¹ := by norm_num

/-- **C49 (affine elements).**  `get_gauss_pt_jacobian` followed by `get_vol_jacobi`: if the vertices of element `e` are
an affine image `ξ ↦ A ξ + b` of the reference vertices, its volume is `det A` times the volume of the reference cube
`[-1, 1]³`, up to the accuracy of the tabulated weights (orders up to 9). -/
theorem C49_affine (p : ℕ) (hp : p ≤ 9) (q : RefElem.Junk) (m0 : ℕ → ℕ) (m : Mesh) (hm : MeshOK p m) (hl : LatticeMesh p m)
    (s : Jac) (hs : s.Sized (m.elems * RefElem.nodes1D p ^ 3)) (v : Vol) (hv : v.Sized m) :
    ∃ r s' v', RefElem.init p q = some r ∧
      gaussJacobian m (RefElem.verts1D p ^ 3) (HexN.vertNodeMap p m0) r s = some s' ∧ volJacobi m r s'.det v = some v' ∧
      ∀ e < m.elems, ∀ (A : ℕ → ℕ → ℝ) (b : ℕ → ℝ),
        (∀ v < RefElem.verts1D p ^ 3, ∀ i < 3,
          m.coords.val (m.nodesInElem.val (e * m.gaussInElem + HexN.vertNodeMap p m0 v)) i =
            A i 0 * r.nodePos.val (HexN.vertNodeMap p m0 v) 0 + A i 1 * r.nodePos.val (HexN.vertNodeMap p m0 v) 1 +
            A i 2 * r.nodePos.val (HexN.vertNodeMap p m0 v) 2 + b i) →
        |v'.elem.val e - 8 * (Jacobian.mat 3 A).det| ≤ |(Jacobian.mat 3 A).det| / 10 ^ 21 := by
  obtain ⟨r, hr, R⟩ := RefElem.init_run p q
  obtain ⟨r1, s', h1, g1, g2⟩ := C48_gauss p hp q m0 m hm s hs
  have E1 : r1 = r := Option.some.inj (h1.symm.trans hr)
  subst E1
  obtain ⟨t, t1, t2, -⟩ := gauss_run R m0 hm hs
  have E2 : t = s' := Option.some.inj (t1.symm.trans g1)
  subst E2
  obtain ⟨r2, v', h2, k1, k2⟩ := C49_volumes p q m hl t.det t2.2.2 v hv
  have E3 : r2 = r1 := Option.some.inj (h2.symm.trans hr)
  subst E3
  obtain ⟨r3, h3, -, -, -, w2⟩ := RefElem.C33_total p q
  have E4 : r3 = r2 := Option.some.inj (h3.symm.trans hr)
  subst E4
  obtain ⟨r4, h4, -, w3⟩ := RefElem.C33_positive p hp q
  have E5 : r4 = r3 := Option.some.inj (h4.symm.trans hr)
  subst E5
  refine ⟨r4, t, v', hr, g1, k1, ?_⟩
  intro e he A b hA
  obtain ⟨-, -, k5⟩ := k2 e he
  have hdet : ∀ g ∈ range (RefElem.nodes1D p ^ 3), r4.nodeWeight g * t.det.val (e * RefElem.nodes1D p ^ 3 + g) =
      r4.nodeWeight g * (Jacobian.mat 3 A).det := by
    intro g hg
    rw [((g2 e he g (mem_range.1 hg) _ rfl).2 A b hA).2]
  rw [k5, sum_congr rfl hdet, ← sum_mul, w2]
  exact cube_close w3 _

/-! ### The hypotheses hold for every refined mesh -/

/-- The mesh `refine_mesh` builds (with `nodes_in_elem` filled from `node_in_gauss`, swage/swage.cpp:1664-1672). -/
def ofRefined (r : Swage.Refine.Refined) : Mesh :=
  ⟨r.counts.numElem, r.counts.numCells, r.counts.gPts, r.counts.patches, r.counts.cells,
    ⟨r.nig.size, fun g => (r.nig.val g).toNat⟩, r.cells.inElem, ⟨r.nodes.size, fun a => (r.nodes.val a).toNat⟩, r.cells.gauss,
    r.coords⟩

/-- **C49 (refined meshes).**  The mesh built by `refine_mesh` from any initial mesh whose last cell has eight
different vertices meets the hypotheses of C48 and
C49. -/
theorem C49_refined (E N p : ℕ) (nodes : ℕ → ℕ → ℕ) (x : ℕ → ℕ → ℝ) (q : Swage.Refine.Junk)
    (hd : Swage.Refine.DistinctVerts E nodes x) :
    ∃ r, Swage.Refine.refineMesh E N p nodes x q = some r ∧ (ofRefined r).elems = E ∧ MeshOK p (ofRefined r) ∧
      LatticeMesh p (ofRefined r) := by
  obtain ⟨r, hr, R⟩ := Swage.Refine.refine_run E N p nodes x q (Swage.Refine.hash_ne hd p _ _)
  obtain ⟨r', hr', h43⟩ := Swage.Refine.C43_cells E N p nodes x q hd
  obtain rfl : r' = r := Option.some.inj (hr'.symm.trans hr)
  have hn : Swage.Refine.pts1d p = RefElem.nodes1D p := rfl
  have hC : Swage.Refine.sub1d p = RefElem.cells1D p := by
    unfold Swage.Refine.sub1d RefElem.cells1D RefElem.nodes1D; split <;> omega
  have hc := R.counts
  have hE : r'.counts.numElem = E := by rw [hc]; rfl
  have hcell : r'.counts.cells = RefElem.cells1D p ^ 3 := by
    rw [hc]; unfold Swage.Refine.initElement RefElem.cells1D; rw [← hn]
    simp only []
    unfold Swage.Refine.pts1d
    split <;> simp
  have hnc : r'.counts.numCells = E * RefElem.cells1D p ^ 3 := by
    rw [hc]; show E * _ = _; congr 1
    have := hcell; rw [hc] at this; exact this
  have hg : r'.counts.gPts = RefElem.nodes1D p ^ 3 := by rw [hc, ← hn]; rfl
  obtain ⟨z1, z2, z3, z4⟩ := R.cells_size
  rw [hC] at z1 z2 z3 z4 h43
  rw [hn] at h43
  have M1 : MeshOK p (ofRefined r') := by
    refine ⟨hg, ?_, hcell, ?_, ?_⟩
    · show r'.counts.patches = _
      rw [hc]
      show (_ + 1) * (_ * _) * 3 = _
      unfold RefElem.cells1D; rw [← hn]; ring
    · show r'.nig.size = r'.counts.numElem * _
      rw [R.nig_size, hE, hn]
    · intro a ha
      have ha' : a < E * Swage.Refine.pts1d p ^ 3 := by
        have : (ofRefined r').elems = E := hE
        rw [this, ← hn] at ha; exact ha
      obtain ⟨y1, y2⟩ := R.nig_range a ha'
      show (r'.nig.val a).toNat < r'.coords.size
      rw [R.coords_size]; omega
  refine ⟨r', hr, hE, M1, ?_⟩
  have key : ∀ e < E, ∀ i j k, i < RefElem.cells1D p → j < RefElem.cells1D p → k < RefElem.cells1D p → _ :=
    fun e he i j k hi hj hk => h43 e he k hk j hj i hi _ _ rfl rfl
  have cellsurj : ∀ y < RefElem.cells1D p ^ 3, ∃ i j k, i < RefElem.cells1D p ∧ j < RefElem.cells1D p ∧ k < RefElem.cells1D p ∧
      y = i + j * RefElem.cells1D p + k * RefElem.cells1D p ^ 2 := by
    intro y hy
    rw [show RefElem.cells1D p ^ 3 = RefElem.cells1D p * RefElem.cells1D p * RefElem.cells1D p by ring] at hy
    obtain ⟨i, j, k, hi, hj, hk, hx'⟩ := RefElem.rid_surj hy
    exact ⟨i, j, k, hi, hj, hk, by rw [hx']; unfold RefElem.rid; ring⟩
  have hE' : (ofRefined r').elems = E := hE
  have hcells : (ofRefined r').cells = E * RefElem.cells1D p ^ 3 := hnc
  refine ⟨hcell, by rw [hcells, hE'], ?_, ?_, ?_, ?_, ?_⟩
  · rw [hE']
    intro e he l hl
    obtain ⟨i, j, k, hi, hj, hk, rfl⟩ := cellsurj l hl
    refine ((key e he i j k hi hj hk).1).trans ?_
    congr 1; ring
  · rw [hcells]; exact z1
  · rw [hE']
    intro e he i j k hi hj hk a ha b hb c hcc
    have := (key e he i j k hi hj hk).2.2.1 a ha b hb c hcc
    have h2 := (Arr.get_eq_some this).2
    rw [show e * RefElem.cells1D p ^ 3 + (i + j * RefElem.cells1D p + k * RefElem.cells1D p ^ 2) =
      i + j * RefElem.cells1D p + k * RefElem.cells1D p ^ 2 + RefElem.cells1D p ^ 3 * e by ring]
    exact h2
  · rw [hcells]; exact z4
  · rw [hcells]
    intro a ha
    have hCp : 0 < RefElem.cells1D p ^ 3 := by
      rcases Nat.eq_zero_or_pos (RefElem.cells1D p ^ 3) with hz | hz
      · rw [hz] at ha; omega
      · exact hz
    have ha8 : a / 8 < E * RefElem.cells1D p ^ 3 := by omega
    have he : a / 8 / RefElem.cells1D p ^ 3 < E := by rw [Nat.div_lt_iff_lt_mul hCp]; exact ha8
    obtain ⟨i, j, k, hi, hj, hk, hy⟩ := cellsurj _ (Nat.mod_lt (a / 8) hCp)
    have kk := (key _ he i j k hi hj hk)
    have k1 := kk.2.2.2 (a % 8) (by omega)
    have k2 := kk.2.2.1 (a % 8 % 2) (by omega) (a % 8 / 2 % 2) (by omega) (a % 8 / 4) (by omega)
    rw [← hy, show a / 8 % RefElem.cells1D p ^ 3 + RefElem.cells1D p ^ 3 * (a / 8 / RefElem.cells1D p ^ 3) = a / 8 from
      Nat.mod_add_div _ _] at k1 k2
    rw [show a % 8 % 2 + 2 * (a % 8 / 2 % 2) + 4 * (a % 8 / 4) = a % 8 by omega] at k2
    rw [k2, Option.bind_some, show a / 8 * 8 + a % 8 = a by omega] at k1
    have hgl : Swage.gaussInElem (RefElem.nodes1D p ^ 3) (a / 8 / RefElem.cells1D p ^ 3)
        (i + a % 8 % 2 + (j + a % 8 / 2 % 2) * RefElem.nodes1D p + (k + a % 8 / 4) * RefElem.nodes1D p ^ 2) < E * Swage.Refine.pts1d p ^ 3 :=
      row_lt he (node_lt hi hj hk (by omega) (by omega) (by omega))
    obtain ⟨y1, y2⟩ := R.nig_range _ hgl
    rw [Arr.get_lt (show _ < r'.nig.size by rw [R.nig_size]; exact hgl)] at k1
    have := (Arr.get_eq_some k1).2
    show (r'.nodes.val a).toNat < r'.coords.size
    rw [R.coords_size, this]; omega

end Verif.Geometry
