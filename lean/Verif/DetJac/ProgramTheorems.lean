import Verif.DetJac.Program
import Verif.DetJac.AnnulusError
import Verif.Swage.HighOrderConform
import Verif.Vtk.FileTheorems

/-!
# C81: the example program examples/vtk/plotting_jacobian_determinants.cpp
-/

namespace Verif.DetJac
open Verif.Swage.HighOrder (pt equi equi_inj equi_neg ell_neg)
open LagrangeElement LagrangeElement.Spec Finset

/-! ### Specification -/

/-- Coordinate `a` of vertex number `v` (first index fastest) of element `e` of the half annulus. -/
noncomputable def annVerts (p e a v : ℕ) : ℝ :=
  halfAnnulus p e (v % (p + 1)) (v / (p + 1) % (p + 1)) (v / (p + 1) / (p + 1)) a

/-- The polynomial map of degree `p` in each variable from the reference cube to element `e`, given by its vertices. -/
noncomputable def annMap (p e a : ℕ) : (ℕ → ℝ) → ℝ := interp (p + 1) (equi p) (annVerts p e a)

/-! ### Proofs -/

theorem dell_neg {p : ℕ} (hp : 1 ≤ p) {i : ℕ} (hi : i ≤ p) (x : ℝ) :
    dell (p + 1) (equi p) (p - i) (-x) = -dell (p + 1) (equi p) i x := by
  have h1 : HasDerivAt (fun x => ell (p + 1) (equi p) (p - i) (-x)) (dell (p + 1) (equi p) (p - i) (-x) * -1) x :=
    (ell_deriv (p + 1) (equi p) (p - i) (-x)).comp x (hasDerivAt_neg x)
  have h2 : HasDerivAt (fun x => ell (p + 1) (equi p) i x) (dell (p + 1) (equi p) i x) x := ell_deriv _ _ _ _
  have e : (fun x => ell (p + 1) (equi p) (p - i) (-x)) = fun x => ell (p + 1) (equi p) i x := funext fun x => ell_neg hp hi x
  rw [e] at h1
  have := h1.unique h2
  linarith

/-- The factor is the same at both ends of an element (and at mirrored vertices in general). -/
theorem annFactor_mirror {p : ℕ} (hp : 1 ≤ p) {i : ℕ} (hi : i ≤ p) : annFactor p (p - i) = annFactor p i := by
  unfold annFactor
  rw [← sum_range_reflect]
  refine sum_congr rfl fun a ha => ?_
  have ha : a ≤ p := Nat.lt_succ_iff.1 (mem_range.1 ha)
  rw [show p + 1 - 1 - a = p - a by omega, equi_neg hp hi, dell_neg hp ha, Nat.cast_sub ha, Nat.cast_sub hi]
  rw [show ((p : ℝ) - a - (p - i)) / p * (Real.pi / 2) = -(((a : ℝ) - i) / p * (Real.pi / 2)) by ring, Real.sin_neg]
  ring

theorem annMap_det {p : ℕ} (hp : 1 ≤ p) (e : ℕ) {i j k : ℕ} (hi : i < p + 1) :
    jacDet (annMap p e) (pt (equi p i) (equi p j) (equi p k)) = (1 / 2 + 2 * ((j : ℝ) / p)) * annFactor p i := by
  refine annulus_det hp (fun a => annVerts p e a) e ?_ hi
  intro i hi j hj k hk d _
  have hs := lex3_surj (lex3_lt (l := p + 1) hi hj hk)
  obtain ⟨e1, e2, e3⟩ := lex3_inj hs.1 hs.2.1 hi hj hs.2.2.2
  unfold annVerts
  rw [e1, e2, e3]

theorem annular_stride {p : ℕ} {jc : ℕ → ℕ → ℝ} {jn : ℕ → ℕ} {m : Mesh} (h : annular p jc jn = some m) :
    m.stride = (Swage.Refine.initElement p 3 2).gPts := by
  unfold annular at h
  obtain ⟨s, -, h⟩ := Option.bind_eq_some_iff.1 h
  obtain ⟨s', -, h⟩ := Option.bind_eq_some_iff.1 h
  injection h with h
  rw [← h]

theorem writeGrid_output {C : Type} (io : Vtk.Io C) (fs : Vtk.Files C) (g : Vtk.Grid) : Vtk.writeGrid io fs g "output.vtk".toList =
    fun n => if n = "output.vtk".toList then some (io.write Vtk.Format.legacy g) else fs n := by
  have h : Vtk.formatOf "output.vtk".toList = some Vtk.Format.legacy := by decide
  unfold Vtk.writeGrid
  rw [h]

/-- **C81 (the example program).**  For every order `p ≥ 1` the program stays in bounds and writes, in VTK's legacy format, a grid with
`2 (p + 1)^3 - (p + 1)^2` points and two Lagrange hexahedra to `output.vtk`, and no other file.  The point number of every vertex
`(i, j, k)` of either cell, in VTK's order, is a point of the grid; it lies at the place of the vertex on the half annulus (as far as the point
array can hold it), and its data is the Jacobian determinant, at this vertex, of the polynomial map to the element, for either
of the two elements if they share the vertex.  It is positive and differs from the determinant `r π / 4` of the exact map to the annulus (`r` the
radius of the vertex) by at most `r π / 4 · (π / (2 p))ᵖ / (p + 1)`. -/
theorem C81_program {C : Type} (io : Vtk.Io C) (fl : ℝ → ℝ) (V : Vtk.PointIndex) (p : ℕ) (hp : 1 ≤ p) (hfit : (p + 1) ^ 3 < 2 ^ 31)
    (hV : Vtk.Numbering V p) (J : MainJunk) (fs : Vtk.Files C) :
    ∃ fs' g, mainProgram io fl V p J fs = some (fs', g) ∧ fs' "output.vtk".toList = some (io.write Vtk.Format.legacy g) ∧
      (∀ n, n ≠ "output.vtk".toList → fs' n = fs n) ∧ g.pts.size = 2 * (p + 1) ^ 3 - (p + 1) ^ 2 ∧ g.sol.size = g.pts.size ∧
      g.types = [Vtk.VTK_LAGRANGE_HEXAHEDRON, Vtk.VTK_LAGRANGE_HEXAHEDRON] ∧ g.cells.length = 2 ∧
      ∀ e < 2, ∃ c, g.cells[e]? = some c ∧ c.size = (p + 1) ^ 3 ∧ ∀ i ≤ p, ∀ j ≤ p, ∀ k ≤ p,
        c.val (V p i j k) < g.pts.size ∧
        g.pts.val (c.val (V p i j k)) = (fl (halfAnnulus p e i j k 0), fl (halfAnnulus p e i j k 1), fl (halfAnnulus p e i j k 2)) ∧
        g.sol.val (c.val (V p i j k)) = jacDet (annMap p e) (pt (equi p i) (equi p j) (equi p k)) ∧
        0 < g.sol.val (c.val (V p i j k)) ∧
        |g.sol.val (c.val (V p i j k)) - (1 / 2 + 2 * ((j : ℝ) / p)) * (Real.pi / 4)| ≤
          (1 / 2 + 2 * ((j : ℝ) / p)) * (Real.pi / 4) * ((Real.pi / (2 * p)) ^ p / (p + 1)) := by
  have h64 : (p + 1) ^ 3 < 2 ^ 64 := hfit.trans (by norm_num)
  have hcube : (p + 1) ^ 3 = (p + 1) * (p + 1) * (p + 1) := by ring
  obtain ⟨m, a1, a2, a3, a4, a5, a6⟩ := annular_run p hp J.coords J.nodes
  obtain ⟨m', r, b1, b2, b3, b4⟩ := C71_annulus p hp h64 J.coords J.nodes J.det J.q
  obtain ⟨m'', r', b1', b2', -, b5⟩ := C71_accuracy p hp h64 J.coords J.nodes J.det J.q
  rw [a1] at b1 b1'
  injection b1 with b1
  injection b1' with b1'
  subst b1 b1'
  rw [b2] at b2'
  injection b2' with b2'
  subst b2'
  have hst := annular_stride a1
  have ok : m.toVtk.OK := by
    refine ⟨rfl, ?_, ?_, ?_⟩
    · show m.stride = (Swage.Refine.initElement m.order 3 m.numElems).gPts
      rw [hst, a2, a3]
    · exact a5.size
    · intro e he v hv
      have he : e < m.numElems := he
      have hv : v < (m.order + 1) ^ 3 := hv
      rw [a2] at hv
      exact a5.ids e he v hv
  have eo : m.toVtk.order = p := a2
  have ee : m.toVtk.numElems = 2 := a3
  have enode : ∀ e v, m.toVtk.node e v = m.node e v := fun _ _ => rfl
  obtain ⟨g, e1, -, g1, g2, g3, g4, g5, g6, g7, g8, -⟩ := Vtk.C51_write fl V m.toVtk ok (by rw [eo]; exact hfit) (by rw [eo]; exact hV) r
    ((m.order + 1) ^ 3) (by rw [a2, eo]) (by rw [b3, ee, a2]) J.pts J.sol J.hex J.map
  rw [eo, ee] at g7 g8
  rw [eo] at g6
  rw [ee] at g3 g4 g6
  refine ⟨Vtk.writeGrid io fs g "output.vtk".toList, g, ?_, ?_, ?_, ?_, ?_, ?_, ?_, ?_⟩
  · unfold mainProgram
    show (annular p J.coords J.nodes).bind _ = _
    rw [a1, Option.bind_some]
    show (compute m J.det J.q).bind _ = _
    rw [b2, Option.bind_some]
    show (Vtk.initVtkGrid fl V m.toVtk r ((m.order + 1) ^ 3) J.pts J.sol J.hex J.map).bind _ = _
    rw [e1, Option.bind_some]
    rfl
  · rw [writeGrid_output]; exact if_pos rfl
  · intro n hn
    rw [writeGrid_output]; exact if_neg hn
  · rw [g1]; exact a4
  · rw [g1, g2]
  · have hrep := List.eq_replicate_of_mem g5
    rw [g4] at hrep
    exact hrep
  · exact g3
  intro e he
  obtain ⟨c, c1, c2, c3⟩ := g6 e he
  refine ⟨c, c1, c2, ?_⟩
  intro i hi j hj k hk
  have hi' := Nat.lt_succ_of_le hi
  have hj' := Nat.lt_succ_of_le hj
  have hk' := Nat.lt_succ_of_le hk
  have hcv := c3 i j k hi hj hk
  have hv : i + j * (p + 1) + k * (p + 1) * (p + 1) < (p + 1) ^ 3 := by rw [hcube]; exact lex3_lt hi' hj' hk'
  -- the data of the point
  have hsol : ∀ e < 2, ∀ i < p + 1, ∀ j < p + 1, ∀ k < p + 1,
      g.sol.val (m.node e (i + j * (p + 1) + k * (p + 1) * (p + 1))) = (1 / 2 + 2 * ((j : ℝ) / p)) * annFactor p i := by
    -- the last vertex that is the node
    have hlast : ∀ e < 2, ∀ i < p + 1, ∀ j < p + 1, ∀ k < p + 1, (e = 1 ∨ i < p) →
        g.sol.val (m.node e (i + j * (p + 1) + k * (p + 1) * (p + 1))) = (1 / 2 + 2 * ((j : ℝ) / p)) * annFactor p i := by
      intro e he i hi j hj k hk hlt
      have hv : i + j * (p + 1) + k * (p + 1) * (p + 1) < (p + 1) ^ 3 := by rw [hcube]; exact lex3_lt hi hj hk
      have := g8 e he _ hv (by
        intro e' he' v' hv' hgt heq
        rw [enode, enode] at heq
        replace hv' : v' < (p + 1) ^ 3 := hv'
        rw [hcube] at hv'
        obtain ⟨q1, q2, q3, q4⟩ := lex3_surj hv'
        have s1 := (a6 e' he' _ q1 _ q2 _ q3).2
        have s2 := (a6 e he i hi j hj k hk).2
        rw [q4] at s1
        obtain ⟨x, y, z⟩ := halfAnnulus_inj hp he' he q1 hi (fun d hd => by
          rw [← s1 d hd, ← s2 d hd]; unfold Mesh.pos; rw [heq])
        rcases hgt with hgt | ⟨rfl, hgt⟩
        · obtain rfl : e = 0 := by omega
          obtain rfl : e' = 1 := by omega
          rw [Nat.mul_one, Nat.mul_zero, Nat.zero_add] at x
          rcases hlt with hlt | hlt <;> omega
        · have x : v' % (p + 1) = i := by omega
          rw [x, y, z] at q4
          omega)
      rw [enode, a2] at this
      rw [this, b4 e he i hi j hj k hk]
    intro e he i hi j hj k hk
    by_cases hlt : e = 1 ∨ i < p
    · exact hlast e he i hi j hj k hk hlt
    · obtain ⟨rfl, rfl⟩ : e = 0 ∧ i = p := by omega
      have n0 := (a6 0 (by omega) i hi j hj k hk).1
      have n1 := (a6 1 (by omega) 0 (by omega) j hj k hk).1
      rw [show i * 0 + i = i * 1 + 0 by omega] at n0
      rw [n0, ← n1, hlast 1 (by omega) 0 (by omega) j hj k hk (Or.inl rfl)]
      have := annFactor_mirror hp (le_refl i)
      rw [Nat.sub_self] at this
      rw [this]
  rw [hcv, enode]
  have hval := hsol e he i hi' j hj' k hk'
  have hdet := b4 e he i hi' j hj' k hk'
  have hacc := b5 e he i hi' j hj' k hk'
  rw [hdet] at hacc
  refine ⟨?_, ?_, ?_, ?_, ?_⟩
  · rw [g1]; exact a5.ids e (by rw [a3]; exact he) _ hv
  · have h := g7 e he _ hv
    rw [enode] at h
    rw [h]
    have h2 := (a6 e he i hi' j hj' k hk').2
    rw [← h2 0 (by omega), ← h2 1 (by omega), ← h2 2 (by omega)]
    unfold Vtk.keep Vtk.Mesh.pos Mesh.pos
    show (fl (m.coords.val ((_ * 3 + 0) / 3) ((_ * 3 + 0) % 3)), fl (m.coords.val ((_ * 3 + 1) / 3) ((_ * 3 + 1) % 3)),
      fl (m.coords.val ((_ * 3 + 2) / 3) ((_ * 3 + 2) % 3))) = _
    generalize m.node e (i + j * (p + 1) + k * (p + 1) * (p + 1)) = n
    rw [show (n * 3 + 0) / 3 = n by omega, show (n * 3 + 1) / 3 = n by omega, show (n * 3 + 2) / 3 = n by omega,
      show (n * 3 + 0) % 3 = 0 by omega, show (n * 3 + 1) % 3 = 1 by omega, show (n * 3 + 2) % 3 = 2 by omega]
  · rw [hval, annMap_det hp e hi']
  · rw [hval]; exact hacc.1
  · rw [hval]; exact hacc.2

/-- Non-vacuity: the program as shipped (order 2) with the numbering of VTK 9 and an exact point array writes 45 points; the data at the
inner corner between the two elements, which both elements share, is `(√2 - 1/2) / 2`, whereas `r π / 4` is `π / 8`. -/
example (J : MainJunk) : ∃ fs' g, mainProgram Vtk.plain id (Vtk.vtkIndex false) 2 J (fun _ => none) = some (fs', g) ∧
    fs' "output.vtk".toList = some (Vtk.Format.legacy, g) ∧ g.pts.size = 45 ∧ ∃ c c', g.cells = [c, c'] ∧ c.size = 27 ∧
      g.pts.val (c.val 1) = (-(1 / 2) * Real.cos (Real.pi / 2), 1 / 2 * Real.sin (Real.pi / 2), -1) ∧
      g.sol.val (c.val 1) = 1 / 2 * (√2 - 1 / 2) ∧ g.sol.val (c'.val 0) = 1 / 2 * (√2 - 1 / 2) := by
  obtain ⟨fs', g, h1, h2, -, h3, -, -, h4, h5⟩ := C81_program Vtk.plain id (Vtk.vtkIndex false) 2 (by norm_num) (by norm_num)
    (Vtk.vtkIndex_numbering false 2) J (fun _ => none)
  obtain ⟨c, c1, c2, c3⟩ := h5 0 (by norm_num)
  obtain ⟨c', d1, d2, d3⟩ := h5 1 (by norm_num)
  have hcells : g.cells = [c, c'] := by
    apply List.ext_getElem?
    intro n
    rcases n with _ | _ | n
    · rw [c1]; rfl
    · rw [d1]; rfl
    · rw [List.getElem?_eq_none (by omega), List.getElem?_eq_none (by simp)]
  have v1 : Vtk.vtkIndex false 2 2 0 0 = 1 := by decide
  have v0 : Vtk.vtkIndex false 2 0 0 0 = 0 := by decide
  obtain ⟨-, p1, s1, -⟩ := c3 2 (by norm_num) 0 (by norm_num) 0 (by norm_num)
  obtain ⟨-, -, s0, -⟩ := d3 0 (by norm_num) 0 (by norm_num) 0 (by norm_num)
  rw [v1] at p1 s1
  rw [v0] at s0
  rw [annMap_det (by norm_num) 0 (by norm_num), annFactor_two.2.2] at s1
  rw [annMap_det (by norm_num) 1 (by norm_num), annFactor_two.1] at s0
  refine ⟨fs', g, h1, h2, by rw [h3]; norm_num, c, c', hcells, by rw [c2]; norm_num, ?_, ?_, ?_⟩
  · rw [p1]
    norm_num [halfAnnulus, cylinder, pt]
  · rw [s1]; norm_num
  · rw [s0]; norm_num

end Verif.DetJac
