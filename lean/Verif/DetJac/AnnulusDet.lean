import Verif.DetJac.AnnulusTheorems

/-!
# C71: the determinants of the example
-/

namespace Verif.DetJac
open Verif.Swage.HighOrder (tol Verts pt equi equi_inj ell_equi)
open LagrangeElement LagrangeElement.Spec Finset

/-- **C71, the determinants.**  On every mesh whose elements have `(p + 1)³` valid vertices, the entry of vertex `(i, j, k)` of element
`e` is the Jacobian determinant, at the point of the reference cube that belongs to this vertex, of the map that interpolates the
vertex coordinates of the element; no access is outside an array. -/
theorem C71_value (m : Mesh) (hp : 1 ≤ m.order) (hfit : (m.order + 1) ^ 3 < 2 ^ 64) (W : WellFormed m ((m.order + 1) ^ 3))
    (jdet : ℕ → ℝ) (q : Junk) :
    ∃ r, compute m jdet q = some r ∧ r.size = m.numElems * (m.order + 1) ^ 3 ∧
      ∀ e < m.numElems, ∀ i < m.order + 1, ∀ j < m.order + 1, ∀ k < m.order + 1,
        r.val (e * (m.order + 1) ^ 3 + (i + j * (m.order + 1) + k * (m.order + 1) * (m.order + 1))) =
          jacDet (vertMap m e) (pt (equi m.order i) (equi m.order j) (equi m.order k)) :=
  compute_run m hp hfit W jdet q

/-- The map of an element takes the value of the vertex at the point of the vertex. -/
theorem vertMap_vertex (m : Mesh) (hp : 1 ≤ m.order) (e a : ℕ) {i j k : ℕ} (hi : i < m.order + 1) (hj : j < m.order + 1)
    (hk : k < m.order + 1) : vertMap m e a (pt (equi m.order i) (equi m.order j) (equi m.order k)) =
      m.pos e (i + j * (m.order + 1) + k * (m.order + 1) * (m.order + 1)) a :=
  interp_vertex (equi_inj hp) _ hi hj hk

/-! ### Maps with separated variables -/

/-- The interpolant in one variable. -/
noncomputable def interp1 (p : ℕ) (f : ℕ → ℝ) (t : ℝ) : ℝ := ∑ i ∈ range (p + 1), f i * ell (p + 1) (equi p) i t

theorem interp1_deriv (p : ℕ) (f : ℕ → ℝ) (t : ℝ) :
    HasDerivAt (interp1 p f) (∑ i ∈ range (p + 1), f i * dell (p + 1) (equi p) i t) t := by
  unfold interp1
  exact HasDerivAt.fun_sum (u := range (p + 1)) (A := fun i t => f i * ell (p + 1) (equi p) i t)
    (A' := fun i => f i * dell (p + 1) (equi p) i t) fun i _ => (ell_deriv _ _ i t).const_mul (f i)

theorem interp_sep {p : ℕ} (c f g h : ℕ → ℝ) (hc : ∀ i < p + 1, ∀ j < p + 1, ∀ k < p + 1,
    c (i + j * (p + 1) + k * (p + 1) * (p + 1)) = f i * g j * h k) (X : ℕ → ℝ) :
    interp (p + 1) (equi p) c X = interp1 p f (X 0) * interp1 p g (X 1) * interp1 p h (X 2) := by
  unfold interp interp1
  rw [← prod_sum3]
  refine sum_congr rfl fun I hI => ?_
  obtain ⟨a1, a2, a3, a4⟩ := lex3_surj (mem_range.1 hI)
  have := hc _ a1 _ a2 _ a3
  rw [a4] at this
  rw [this]
  unfold phi
  ring

theorem interp1_pow {p : ℕ} (hp : 1 ≤ p) (A B t : ℝ) : interp1 p (fun i => A + B * equi p i) t = A + B * t := by
  have h0 := ell_pow (equi_inj hp) (Nat.zero_le p) t
  have h1 := ell_pow (equi_inj hp) hp t
  unfold interp1
  simp only [pow_zero, pow_one, one_mul] at h0 h1
  calc ∑ i ∈ range (p + 1), (A + B * equi p i) * ell (p + 1) (equi p) i t
      = A * ∑ i ∈ range (p + 1), ell (p + 1) (equi p) i t + B * ∑ i ∈ range (p + 1), equi p i * ell (p + 1) (equi p) i t := by
        rw [mul_sum, mul_sum, ← sum_add_distrib]
        exact sum_congr rfl fun i _ => by ring
    _ = _ := by rw [h0, h1, mul_one]

theorem interp1_node {p : ℕ} (hp : 1 ≤ p) (f : ℕ → ℝ) {i : ℕ} (hi : i < p + 1) : interp1 p f (equi p i) = f i := by
  unfold interp1
  rw [sum_eq_single_of_mem i (mem_range.2 hi)]
  · rw [ell_equi hp hi hi, if_pos rfl, mul_one]
  · intro a ha hne
    rw [ell_equi hp (mem_range.1 ha) hi, if_neg hne, mul_zero]

/-! ### The determinants on the annulus -/

/-- Derivative at `t_i` of the polynomial of degree `p` that interpolates `t ↦ sin ((t - t_i) π / 4)` at the points `t_a = -1 + 2 a / p`;
that of the function itself is `π / 4`. -/
noncomputable def annFactor (p i : ℕ) : ℝ :=
  ∑ a ∈ range (p + 1), Real.sin (((a : ℝ) - i) / p * (Real.pi / 2)) * dell (p + 1) (equi p) a (equi p i)

theorem annulus_det {p : ℕ} (hp : 1 ≤ p) (c : ℕ → ℕ → ℝ) (e : ℕ)
    (hc : ∀ i < p + 1, ∀ j < p + 1, ∀ k < p + 1, ∀ d < 3, c d (i + j * (p + 1) + k * (p + 1) * (p + 1)) = halfAnnulus p e i j k d)
    {i j k : ℕ} (hi : i < p + 1) :
    jacDet (fun a => interp (p + 1) (equi p) (c a)) (pt (equi p i) (equi p j) (equi p k)) = (1 / 2 + 2 * ((j : ℝ) / p)) * annFactor p i := by
  have hp0 : (p : ℝ) ≠ 0 := by exact_mod_cast (by omega : p ≠ 0)
  set th : ℕ → ℝ := fun i => (e + (i : ℝ) / p) * (Real.pi / 2) with hth
  set C := interp1 p (fun i => Real.cos (th i)) with hC
  set S := interp1 p (fun i => Real.sin (th i)) with hS
  have hrad : ∀ j : ℕ, (1 / 2 + 2 * ((j : ℝ) / p)) = 3 / 2 + 1 * equi p j := by intro j; unfold equi; ring
  have hhei : ∀ k : ℕ, (-1 + 2 * ((k : ℝ) / p)) = 0 + 1 * equi p k := by intro k; unfold equi; ring
  have f0 : interp (p + 1) (equi p) (c 0) = fun X => -(C (X 0)) * (3 / 2 + X 1) := by
    funext X
    rw [interp_sep (c 0) (fun i => Real.cos (th i)) (fun j => 3 / 2 + 1 * equi p j) (fun _ => -1 + 0 * 0) (by
      intro i hi j hj k hk
      rw [hc i hi j hj k hk 0 (by omega), ← hrad]
      show -(1 / 2 + 2 * ((j : ℝ) / p)) * Real.cos ((e + (i : ℝ) / p) * (Real.pi / 2)) = _
      ring) X, interp1_pow hp]
    have := interp1_pow hp (-1) 0 (X 2)
    simp only [zero_mul] at this ⊢
    rw [this]; ring
  have f1 : interp (p + 1) (equi p) (c 1) = fun X => S (X 0) * (3 / 2 + X 1) := by
    funext X
    rw [interp_sep (c 1) (fun i => Real.sin (th i)) (fun j => 3 / 2 + 1 * equi p j) (fun _ => 1 + 0 * 0) (by
      intro i hi j hj k hk
      rw [hc i hi j hj k hk 1 (by omega), ← hrad]
      show (1 / 2 + 2 * ((j : ℝ) / p)) * Real.sin ((e + (i : ℝ) / p) * (Real.pi / 2)) = _
      ring) X, interp1_pow hp]
    have := interp1_pow hp 1 0 (X 2)
    simp only [zero_mul] at this ⊢
    rw [this]; ring
  have f2 : interp (p + 1) (equi p) (c 2) = fun X => X 2 := by
    funext X
    rw [interp_sep (c 2) (fun _ => 1 + 0 * 0) (fun _ => 1 + 0 * 0) (fun k => 0 + 1 * equi p k) (by
      intro i hi j hj k hk
      rw [hc i hi j hj k hk 2 (by omega), ← hhei]
      show (-1 + 2 * ((k : ℝ) / p)) = _
      ring) X, interp1_pow hp]
    have h1 := interp1_pow hp 1 0 (X 0)
    have h2 := interp1_pow hp 1 0 (X 1)
    simp only [zero_mul] at h1 h2 ⊢
    rw [h1, h2]; ring
  set C' := ∑ a ∈ range (p + 1), Real.cos (th a) * dell (p + 1) (equi p) a (equi p i) with hC'
  set S' := ∑ a ∈ range (p + 1), Real.sin (th a) * dell (p + 1) (equi p) a (equi p i) with hS'
  have dC : HasDerivAt C C' (equi p i) := interp1_deriv _ _ _
  have dS : HasDerivAt S S' (equi p i) := interp1_deriv _ _ _
  have vC : C (equi p i) = Real.cos (th i) := interp1_node hp _ hi
  have vS : S (equi p i) = Real.sin (th i) := interp1_node hp _ hi
  set X := pt (equi p i) (equi p j) (equi p k) with hX
  have x0 : X 0 = equi p i := rfl
  have x1 : X 1 = equi p j := rfl
  have x2 : X 2 = equi p k := rfl
  have u : ∀ (t : ℝ) (a b : ℕ), a ≠ b → Function.update X a t b = X b := fun t a b h => Function.update_of_ne h.symm _ _
  have lin : ∀ (A B t : ℝ), HasDerivAt (fun t => A * (B + t)) A t := by
    intro A B t
    simpa using ((hasDerivAt_id t).const_add B).const_mul A
  have p00 : partialAt (interp (p + 1) (equi p) (c 0)) 0 X = -C' * (3 / 2 + X 1) := by
    unfold partialAt; rw [f0]
    simp only [Function.update_self, u _ 0 1 (by omega)]
    exact (dC.neg.mul_const _).deriv
  have p01 : partialAt (interp (p + 1) (equi p) (c 0)) 1 X = -C (X 0) := by
    unfold partialAt; rw [f0]
    simp only [Function.update_self, u _ 1 0 (by omega)]
    exact (lin _ _ _).deriv
  have p02 : partialAt (interp (p + 1) (equi p) (c 0)) 2 X = 0 := by
    unfold partialAt; rw [f0]
    simp only [u _ 2 0 (by omega), u _ 2 1 (by omega)]
    exact (hasDerivAt_const _ _).deriv
  have p10 : partialAt (interp (p + 1) (equi p) (c 1)) 0 X = S' * (3 / 2 + X 1) := by
    unfold partialAt; rw [f1]
    simp only [Function.update_self, u _ 0 1 (by omega)]
    exact (dS.mul_const _).deriv
  have p11 : partialAt (interp (p + 1) (equi p) (c 1)) 1 X = S (X 0) := by
    unfold partialAt; rw [f1]
    simp only [Function.update_self, u _ 1 0 (by omega)]
    exact (lin _ _ _).deriv
  have p12 : partialAt (interp (p + 1) (equi p) (c 1)) 2 X = 0 := by
    unfold partialAt; rw [f1]
    simp only [u _ 2 0 (by omega), u _ 2 1 (by omega)]
    exact (hasDerivAt_const _ _).deriv
  have p20 : partialAt (interp (p + 1) (equi p) (c 2)) 0 X = 0 := by
    unfold partialAt; rw [f2]
    simp only [u _ 0 2 (by omega)]
    exact (hasDerivAt_const _ _).deriv
  have p21 : partialAt (interp (p + 1) (equi p) (c 2)) 1 X = 0 := by
    unfold partialAt; rw [f2]
    simp only [u _ 1 2 (by omega)]
    exact (hasDerivAt_const _ _).deriv
  have p22 : partialAt (interp (p + 1) (equi p) (c 2)) 2 X = 1 := by
    unfold partialAt; rw [f2]
    simp only [Function.update_self]
    exact (hasDerivAt_id _).deriv
  have hfac : annFactor p i = Real.cos (th i) * S' - Real.sin (th i) * C' := by
    unfold annFactor
    rw [hS', hC', mul_sum, mul_sum, ← sum_sub_distrib]
    refine sum_congr rfl fun a _ => ?_
    rw [show ((a : ℝ) - i) / p * (Real.pi / 2) = th a - th i by simp only [hth]; ring, Real.sin_sub]
    ring
  unfold jacDet
  rw [Matrix.det_fin_three]
  simp only [Matrix.of_apply, Fin.val_zero, Fin.val_one, Fin.val_two]
  rw [p00, p01, p02, p10, p11, p12, p20, p21, p22, x0, x1, vC, vS, hfac, hrad j]
  ring

/-- **C71, the example.**  On the half-annulus mesh of order `p` the entry of vertex `(i, j, k)` of either element is the radius of
the vertex times a factor that depends on `p` and `i` only. -/
theorem C71_annulus (p : ℕ) (hp : 1 ≤ p) (hfit : (p + 1) ^ 3 < 2 ^ 64) (jc : ℕ → ℕ → ℝ) (jn : ℕ → ℕ) (jdet : ℕ → ℝ) (q : Junk) :
    ∃ m r, annular p jc jn = some m ∧ compute m jdet q = some r ∧ r.size = 2 * (p + 1) ^ 3 ∧
      ∀ e < 2, ∀ i < p + 1, ∀ j < p + 1, ∀ k < p + 1,
        r.val (e * (p + 1) ^ 3 + (i + j * (p + 1) + k * (p + 1) * (p + 1))) = (1 / 2 + 2 * ((j : ℝ) / p)) * annFactor p i := by
  obtain ⟨m, h1, h2, h3, -, h5, h6⟩ := annular_run p hp jc jn
  subst h2
  obtain ⟨r, r1, r2, r3⟩ := C71_value m hp hfit h5 jdet q
  refine ⟨m, r, h1, r1, by rw [r2, h3], ?_⟩
  intro e he i hi j hj k hk
  rw [r3 e (by omega) i hi j hj k hk]
  exact annulus_det hp (fun a v => m.pos e v a) e (fun i hi j hj k hk d hd => (h6 e he i hi j hj k hk).2 d hd) hi

end Verif.DetJac
