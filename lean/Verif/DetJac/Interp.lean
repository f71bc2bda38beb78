import Verif.DetJac.Model
import Verif.Swage.HighOrderTheorems
import Mathlib.Analysis.Calculus.Deriv.Polynomial
import Mathlib.Analysis.Calculus.Deriv.Mul

/-!
# Jacobian determinants of interpolants and of polynomial maps
-/

namespace Verif.DetJac
open Verif.Swage.HighOrder (polyMap pt sum_comm3)
open LagrangeElement LagrangeElement.Spec Finset

/-! ### Specification -/

/-- The interpolant of degree `N - 1` in each variable with the value `c (a + b N + d N²)` at `(Z a, Z b, Z d)`. -/
noncomputable def interp (N : ℕ) (Z c X : ℕ → ℝ) : ℝ := ∑ I ∈ range (N * N * N), c I * phi N Z I X

/-- Partial derivative of `f` in direction `d` at `X`. -/
noncomputable def partialAt (f : (ℕ → ℝ) → ℝ) (d : ℕ) (X : ℕ → ℝ) : ℝ := deriv (fun t => f (Function.update X d t)) (X d)

/-- Determinant of the matrix of partial derivatives of `F` at `X`: row `a` is the component, column `d` the direction. -/
noncomputable def jacDet (F : ℕ → (ℕ → ℝ) → ℝ) (X : ℕ → ℝ) : ℝ :=
  Matrix.det (Matrix.of fun a d : Fin 3 => partialAt (F a) d X)

/-- The polynomial map with coefficients `co` as a function of a point. -/
noncomputable def polyAt (p : ℕ) (co : ℕ → ℕ → ℕ → ℝ) (X : ℕ → ℝ) : ℝ := polyMap p co (X 0) (X 1) (X 2)

/-! ### Derivatives -/

theorem ell_deriv (N : ℕ) (Z : ℕ → ℝ) (i : ℕ) (x : ℝ) : HasDerivAt (ell N Z i) (dell N Z i x) x :=
  (Lagrange.basis (range N) Z i).hasDerivAt x

theorem phi_deriv (N : ℕ) (Z : ℕ → ℝ) (I : ℕ) (X : ℕ → ℝ) {d : ℕ} (hd : d < 3) :
    HasDerivAt (fun t => phi N Z I (Function.update X d t)) (dphi N Z d I X) (X d) := by
  unfold phi dphi
  interval_cases d
  · simp only [Function.update_self, if_true, zero_ne_one, if_false, OfNat.zero_ne_ofNat]
    rw [show (fun t => ell N Z (I % N) t * ell N Z (I / N % N) (Function.update X 0 t 1) * ell N Z (I / N / N) (Function.update X 0 t 2))
      = fun t => ell N Z (I % N) t * ell N Z (I / N % N) (X 1) * ell N Z (I / N / N) (X 2) by
        funext t; rw [Function.update_of_ne (by omega), Function.update_of_ne (by omega)]]
    exact ((ell_deriv N Z _ (X 0)).mul_const _).mul_const _
  · simp only [Function.update_self, if_true, one_ne_zero, if_false, OfNat.one_ne_ofNat]
    rw [show (fun t => ell N Z (I % N) (Function.update X 1 t 0) * ell N Z (I / N % N) t * ell N Z (I / N / N) (Function.update X 1 t 2))
      = fun t => ell N Z (I % N) (X 0) * ell N Z (I / N % N) t * ell N Z (I / N / N) (X 2) by
        funext t; rw [Function.update_of_ne (by omega), Function.update_of_ne (by omega)]]
    exact ((ell_deriv N Z _ (X 1)).const_mul _).mul_const _
  · simp only [Function.update_self, if_true, OfNat.ofNat_ne_zero, OfNat.ofNat_ne_one, if_false]
    rw [show (fun t => ell N Z (I % N) (Function.update X 2 t 0) * ell N Z (I / N % N) (Function.update X 2 t 1) * ell N Z (I / N / N) t)
      = fun t => ell N Z (I % N) (X 0) * ell N Z (I / N % N) (X 1) * ell N Z (I / N / N) t by
        funext t; rw [Function.update_of_ne (by omega), Function.update_of_ne (by omega)]]
    exact (ell_deriv N Z _ (X 2)).const_mul _

theorem interp_partial (N : ℕ) (Z c X : ℕ → ℝ) {d : ℕ} (hd : d < 3) :
    partialAt (interp N Z c) d X = ∑ I ∈ range (N * N * N), c I * dphi N Z d I X := by
  unfold partialAt interp
  have := HasDerivAt.fun_sum (u := range (N * N * N)) (A := fun I t => c I * phi N Z I (Function.update X d t))
    (A' := fun I => c I * dphi N Z d I X) (x := X d) fun I _ => (phi_deriv N Z I X hd).const_mul (c I)
  exact this.deriv

theorem interp_congr {N : ℕ} {Z Z' c c' : ℕ → ℝ} (hZ : ∀ i < N, Z i = Z' i) (hc : ∀ v < N ^ 3, c v = c' v) :
    interp N Z c = interp N Z' c' := by
  funext X
  unfold interp
  refine sum_congr rfl fun I hI => ?_
  have hI := mem_range.1 hI
  rw [Swage.HighOrder.phi_congr hZ hI, hc I (lt_of_lt_of_eq hI (by ring))]

theorem jacDet_congr {F G : ℕ → (ℕ → ℝ) → ℝ} (h : ∀ a < 3, F a = G a) (X : ℕ → ℝ) : jacDet F X = jacDet G X := by
  unfold jacDet
  congr 2
  ext a d
  rw [h a a.2]

theorem Separated_congr {tol : ℝ} {N : ℕ} {Z Z' : ℕ → ℝ} (h : ∀ i < N, Z i = Z' i) (hs : Separated tol N Z) : Separated tol N Z' :=
  ⟨hs.pos, hs.tol_pos, hs.fits, fun j hj k hk hne => by rw [← h j hj, ← h k hk]; exact hs.sep j hj k hk hne⟩

/-- `eval_det_jac` is the Jacobian determinant of the interpolant of the vertex coordinates. -/
theorem detJac_eq {tol : ℝ} {N : ℕ} {Z : ℕ → ℝ} (h : Separated tol N Z) {X : ℕ → ℝ} (hX : ∀ d < 3, Resolved tol N Z (X d))
    (C x y z J0 : ℕ → ℝ) (c : ℕ → ℕ → ℝ) (h0 : ∀ v < N ^ 3, x v = c 0 v) (h1 : ∀ v < N ^ 3, y v = c 1 v)
    (h2 : ∀ v < N ^ 3, z v = c 2 v) :
    (evalDetJac tol N Z C x y z X J0).1 = jacDet (fun a => interp N Z (c a)) X := by
  rw [C11_det h hX C C x y z J0 J0]
  unfold jacDet
  congr 1
  ext a d
  rw [C11_jac h hX, Matrix.of_apply, interp_partial N Z _ X d.2]
  refine sum_congr rfl fun I hI => ?_
  have hI : I < N ^ 3 := lt_of_lt_of_eq (mem_range.1 hI) (by ring)
  congr 1
  fin_cases a
  · exact h0 I hI
  · exact h1 I hI
  · exact h2 I hI

/-! ### Reproduction of polynomials -/

theorem ell_pow {p : ℕ} {Z : ℕ → ℝ} (hZ : Set.InjOn Z (range (p + 1))) {a : ℕ} (ha : a ≤ p) (t : ℝ) :
    ∑ i ∈ range (p + 1), Z i ^ a * ell (p + 1) Z i t = t ^ a := by
  have h := Lagrange.eq_interpolate (s := range (p + 1)) (v := Z) (f := Polynomial.X ^ a) hZ
    (by rw [Polynomial.degree_X_pow, card_range]; exact_mod_cast Nat.lt_succ_of_le ha)
  have h2 := congrArg (Polynomial.eval t) h
  rw [Lagrange.interpolate_apply, Polynomial.eval_finsetSum] at h2
  simp only [Polynomial.eval_mul, Polynomial.eval_C, Polynomial.eval_pow, Polynomial.eval_X] at h2
  rw [h2]; rfl

theorem interp_triple (p : ℕ) (Z c X : ℕ → ℝ) : interp (p + 1) Z c X =
    ∑ k ∈ range (p + 1), ∑ j ∈ range (p + 1), ∑ i ∈ range (p + 1), c (i + j * (p + 1) + k * (p + 1) ^ 2) *
        (ell (p + 1) Z i (X 0) * ell (p + 1) Z j (X 1) * ell (p + 1) Z k (X 2)) := by
  unfold interp
  rw [sum_range_cube]
  refine sum_congr rfl fun k hk => sum_congr rfl fun j hj => sum_congr rfl fun i hi => ?_
  have hi := mem_range.1 hi
  have hj := mem_range.1 hj
  unfold phi
  rw [digit0 hi, digit1 hi hj, digit2 hi hj]
  congr 2; ring

/-- Interpolation reproduces polynomials of degree at most `p` in each variable. -/
theorem interp_poly {p : ℕ} {Z : ℕ → ℝ} (hZ : Set.InjOn Z (range (p + 1))) (co : ℕ → ℕ → ℕ → ℝ) (c : ℕ → ℝ)
    (hc : ∀ i < p + 1, ∀ j < p + 1, ∀ k < p + 1,
      c (i + j * (p + 1) + k * (p + 1) ^ 2) = polyMap p co (Z i) (Z j) (Z k)) :
    interp (p + 1) Z c = polyAt p co := by
  funext X
  rw [interp_triple]
  have e1 : ∀ k ∈ range (p + 1), ∀ j ∈ range (p + 1), ∀ i ∈ range (p + 1),
      c (i + j * (p + 1) + k * (p + 1) ^ 2) *
        (ell (p + 1) Z i (X 0) * ell (p + 1) Z j (X 1) * ell (p + 1) Z k (X 2)) =
      ∑ a ∈ range (p + 1), ∑ b ∈ range (p + 1), ∑ d ∈ range (p + 1), co a b d *
        ((Z i ^ a * ell (p + 1) Z i (X 0)) * (Z j ^ b * ell (p + 1) Z j (X 1)) *
          (Z k ^ d * ell (p + 1) Z k (X 2))) := by
    intro k hk j hj i hi
    rw [hc i (mem_range.1 hi) j (mem_range.1 hj) k (mem_range.1 hk)]
    unfold polyMap
    rw [sum_mul]
    refine sum_congr rfl fun a _ => ?_
    rw [sum_mul]
    refine sum_congr rfl fun b _ => ?_
    rw [sum_mul]
    refine sum_congr rfl fun d _ => ?_
    ring
  rw [sum_congr rfl fun k hk => sum_congr rfl fun j hj => sum_congr rfl fun i hi => e1 k hk j hj i hi]
  unfold polyAt polyMap
  have e2 : ∀ (f : ℕ → ℕ → ℕ → ℕ → ℕ → ℕ → ℝ),
      ∑ k ∈ range (p + 1), ∑ j ∈ range (p + 1), ∑ i ∈ range (p + 1),
        ∑ a ∈ range (p + 1), ∑ b ∈ range (p + 1), ∑ d ∈ range (p + 1), f k j i a b d =
      ∑ a ∈ range (p + 1), ∑ b ∈ range (p + 1), ∑ d ∈ range (p + 1),
        ∑ k ∈ range (p + 1), ∑ j ∈ range (p + 1), ∑ i ∈ range (p + 1), f k j i a b d := by
    intro f
    rw [sum_congr rfl fun k _ => sum_congr rfl fun j _ => sum_comm3 _ _ _ _ _,
      sum_congr rfl fun k _ => sum_comm3 _ _ _ _ _, sum_comm3]
  rw [e2]
  refine sum_congr rfl fun a ha => sum_congr rfl fun b hb => sum_congr rfl fun d hd => ?_
  have ha := Nat.lt_succ_iff.1 (mem_range.1 ha)
  have hb := Nat.lt_succ_iff.1 (mem_range.1 hb)
  have hd := Nat.lt_succ_iff.1 (mem_range.1 hd)
  rw [← ell_pow hZ ha (X 0), ← ell_pow hZ hb (X 1), ← ell_pow hZ hd (X 2)]
  simp only [← sum_mul, ← mul_sum]

/-- The interpolant has the prescribed values. -/
theorem interp_vertex {N : ℕ} {Z : ℕ → ℝ} (hZ : Set.InjOn Z (range N)) (c : ℕ → ℝ) {i j k : ℕ} (hi : i < N) (hj : j < N)
    (hk : k < N) : interp N Z c (pt (Z i) (Z j) (Z k)) = c (i + j * N + k * N * N) := by
  have hell : ∀ a < N, ∀ b < N, ell N Z a (Z b) = if a = b then 1 else 0 := by
    intro a ha b hb
    unfold ell
    by_cases h : a = b
    · subst h; rw [if_pos rfl, Lagrange.eval_basis_self hZ (mem_range.2 ha)]
    · rw [if_neg h, Lagrange.eval_basis_of_ne h (mem_range.2 hb)]
  have hlt : i + j * N + k * N * N < N * N * N := lex3_lt hi hj hk
  unfold interp
  rw [sum_eq_single_of_mem _ (mem_range.2 hlt)]
  · unfold phi
    rw [digit0 hi, digit1 hi hj, digit2 hi hj]
    simp only [pt, if_true, one_ne_zero, if_false, OfNat.ofNat_ne_zero, OfNat.ofNat_ne_one]
    rw [hell i hi i hi, hell j hj j hj, hell k hk k hk]; simp
  · intro I hI hne
    obtain ⟨a1, a2, a3, a4⟩ := lex3_surj (mem_range.1 hI)
    unfold phi
    simp only [pt, if_true, one_ne_zero, if_false, OfNat.ofNat_ne_zero, OfNat.ofNat_ne_one]
    rw [hell _ a1 i hi, hell _ a2 j hj, hell _ a3 k hk]
    by_contra hcon
    apply hne
    have e0 : I % N = i := by by_contra hh; simp [hh] at hcon
    have e1 : I / N % N = j := by by_contra hh; simp [hh] at hcon
    have e2 : I / N / N = k := by by_contra hh; simp [hh] at hcon
    rw [← a4, e0, e1, e2]

end Verif.DetJac
