import Verif.DetJac.AnnulusDet
import Verif.Lagrange.Error
import Mathlib.Analysis.Real.Pi.Bounds

/-!
# C71: how far the determinants of the example are from those of the annulus
-/

namespace Verif.DetJac
open Verif.Swage.HighOrder (equi equi_inj)
open LagrangeElement LagrangeElement.Spec Finset

theorem sin_iter (w : ℝ) (hw : 0 ≤ w) (n : ℕ) : ∀ (A β t : ℝ), |iteratedDeriv n (fun t => A * Real.sin (w * t + β)) t| ≤ |A| * w ^ n := by
  induction n with
  | zero =>
    intro A β t
    rw [iteratedDeriv_zero, abs_mul, pow_zero, mul_one]
    exact mul_le_of_le_one_right (abs_nonneg _) (Real.abs_sin_le_one _)
  | succ n ih =>
    intro A β t
    have hd : deriv (fun t => A * Real.sin (w * t + β)) = fun t => (A * w) * Real.sin (w * t + (β + Real.pi / 2)) := by
      funext t
      have h1 : HasDerivAt (fun t => w * t + β) w t := by simpa using ((hasDerivAt_id t).const_mul w).add_const β
      have h2 := (h1.sin).const_mul A
      rw [h2.deriv, ← add_assoc, Real.sin_add_pi_div_two]
      ring
    rw [iteratedDeriv_succ', hd]
    refine (ih (A * w) _ t).trans (le_of_eq ?_)
    rw [abs_mul, abs_of_nonneg hw]; ring

theorem prod_dist {p i : ℕ} (hi : i ≤ p) : ∏ a ∈ (range (p + 1)).erase i, |(i : ℝ) - a| ≤ (p.factorial : ℝ) := by
  have hsplit : (range (p + 1)).erase i = range i ∪ Ico (i + 1) (p + 1) := by
    ext a
    simp only [mem_erase, mem_range, mem_union, mem_Ico]
    omega
  have hdisj : Disjoint (range i) (Ico (i + 1) (p + 1)) := by
    rw [disjoint_left]
    intro a h1 h2
    have := mem_range.1 h1
    have := mem_Ico.1 h2
    omega
  rw [hsplit, prod_union hdisj]
  have h1 : ∏ a ∈ range i, |(i : ℝ) - a| = (i.factorial : ℝ) := by
    rw [← prod_range_reflect, ← Finset.prod_range_add_one_eq_factorial]
    push_cast
    refine prod_congr rfl fun a ha => ?_
    have ha := mem_range.1 ha
    rw [show ((i - 1 - a : ℕ) : ℝ) = (i : ℝ) - 1 - a by
      rw [show i - 1 - a = i - (1 + a) by omega, Nat.cast_sub (by omega)]; push_cast; ring]
    rw [show (i : ℝ) - ((i : ℝ) - 1 - a) = (a : ℝ) + 1 by ring]
    exact abs_of_nonneg (by positivity)
  have h2 : ∏ a ∈ Ico (i + 1) (p + 1), |(i : ℝ) - a| = ((p - i).factorial : ℝ) := by
    rw [prod_Ico_eq_prod_range, ← Finset.prod_range_add_one_eq_factorial, show p + 1 - (i + 1) = p - i by omega]
    push_cast
    refine prod_congr rfl fun a ha => ?_
    rw [show (i : ℝ) - ((i : ℝ) + 1 + a) = -((a : ℝ) + 1) by ring, abs_neg]
    exact abs_of_nonneg (by positivity)
  rw [h1, h2]
  have := Nat.le_of_dvd p.factorial_pos (Nat.factorial_mul_factorial_dvd_factorial hi)
  exact_mod_cast this

theorem annFactor_eq {p : ℕ} (hp : 1 ≤ p) (i : ℕ) : annFactor p i = (Polynomial.derivative (Lagrange.interpolate (range (p + 1)) (equi p)
    fun a => 1 * Real.sin (Real.pi / 4 * equi p a + -(Real.pi / 4 * equi p i)))).eval (equi p i) := by
  have hp0 : (p : ℝ) ≠ 0 := by exact_mod_cast (by omega : p ≠ 0)
  rw [Lagrange.interpolate_apply, Polynomial.derivative_sum, Polynomial.eval_finsetSum]
  unfold annFactor
  refine sum_congr rfl fun a _ => ?_
  rw [Polynomial.derivative_C_mul, Polynomial.eval_mul, Polynomial.eval_C, one_mul]
  unfold dell
  congr 2
  unfold equi
  field_simp
  ring

/-- The relative error of the factor is at most `(π / (2 p))ᵖ / (p + 1)`. -/
theorem annFactor_error {p i : ℕ} (hp : 1 ≤ p) (hi : i < p + 1) :
    |annFactor p i - Real.pi / 4| ≤ Real.pi / 4 * ((Real.pi / (2 * p)) ^ p / (p + 1)) := by
  have hp0 : (0 : ℝ) < p := by exact_mod_cast hp
  have hpi := Real.pi_pos
  set f : ℝ → ℝ := fun t => 1 * Real.sin (Real.pi / 4 * t + -(Real.pi / 4 * equi p i)) with hf
  have hfc : ContDiff ℝ (p + 1 : ℕ) f := contDiff_const.mul (Real.contDiff_sin.comp ((contDiff_const.mul contDiff_id).add contDiff_const))
  have hfd : deriv f (equi p i) = Real.pi / 4 := by
    have h1 : HasDerivAt (fun t => Real.pi / 4 * t + -(Real.pi / 4 * equi p i)) (Real.pi / 4) (equi p i) := by
      simpa using ((hasDerivAt_id (equi p i)).const_mul (Real.pi / 4)).add_const (-(Real.pi / 4 * equi p i))
    have h2 := (h1.sin).const_mul 1
    rw [hf, h2.deriv, add_neg_cancel, Real.cos_zero]; ring
  have hab : ∀ j < p + 1, -1 ≤ equi p j ∧ equi p j ≤ 1 := by
    intro j hj
    have h1 : (j : ℝ) / p ≤ 1 := by rw [div_le_one hp0]; exact_mod_cast (by omega : j ≤ p)
    have h2 : 0 ≤ (j : ℝ) / p := by positivity
    unfold equi
    constructor <;> linarith
  have h := Lagrange.bound_of_error (Lagrange.interpolate_deriv_error hfc (equi_inj hp) hab hi)
    (M := |(1 : ℝ)| * (Real.pi / 4) ^ (p + 1)) fun c _ _ => sin_iter _ (by positivity) _ _ _ _
  rw [hfd, ← annFactor_eq hp] at h
  rw [abs_sub_comm]
  refine h.trans ?_
  have hprod : |∏ a ∈ (range (p + 1)).erase i, (equi p i - equi p a)| ≤ (2 / p) ^ p * p.factorial := by
    rw [abs_prod]
    have e : ∀ a ∈ (range (p + 1)).erase i, |equi p i - equi p a| = 2 / p * |(i : ℝ) - a| := by
      intro a _
      rw [show equi p i - equi p a = 2 / p * ((i : ℝ) - a) by unfold equi; field_simp; ring, abs_mul, abs_of_pos (by positivity)]
    rw [prod_congr rfl e, prod_mul_distrib, prod_const, card_erase_of_mem (mem_range.2 hi), card_range, Nat.add_sub_cancel]
    exact mul_le_mul_of_nonneg_left (prod_dist (by omega)) (by positivity)
  have hfac : (((p + 1).factorial : ℕ) : ℝ) = (p + 1) * p.factorial := by rw [Nat.factorial_succ]; push_cast; ring
  have hfp : (0 : ℝ) < p.factorial := by exact_mod_cast p.factorial_pos
  calc |(1 : ℝ)| * (Real.pi / 4) ^ (p + 1) / ((p + 1).factorial : ℕ) * |∏ a ∈ (range (p + 1)).erase i, (equi p i - equi p a)|
      ≤ |(1 : ℝ)| * (Real.pi / 4) ^ (p + 1) / ((p + 1).factorial : ℕ) * ((2 / p) ^ p * p.factorial) := by gcongr
    _ = Real.pi / 4 * ((Real.pi / 4) ^ p * (2 / p) ^ p / (p + 1)) := by
        rw [hfac, abs_one, pow_succ]
        field_simp
    _ = Real.pi / 4 * ((Real.pi / (2 * p)) ^ p / (p + 1)) := by
        rw [← mul_pow]
        congr 3
        field_simp
        norm_num

theorem annFactor_small {p : ℕ} (hp : 1 ≤ p) : (Real.pi / (2 * p)) ^ p / ((p : ℝ) + 1) < 1 := by
  have hp0 : (0 : ℝ) < p := by exact_mod_cast hp
  have hpi := Real.pi_pos
  have hpi4 : Real.pi < 4 := by linarith [Real.pi_lt_d2]
  rw [div_lt_one (by positivity)]
  rcases Nat.lt_or_ge p 2 with h | h
  · obtain rfl : p = 1 := by omega
    norm_num
    linarith
  · have h2 : (2 : ℝ) ≤ p := by exact_mod_cast h
    have : (Real.pi / (2 * p)) ^ p ≤ 1 := by
      apply pow_le_one₀ (by positivity)
      rw [div_le_one (by positivity)]
      linarith
    linarith

/-- **C71, accuracy.**  For every order `p ≥ 1` and every vertex of the half-annulus mesh the computed determinant is positive, and it
differs from `r π / 4` (`r` the radius of the vertex), the Jacobian determinant of the exact parametrisation of the annulus, by at most
`r π / 4 · (π / (2 p))ᵖ / (p + 1)`. -/
theorem C71_accuracy (p : ℕ) (hp : 1 ≤ p) (hfit : (p + 1) ^ 3 < 2 ^ 64) (jc : ℕ → ℕ → ℝ) (jn : ℕ → ℕ) (jdet : ℕ → ℝ) (q : Junk) :
    ∃ m r, annular p jc jn = some m ∧ compute m jdet q = some r ∧ r.size = 2 * (p + 1) ^ 3 ∧
      ∀ e < 2, ∀ i < p + 1, ∀ j < p + 1, ∀ k < p + 1,
        0 < r.val (e * (p + 1) ^ 3 + (i + j * (p + 1) + k * (p + 1) * (p + 1))) ∧
        |r.val (e * (p + 1) ^ 3 + (i + j * (p + 1) + k * (p + 1) * (p + 1))) - (1 / 2 + 2 * ((j : ℝ) / p)) * (Real.pi / 4)| ≤
          (1 / 2 + 2 * ((j : ℝ) / p)) * (Real.pi / 4) * ((Real.pi / (2 * p)) ^ p / (p + 1)) := by
  obtain ⟨m, r, h1, h2, h3, h4⟩ := C71_annulus p hp hfit jc jn jdet q
  refine ⟨m, r, h1, h2, h3, ?_⟩
  intro e he i hi j hj k hk
  have hp0 : (0 : ℝ) < p := by exact_mod_cast hp
  have hr : 0 < 1 / 2 + 2 * ((j : ℝ) / p) := by positivity
  have herr := annFactor_error hp hi
  have hsm := annFactor_small hp
  have hpi := Real.pi_pos
  rw [h4 e he i hi j hj k hk]
  constructor
  · apply mul_pos hr
    have h5 := (abs_le.1 herr).1
    nlinarith
  · rw [← mul_sub, abs_mul, abs_of_pos hr, mul_assoc]
    exact mul_le_mul_of_nonneg_left herr hr.le

/-! ### The order of the example, 2 -/

theorem ell_two (t : ℝ) : ell 3 (equi 2) 0 t = (t ^ 2 - t) / 2 ∧ ell 3 (equi 2) 1 t = 1 - t ^ 2 ∧ ell 3 (equi 2) 2 t = (t ^ 2 + t) / 2 := by
  have h0 := ell_pow (equi_inj (show 1 ≤ 2 by omega)) (show 0 ≤ 2 by omega) t
  have h1 := ell_pow (equi_inj (show 1 ≤ 2 by omega)) (show 1 ≤ 2 by omega) t
  have h2 := ell_pow (equi_inj (show 1 ≤ 2 by omega)) (show 2 ≤ 2 by omega) t
  have e0 : equi 2 0 = -1 := by unfold equi; norm_num
  have e1 : equi 2 1 = 0 := by unfold equi; norm_num
  have e2 : equi 2 2 = 1 := by unfold equi; norm_num
  rw [sum_range_succ, sum_range_succ, sum_range_one, e0, e1, e2] at h0 h1 h2
  norm_num at h0 h1 h2
  refine ⟨by linarith, by linarith, by linarith⟩

theorem dell_two (t : ℝ) : dell 3 (equi 2) 0 t = t - 1 / 2 ∧ dell 3 (equi 2) 1 t = -2 * t ∧ dell 3 (equi 2) 2 t = t + 1 / 2 := by
  have hsq : HasDerivAt (fun t : ℝ => t ^ 2) (2 * t) t := by simpa using hasDerivAt_pow 2 t
  have hid : HasDerivAt (fun t : ℝ => t) 1 t := hasDerivAt_id t
  refine ⟨?_, ?_, ?_⟩
  · have h1 := ell_deriv 3 (equi 2) 0 t
    rw [show ell 3 (equi 2) 0 = fun t => (t ^ 2 - t) / 2 from funext fun t => (ell_two t).1] at h1
    rw [h1.unique ((hsq.sub hid).div_const 2)]; ring
  · have h1 := ell_deriv 3 (equi 2) 1 t
    rw [show ell 3 (equi 2) 1 = fun t => 1 - t ^ 2 from funext fun t => (ell_two t).2.1] at h1
    rw [h1.unique (hsq.const_sub 1)]; ring
  · have h1 := ell_deriv 3 (equi 2) 2 t
    rw [show ell 3 (equi 2) 2 = fun t => (t ^ 2 + t) / 2 from funext fun t => (ell_two t).2.2] at h1
    rw [h1.unique ((hsq.add hid).div_const 2)]; ring

theorem annFactor_two : annFactor 2 0 = √2 - 1 / 2 ∧ annFactor 2 1 = √2 / 2 ∧ annFactor 2 2 = √2 - 1 / 2 := by
  have e0 : equi 2 0 = -1 := by unfold equi; norm_num
  have e1 : equi 2 1 = 0 := by unfold equi; norm_num
  have e2 : equi 2 2 = 1 := by unfold equi; norm_num
  have a0 : ∀ x : ℝ, x / 2 * (Real.pi / 2) = x * (Real.pi / 4) := fun x => by ring
  have s1 : Real.sin (-1 * (Real.pi / 4)) = -(√2 / 2) := by rw [neg_one_mul, Real.sin_neg, Real.sin_pi_div_four]
  have s2 : Real.sin (2 * (Real.pi / 4)) = 1 := by rw [show 2 * (Real.pi / 4) = Real.pi / 2 by ring, Real.sin_pi_div_two]
  have s3 : Real.sin (-2 * (Real.pi / 4)) = -1 := by rw [show -2 * (Real.pi / 4) = -(Real.pi / 2) by ring, Real.sin_neg, Real.sin_pi_div_two]
  unfold annFactor
  simp only [sum_range_succ, sum_range_zero, (dell_two _).1, (dell_two _).2.1, (dell_two _).2.2, e0, e1, e2]
  refine ⟨?_, ?_, ?_⟩
  · norm_num [a0, Real.sin_pi_div_four, s1, s2, s3]; ring
  · norm_num [a0, Real.sin_pi_div_four, s1, s2, s3]; try ring
  · norm_num [a0, Real.sin_pi_div_four, s1, s2, s3]; try ring

/-- Non-vacuity of `C71_value`, `C71_annulus`, `C71_accuracy`: the determinants that the example computes (order 2) at inner, middle
and outer radius. -/
example (jc : ℕ → ℕ → ℝ) (jn : ℕ → ℕ) (jdet : ℕ → ℝ) (q : Junk) :
    ∃ m r, annular 2 jc jn = some m ∧ compute m jdet q = some r ∧
      r.val 0 = 1 / 2 * (√2 - 1 / 2) ∧ r.val 4 = 3 / 2 * (√2 / 2) ∧ r.val (27 + 26) = 5 / 2 * (√2 - 1 / 2) := by
  obtain ⟨m, r, h1, h2, -, h4⟩ := C71_annulus 2 (by omega) (by norm_num) jc jn jdet q
  refine ⟨m, r, h1, h2, ?_, ?_, ?_⟩
  · have := h4 0 (by omega) 0 (by omega) 0 (by omega) 0 (by omega)
    rw [annFactor_two.1] at this
    norm_num at this ⊢
    exact this
  · have := h4 0 (by omega) 1 (by omega) 1 (by omega) 0 (by omega)
    rw [annFactor_two.2.1] at this
    norm_num at this ⊢
    exact this
  · have := h4 1 (by omega) 2 (by omega) 2 (by omega) 2 (by omega)
    rw [annFactor_two.2.2] at this
    norm_num at this ⊢
    rw [this]

end Verif.DetJac
