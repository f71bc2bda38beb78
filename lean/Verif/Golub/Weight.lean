import Verif.Golub.Jac
import Mathlib.Analysis.SpecialFunctions.Integrals.Basic
import Mathlib.Analysis.SpecialFunctions.Gamma.Beta
import Mathlib.Analysis.Calculus.Deriv.Polynomial
import Mathlib.Topology.Algebra.Polynomial
import Mathlib.MeasureTheory.Integral.IntervalIntegral.FundThmCalculus

/-!
# The Jacobi weight: integrability, zeroth moment, integrals of the Jacobi polynomials
-/

namespace Verif.Golub
open Polynomial Finset Verif.Legendre MeasureTheory intervalIntegral

/-- The Jacobi weight function. -/
noncomputable def wt (α β x : ℝ) : ℝ := (1 - x) ^ α * (1 + x) ^ β

/-- The integral of a polynomial against the weight. -/
noncomputable def I (α β : ℝ) (p : ℝ[X]) : ℝ := ∫ x in (-1 : ℝ)..1, p.eval x * wt α β x

variable {α β : ℝ}

theorem wt_intble (hα : -1 < α) (hβ : -1 < β) : IntervalIntegrable (wt α β) volume (-1) 1 := by
  have h1 : IntervalIntegrable (wt α β) volume (-1) 0 := by
    have a : IntervalIntegrable (fun x : ℝ => (1 + x) ^ β) volume (-1) 0 := by
      have := (intervalIntegrable_rpow' (a := 0) (b := 1) hβ).comp_add_left 1
      simpa using this
    refine a.continuousOn_mul ?_
    refine ContinuousOn.rpow_const (by fun_prop) ?_
    intro x hx
    rw [Set.uIcc_of_le (by norm_num)] at hx
    left
    have := hx.2
    intro h; linarith
  have h2 : IntervalIntegrable (wt α β) volume 0 1 := by
    have a : IntervalIntegrable (fun x : ℝ => (1 - x) ^ α) volume 0 1 := by
      have := (intervalIntegrable_rpow' (a := 1) (b := 0) hα).comp_sub_left 1
      simpa using this
    refine a.mul_continuousOn ?_
    refine ContinuousOn.rpow_const (by fun_prop) ?_
    intro x hx
    rw [Set.uIcc_of_le (by norm_num)] at hx
    left
    have := hx.1
    intro h; linarith
  exact h1.trans h2

theorem intble (hα : -1 < α) (hβ : -1 < β) (p : ℝ[X]) : IntervalIntegrable (fun x => p.eval x * wt α β x) volume (-1) 1 :=
  (wt_intble hα hβ).continuousOn_mul p.continuous.continuousOn

theorem I_add (hα : -1 < α) (hβ : -1 < β) (p q : ℝ[X]) : I α β (p + q) = I α β p + I α β q := by
  unfold I
  rw [← integral_add (intble hα hβ p) (intble hα hβ q)]
  simp only [eval_add, add_mul]

theorem I_C_mul (c : ℝ) (p : ℝ[X]) : I α β (C c * p) = c * I α β p := by
  unfold I
  rw [← intervalIntegral.integral_const_mul]
  simp only [eval_mul, eval_C, mul_assoc]

/-- Integration by parts. -/
theorem parts (hα : -1 < α) (hβ : -1 < β) (p : ℝ[X]) :
    I α β ((1 - X * X) * derivative p + (C (β - α) - C (α + β + 2) * X) * p) = 0 := by
  have h := integral_eq_sub_of_hasDerivAt_of_le (a := -1) (b := 1) (by norm_num)
    (f := fun x : ℝ => (1 - x) ^ (α + 1) * (1 + x) ^ (β + 1) * p.eval x)
    (f' := fun x => ((1 - X * X) * derivative p + (C (β - α) - C (α + β + 2) * X) * p).eval x * wt α β x)
    (by
      refine ContinuousOn.mul (ContinuousOn.mul ?_ ?_) p.continuous.continuousOn
      · exact ContinuousOn.rpow_const (by fun_prop) (fun x _ => Or.inr (by linarith))
      · exact ContinuousOn.rpow_const (by fun_prop) (fun x _ => Or.inr (by linarith)))
    (by
      intro x hx
      have hx1 : 0 < 1 - x := by have := hx.2; linarith
      have hx2 : 0 < 1 + x := by have := hx.1; linarith
      have d1 : HasDerivAt (fun x : ℝ => (1 - x) ^ (α + 1)) (-1 * (α + 1) * (1 - x) ^ α) x := by
        have := ((hasDerivAt_id x).const_sub 1).rpow_const (p := α + 1) (Or.inl hx1.ne')
        simpa using this
      have d2 : HasDerivAt (fun x : ℝ => (1 + x) ^ (β + 1)) (1 * (β + 1) * (1 + x) ^ β) x := by
        have := ((hasDerivAt_id x).const_add 1).rpow_const (p := β + 1) (Or.inl hx2.ne')
        simpa using this
      refine ((d1.mul d2).mul (p.hasDerivAt x)).congr_deriv ?_
      simp only [Pi.mul_apply]
      rw [Real.rpow_add hx1, Real.rpow_add hx2, Real.rpow_one, Real.rpow_one]
      unfold wt
      simp only [eval_add, eval_mul, eval_sub, eval_one, eval_X, eval_C]
      ring)
    (intble hα hβ _)
  unfold I
  rw [h]
  simp [Real.zero_rpow (show α + 1 ≠ 0 by intro h; linarith), Real.zero_rpow (show β + 1 ≠ 0 by intro h; linarith)]

/-- Every Jacobi polynomial but the first integrates to zero. -/
theorem I_jp (hα : -1 < α) (hβ : -1 < β) (n : ℕ) : I α β (JP α β (n + 1)) = 0 := by
  induction n using Nat.strong_induction_on with
  | _ n ih =>
    match n with
    | 0 =>
      have h := parts hα hβ 1
      have e : ((1 - X * X) * derivative 1 + (C (β - α) - C (α + β + 2) * X) * 1 : ℝ[X]) = C (-2) * JP α β 1 := by
        rw [jp_one, mul_add, ← mul_assoc, ← C_mul, ← C_mul]
        have e1 : -2 * ja α β 1 = -(α + β + 2) := by simp [ja]; ring
        have e2 : -2 * jb α β 1 = β - α := by simp [jb]
        rw [e1, e2]
        simp only [derivative_one, C_neg]
        ring
      rw [e, I_C_mul] at h
      linarith
    | n + 1 =>
      obtain ⟨A, B, C', hA, hC, key⟩ := pearson hα hβ n
      have h := parts hα hβ (JP α β (n + 1))
      have e : ((1 - X * X) * derivative (JP α β (n + 1)) + (C (β - α) - C (α + β + 2) * X) * JP α β (n + 1) : ℝ[X]) =
          C A * JP α β (n + 2) + C B * JP α β (n + 1) + C C' * JP α β n := by
        refine Polynomial.funext fun x => ?_
        have := key x
        simp only [eval_add, eval_mul, eval_sub, eval_one, eval_X, eval_C]
        exact this
      rw [e, I_add hα hβ, I_add hα hβ, I_C_mul, I_C_mul, I_C_mul, ih n (by omega)] at h
      have h0 : C' * I α β (JP α β n) = 0 := by
        rcases Nat.eq_zero_or_pos n with h | h
        · rw [hC h, zero_mul]
        · obtain ⟨k, rfl⟩ := Nat.exists_eq_succ_of_ne_zero h.ne'
          rw [ih k (by omega), mul_zero]
      rw [h0] at h
      have : A * I α β (JP α β (n + 2)) = 0 := by linarith
      exact (mul_eq_zero.1 this).resolve_left hA

/-- The zeroth moment. -/
theorem I_one (hα : -1 < α) (hβ : -1 < β) :
    I α β 1 = 2 ^ (α + β + 1) * Real.Gamma (α + 1) * Real.Gamma (β + 1) / Real.Gamma (α + β + 2) := by
  have b : ∫ t in (0 : ℝ)..1, t ^ α * (1 - t) ^ β = Real.Gamma (α + 1) * Real.Gamma (β + 1) / Real.Gamma (α + β + 2) := by
    have h := Complex.Gamma_mul_Gamma_eq_betaIntegral (s := ((α + 1 : ℝ) : ℂ)) (t := ((β + 1 : ℝ) : ℂ))
      (by rw [Complex.ofReal_re]; linarith) (by rw [Complex.ofReal_re]; linarith)
    have hb : Complex.betaIntegral ((α + 1 : ℝ) : ℂ) ((β + 1 : ℝ) : ℂ) = ((∫ t in (0 : ℝ)..1, t ^ α * (1 - t) ^ β : ℝ) : ℂ) := by
      rw [Complex.betaIntegral, ← intervalIntegral.integral_ofReal]
      refine integral_congr ?_
      intro t ht
      rw [Set.uIcc_of_le (by norm_num)] at ht
      have e1 : ((α + 1 : ℝ) : ℂ) - 1 = (α : ℂ) := by push_cast; ring
      have e2 : ((β + 1 : ℝ) : ℂ) - 1 = (β : ℂ) := by push_cast; ring
      have e3 : (1 : ℂ) - (t : ℂ) = ((1 - t : ℝ) : ℂ) := by push_cast; ring
      simp only [e1, e2, e3]
      rw [← Complex.ofReal_cpow ht.1, ← Complex.ofReal_cpow (by linarith [ht.2]), ← Complex.ofReal_mul]
    rw [hb, ← Complex.ofReal_add, Complex.Gamma_ofReal, Complex.Gamma_ofReal, Complex.Gamma_ofReal, ← Complex.ofReal_mul,
      ← Complex.ofReal_mul] at h
    have h := Complex.ofReal_injective h
    rw [show α + 1 + (β + 1) = α + β + 2 by ring] at h
    rw [h, mul_div_cancel_left₀]
    exact (Real.Gamma_pos_of_pos (by linarith)).ne'
  have s := intervalIntegral.integral_comp_sub_mul (a := 0) (b := 1) (wt α β) (c := 2) (by norm_num) 1
  have e : ∫ t in (0 : ℝ)..1, wt α β (1 - 2 * t) = 2 ^ (α + β) * ∫ t in (0 : ℝ)..1, t ^ α * (1 - t) ^ β := by
    rw [← intervalIntegral.integral_const_mul]
    refine integral_congr ?_
    intro t ht
    rw [Set.uIcc_of_le (by norm_num)] at ht
    unfold wt
    show (1 - (1 - 2 * t)) ^ α * (1 + (1 - 2 * t)) ^ β = _
    rw [show 1 - (1 - 2 * t) = 2 * t by ring, show 1 + (1 - 2 * t) = 2 * (1 - t) by ring,
      Real.mul_rpow (by norm_num) ht.1, Real.mul_rpow (by norm_num) (by linarith [ht.2]), Real.rpow_add (by norm_num)]
    ring
  rw [e, b] at s
  norm_num at s
  unfold I
  simp only [eval_one, one_mul]
  rw [Real.rpow_add (by norm_num), Real.rpow_one]
  linear_combination (-2) * s

end Verif.Golub
