import Verif.Legendre.Model
import Mathlib.Tactic.FieldSimp
import Mathlib.Tactic.LinearCombination
import Mathlib.Algebra.Polynomial.Derivative
import Mathlib.Algebra.Polynomial.Degree.Lemmas
import Mathlib.MeasureTheory.Integral.IntervalIntegral.FundThmCalculus
import Mathlib.Analysis.Calculus.Deriv.Polynomial
import Mathlib.Topology.Algebra.Polynomial

/-! The Legendre polynomials as polynomials: derivative relations and orthogonality. -/

namespace Verif.Legendre
open Polynomial Finset

section
variable {K : Type*} [Field K]

/-- The polynomial evaluated by `evalShift`. -/
noncomputable def Q : ℕ → K[X]
  | 0 => 0
  | 1 => 1
  | m + 2 => C (1 / ((m + 1 : ℕ) : K)) * ((C (2 * ((m + 1 : ℕ) : K) - 1)) * X * Q (m + 1)
      - C (((m + 1 : ℕ) : K) - 1) * Q m)

theorem evalShift_eq (x : K) (m : ℕ) : evalShift x m = (Q m : K[X]).eval x := by
  induction m using Nat.twoStepInduction with
  | zero => simp [evalShift, Q]
  | one => simp [evalShift, Q]
  | more m ih1 ih2 => rw [evalShift, ih1, ih2, Q]; simp

/-- `P n` is the Legendre polynomial of degree `n`. -/
noncomputable def P (n : ℕ) : K[X] := Q (n + 1)

theorem eval_eq (n : ℕ) (x : K) : eval n x = (P n : K[X]).eval x := evalShift_eq x (n + 1)

theorem P_zero : (P 0 : K[X]) = 1 := rfl
theorem P_one : (P 1 : K[X]) = X := by
  unfold P Q
  have : (C (2 : K)) - 1 = 1 := by rw [C_ofNat]; ring
  simp [Q, this]

variable [CharZero K]

/-- Bonnet's recursion. -/
theorem bonnet (n : ℕ) :
    ((n : K[X]) + 2) * P (n + 2) =
      (2 * (n : K[X]) + 3) * X * P (n + 1) - ((n : K[X]) + 1) * P n := by
  have h : ((n : K) + 2) ≠ 0 := by exact_mod_cast Nat.succ_ne_zero (n + 1)
  have e : (P (n + 2) : K[X]) = C (1 / ((n : K) + 2)) *
      ((2 * (n : K[X]) + 3) * X * P (n + 1) - ((n : K[X]) + 1) * P n) := by
    unfold P
    conv_lhs => rw [Q]
    have e1 : ((n + 1 + 1 : ℕ) : K) = (n : K) + 2 := by push_cast; ring
    rw [e1]
    have e2 : (C (2 * ((n : K) + 2) - 1) : K[X]) = 2 * n + 3 := by
      simp only [map_sub, map_mul, map_add, C_1, C_ofNat, map_natCast]; ring
    have e3 : (C ((n : K) + 2 - 1) : K[X]) = n + 1 := by
      simp only [map_sub, map_add, C_1, C_ofNat, map_natCast]; ring
    rw [e2, e3]
  rw [e, ← mul_assoc]
  have : ((n : K[X]) + 2) * C (1 / ((n : K) + 2)) = 1 := by
    rw [show ((n : K[X]) + 2) = C ((n : K) + 2) by simp [C_ofNat], ← C_mul, mul_one_div_cancel h, C_1]
  rw [this, one_mul]

omit [CharZero K] in
theorem P_natDegree_le (n : ℕ) : (P n : K[X]).natDegree ≤ n := by
  unfold P
  have : ∀ m, (Q m : K[X]).natDegree ≤ m - 1 := by
    intro m
    induction m using Nat.twoStepInduction with
    | zero => simp [Q]
    | one => simp [Q]
    | more m ih1 ih2 =>
      rw [Q]
      refine natDegree_C_mul_le _ _ |>.trans ((natDegree_sub_le _ _).trans (max_le ?_ ?_))
      · refine natDegree_mul_le.trans ?_
        have : (C (2 * ((m + 1 : ℕ) : K) - 1) * X : K[X]).natDegree ≤ 1 :=
          natDegree_C_mul_le _ _ |>.trans natDegree_X_le
        omega
      · exact (natDegree_C_mul_le _ _).trans (by omega)
  exact this (n + 1)

/-- Leading coefficient is non-zero. -/
theorem P_coeff_ne (n : ℕ) : (P n : K[X]).coeff n ≠ 0 := by
  induction n using Nat.twoStepInduction with
  | zero => simp [P_zero]
  | one => simp [P_one]
  | more n _ ih =>
    intro h
    have hb := congrArg (fun p => coeff p (n + 2)) (bonnet (K := K) n)
    have h0 : (P n : K[X]).coeff (n + 2) = 0 :=
      coeff_eq_zero_of_natDegree_lt (lt_of_le_of_lt (P_natDegree_le n) (by omega))
    have e1 : ((n : K[X]) + 2) = C ((n : K) + 2) := by simp [C_ofNat]
    have e2 : (2 * (n : K[X]) + 3) = C (2 * (n : K) + 3) := by simp [C_ofNat]
    have e3 : ((n : K[X]) + 1) = C ((n : K) + 1) := by simp
    rw [e1, e2, e3] at hb
    simp only [coeff_sub, coeff_C_mul, mul_assoc, coeff_X_mul, h, h0, mul_zero, sub_zero] at hb
    rcases mul_eq_zero.1 hb.symm with hc | hc
    · have : (2 * n + 3 : ℕ) ≠ 0 := by omega
      exact this (by exact_mod_cast hc)
    · exact ih hc

theorem P_natDegree (n : ℕ) : (P n : K[X]).natDegree = n :=
  le_antisymm (P_natDegree_le n) (le_natDegree_of_ne_zero (P_coeff_ne n))

theorem P_eval_one (n : ℕ) : (P n : K[X]).eval 1 = 1 := by
  induction n using Nat.twoStepInduction with
  | zero => simp [P_zero]
  | one => simp [P_one]
  | more n ih1 ih2 =>
    have h : ((n : K) + 2) ≠ 0 := by exact_mod_cast Nat.succ_ne_zero (n + 1)
    have hb := congrArg (Polynomial.eval 1) (bonnet (K := K) n)
    simp only [eval_mul, eval_sub, eval_add, eval_natCast, eval_ofNat, eval_X, eval_one, ih1, ih2] at hb
    refine mul_left_cancel₀ h ?_
    linear_combination hb

theorem P_eval_neg (n : ℕ) (x : K) : (P n : K[X]).eval (-x) = (-1) ^ n * (P n).eval x := by
  induction n using Nat.twoStepInduction with
  | zero => simp [P_zero]
  | one => simp [P_one]
  | more n ih1 ih2 =>
    have h : ((n : K) + 2) ≠ 0 := by exact_mod_cast Nat.succ_ne_zero (n + 1)
    have hb := congrArg (Polynomial.eval x) (bonnet (K := K) n)
    have hc := congrArg (Polynomial.eval (-x)) (bonnet (K := K) n)
    simp only [eval_mul, eval_sub, eval_add, eval_natCast, eval_ofNat, eval_X, eval_one, ih1, ih2] at hb hc
    refine mul_left_cancel₀ h ?_
    rw [pow_succ, pow_succ]
    rw [pow_succ] at hc
    linear_combination hc - (-1) ^ n * hb

/-- The two derivative relations, by simultaneous induction. -/
theorem P_deriv (n : ℕ) :
    derivative (P (n + 1) : K[X]) = ((n : K[X]) + 1) * P n + X * derivative (P n) ∧
    derivative (P n : K[X]) = X * derivative (P (n + 1)) - ((n : K[X]) + 1) * P (n + 1) := by
  induction n with
  | zero => simp [P_zero, P_one]
  | succ n ih =>
    obtain ⟨i1, i2⟩ := ih
    have hn : ((n : K[X]) + 2) ≠ 0 := by
      have : ((n + 2 : ℕ) : K[X]) ≠ 0 := by exact_mod_cast Nat.succ_ne_zero (n + 1)
      exact_mod_cast this
    have hb := bonnet (K := K) n
    have hd := congrArg derivative hb
    simp only [derivative_mul, derivative_sub, derivative_add, derivative_natCast, derivative_ofNat,
      derivative_X, derivative_one] at hd
    have k1 : derivative (P (n + 1 + 1) : K[X]) = (((n + 1 : ℕ) : K[X]) + 1) * P (n + 1) +
        X * derivative (P (n + 1)) := by
      refine mul_left_cancel₀ hn ?_
      push_cast
      rw [show n + 1 + 1 = n + 2 from rfl]
      linear_combination hd + (-(n : K[X]) - 1) * i2
    refine ⟨k1, ?_⟩
    rw [k1]
    push_cast
    rw [show n + 1 + 1 = n + 2 from rfl]
    linear_combination hb + i1 + X * i2

theorem P_deriv_diff (n : ℕ) :
    derivative (P (n + 2) : K[X]) - derivative (P n) = (2 * (n : K[X]) + 3) * P (n + 1) := by
  have h1 := (P_deriv (K := K) (n + 1)).1
  have h2 := (P_deriv (K := K) n).2
  push_cast at h1
  rw [h1, h2]; ring

end

/-! ## Orthogonality -/

/-- Integral over [-1,1] of a real polynomial. -/
noncomputable def L (p : ℝ[X]) : ℝ := ∫ x in (-1 : ℝ)..1, p.eval x

theorem intble (p : ℝ[X]) : IntervalIntegrable (fun x => p.eval x) MeasureTheory.volume (-1) 1 :=
  (Polynomial.continuous p).intervalIntegrable _ _

theorem L_add (p q : ℝ[X]) : L (p + q) = L p + L q := by
  unfold L
  simp only [eval_add]
  exact intervalIntegral.integral_add (intble p) (intble q)

theorem L_sub (p q : ℝ[X]) : L (p - q) = L p - L q := by
  unfold L
  simp only [eval_sub]
  exact intervalIntegral.integral_sub (intble p) (intble q)

theorem L_C_mul (c : ℝ) (p : ℝ[X]) : L (C c * p) = c * L p := by
  unfold L
  simp only [eval_mul, eval_C]
  exact intervalIntegral.integral_const_mul _ _

theorem L_deriv (p : ℝ[X]) : L (derivative p) = p.eval 1 - p.eval (-1) := by
  unfold L
  exact intervalIntegral.integral_eq_sub_of_hasDerivAt (fun x _ => p.hasDerivAt x)
    (intble (derivative p))

theorem L_P_succ (n : ℕ) : L (P (n + 1)) = 0 := by
  have h := congrArg L (P_deriv_diff (K := ℝ) n)
  rw [L_sub, L_deriv, L_deriv, show (2 * (n : ℝ[X]) + 3) = C (2 * (n : ℝ) + 3) by simp [C_ofNat], L_C_mul,
    P_eval_one, P_eval_one, P_eval_neg, P_eval_neg, P_eval_one, P_eval_one, pow_add] at h
  have : (2 * (n : ℝ) + 3) ≠ 0 := by positivity
  have h2 : (2 * (n : ℝ) + 3) * L (P (n + 1)) = 0 := by rw [← h]; ring
  exact (mul_eq_zero.1 h2).resolve_left this

/-- `x P_{n+1}` in the basis. -/
theorem X_mul_P (n : ℕ) :
    (X * P (n + 1) : ℝ[X]) = C (((n : ℝ) + 2) / (2 * n + 3)) * P (n + 2) +
      C (((n : ℝ) + 1) / (2 * n + 3)) * P n := by
  have hb := bonnet (K := ℝ) n
  have h3 : (2 * (n : ℝ) + 3) ≠ 0 := by positivity
  have hc : (2 * (n : ℝ[X]) + 3) = C (2 * (n : ℝ) + 3) := by simp [C_ofNat]
  have hne : (C (2 * (n : ℝ) + 3) : ℝ[X]) ≠ 0 := by rwa [Ne, C_eq_zero]
  refine mul_left_cancel₀ hne ?_
  rw [mul_add, ← mul_assoc, ← mul_assoc, ← mul_assoc, ← C_mul, ← C_mul, mul_div_cancel₀ _ h3,
    mul_div_cancel₀ _ h3, ← hc, show (C ((n : ℝ) + 2) : ℝ[X]) = n + 2 by simp [C_ofNat],
    show (C ((n : ℝ) + 1) : ℝ[X]) = n + 1 by simp]
  linear_combination -hb

theorem X_mul_P_zero : (X * P 0 : ℝ[X]) = P 1 := by rw [P_zero, P_one, mul_one]

/-- Orthogonality. -/
theorem L_orth : ∀ m n, m < n → L (P m * P n) = 0 := by
  intro m
  induction m using Nat.twoStepInduction with
  | zero =>
    intro n hn
    obtain ⟨k, rfl⟩ : ∃ k, n = k + 1 := ⟨n - 1, by omega⟩
    rw [P_zero, one_mul, L_P_succ]
  | one =>
    intro n hn
    obtain ⟨k, rfl⟩ : ∃ k, n = k + 2 := ⟨n - 2, by omega⟩
    rw [P_one, show k + 2 = k + 1 + 1 from rfl, X_mul_P, L_add, L_C_mul, L_C_mul, L_P_succ,
      L_P_succ]; ring
  | more m ih1 ih2 =>
    intro n hn
    obtain ⟨k, rfl⟩ : ∃ k, n = k + 1 := ⟨n - 1, by omega⟩
    -- (m+2) P_{m+2} = (2m+3) X P_{m+1} - (m+1) P_m
    have hb := congrArg (fun p => L (p * P (k + 1))) (bonnet (K := ℝ) m)
    have e1 : ((m : ℝ[X]) + 2) * P (m + 2) * P (k + 1) = C ((m : ℝ) + 2) * (P (m + 2) * P (k + 1)) := by
      rw [show (C ((m : ℝ) + 2) : ℝ[X]) = m + 2 by simp [C_ofNat]]; ring
    have e2 : ((2 * (m : ℝ[X]) + 3) * X * P (m + 1) - ((m : ℝ[X]) + 1) * P m) * P (k + 1) =
        C (2 * (m : ℝ) + 3) * (P (m + 1) * (X * P (k + 1))) - C ((m : ℝ) + 1) * (P m * P (k + 1)) := by
      rw [show (C (2 * (m : ℝ) + 3) : ℝ[X]) = 2 * m + 3 by simp [C_ofNat],
        show (C ((m : ℝ) + 1) : ℝ[X]) = m + 1 by simp]; ring
    have e3 : (P (m + 1) * (X * P (k + 1)) : ℝ[X]) =
        C (((k : ℝ) + 2) / (2 * k + 3)) * (P (m + 1) * P (k + 2)) +
          C (((k : ℝ) + 1) / (2 * k + 3)) * (P (m + 1) * P k) := by
      rw [X_mul_P]; ring
    rw [e1, e2, L_C_mul, L_sub, L_C_mul, L_C_mul, e3, L_add, L_C_mul, L_C_mul,
      ih2 (k + 2) (by omega), ih2 k (by omega), ih1 (k + 1) (by omega)] at hb
    have : ((m : ℝ) + 2) ≠ 0 := by positivity
    have h0 : ((m : ℝ) + 2) * L (P (m + 2) * P (k + 1)) = 0 := by rw [hb]; ring
    exact (mul_eq_zero.1 h0).resolve_left this

theorem L_norm (n : ℕ) : L (P n * P n) = 2 / (2 * n + 1) := by
  induction n with
  | zero =>
    rw [P_zero, one_mul]
    unfold L
    simp; norm_num
  | succ n ih =>
    -- L(X P_{n} P_{n+1}) in two ways
    have hA : L (P n * (X * P (n + 1))) = (n + 1) / (2 * n + 3) * L (P n * P n) := by
      rw [X_mul_P, show (P n * (C (((n : ℝ) + 2) / (2 * n + 3)) * P (n + 2) +
        C (((n : ℝ) + 1) / (2 * n + 3)) * P n) : ℝ[X]) =
        C (((n : ℝ) + 2) / (2 * n + 3)) * (P n * P (n + 2)) +
        C (((n : ℝ) + 1) / (2 * n + 3)) * (P n * P n) by ring, L_add, L_C_mul, L_C_mul,
        L_orth n (n + 2) (by omega)]; ring
    have hB : L (P n * (X * P (n + 1))) = (n + 1) / (2 * n + 1) * L (P (n + 1) * P (n + 1)) := by
      rw [show (P n * (X * P (n + 1)) : ℝ[X]) = P (n + 1) * (X * P n) by ring]
      cases n with
      | zero => rw [X_mul_P_zero]; simp
      | succ n =>
        rw [X_mul_P, show (P (n + 1 + 1) * (C (((n : ℝ) + 2) / (2 * n + 3)) * P (n + 2) +
          C (((n : ℝ) + 1) / (2 * n + 3)) * P n) : ℝ[X]) =
          C (((n : ℝ) + 2) / (2 * n + 3)) * (P (n + 2) * P (n + 2)) +
          C (((n : ℝ) + 1) / (2 * n + 3)) * (P n * P (n + 2)) by
            rw [show n + 1 + 1 = n + 2 from rfl]; ring, L_add, L_C_mul, L_C_mul,
          L_orth n (n + 2) (by omega)]
        push_cast
        rw [show n + 1 + 1 = n + 2 from rfl]
        ring
    rw [hA, ih] at hB
    have h1 : (n : ℝ) + 1 ≠ 0 := by positivity
    have h2 : 2 * (n : ℝ) + 1 ≠ 0 := by positivity
    have h3 : 2 * (n : ℝ) + 3 ≠ 0 := by positivity
    push_cast
    have h4 : 2 * ((n : ℝ) + 1) + 1 ≠ 0 := by positivity
    field_simp at hB ⊢
    linear_combination -hB

end Verif.Legendre
