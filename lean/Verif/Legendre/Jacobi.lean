import Verif.Legendre.Model
import Mathlib.Tactic.FieldSimp
import Mathlib.Tactic.LinearCombination
import Mathlib.Algebra.Polynomial.Coeff
import Mathlib.Algebra.Polynomial.Derivative

/-!
Explicit form of the Jacobi recurrence in the variable `t = (1 - x)/2` and the derivative identity.
-/

namespace Verif.Legendre
open Polynomial Finset

/-- Rising factorial. -/
def asc (x : ℝ) : ℕ → ℝ
  | 0 => 1
  | n + 1 => asc x n * (x + n)

theorem asc_left (x : ℝ) (n : ℕ) : asc x (n + 1) = x * asc (x + 1) n := by
  induction n with
  | zero => simp [asc]
  | succ n ih =>
    rw [asc, ih, asc]
    push_cast; ring

/-- Coefficient of `t^k` in `P_{k+m}`. -/
noncomputable def B (α β : ℝ) (k m : ℕ) : ℝ :=
  (-1) ^ k * (asc (α + k + 1) m / m.factorial) * (asc (k + m + α + β + 1) k / k.factorial)

noncomputable def A (α β : ℝ) (n k : ℕ) : ℝ := if k ≤ n then B α β k (n - k) else 0

section Rec
variable {α β : ℝ}

/-- k = 0 -/
theorem rec_zero (hα : -1 < α) (hβ : -1 < β) (N : ℕ) :
    B α β 0 (N + 2) = (ja α β (N + 2) + jb α β (N + 2)) * B α β 0 (N + 1)
      - jc α β (N + 2) * B α β 0 N := by
  have h1 : (N : ℝ) + 2 + α + β ≠ 0 := by have : (0:ℝ) ≤ N := Nat.cast_nonneg N; intro h; linarith
  have h2 : 2 * ((N : ℝ) + 2) + α + β - 2 ≠ 0 := by
    have : (0:ℝ) ≤ N := Nat.cast_nonneg N; intro h; linarith
  have h3 : (N : ℝ) + 1 ≠ 0 := by have : (0:ℝ) ≤ N := Nat.cast_nonneg N; intro h; linarith
  have h4 : (N : ℝ) + 2 ≠ 0 := by have : (0:ℝ) ≤ N := Nat.cast_nonneg N; intro h; linarith
  have hf : (N.factorial : ℝ) ≠ 0 := by exact_mod_cast N.factorial_ne_zero
  have e1 : ((N + 1).factorial : ℝ) = (N + 1) * N.factorial := by
    rw [Nat.factorial_succ]; push_cast; ring
  have e2 : ((N + 2).factorial : ℝ) = (N + 2) * ((N + 1) * N.factorial) := by
    rw [Nat.factorial_succ, Nat.factorial_succ]; push_cast; ring
  unfold ja jb jc B
  simp only [show N + 2 ≠ 1 by omega, if_false, asc, e1, e2]
  push_cast
  have h4' : (N : ℝ) + 1 + 1 ≠ 0 := by rwa [add_assoc, one_add_one_eq_two]
  simp only [Nat.factorial_zero, pow_zero]
  push_cast
  field_simp
  ring

/-- Relations between the shifted rising factorials. -/
theorem asc_shift (x : ℝ) (q : ℕ) (hx : x - 1 ≠ 0) :
    asc x q = asc (x - 1) q * (x - 1 + q) / (x - 1) := by
  have h := asc_left (x - 1) q
  rw [asc, sub_add_cancel] at h
  field_simp
  linarith

/-- k = q+1, m = 0 -/
theorem rec_m0 (hα : -1 < α) (hβ : -1 < β) (q : ℕ) :
    B α β (q + 2) 0 = - 2 * ja α β (q + 2) * B α β (q + 1) 0 := by
  have hq : (0 : ℝ) ≤ q := Nat.cast_nonneg q
  have h1 : (q : ℝ) + 2 + α + β ≠ 0 := by intro h; linarith
  have h3 : (q : ℝ) + 2 ≠ 0 := by intro h; linarith
  have hf : ((q + 1).factorial : ℝ) ≠ 0 := by exact_mod_cast (q + 1).factorial_ne_zero
  have e1 : ((q + 2).factorial : ℝ) = (q + 2) * (q + 1).factorial := by
    rw [Nat.factorial_succ]; push_cast; ring
  have hx : (((q + 2 : ℕ) : ℝ) + (0 : ℕ) + α + β + 1) - 1 ≠ 0 := by
    push_cast; intro h; apply h1; linarith
  have hs := asc_shift (((q + 2 : ℕ) : ℝ) + (0 : ℕ) + α + β + 1) (q + 1) hx
  have hy : ((q + 2 : ℕ) : ℝ) + (0 : ℕ) + α + β + 1 - 1 =
      ((q + 1 : ℕ) : ℝ) + (0 : ℕ) + α + β + 1 := by push_cast; ring
  unfold B ja
  simp only [show q + 2 ≠ 1 by omega, if_false]
  rw [show asc (((q + 2 : ℕ) : ℝ) + (0 : ℕ) + α + β + 1) (q + 2) =
    asc (((q + 2 : ℕ) : ℝ) + (0 : ℕ) + α + β + 1) (q + 1) *
      (((q + 2 : ℕ) : ℝ) + (0 : ℕ) + α + β + 1 + (q + 1 : ℕ)) from rfl, hs, hy, e1]
  generalize asc (((q + 1 : ℕ) : ℝ) + (0 : ℕ) + α + β + 1) (q + 1) = U
  simp only [asc, Nat.factorial_zero]
  push_cast
  have h5 : (q : ℝ) + 1 + 0 + α + β + 1 ≠ 0 := by intro h; apply h1; linarith
  field_simp
  ring

/-- k = q+1, m = 1 -/
theorem rec_m1 (hα : -1 < α) (hβ : -1 < β) (q : ℕ) :
    B α β (q + 1) 1 = (ja α β (q + 2) + jb α β (q + 2)) * B α β (q + 1) 0
      - 2 * ja α β (q + 2) * B α β q 1 := by
  have hq : (0 : ℝ) ≤ q := Nat.cast_nonneg q
  have h1 : (q : ℝ) + 2 + α + β ≠ 0 := by intro h; linarith
  have h2 : 2 * ((q : ℝ) + 2) + α + β - 2 ≠ 0 := by intro h; linarith
  have h3 : (q : ℝ) + 1 ≠ 0 := by intro h; linarith
  have h4 : (q : ℝ) + 2 ≠ 0 := by intro h; linarith
  have hf : (q.factorial : ℝ) ≠ 0 := by exact_mod_cast q.factorial_ne_zero
  have e1 : ((q + 1).factorial : ℝ) = (q + 1) * q.factorial := by
    rw [Nat.factorial_succ]; push_cast; ring
  set x : ℝ := q + 2 + α + β + 1 with hx
  have hx1 : x - 1 ≠ 0 := by rw [hx]; intro h; apply h1; linarith
  have hs := asc_shift x q hx1
  have a1 : ((q + 1 : ℕ) : ℝ) + (1 : ℕ) + α + β + 1 = x := by rw [hx]; push_cast; ring
  have a2 : ((q + 1 : ℕ) : ℝ) + (0 : ℕ) + α + β + 1 = x - 1 := by rw [hx]; push_cast; ring
  have a3 : (q : ℝ) + (1 : ℕ) + α + β + 1 = x - 1 := by rw [hx]; push_cast; ring
  unfold B ja jb
  simp only [show q + 2 ≠ 1 by omega, if_false]
  rw [a1, a2, a3, e1, show asc x (q + 1) = asc x q * (x + q) from rfl, hs,
    show asc (x - 1) (q + 1) = asc (x - 1) q * (x - 1 + q) from rfl]
  generalize asc (x - 1) q = U
  simp only [asc, Nat.factorial_zero, Nat.factorial_one]
  push_cast
  rw [show (q : ℝ) + 2 + α + β = x - 1 by rw [hx]; ring]
  rw [show α = x - q - 3 - β by rw [hx]; ring] at h2 ⊢
  field_simp
  ring

/-- k = q+1, m = p+2 -/
theorem rec_m2 (hα : -1 < α) (hβ : -1 < β) (q p : ℕ) :
    B α β (q + 1) (p + 2) = (ja α β (q + p + 3) + jb α β (q + p + 3)) * B α β (q + 1) (p + 1)
      - 2 * ja α β (q + p + 3) * B α β q (p + 2)
      - jc α β (q + p + 3) * B α β (q + 1) p := by
  have hq : (0 : ℝ) ≤ q := Nat.cast_nonneg q
  have hp : (0 : ℝ) ≤ p := Nat.cast_nonneg p
  have h1 : (q : ℝ) + p + 3 + α + β ≠ 0 := by intro h; linarith
  have h2 : 2 * ((q : ℝ) + p + 3) + α + β - 2 ≠ 0 := by intro h; linarith
  have h3 : (q : ℝ) + 1 ≠ 0 := by intro h; linarith
  have h4 : (q : ℝ) + p + 3 ≠ 0 := by intro h; linarith
  have h5 : (p : ℝ) + 1 ≠ 0 := by intro h; linarith
  have h6 : (p : ℝ) + 2 ≠ 0 := by intro h; linarith
  have hf : (q.factorial : ℝ) ≠ 0 := by exact_mod_cast q.factorial_ne_zero
  have hfp : (p.factorial : ℝ) ≠ 0 := by exact_mod_cast p.factorial_ne_zero
  have e1 : ((q + 1).factorial : ℝ) = (q + 1) * q.factorial := by
    rw [Nat.factorial_succ]; push_cast; ring
  have ep1 : ((p + 1).factorial : ℝ) = (p + 1) * p.factorial := by
    rw [Nat.factorial_succ]; push_cast; ring
  have ep2 : ((p + 2).factorial : ℝ) = (p + 2) * ((p + 1) * p.factorial) := by
    rw [Nat.factorial_succ, Nat.factorial_succ]; push_cast; ring
  set x : ℝ := q + p + 3 + α + β + 1 with hx
  have hx1 : x - 1 ≠ 0 := by rw [hx]; intro h; apply h1; linarith
  have hs := asc_shift x q hx1
  have a1 : ((q + 1 : ℕ) : ℝ) + (p + 2 : ℕ) + α + β + 1 = x := by rw [hx]; push_cast; ring
  have a2 : ((q + 1 : ℕ) : ℝ) + (p + 1 : ℕ) + α + β + 1 = x - 1 := by rw [hx]; push_cast; ring
  have a3 : (q : ℝ) + (p + 2 : ℕ) + α + β + 1 = x - 1 := by rw [hx]; push_cast; ring
  have a4 : ((q + 1 : ℕ) : ℝ) + (p : ℕ) + α + β + 1 = x - 2 := by rw [hx]; push_cast; ring
  have b1 : α + ((q + 1 : ℕ) : ℝ) + 1 = α + q + 2 := by push_cast; ring
  have b2 : asc (α + q + 1) (p + 2) = (α + q + 1) * (asc (α + q + 2) p * (α + q + 2 + p)) := by
    rw [asc_left, show α + (q : ℝ) + 1 + 1 = α + q + 2 by ring]; rfl
  have b3 : asc (α + q + 2) (p + 2) =
      asc (α + q + 2) p * (α + q + 2 + p) * (α + q + 2 + p + 1) := by
    show asc (α + q + 2) p * (α + q + 2 + p) * (α + q + 2 + (p + 1 : ℕ)) = _
    push_cast; ring
  have c1 : asc (x - 2) (q + 1) = (x - 2) * asc (x - 1) q := by
    rw [asc_left]; congr 2; ring
  unfold B ja jb jc
  simp only [show q + p + 3 ≠ 1 by omega, if_false]
  rw [a1, a2, a3, a4, b1, b2, b3, c1, e1, ep1, ep2, show asc x (q + 1) = asc x q * (x + q) from rfl,
    hs, show asc (x - 1) (q + 1) = asc (x - 1) q * (x - 1 + q) from rfl,
    show asc (α + q + 2) (p + 1) = asc (α + q + 2) p * (α + q + 2 + p) from rfl]
  generalize asc (x - 1) q = U
  generalize asc (α + q + 2) p = R
  push_cast
  rw [show (q : ℝ) + p + 3 + α + β = x - 1 by rw [hx]; ring]
  have hβ' : β = x - q - p - 4 - α := by rw [hx]; ring
  rw [hβ'] at h2 ⊢
  field_simp
  ring

/-- The coefficient recurrence in full. -/
theorem A_rec (hα : -1 < α) (hβ : -1 < β) (N j : ℕ) :
    A α β (N + 2) j = (ja α β (N + 2) + jb α β (N + 2)) * A α β (N + 1) j
      - 2 * ja α β (N + 2) * (if j = 0 then 0 else A α β (N + 1) (j - 1))
      - jc α β (N + 2) * A α β N j := by
  rcases Nat.eq_zero_or_pos j with rfl | hj
  · simp only [A, Nat.zero_le, if_true, Nat.sub_zero, mul_zero, sub_zero]
    exact rec_zero hα hβ N
  · obtain ⟨q, rfl⟩ : ∃ q, j = q + 1 := ⟨j - 1, by omega⟩
    simp only [A, Nat.add_sub_cancel, Nat.succ_ne_zero, if_false]
    rcases lt_trichotomy (N + 1) q with h | h | h
    · simp [show ¬ q + 1 ≤ N + 2 by omega, show ¬ q + 1 ≤ N + 1 by omega,
        show ¬ q ≤ N + 1 by omega, show ¬ q + 1 ≤ N by omega]
    · subst h
      have := rec_m0 hα hβ N
      simp only [le_refl, if_true, show ¬ N + 1 + 1 ≤ N + 1 by omega, if_false,
        show ¬ N + 1 + 1 ≤ N by omega, Nat.sub_self, show N + 1 + 1 = N + 2 from rfl]
      rw [this]; ring
    · by_cases h2 : q = N
      · subst h2
        have := rec_m1 hα hβ q
        simp only [show q + 1 ≤ q + 2 by omega, show q + 1 ≤ q + 1 by omega,
          show q ≤ q + 1 by omega, show ¬ q + 1 ≤ q by omega, if_true, if_false,
          show q + 2 - (q + 1) = 1 by omega, show q + 1 - (q + 1) = 0 by omega,
          show q + 1 - q = 1 by omega]
        rw [this]; ring
      · obtain ⟨p, rfl⟩ : ∃ p, N = q + 1 + p := ⟨N - (q + 1), by omega⟩
        have := rec_m2 hα hβ q p
        simp only [show q + 1 ≤ q + p + 3 by omega, show q + 1 ≤ q + 1 + p + 1 by omega,
          show q ≤ q + 1 + p + 1 by omega, show q + 1 ≤ q + 1 + p by omega, if_true,
          show q + p + 3 - (q + 1) = p + 2 by omega,
          show q + 1 + p + 1 - (q + 1) = p + 1 by omega,
          show q + 1 + p + 1 - q = p + 2 by omega, show q + 1 + p - (q + 1) = p by omega,
          show q + 1 + p + 2 = q + p + 3 by omega]
        rw [this]

/-- Jacobi polynomial in `t = (1-x)/2`. -/
noncomputable def Jt (α β : ℝ) (n : ℕ) : ℝ[X] := ∑ k ∈ range (n + 1), C (A α β n k) * X ^ k

theorem Jt_coeff (n j : ℕ) : (Jt α β n).coeff j = A α β n j := by
  unfold Jt
  simp only [finsetSum_coeff, coeff_C_mul, coeff_X_pow, mul_ite, mul_one, mul_zero]
  by_cases h : j ≤ n
  · rw [sum_eq_single j]
    · simp
    · intro b _ hb; rw [if_neg (fun h => hb h.symm)]
    · intro hn; exact absurd (mem_range.2 (by omega)) hn
  · rw [sum_eq_zero]
    · simp [A, h]
    · intro b hb; rw [if_neg]; have := mem_range.1 hb; omega

theorem Jt_rec (hα : -1 < α) (hβ : -1 < β) (N : ℕ) :
    Jt α β (N + 2) = (C (ja α β (N + 2)) * (1 - 2 * X) + C (jb α β (N + 2))) * Jt α β (N + 1)
      - C (jc α β (N + 2)) * Jt α β N := by
  have e : (C (ja α β (N + 2)) * (1 - 2 * X) + C (jb α β (N + 2))) * Jt α β (N + 1)
      - C (jc α β (N + 2)) * Jt α β N =
      C (ja α β (N + 2) + jb α β (N + 2)) * Jt α β (N + 1)
        - C (2 * ja α β (N + 2)) * (X * Jt α β (N + 1)) - C (jc α β (N + 2)) * Jt α β N := by
    rw [C_add, C_mul, show (C 2 : ℝ[X]) = 2 from rfl]; ring
  rw [e]
  ext j
  rw [coeff_sub, coeff_sub, coeff_C_mul, coeff_C_mul, coeff_C_mul, Jt_coeff, Jt_coeff, Jt_coeff,
    A_rec hα hβ]
  congr 3
  rcases Nat.eq_zero_or_pos j with rfl | hj
  · simp
  · obtain ⟨q, rfl⟩ : ∃ q, j = q + 1 := ⟨j - 1, by omega⟩
    rw [coeff_X_mul, Jt_coeff]; simp

/-- The recursive evaluator evaluates the explicit polynomial. -/
theorem jacobiEval_eq (hα : -1 < α) (hβ : -1 < β) (x : ℝ) (n : ℕ) :
    jacobiEval n α β x = (Jt α β n).eval ((1 - x) / 2) := by
  unfold jacobiEval
  induction n using Nat.twoStepInduction with
  | zero => simp [jacobiShift, Jt, A, B, asc]
  | one =>
    simp [jacobiShift, Jt, A, B, asc, sum_range_succ, ja, jb, jc]
    ring
  | more n ih1 ih2 =>
    rw [jacobiShift, ih1, ih2, Jt_rec hα hβ]
    simp only [eval_sub, eval_mul, eval_add, eval_C, eval_one, eval_X, eval_ofNat]
    ring

/-- Derivative identity on coefficients. -/
theorem Jt_deriv (n : ℕ) :
    derivative (Jt α β (n + 1)) = - C (n + 1 + α + β + 1) * Jt (α + 1) (β + 1) n := by
  ext j
  rw [coeff_derivative, Jt_coeff, ← C_neg, coeff_C_mul, Jt_coeff]
  unfold A
  by_cases h : j ≤ n
  · rw [if_pos (by omega), if_pos h]
    obtain ⟨m, rfl⟩ : ∃ m, n = j + m := ⟨n - j, by omega⟩
    rw [show j + m + 1 - (j + 1) = m by omega, show j + m - j = m by omega]
    unfold B
    have e1 : ((j + 1).factorial : ℝ) = (j + 1) * j.factorial := by
      rw [Nat.factorial_succ]; push_cast; ring
    have hj : (j : ℝ) + 1 ≠ 0 := by
      have : (0 : ℝ) ≤ j := Nat.cast_nonneg j
      intro h; linarith
    rw [e1, asc_left, pow_succ]
    have a1 : α + ((j + 1 : ℕ) : ℝ) + 1 = α + 1 + j + 1 := by push_cast; ring
    have a2 : ((j + 1 : ℕ) : ℝ) + m + α + β + 1 + 1 = j + m + (α + 1) + (β + 1) + 1 := by
      push_cast; ring
    rw [a1, a2]
    have hf : (j.factorial : ℝ) ≠ 0 := by exact_mod_cast j.factorial_ne_zero
    have hfm : (m.factorial : ℝ) ≠ 0 := by exact_mod_cast m.factorial_ne_zero
    push_cast
    field_simp
    ring
  · rw [if_neg (by omega), if_neg h]; simp

end Rec
end Verif.Legendre
