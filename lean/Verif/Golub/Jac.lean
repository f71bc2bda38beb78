import Verif.Legendre.Model
import Mathlib.Tactic.FieldSimp
import Mathlib.Tactic.LinearCombination
import Mathlib.Tactic.Positivity
import Mathlib.Algebra.Polynomial.Derivative
import Mathlib.Algebra.Polynomial.FieldDivision

/-!
# The Jacobi polynomials of the code as elements of `ℝ[X]`: degree and structure relation
-/

namespace Verif.Golub
open Polynomial Finset Verif.Legendre

/-- The polynomial evaluated by `jacobi::eval (m - 1)`. -/
noncomputable def JQ (α β : ℝ) : ℕ → ℝ[X]
  | 0 => 0
  | 1 => 1
  | m + 2 => (C (ja α β (m + 1)) * X + C (jb α β (m + 1))) * JQ α β (m + 1) - C (jc α β (m + 1)) * JQ α β m

theorem jq_eval (α β x : ℝ) : ∀ m, (JQ α β m).eval x = jacobiShift α β x m
  | 0 => by simp [JQ, jacobiShift]
  | 1 => by simp [JQ, jacobiShift]
  | m + 2 => by simp [JQ, jacobiShift, jq_eval α β x (m + 1), jq_eval α β x m]

/-- The polynomial evaluated by `jacobi::eval n`. -/
noncomputable def JP (α β : ℝ) (n : ℕ) : ℝ[X] := JQ α β (n + 1)

variable {α β : ℝ}

theorem jp_zero : JP α β 0 = 1 := rfl
theorem jp_one : JP α β 1 = C (ja α β 1) * X + C (jb α β 1) := by simp [JP, JQ]
theorem jp_succ (n : ℕ) : JP α β (n + 2) =
    (C (ja α β (n + 2)) * X + C (jb α β (n + 2))) * JP α β (n + 1) - C (jc α β (n + 2)) * JP α β n := rfl

theorem ja_pos (hα : -1 < α) (hβ : -1 < β) (n : ℕ) : 0 < ja α β (n + 1) := by
  unfold ja
  have hn : (0 : ℝ) ≤ n := Nat.cast_nonneg n
  split
  · linarith
  · rename_i h
    have : 1 ≤ n := by omega
    have hn : (1 : ℝ) ≤ n := by exact_mod_cast this
    push_cast
    have h1 : 0 < 2 * ((n : ℝ) + 1) + α + β - 1 := by linarith
    have h2 : 0 < 2 * ((n : ℝ) + 1) + α + β := by linarith
    have h3 : 0 < (n : ℝ) + 1 + α + β := by linarith
    positivity

theorem jc_pos (hα : -1 < α) (hβ : -1 < β) (n : ℕ) : 0 < jc α β (n + 2) := by
  unfold jc
  have hn : (0 : ℝ) ≤ n := Nat.cast_nonneg n
  rw [if_neg (by omega)]
  push_cast
  have h1 : 0 < (n : ℝ) + 2 + α - 1 := by linarith
  have h2 : 0 < (n : ℝ) + 2 + β - 1 := by linarith
  have h3 : 0 < (n : ℝ) + 2 + α + β := by linarith
  have h4 : 0 < 2 * ((n : ℝ) + 2) + α + β := by linarith
  have h5 : 0 < 2 * ((n : ℝ) + 2) + α + β - 2 := by linarith
  positivity

theorem jp_degree (hα : -1 < α) (hβ : -1 < β) : ∀ n, (JP α β n).natDegree ≤ n ∧ (JP α β n).coeff n ≠ 0
  | 0 => by simp [jp_zero]
  | 1 => by
    rw [jp_one]
    refine ⟨natDegree_linear_le, ?_⟩
    simp [coeff_C, (ja_pos hα hβ 0).ne']
  | n + 2 => by
    obtain ⟨d1, c1⟩ := jp_degree hα hβ (n + 1)
    obtain ⟨d0, -⟩ := jp_degree hα hβ n
    rw [jp_succ]
    constructor
    · refine (natDegree_sub_le _ _).trans (max_le ?_ ?_)
      · refine natDegree_mul_le.trans ?_
        have := natDegree_linear_le (a := ja α β (n + 2)) (b := jb α β (n + 2))
        omega
      · refine (natDegree_C_mul_le _ _).trans (by omega)
    · rw [coeff_sub, coeff_C_mul, coeff_eq_zero_of_natDegree_lt (show (JP α β n).natDegree < n + 2 by omega), mul_zero, sub_zero, add_mul,
        coeff_add, coeff_C_mul, coeff_eq_zero_of_natDegree_lt (show (JP α β (n + 1)).natDegree < n + 2 by omega), mul_zero, add_zero,
        mul_assoc, coeff_C_mul, show n + 2 = (n + 1) + 1 from rfl, coeff_X_mul]
      exact mul_ne_zero (ja_pos hα hβ (n + 1)).ne' c1

theorem jp_natDegree (hα : -1 < α) (hβ : -1 < β) (n : ℕ) : (JP α β n).natDegree = n :=
  natDegree_eq_of_le_of_coeff_ne_zero (jp_degree hα hβ n).1 (jp_degree hα hβ n).2

theorem jp_ne (hα : -1 < α) (hβ : -1 < β) (n : ℕ) : JP α β n ≠ 0 := fun h => (jp_degree hα hβ n).2 (by rw [h, coeff_zero])

/-- The algebraic step of the structure relation. -/
theorem struct_step (hα : -1 < α) (hβ : -1 < β) (N : ℝ) (hN : 2 ≤ N) (x p q r dp dq a b c a' b' c' : ℝ)
    (ha : a = (2 * N + α + β - 1) * (2 * N + α + β) / (2 * N * (N + α + β)))
    (hb : b = (α * α - β * β) * (2 * N + α + β - 1) / (2 * N * (N + α + β) * (2 * N + α + β - 2)))
    (hc : c = (N + α - 1) * (N + β - 1) * (2 * N + α + β) / (N * (N + α + β) * (2 * N + α + β - 2)))
    (ha' : a' = (2 * N + α + β + 1) * (2 * N + α + β + 2) / (2 * (N + 1) * (N + 1 + α + β)))
    (hb' : b' = (α * α - β * β) * (2 * N + α + β + 1) / (2 * (N + 1) * (N + 1 + α + β) * (2 * N + α + β)))
    (hc' : c' = (N + α) * (N + β) * (2 * N + α + β + 2) / ((N + 1) * (N + 1 + α + β) * (2 * N + α + β)))
    (e1 : (2 * N + α + β) * ((1 - x * x) * dp) = N * (α - β - (2 * N + α + β) * x) * p + 2 * (N + α) * (N + β) * q)
    (e2 : (2 * N - 2 + α + β) * ((1 - x * x) * dq)
      = (N - 1) * (α - β - (2 * N - 2 + α + β) * x) * q + 2 * (N - 1 + α) * (N - 1 + β) * r)
    (e3 : p = (a * x + b) * q - c * r) :
    (2 * N + 2 + α + β) * ((1 - x * x) * (a' * p + (a' * x + b') * dp - c' * dq))
      = (N + 1) * (α - β - (2 * N + 2 + α + β) * x) * ((a' * x + b') * p - c' * q) + 2 * (N + 1 + α) * (N + 1 + β) * p := by
  have h1 : N + α + β ≠ 0 := by intro h; linarith
  have h2 : 2 * N + α + β ≠ 0 := by intro h; linarith
  have h3 : 2 * N + α + β - 2 ≠ 0 := by intro h; linarith
  have h4 : N ≠ 0 := by intro h; linarith
  have h5 : N + 1 ≠ 0 := by intro h; linarith
  have h6 : N + 1 + α + β ≠ 0 := by intro h; linarith
  have y1 : (1 - x * x) * dp = (N * (α - β - (2 * N + α + β) * x) * p + 2 * (N + α) * (N + β) * q) / (2 * N + α + β) := by
    rw [eq_div_iff h2, ← e1]; ring
  have hr : 2 * (N - 1 + α) * (N - 1 + β) * r =
      ((a * x + b) * q - p) * (2 * N * (N + α + β) * (2 * N + α + β - 2)) / (2 * N + α + β) := by
    rw [eq_div_iff h2]
    have : (a * x + b) * q - p = c * r := by rw [e3]; ring
    rw [this, hc]
    field_simp
    ring
  have y2 : (1 - x * x) * dq = ((N - 1) * (α - β - (2 * N - 2 + α + β) * x) * q +
      ((a * x + b) * q - p) * (2 * N * (N + α + β) * (2 * N + α + β - 2)) / (2 * N + α + β)) / (2 * N + α + β - 2) := by
    rw [eq_div_iff h3, ← hr, ← e2]; ring
  have key : (2 * N + 2 + α + β) * ((1 - x * x) * (a' * p + (a' * x + b') * dp - c' * dq)) =
      (2 * N + 2 + α + β) * ((1 - x * x) * a' * p + (a' * x + b') * ((1 - x * x) * dp) - c' * ((1 - x * x) * dq)) := by ring
  rw [key, y1, y2, ha, hb, ha', hb', hc']
  field_simp
  ring

theorem eval_succ (n : ℕ) (x : ℝ) : (JP α β (n + 2)).eval x =
    (ja α β (n + 2) * x + jb α β (n + 2)) * (JP α β (n + 1)).eval x - jc α β (n + 2) * (JP α β n).eval x := by
  rw [jp_succ]; simp

theorem deriv_succ (n : ℕ) (x : ℝ) : (derivative (JP α β (n + 2))).eval x =
    ja α β (n + 2) * (JP α β (n + 1)).eval x + (ja α β (n + 2) * x + jb α β (n + 2)) * (derivative (JP α β (n + 1))).eval x
      - jc α β (n + 2) * (derivative (JP α β n)).eval x := by
  rw [jp_succ]; simp

theorem jp_eval_one (x : ℝ) : (JP α β 1).eval x = (α + β + 2) / 2 * x + (α - β) / 2 := by
  rw [jp_one]; simp [ja, jb]; ring

theorem deriv_one (x : ℝ) : (derivative (JP α β 1)).eval x = (α + β + 2) / 2 := by
  rw [jp_one]; simp [ja]; ring

/-- **Structure relation** of the Jacobi polynomials. -/
theorem structure_rel (hα : -1 < α) (hβ : -1 < β) (x : ℝ) (n : ℕ) :
    (2 * ((n : ℝ) + 1) + α + β) * ((1 - x * x) * (derivative (JP α β (n + 1))).eval x) =
      (n + 1) * (α - β - (2 * (n + 1) + α + β) * x) * (JP α β (n + 1)).eval x +
        2 * (n + 1 + α) * (n + 1 + β) * (JP α β n).eval x := by
  induction n using Nat.strong_induction_on with
  | _ n ih =>
    match n with
    | 0 =>
      rw [jp_eval_one, deriv_one, jp_zero]
      simp
      ring
    | 1 =>
      have h1 : 2 + α + β ≠ 0 := by intro h; linarith
      rw [show 1 + 1 = 0 + 2 from rfl, deriv_succ, eval_succ, jp_eval_one, deriv_one, jp_zero]
      simp only [ja, jb, jc, zero_add, derivative_one, eval_zero]
      norm_num
      have h2 : 4 + α + β - 2 ≠ 0 := by intro h; apply h1; linarith
      field_simp
      ring
    | n + 2 =>
      have hn : (0 : ℝ) ≤ n := Nat.cast_nonneg n
      have e1 := ih (n + 1) (by omega)
      have e2 := ih n (by omega)
      have e3 := eval_succ (α := α) (β := β) n x
      have h := struct_step hα hβ ((n : ℝ) + 2) (by linarith) x ((JP α β (n + 2)).eval x) ((JP α β (n + 1)).eval x) ((JP α β n).eval x)
        ((derivative (JP α β (n + 2))).eval x) ((derivative (JP α β (n + 1))).eval x) (ja α β (n + 2)) (jb α β (n + 2)) (jc α β (n + 2))
        (ja α β (n + 3)) (jb α β (n + 3)) (jc α β (n + 3))
        (by unfold ja; rw [if_neg (by omega)]; push_cast; ring)
        (by unfold jb; rw [if_neg (by omega)]; push_cast; ring)
        (by unfold jc; rw [if_neg (by omega)]; push_cast; ring)
        (by unfold ja; rw [if_neg (by omega)]; push_cast; congr 1 <;> ring)
        (by unfold jb; rw [if_neg (by omega)]; push_cast; congr 1 <;> ring)
        (by unfold jc; rw [if_neg (by omega)]; push_cast; congr 1 <;> ring)
        (by push_cast at e1; linear_combination e1) (by linear_combination e2) e3
      have d := deriv_succ (α := α) (β := β) (n + 1) x
      have e := eval_succ (α := α) (β := β) (n + 1) x
      rw [show n + 1 + 2 = n + 3 from rfl, show n + 1 + 1 = n + 2 from rfl] at d e
      rw [show n + 2 + 1 = n + 3 from rfl, d, e]
      push_cast
      linear_combination h

/-- The total derivative of `(1 - x)^(α + 1) (1 + x)^(β + 1) P_n`, divided by the weight, in terms of the polynomials themselves. -/
theorem pearson (hα : -1 < α) (hβ : -1 < β) (n : ℕ) :
    ∃ A B C' : ℝ, A ≠ 0 ∧ (n = 0 → C' = 0) ∧ ∀ x : ℝ,
      (1 - x * x) * (derivative (JP α β (n + 1))).eval x + (β - α - (α + β + 2) * x) * (JP α β (n + 1)).eval x =
        A * (JP α β (n + 2)).eval x + B * (JP α β (n + 1)).eval x + C' * (JP α β n).eval x := by
  have hn : (0 : ℝ) ≤ n := Nat.cast_nonneg n
  have h1 : 2 * ((n : ℝ) + 1) + α + β ≠ 0 := by intro h; linarith
  have h2 : (n : ℝ) + 1 + α + β + 2 ≠ 0 := by intro h; linarith
  have h3 : 2 * ((n : ℝ) + 1) + α + β + 1 ≠ 0 := by intro h; linarith
  have h4 : (n : ℝ) + 2 + α + β ≠ 0 := by intro h; linarith
  have h5 : (n : ℝ) + 2 ≠ 0 := by intro h; linarith
  have h6 : 2 * ((n : ℝ) + 2) + α + β ≠ 0 := by intro h; linarith
  have ha := (ja_pos hα hβ (n + 1)).ne'
  refine ⟨-((n : ℝ) + 1 + α + β + 2) / ja α β (n + 2),
    β - α + (n + 1) * (α - β) / (2 * (n + 1) + α + β) + (n + 1 + α + β + 2) * (jb α β (n + 2) / ja α β (n + 2)),
    2 * (n + 1 + α) * (n + 1 + β) / (2 * (n + 1) + α + β) * (n / (2 * (n + 1) + α + β + 1)), div_ne_zero (neg_ne_zero.2 h2) ha, ?_, ?_⟩
  · rintro rfl; simp
  · intro x
    have s := structure_rel hα hβ x n
    have e := eval_succ (α := α) (β := β) n x
    have y : (1 - x * x) * (derivative (JP α β (n + 1))).eval x =
        ((n + 1) * (α - β - (2 * (n + 1) + α + β) * x) * (JP α β (n + 1)).eval x +
        2 * (n + 1 + α) * (n + 1 + β) * (JP α β n).eval x) / (2 * ((n : ℝ) + 1) + α + β) := by
      rw [eq_div_iff h1, ← s]; ring
    have hc : jc α β (n + 2) / ja α β (n + 2) =
        2 * (n + 1 + α) * (n + 1 + β) / ((2 * (n + 1) + α + β) * (2 * (n + 1) + α + β + 1)) := by
      unfold jc ja
      rw [if_neg (by omega), if_neg (by omega)]
      push_cast
      have h7 : 2 * ((n : ℝ) + 2) + α + β - 2 ≠ 0 := by intro h; linarith
      have h8 : 2 * ((n : ℝ) + 2) + α + β - 1 ≠ 0 := by intro h; linarith
      rw [div_div_div_eq, div_eq_div_iff (by positivity) (by positivity)]
      ring
    have hx : x * (JP α β (n + 1)).eval x = (JP α β (n + 2)).eval x / ja α β (n + 2) -
        jb α β (n + 2) / ja α β (n + 2) * (JP α β (n + 1)).eval x + jc α β (n + 2) / ja α β (n + 2) * (JP α β n).eval x := by
      rw [e]; field_simp; ring
    have g : (1 - x * x) * (derivative (JP α β (n + 1))).eval x + (β - α - (α + β + 2) * x) * (JP α β (n + 1)).eval x =
        -(n + 1 + α + β + 2) * (x * (JP α β (n + 1)).eval x) +
        (β - α + (n + 1) * (α - β) / (2 * (n + 1) + α + β)) * (JP α β (n + 1)).eval x +
        2 * (n + 1 + α) * (n + 1 + β) / (2 * (n + 1) + α + β) * (JP α β n).eval x := by
      rw [y]
      generalize 2 * ((n : ℝ) + 1) + α + β = D at h1
      field_simp; ring
    rw [g, hx, hc]
    generalize jb α β (n + 2) / ja α β (n + 2) = u
    generalize ja α β (n + 2) = v at ha
    obtain ⟨D, hD⟩ : ∃ D, D = 2 * ((n : ℝ) + 1) + α + β := ⟨_, rfl⟩
    rw [← hD] at h1 h3 ⊢
    rw [show (n : ℝ) = (D - α - β) / 2 - 1 by rw [hD]; ring]
    field_simp
    ring

end Verif.Golub
