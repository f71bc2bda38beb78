import Verif.Fp.Rel
import Verif.Fp.LegendreModel
import Verif.Legendre.Theorems
import Verif.TensorSum
import Verif.Fill
import Mathlib.Analysis.Complex.Norm

/-!
# Stability of the Legendre recurrence

The quadratic form `a² + b² - 2 x a b` of two successive values does not increase along the recurrence (for `|x| ≤ 1`).
-/

namespace Verif.Fp.Legendre
open Verif.Fp Finset

variable {x : ℝ}

/-- The form `a² + b² - 2 x a b`. -/
def form (x a b : ℝ) : ℝ := a ^ 2 + b ^ 2 - 2 * x * a * b

theorem form_eq (a b : ℝ) : form x a b = (a - x * b) ^ 2 + (1 - x ^ 2) * b ^ 2 := by unfold form; ring

theorem form_eq' (a b : ℝ) : form x a b = (x * a - b) ^ 2 + (1 - x ^ 2) * a ^ 2 := by unfold form; ring

variable (hx : |x| ≤ 1)
include hx

theorem y_nonneg : 0 ≤ 1 - x ^ 2 := by
  have := sq_le_one_iff_abs_le_one x |>.2 hx
  linarith

theorem form_nonneg (a b : ℝ) : 0 ≤ form x a b := by
  rw [form_eq]
  have := y_nonneg hx
  positivity

omit hx in
/-- One step of the exact recurrence. -/
theorem form_step {r : ℝ} (h0 : 0 ≤ r) (h1 : r ≤ 1) (a b : ℝ) : form x ((1 + r) * x * a - r * b) a ≤ form x a b := by
  rw [form_eq, form_eq', show (1 + r) * x * a - r * b - x * a = r * (x * a - b) by ring, mul_pow]
  have : r ^ 2 ≤ 1 := by nlinarith
  nlinarith [sq_nonneg (x * a - b)]

/-- A perturbation `d` of the newest value changes the root of the form by at most `|d|`. -/
theorem form_add (a b d : ℝ) : √(form x (a + d) b) ≤ √(form x a b) + |d| := by
  have y := y_nonneg hx
  have key : ∀ a, √(form x a b) = ‖(⟨a - x * b, √(1 - x ^ 2) * b⟩ : ℂ)‖ := by
    intro a
    rw [Complex.norm_def, Complex.normSq_mk, form_eq, mul_mul_mul_comm, Real.mul_self_sqrt y]
    congr 1; ring
  rw [key, key, show (⟨a + d - x * b, √(1 - x ^ 2) * b⟩ : ℂ) = ⟨a - x * b, √(1 - x ^ 2) * b⟩ + (d : ℂ) by
    apply Complex.ext <;> simp; ring]
  refine (norm_add_le _ _).trans ?_
  rw [Complex.norm_real, Real.norm_eq_abs]

/-- The newest value is at most the one before plus the root of the form. -/
theorem abs_le_form (a b : ℝ) : |a| ≤ |b| + √(form x a b) := by
  have y := y_nonneg hx
  have h1 : |a - x * b| ≤ √(form x a b) := by
    rw [← Real.sqrt_sq_eq_abs]
    refine Real.sqrt_le_sqrt ?_
    rw [form_eq]
    have : 0 ≤ (1 - x ^ 2) * b ^ 2 := by positivity
    linarith
  have h2 : |x * b| ≤ |b| := by rw [abs_mul]; exact mul_le_of_le_one_left (abs_nonneg _) hx
  have h3 : |a| ≤ |a - x * b| + |x * b| := by
    have := abs_add_le (a - x * b) (x * b)
    rwa [sub_add_cancel] at this
  linarith

/-- Sequences with such a recurrence stay below one. -/
theorem seq_le {r P : ℕ → ℝ} (hr : ∀ m, 0 ≤ r m ∧ r m ≤ 1) (r0 : r 0 = 0) (P0 : P 0 = 0) (P1 : P 1 = 1)
    (hP : ∀ m, P (m + 2) = (1 + r m) * x * P (m + 1) - r m * P m) (n : ℕ) : |P n| ≤ 1 := by
  have step : ∀ m, form x (P (m + 2)) (P (m + 1)) ≤ 1 - x ^ 2 := by
    intro m
    induction m with
    | zero =>
      rw [hP 0, r0, P0, P1]
      unfold form
      norm_num
      nlinarith
    | succ m ih =>
      rw [hP (m + 1)]
      exact (form_step (hr _).1 (hr _).2 _ _).trans ih
  have y := y_nonneg hx
  have main : ∀ m, |P (m + 1)| ≤ 1 := by
    intro m
    induction m with
    | zero => rw [P1]; simp
    | succ m ih =>
      have h := step m
      by_cases hy : 1 - x ^ 2 = 0
      · rw [form_eq, hy, zero_mul, add_zero] at h
        have h2 : P (m + 2) - x * P (m + 1) = 0 := by
          have := le_antisymm h (sq_nonneg _)
          exact pow_eq_zero_iff (two_ne_zero) |>.1 this
        rw [show P (m + 1 + 1) = x * P (m + 1) by linarith, abs_mul]
        exact mul_le_one₀ hx (abs_nonneg _) ih
      · have y0 : 0 < 1 - x ^ 2 := lt_of_le_of_ne y (Ne.symm hy)
        rw [form_eq'] at h
        have h1 : (1 - x ^ 2) * (P (m + 2)) ^ 2 ≤ (1 - x ^ 2) * 1 := by nlinarith [sq_nonneg (x * P (m + 2) - P (m + 1))]
        exact (sq_le_one_iff_abs_le_one _).1 (le_of_mul_le_mul_left h1 y0)
  rcases n with _ | n
  · rw [P0]; simp
  · exact main n

/-- Errors of a perturbed recurrence, by induction along it. -/
theorem seq_err {r P S : ℕ → ℝ} {g : ℝ} (g0 : 0 ≤ g) (hr : ∀ m, 0 ≤ r m ∧ r m ≤ 1) (r0 : r 0 = 0) (P0 : P 0 = 0) (P1 : P 1 = 1)
    (hP : ∀ m, P (m + 2) = (1 + r m) * x * P (m + 1) - r m * P m) (S0 : S 0 = 0) (S1 : S 1 = 1) (m : ℕ)
    (hS : ∀ j < m, |S (j + 2) - ((1 + r j) * x * S (j + 1) - r j * S j)| ≤ g * ((1 + r j) * |x| * |S (j + 1)| + r j * |S j|))
    (hm : 3 * m * (m + 1) * g ≤ 1) :
    √(form x (S (m + 1) - P (m + 1)) (S m - P m)) ≤ 6 * m * g ∧
    |S m - P m| ≤ 3 * m * (m + 1) * g ∧ |S (m + 1) - P (m + 1)| ≤ 3 * m * (m + 1) * g := by
  induction m with
  | zero => simp [S0, S1, P0, P1, form]
  | succ m ih =>
    have m0 : (0 : ℝ) ≤ m := Nat.cast_nonneg m
    push_cast at hm ⊢
    have hm' : 3 * m * (m + 1) * g ≤ 3 * (m + 1) * (m + 1 + 1) * g := by nlinarith [mul_nonneg m0 g0]
    obtain ⟨i1, i2, i3⟩ := ih (fun j hj => hS j (by omega)) (hm'.trans hm)
    have le := seq_le hx hr r0 P0 P1 hP
    have bd : ∀ k, |S k - P k| ≤ 1 → |S k| ≤ 2 := by
      intro k hk
      have h2 := abs_add_le (S k - P k) (P k)
      rw [sub_add_cancel] at h2
      linarith [le k]
    have A : |S (m + 1)| ≤ 2 := bd _ (by linarith)
    have B : |S m| ≤ 2 := bd _ (by linarith)
    have D : (1 + r m) * |x| * |S (m + 1)| + r m * |S m| ≤ 6 := by
      have h1 : |x| * |S (m + 1)| ≤ 2 := by
        have := mul_le_mul hx A (abs_nonneg _) zero_le_one
        linarith
      have := (hr m).1
      have := (hr m).2
      nlinarith [abs_nonneg (S m), mul_nonneg (abs_nonneg x) (abs_nonneg (S (m + 1)))]
    have loc := (hS m (by omega)).trans (mul_le_mul_of_nonneg_left D g0)
    set d := S (m + 2) - ((1 + r m) * x * S (m + 1) - r m * S m) with hd
    have split : S (m + 1 + 1) - P (m + 1 + 1) =
        ((1 + r m) * x * (S (m + 1) - P (m + 1)) - r m * (S m - P m)) + d := by
      rw [hd, hP]; ring
    have St : √(form x (S (m + 1 + 1) - P (m + 1 + 1)) (S (m + 1) - P (m + 1))) ≤ 6 * (m + 1) * g := by
      rw [split]
      refine (form_add hx _ _ _).trans ?_
      have := Real.sqrt_le_sqrt (form_step (x := x) (hr m).1 (hr m).2 (S (m + 1) - P (m + 1)) (S m - P m))
      linarith
    refine ⟨St, i3.trans hm', ?_⟩
    refine (abs_le_form hx _ (S (m + 1) - P (m + 1))).trans ?_
    nlinarith

/-- The ratio of the Legendre recurrence. -/
noncomputable def ratio (k m : ℕ) : ℝ := m / (m + 1 + 2 * k)

omit hx in
theorem ratio_mem (k m : ℕ) : 0 ≤ ratio k m ∧ ratio k m ≤ 1 := by
  unfold ratio
  have h1 : (0 : ℝ) ≤ m := Nat.cast_nonneg m
  have h2 : (0 : ℝ) ≤ k := Nat.cast_nonneg k
  exact ⟨by positivity, by rw [div_le_one (by positivity)]; linarith⟩

omit hx in
theorem legendre_rec (m : ℕ) : Verif.Legendre.evalShift x (m + 2) =
    (1 + ratio 0 m) * x * Verif.Legendre.evalShift x (m + 1) - ratio 0 m * Verif.Legendre.evalShift x m := by
  rw [Verif.Legendre.evalShift]
  unfold ratio
  have : (m : ℝ) + 1 ≠ 0 := by positivity
  push_cast
  simp only [mul_zero, add_zero]
  field_simp
  ring

/-- The Legendre polynomials are at most one on the interval. -/
theorem legendre_le (n : ℕ) : |Verif.Legendre.eval n x| ≤ 1 :=
  seq_le hx (ratio_mem 0) (by simp [ratio]) rfl rfl legendre_rec (n + 1)

omit hx in
/-- The rounding errors of one step. -/
theorem local_err {R : Rounding} (hu : 5 * R.u < 1) {n : ℝ} (hn : 1 ≤ n) (e1 : R.fl (R.fl (2 * n) - 1) = 2 * n - 1)
    (e2 : R.fl (n - 1) = n - 1) (x a b : ℝ) :
    |R.fl (R.fl (1 / n) * R.fl (R.fl (R.fl (R.fl (R.fl (2 * n) - 1) * x) * a) - R.fl (R.fl (n - 1) * b))) -
      ((2 * n - 1) * x * a - (n - 1) * b) / n| ≤
      5 * R.u / (1 - 5 * R.u) * (((2 * n - 1) * |x| * |a| + (n - 1) * |b|) / n) := by
  have u0 := R.u_nonneg
  have hu1 : R.u < 1 := by linarith
  have n0 : 0 < n := by linarith
  rw [e1, e2]
  obtain ⟨t1, h1, r1⟩ := Pert.fl hu1 (1 / n)
  obtain ⟨t2, h2, r2⟩ := Pert.fl hu1 ((2 * n - 1) * x)
  rw [r1, r2]
  obtain ⟨t3, h3, r3⟩ := Pert.fl hu1 ((2 * n - 1) * x * t2 * a)
  obtain ⟨t4, h4, r4⟩ := Pert.fl hu1 ((n - 1) * b)
  rw [r3, r4]
  obtain ⟨t5, h5, r5⟩ := Pert.fl hu1 ((2 * n - 1) * x * t2 * a * t3 - (n - 1) * b * t4)
  rw [r5]
  obtain ⟨t6, h6, r6⟩ := Pert.fl hu1 (1 / n * t1 * (((2 * n - 1) * x * t2 * a * t3 - (n - 1) * b * t4) * t5))
  rw [r6]
  have T1 := ((((h1.mul hu1 h2).mul hu1 h3).mul hu1 h5).mul hu1 h6).err hu1 (by push_cast; linarith)
  have T2 := (((((h1.mul hu1 h4).mul hu1 h5).mul hu1 h6)).mono hu1 (show 1 + 1 + 1 + 1 ≤ 1 + 1 + 1 + 1 + 1 by omega)).err hu1
    (by push_cast; linarith)
  norm_num at T1 T2
  rw [show 1 / n * t1 * (((2 * n - 1) * x * t2 * a * t3 - (n - 1) * b * t4) * t5) * t6 - ((2 * n - 1) * x * a - (n - 1) * b) / n =
    (2 * n - 1) * x * a / n * (t1 * t2 * t3 * t5 * t6 - 1) - (n - 1) * b / n * (t1 * t4 * t5 * t6 - 1) by field_simp; ring]
  refine (abs_sub _ _).trans ?_
  rw [abs_mul, abs_mul, abs_div, abs_div, abs_mul, abs_mul, abs_mul, abs_of_pos n0, abs_of_nonneg (show 0 ≤ n - 1 by linarith),
    abs_of_nonneg (show 0 ≤ 2 * n - 1 by linarith)]
  have p1 : 0 ≤ (2 * n - 1) * |x| * |a| / n := by
    have : 0 ≤ 2 * n - 1 := by linarith
    positivity
  have p2 : 0 ≤ (n - 1) * |b| / n := by
    have : 0 ≤ n - 1 := by linarith
    positivity
  have := mul_le_mul_of_nonneg_left T1 p1
  have := mul_le_mul_of_nonneg_left T2 p2
  calc _ ≤ (2 * n - 1) * |x| * |a| / n * (5 * R.u / (1 - 5 * R.u)) + (n - 1) * |b| / n * (5 * R.u / (1 - 5 * R.u)) := by linarith
    _ = _ := by ring

omit hx in
/-- The small integers of the recurrence are exact. -/
theorem exact_ints {R : Rounding} {n : ℕ} (h1 : 1 ≤ n) (h : 2 * n ≤ 2 ^ R.bits) :
    R.fl (R.fl (2 * (n : ℝ)) - 1) = 2 * n - 1 ∧ R.fl ((n : ℝ) - 1) = n - 1 := by
  have ex : ∀ m : ℤ, |m| ≤ 2 ^ R.bits → R.fl m = m := by
    intro m hm
    have := R.exact m 0 hm
    simpa using this
  have hb : ((2 * n : ℕ) : ℤ) ≤ 2 ^ R.bits := by exact_mod_cast h
  push_cast at hb
  have a1 := ex (2 * n) (by rw [abs_of_nonneg (by positivity)]; exact hb)
  have a2 := ex (2 * n - 1) (by rw [abs_of_nonneg (by omega)]; omega)
  have a3 := ex (n - 1) (by rw [abs_of_nonneg (by omega)]; omega)
  push_cast at a1 a2 a3
  exact ⟨by rw [a1, a2], a3⟩

/-- Errors of the rounded Legendre recurrence. -/
theorem recur_err {R : Rounding} (hu : 5 * R.u < 1) (m : ℕ) (hb : 2 * m ≤ 2 ^ R.bits)
    (hm : 3 * m * (m + 1) * (5 * R.u / (1 - 5 * R.u)) ≤ 1) :
    |evalShift R x (m + 1) - Verif.Legendre.evalShift x (m + 1)| ≤ 3 * m * (m + 1) * (5 * R.u / (1 - 5 * R.u)) := by
  refine (seq_err hx (div_nonneg (by linarith [R.u_nonneg]) (by linarith)) (ratio_mem 0) (by simp [ratio]) rfl rfl legendre_rec
    rfl rfl m ?_ hm).2.2
  intro j hj
  obtain ⟨x1, x2⟩ := exact_ints (n := j + 1) (by omega) (show 2 * (j + 1) ≤ 2 ^ R.bits by omega)
  have j0 : (0 : ℝ) ≤ j := Nat.cast_nonneg j
  have loc := local_err hu (n := ((j + 1 : ℕ) : ℝ)) (by push_cast; linarith) x1 x2 x (evalShift R x (j + 1)) (evalShift R x j)
  have c1 : ∀ a b : ℝ, ((2 * ((j + 1 : ℕ) : ℝ) - 1) * a + (((j + 1 : ℕ) : ℝ) - 1) * b) / ((j + 1 : ℕ) : ℝ) =
      (1 + ratio 0 j) * a + ratio 0 j * b := by
    intro a b
    unfold ratio
    push_cast
    simp only [mul_zero, add_zero]
    have : (j : ℝ) + 1 ≠ 0 := by positivity
    field_simp
    ring
  have c2 := c1 (x * evalShift R x (j + 1)) (-evalShift R x j)
  have c3 := c1 (|x| * |evalShift R x (j + 1)|) (|evalShift R x j|)
  rw [evalShift]
  simp only [mul_assoc, mul_neg, ← sub_eq_add_neg] at c2 c3 loc ⊢
  rw [c2, c3] at loc
  exact loc

end Verif.Fp.Legendre
