import Verif.Fp.LegendreTheorems
import Verif.Fp.ComplexModel

/-!
# The rounded Legendre recurrence at a complex point near the real interval
-/

namespace Verif.Fp.Cx
open Verif.Fp Finset Polynomial
open Verif.Fp.Legendre (form form_step form_add abs_le_form ratio ratio_mem legendre_rec legendre_le exact_ints)

variable {R : Rounding} {x : ℝ}

/-- A sequence driven through the recurrence by disturbances of at most `ε`. -/
theorem drive (hx : |x| ≤ 1) {r E : ℕ → ℝ} {ε : ℝ} (e0 : 0 ≤ ε) (hr : ∀ m, 0 ≤ r m ∧ r m ≤ 1) (E0 : E 0 = 0) (E1 : E 1 = 0) (m : ℕ)
    (hE : ∀ j < m, |E (j + 2) - ((1 + r j) * x * E (j + 1) - r j * E j)| ≤ ε) :
    √(form x (E (m + 1)) (E m)) ≤ m * ε ∧ |E m| ≤ m * (m + 1) / 2 * ε ∧ |E (m + 1)| ≤ m * (m + 1) / 2 * ε := by
  induction m with
  | zero => simp [E0, E1, form]
  | succ m ih =>
    have m0 : (0 : ℝ) ≤ m := Nat.cast_nonneg m
    obtain ⟨i1, i2, i3⟩ := ih fun j hj => hE j (by omega)
    have loc := hE m (by omega)
    push_cast
    set d := E (m + 2) - ((1 + r m) * x * E (m + 1) - r m * E m) with hd
    have split : E (m + 1 + 1) = ((1 + r m) * x * E (m + 1) - r m * E m) + d := by rw [hd]; ring
    have St : √(form x (E (m + 1 + 1)) (E (m + 1))) ≤ (m + 1) * ε := by
      rw [split]
      refine (form_add hx _ _ _).trans ?_
      have := Real.sqrt_le_sqrt (form_step (x := x) (hr m).1 (hr m).2 (E (m + 1)) (E m))
      linarith
    have me := mul_nonneg m0 e0
    refine ⟨St, i3.trans (by nlinarith), (abs_le_form hx _ (E (m + 1))).trans ?_⟩
    nlinarith

/-- The derivative of the polynomial of shifted index `m`. -/
noncomputable def D (x : ℝ) (m : ℕ) : ℝ := (derivative (Verif.Legendre.Q m : ℝ[X])).eval x

theorem D_rec (x : ℝ) (m : ℕ) :
    D x (m + 2) = (1 + ratio 0 m) * (x * D x (m + 1) + Verif.Legendre.evalShift x (m + 1)) - ratio 0 m * D x m := by
  have h : (m : ℝ) + 1 ≠ 0 := by positivity
  unfold D ratio
  rw [Verif.Legendre.evalShift_eq, Verif.Legendre.Q]
  simp
  field_simp
  ring

theorem D_zero (x : ℝ) : D x 0 = 0 ∧ D x 1 = 0 := by simp [D, Verif.Legendre.Q]

/-- The derivatives are at most `m (m + 1)`. -/
theorem D_le (hx : |x| ≤ 1) (m : ℕ) : |D x (m + 1)| ≤ m * (m + 1) := by
  have := (drive hx (E := D x) (ε := 2) (by norm_num) (ratio_mem 0) (D_zero x).1 (D_zero x).2 m fun j hj => by
    rw [D_rec, show (1 + ratio 0 j) * (x * D x (j + 1) + Verif.Legendre.evalShift x (j + 1)) - ratio 0 j * D x j -
      ((1 + ratio 0 j) * x * D x (j + 1) - ratio 0 j * D x j) = (1 + ratio 0 j) * Verif.Legendre.evalShift x (j + 1) by ring, abs_mul]
    have h1 := legendre_le hx j
    have h2 := ratio_mem 0 j
    rw [abs_of_nonneg (by linarith)]
    calc (1 + ratio 0 j) * |Verif.Legendre.evalShift x (j + 1)| ≤ 2 * 1 := mul_le_mul (by linarith) h1 (abs_nonneg _) (by norm_num)
      _ = 2 := by norm_num).2.2
  linarith

/-- The rounding errors of one part of one step. -/
theorem local_err (hu : 6 * R.u < 1) {n : ℝ} (hn : 1 ≤ n) {s : ℝ} (hs : s = 1 ∨ s = -1) (x y a b c : ℝ) :
    |R.fl (R.fl (1 / n) * R.fl (R.fl (R.fl (R.fl ((2 * n - 1) * x) * a) + s * R.fl (R.fl ((2 * n - 1) * y) * b)) - R.fl ((n - 1) * c))) -
      ((2 * n - 1) * (x * a + s * (y * b)) - (n - 1) * c) / n| ≤
      6 * R.u / (1 - 6 * R.u) * (((2 * n - 1) * (|x| * |a| + |y| * |b|) + (n - 1) * |c|) / n) := by
  have u0 := R.u_nonneg
  have hu1 : R.u < 1 := by linarith
  have n0 : 0 < n := by linarith
  obtain ⟨t1, h1, r1⟩ := Pert.fl hu1 (1 / n)
  obtain ⟨t2, h2, r2⟩ := Pert.fl hu1 ((2 * n - 1) * x)
  obtain ⟨t3, h3, r3⟩ := Pert.fl hu1 ((2 * n - 1) * y)
  obtain ⟨t4, h4, r4⟩ := Pert.fl hu1 ((n - 1) * c)
  rw [r1, r2, r3, r4]
  obtain ⟨t5, h5, r5⟩ := Pert.fl hu1 ((2 * n - 1) * x * t2 * a)
  obtain ⟨t6, h6, r6⟩ := Pert.fl hu1 ((2 * n - 1) * y * t3 * b)
  rw [r5, r6]
  obtain ⟨t7, h7, r7⟩ := Pert.fl hu1 ((2 * n - 1) * x * t2 * a * t5 + s * ((2 * n - 1) * y * t3 * b * t6))
  rw [r7]
  obtain ⟨t8, h8, r8⟩ := Pert.fl hu1 (((2 * n - 1) * x * t2 * a * t5 + s * ((2 * n - 1) * y * t3 * b * t6)) * t7 - (n - 1) * c * t4)
  rw [r8]
  obtain ⟨t9, h9, r9⟩ := Pert.fl hu1 (1 / n * t1 *
    ((((2 * n - 1) * x * t2 * a * t5 + s * ((2 * n - 1) * y * t3 * b * t6)) * t7 - (n - 1) * c * t4) * t8))
  rw [r9]
  have T1 := (((((h1.mul hu1 h2).mul hu1 h5).mul hu1 h7).mul hu1 h8).mul hu1 h9).err hu1 (by push_cast; linarith)
  have T2 := (((((h1.mul hu1 h3).mul hu1 h6).mul hu1 h7).mul hu1 h8).mul hu1 h9).err hu1 (by push_cast; linarith)
  have T3 := ((((h1.mul hu1 h4).mul hu1 h8).mul hu1 h9).mono hu1 (show 1 + 1 + 1 + 1 ≤ 1 + 1 + 1 + 1 + 1 + 1 by omega)).err hu1
    (by push_cast; linarith)
  norm_num at T1 T2 T3
  set G := 6 * R.u / (1 - 6 * R.u)
  rw [show 1 / n * t1 * ((((2 * n - 1) * x * t2 * a * t5 + s * ((2 * n - 1) * y * t3 * b * t6)) * t7 - (n - 1) * c * t4) * t8) * t9 -
      ((2 * n - 1) * (x * a + s * (y * b)) - (n - 1) * c) / n =
    (2 * n - 1) * (x * a) / n * (t1 * t2 * t5 * t7 * t8 * t9 - 1) + s * ((2 * n - 1) * (y * b) / n * (t1 * t3 * t6 * t7 * t8 * t9 - 1)) -
      (n - 1) * c / n * (t1 * t4 * t8 * t9 - 1) by field_simp; ring]
  have s1 : ∀ z : ℝ, |s * z| = |z| := by intro z; rcases hs with h | h <;> rw [h] <;> simp
  have n1 : 0 ≤ n - 1 := by linarith
  have n2 : 0 ≤ 2 * n - 1 := by linarith
  have q1 : |(2 * n - 1) * (x * a) / n * (t1 * t2 * t5 * t7 * t8 * t9 - 1)| ≤ (2 * n - 1) * (|x| * |a|) / n * G := by
    rw [abs_mul, abs_div, abs_mul, abs_mul, abs_of_pos n0, abs_of_nonneg n2]
    exact mul_le_mul_of_nonneg_left T1 (by positivity)
  have q2 : |s * ((2 * n - 1) * (y * b) / n * (t1 * t3 * t6 * t7 * t8 * t9 - 1))| ≤ (2 * n - 1) * (|y| * |b|) / n * G := by
    rw [s1, abs_mul, abs_div, abs_mul, abs_mul, abs_of_pos n0, abs_of_nonneg n2]
    exact mul_le_mul_of_nonneg_left T2 (by positivity)
  have q3 : |(n - 1) * c / n * (t1 * t4 * t8 * t9 - 1)| ≤ (n - 1) * |c| / n * G := by
    rw [abs_mul, abs_div, abs_mul, abs_of_pos n0, abs_of_nonneg n1]
    exact mul_le_mul_of_nonneg_left T3 (by positivity)
  refine (abs_sub _ _).trans ?_
  have := abs_add_le ((2 * n - 1) * (x * a) / n * (t1 * t2 * t5 * t7 * t8 * t9 - 1))
    (s * ((2 * n - 1) * (y * b) / n * (t1 * t3 * t6 * t7 * t8 * t9 - 1)))
  calc _ ≤ (2 * n - 1) * (|x| * |a|) / n * G + (2 * n - 1) * (|y| * |b|) / n * G + (n - 1) * |c| / n * G := by linarith
    _ = _ := by ring

/-- One step in terms of the parts. -/
theorem step_err (hu : 6 * R.u < 1) {j : ℕ} (hb : 2 * (j + 1) ≤ 2 ^ R.bits) (x h : ℝ) :
    |(evalShift R (x, h) (j + 2)).1 - ((1 + ratio 0 j) * (x * (evalShift R (x, h) (j + 1)).1 - h * (evalShift R (x, h) (j + 1)).2) -
        ratio 0 j * (evalShift R (x, h) j).1)| ≤
      6 * R.u / (1 - 6 * R.u) * ((1 + ratio 0 j) * (|x| * |(evalShift R (x, h) (j + 1)).1| + |h| * |(evalShift R (x, h) (j + 1)).2|) +
        ratio 0 j * |(evalShift R (x, h) j).1|) ∧
    |(evalShift R (x, h) (j + 2)).2 - ((1 + ratio 0 j) * (x * (evalShift R (x, h) (j + 1)).2 + h * (evalShift R (x, h) (j + 1)).1) -
        ratio 0 j * (evalShift R (x, h) j).2)| ≤
      6 * R.u / (1 - 6 * R.u) * ((1 + ratio 0 j) * (|x| * |(evalShift R (x, h) (j + 1)).2| + |h| * |(evalShift R (x, h) (j + 1)).1|) +
        ratio 0 j * |(evalShift R (x, h) j).2|) := by
  obtain ⟨x1, x2⟩ := exact_ints (R := R) (n := j + 1) (by omega) hb
  have j0 : (0 : ℝ) ≤ j := Nat.cast_nonneg j
  have c1 : ∀ a b : ℝ, ((2 * ((j + 1 : ℕ) : ℝ) - 1) * a + (((j + 1 : ℕ) : ℝ) - 1) * b) / ((j + 1 : ℕ) : ℝ) =
      (1 + ratio 0 j) * a + ratio 0 j * b := by
    intro a b
    unfold ratio
    push_cast
    simp only [mul_zero, add_zero]
    have : (j : ℝ) + 1 ≠ 0 := by positivity
    field_simp
    ring
  have c2 : ∀ a b : ℝ, ((2 * ((j + 1 : ℕ) : ℝ) - 1) * a - (((j + 1 : ℕ) : ℝ) - 1) * b) / ((j + 1 : ℕ) : ℝ) =
      (1 + ratio 0 j) * a - ratio 0 j * b := by
    intro a b
    have := c1 a (-b)
    rw [mul_neg, mul_neg, ← sub_eq_add_neg, ← sub_eq_add_neg] at this
    exact this
  have hn : (1 : ℝ) ≤ ((j + 1 : ℕ) : ℝ) := by push_cast; linarith
  constructor
  · have := local_err hu hn (Or.inr rfl : (-1 : ℝ) = 1 ∨ (-1 : ℝ) = -1) x h (evalShift R (x, h) (j + 1)).1 (evalShift R (x, h) (j + 1)).2
      (evalShift R (x, h) j).1
    rw [c1, c2, neg_one_mul, neg_one_mul, ← sub_eq_add_neg, ← sub_eq_add_neg] at this
    rw [evalShift]
    simp only [rmul, csub, cmul, x1, x2]
    exact this
  · have := local_err hu hn (Or.inl rfl : (1 : ℝ) = 1 ∨ (1 : ℝ) = -1) x h (evalShift R (x, h) (j + 1)).2 (evalShift R (x, h) (j + 1)).1
      (evalShift R (x, h) j).2
    rw [c1, c2, one_mul, one_mul] at this
    rw [evalShift]
    simp only [rmul, csub, cmul, x1, x2]
    exact this

/-- Both parts along the recurrence: the real part is close to the polynomial, the imaginary part divided by the step to its derivative. -/
theorem recur_err (hx : |x| ≤ 1) (hu : 6 * R.u < 1) {n : ℕ} (hn : 1 ≤ n) (hb : 2 * n ≤ 2 ^ R.bits) {h M g : ℝ} (h0 : h ≠ 0)
    (hM : M = n * (n + 1)) (hg : g = 6 * R.u / (1 - 6 * R.u)) (H : 2 * M ^ 2 * h ^ 2 + 8 * M * g ≤ 1) :
    ∀ m ≤ n, ∀ k ≤ m + 1, |(evalShift R (x, h) k).1 - Verif.Legendre.evalShift x k| ≤ 2 * M ^ 2 * h ^ 2 + 4 * M * g ∧
      |(evalShift R (x, h) k).2 / h - D x k| ≤ 2 * M ^ 3 * h ^ 2 + 8 * M ^ 2 * g ∧ |D x k| ≤ M := by
  have g0 : 0 ≤ g := by rw [hg]; exact div_nonneg (by linarith [R.u_nonneg]) (by linarith)
  have n1 : (1 : ℝ) ≤ n := by exact_mod_cast hn
  have M2 : 2 ≤ M := by rw [hM]; nlinarith
  have hh : 0 ≤ h ^ 2 := sq_nonneg h
  have Mg : 0 ≤ M * g := by positivity
  have Mh : 0 ≤ M * h ^ 2 := by positivity
  have small : 2 * M * h ^ 2 ≤ 1 := by nlinarith
  set a : ℕ → ℝ := fun k => (evalShift R (x, h) k).1 with ha
  set b : ℕ → ℝ := fun k => (evalShift R (x, h) k).2 with hbb
  set P : ℕ → ℝ := fun k => Verif.Legendre.evalShift x k with hP
  have Pl : ∀ k, |P k| ≤ 1 := by
    intro k
    rcases k with _ | k
    · simp [hP, Verif.Legendre.evalShift]
    · exact legendre_le hx k
  have Dl : ∀ k ≤ n + 1, |D x k| ≤ M := by
    intro k hk
    rcases k with _ | k
    · rw [(D_zero x).1, abs_zero]; linarith
    · refine (D_le hx k).trans ?_
      have : (k : ℝ) ≤ n := by exact_mod_cast (by omega : k ≤ n)
      rw [hM]
      have k0 : (0 : ℝ) ≤ k := Nat.cast_nonneg k
      nlinarith
  have key : ∀ m ≤ n, ∀ k ≤ m + 1, |a k - P k| ≤ M / 2 * (4 * M * h ^ 2 + 8 * g) ∧
      |b k / h - D x k| ≤ M / 2 * (4 * M ^ 2 * h ^ 2 + 16 * M * g) := by
    intro m
    induction m with
    | zero =>
      intro _ k hk
      have e1 : 0 ≤ M / 2 * (4 * M * h ^ 2 + 8 * g) := by positivity
      have e2 : 0 ≤ M / 2 * (4 * M ^ 2 * h ^ 2 + 16 * M * g) := by positivity
      interval_cases k
      · refine ⟨?_, ?_⟩
        · simp [ha, hP, evalShift, Verif.Legendre.evalShift, e1]
        · simp [hbb, evalShift, (D_zero x).1, e2]
      · refine ⟨?_, ?_⟩
        · simp [ha, hP, evalShift, Verif.Legendre.evalShift, e1]
        · simp [hbb, evalShift, (D_zero x).2, e2]
    | succ m ih =>
      intro hm k hk
      have ih := ih (by omega)
      have al : ∀ k ≤ m + 1, |a k| ≤ 2 := by
        intro k hk
        have h1 := abs_add_le (a k - P k) (P k)
        rw [sub_add_cancel] at h1
        have h2 := (ih k hk).1
        have := Pl k
        nlinarith
      have tl : ∀ k ≤ m + 1, |b k / h| ≤ 2 * M := by
        intro k hk
        have h1 := abs_add_le (b k / h - D x k) (D x k)
        rw [sub_add_cancel] at h1
        have h2 := (ih k hk).2
        have h3 := Dl k (by omega)
        have : M / 2 * (4 * M ^ 2 * h ^ 2 + 16 * M * g) = M * (2 * M ^ 2 * h ^ 2 + 8 * M * g) := by ring
        have : M * (2 * M ^ 2 * h ^ 2 + 8 * M * g) ≤ M * 1 := mul_le_mul_of_nonneg_left H (by linarith)
        linarith
      have bl : ∀ k ≤ m + 1, |h| * |b k| ≤ 2 * M * h ^ 2 := by
        intro k hk
        have := mul_le_mul_of_nonneg_left (tl k hk) hh
        rw [abs_div, ← sq_abs h] at this
        have hp : 0 < |h| := abs_pos.2 h0
        rw [← sq_abs h]
        calc |h| * |b k| = |h| ^ 2 * (|b k| / |h|) := by field_simp
          _ ≤ _ := this
          _ = _ := by ring
      have mM : ((m + 1 : ℕ) : ℝ) * (((m + 1 : ℕ) : ℝ) + 1) / 2 ≤ M / 2 := by
        have : ((m + 1 : ℕ) : ℝ) ≤ n := by exact_mod_cast hm
        have m0 : (0 : ℝ) ≤ ((m + 1 : ℕ) : ℝ) := Nat.cast_nonneg _
        rw [hM]
        nlinarith
      have d1 : ∀ j < m + 1, |(a (j + 2) - P (j + 2)) - ((1 + ratio 0 j) * x * (a (j + 1) - P (j + 1)) - ratio 0 j * (a j - P j))| ≤
          4 * M * h ^ 2 + 8 * g := by
        intro j hj
        have loc := (step_err hu (j := j) (by omega) x h).1
        have A := al (j + 1) (by omega)
        have A0 := al j (by omega)
        have B := bl (j + 1) (by omega)
        obtain ⟨r0, r1⟩ := ratio_mem 0 j
        have rcr := legendre_rec (x := x) j
        rw [show P (j + 2) = _ from rcr, show a (j + 2) - ((1 + ratio 0 j) * x * Verif.Legendre.evalShift x (j + 1) - ratio 0 j * Verif.Legendre.evalShift x j) -
            ((1 + ratio 0 j) * x * (a (j + 1) - P (j + 1)) - ratio 0 j * (a j - P j)) =
          (a (j + 2) - ((1 + ratio 0 j) * (x * a (j + 1) - h * b (j + 1)) - ratio 0 j * a j)) - (1 + ratio 0 j) * (h * b (j + 1)) by
            simp only [hP]; ring]
        refine (abs_sub _ _).trans ?_
        rw [abs_mul, abs_mul, abs_of_nonneg (show 0 ≤ 1 + ratio 0 j by linarith)]
        rw [← hg] at loc
        have xa : |x| * |a (j + 1)| ≤ 2 := by
          have := mul_le_mul hx A (abs_nonneg _) zero_le_one
          linarith
        have hb0 : 0 ≤ |h| * |b (j + 1)| := by positivity
        have xa0 : 0 ≤ |x| * |a (j + 1)| := by positivity
        have t1 : (1 + ratio 0 j) * (|h| * |b (j + 1)|) ≤ 2 * (2 * M * h ^ 2) := mul_le_mul (by linarith) B hb0 (by norm_num)
        have t2 : (1 + ratio 0 j) * (|x| * |a (j + 1)| + |h| * |b (j + 1)|) ≤ 2 * 3 :=
          mul_le_mul (by linarith) (by linarith) (by linarith) (by norm_num)
        have t3 : ratio 0 j * |a j| ≤ 1 * 2 := mul_le_mul r1 A0 (abs_nonneg _) zero_le_one
        have t4 := mul_le_mul_of_nonneg_left (add_le_add t2 t3) g0
        have := loc.trans t4
        linarith
      have d2 : ∀ j < m + 1, |(b (j + 2) / h - D x (j + 2)) -
          ((1 + ratio 0 j) * x * (b (j + 1) / h - D x (j + 1)) - ratio 0 j * (b j / h - D x j))| ≤ 4 * M ^ 2 * h ^ 2 + 16 * M * g := by
        intro j hj
        have loc := (step_err hu (j := j) (by omega) x h).2
        have A := al (j + 1) (by omega)
        have Ae := (ih (j + 1) (by omega)).1
        have B := tl (j + 1) (by omega)
        have B0 := tl j (by omega)
        obtain ⟨r0, r1⟩ := ratio_mem 0 j
        have hp : 0 < |h| := abs_pos.2 h0
        rw [D_rec, show b (j + 2) / h - ((1 + ratio 0 j) * (x * D x (j + 1) + Verif.Legendre.evalShift x (j + 1)) - ratio 0 j * D x j) -
            ((1 + ratio 0 j) * x * (b (j + 1) / h - D x (j + 1)) - ratio 0 j * (b j / h - D x j)) =
          (b (j + 2) - ((1 + ratio 0 j) * (x * b (j + 1) + h * a (j + 1)) - ratio 0 j * b j)) / h +
            (1 + ratio 0 j) * (a (j + 1) - P (j + 1)) by simp only [hP]; field_simp; ring]
        refine (abs_add_le _ _).trans ?_
        rw [abs_mul, abs_of_nonneg (show 0 ≤ 1 + ratio 0 j by linarith)]
        rw [← hg] at loc
        have loc' := div_le_div_of_nonneg_right loc hp.le
        change |b (j + 2) - ((1 + ratio 0 j) * (x * b (j + 1) + h * a (j + 1)) - ratio 0 j * b j)| / |h| ≤
          g * ((1 + ratio 0 j) * (|x| * |b (j + 1)| + |h| * |a (j + 1)|) + ratio 0 j * |b j|) / |h| at loc'
        rw [show g * ((1 + ratio 0 j) * (|x| * |b (j + 1)| + |h| * |a (j + 1)|) + ratio 0 j * |b j|) / |h| =
          g * ((1 + ratio 0 j) * (|x| * (|b (j + 1)| / |h|) + |a (j + 1)|) + ratio 0 j * (|b j| / |h|)) by field_simp] at loc'
        simp only [← abs_div] at loc'
        have xa : |x| * |b (j + 1) / h| ≤ 2 * M := by
          have := mul_le_mul hx B (abs_nonneg _) zero_le_one
          linarith
        have t1 : (1 + ratio 0 j) * |a (j + 1) - P (j + 1)| ≤ 2 * (M / 2 * (4 * M * h ^ 2 + 8 * g)) :=
          mul_le_mul (by linarith) Ae (abs_nonneg _) (by norm_num)
        have t2 : (1 + ratio 0 j) * (|x| * |b (j + 1) / h| + |a (j + 1)|) ≤ 2 * (2 * M + 2) :=
          mul_le_mul (by linarith) (by linarith) (by positivity) (by norm_num)
        have t3 : ratio 0 j * |b j / h| ≤ 1 * (2 * M) := mul_le_mul r1 B0 (abs_nonneg _) zero_le_one
        have t4 := mul_le_mul_of_nonneg_left (add_le_add t2 t3) g0
        have t5 := loc'.trans t4
        have t6 : g * (2 * (2 * M + 2) + 1 * (2 * M)) ≤ g * (8 * M) := mul_le_mul_of_nonneg_left (by linarith) g0
        linarith
      have z1 : a 0 - P 0 = 0 := by simp [ha, hP, evalShift, Verif.Legendre.evalShift]
      have z2 : a 1 - P 1 = 0 := by simp [ha, hP, evalShift, Verif.Legendre.evalShift]
      have z3 : b 0 / h - D x 0 = 0 := by simp [hbb, evalShift, (D_zero x).1]
      have z4 : b 1 / h - D x 1 = 0 := by simp [hbb, evalShift, (D_zero x).2]
      rcases Nat.lt_or_ge k (m + 2) with hk' | hk'
      · exact ih k (by omega)
      · have : k = m + 2 := by omega
        subst this
        have e1 : 0 ≤ 4 * M * h ^ 2 + 8 * g := by nlinarith
        have e2 : 0 ≤ 4 * M ^ 2 * h ^ 2 + 16 * M * g := by nlinarith [mul_nonneg (show (0:ℝ) ≤ M by linarith) Mh]
        have f1 := (drive hx (E := fun k => a k - P k) e1 (ratio_mem 0) z1 z2 (m + 1) d1).2.2
        have f2 := (drive hx (E := fun k => b k / h - D x k) e2 (ratio_mem 0) z3 z4 (m + 1) d2).2.2
        exact ⟨f1.trans (mul_le_mul_of_nonneg_right mM e1), f2.trans (mul_le_mul_of_nonneg_right mM e2)⟩
  intro m hm k hk
  obtain ⟨k1, k2⟩ := key m hm k hk
  exact ⟨k1.trans (le_of_eq (by ring)), k2.trans (le_of_eq (by ring)), Dl k (by omega)⟩

end Verif.Fp.Cx
