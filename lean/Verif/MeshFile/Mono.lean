import Verif.MeshFile.Round

/-!
# Printing with `%12.5e` does not change the order of numbers
-/

namespace Verif.MeshFile

/-- The number denoted by what `%12.5e` prints for `x`. -/
noncomputable def printed (rnd : ℝ → ℕ) (x : ℝ) : ℝ := (toSci rnd x).val

variable {rnd : ℝ → ℕ}

theorem Nearest.mono (h : Nearest rnd) {x y : ℝ} (hx : 0 ≤ x) (hxy : x ≤ y) : rnd x ≤ rnd y := by
  rcases hxy.eq_or_lt with rfl | hlt
  · exact le_rfl
  have h1 := abs_le.1 (h x hx)
  have h2 := abs_le.1 (h y (hx.trans hxy))
  have : (rnd x : ℝ) < rnd y + 1 := by linarith
  have : rnd x < rnd y + 1 := by exact_mod_cast this
  omega

theorem printed_zero : printed rnd 0 = 0 := by unfold printed toSci Sci.val; simp

/-- Positive numbers: the grid of the decade. -/
theorem printed_pos {x : ℝ} (hx : 0 < x) :
    printed rnd x = rnd (x / 10 ^ (Int.log 10 x - 5)) * (10 : ℝ) ^ (Int.log 10 x - 5) := by
  unfold printed toSci
  rw [if_neg hx.ne', abs_of_pos hx]
  simp only []
  split_ifs with h
  · unfold Sci.val
    rw [h]
    simp only [decide_eq_true_eq, not_lt.2 hx.le, if_false]
    rw [show Int.log 10 x + 1 - 5 = (Int.log 10 x - 5) + 1 by ring, zpow_add₀ (by norm_num : (10 : ℝ) ≠ 0), zpow_one]
    push_cast; ring
  · unfold Sci.val
    simp only [decide_eq_true_eq, not_lt.2 hx.le, if_false, one_mul]

theorem printed_neg {x : ℝ} (hx : 0 < x) : printed rnd (-x) = - printed rnd x := by
  rw [printed_pos hx]
  unfold printed toSci
  rw [if_neg (neg_ne_zero.2 hx.ne'), abs_neg, abs_of_pos hx]
  simp only []
  have hn : -x < 0 := by linarith
  split_ifs with h
  · unfold Sci.val
    rw [h]
    simp only [decide_eq_true_eq, hn, if_true]
    rw [show Int.log 10 x + 1 - 5 = (Int.log 10 x - 5) + 1 by ring, zpow_add₀ (by norm_num : (10 : ℝ) ≠ 0), zpow_one]
    push_cast; ring
  · unfold Sci.val
    simp only [decide_eq_true_eq, hn, if_true]
    ring

/-- The decade of a positive number. -/
theorem decade {x : ℝ} (hx : 0 < x) :
    (10 : ℝ) ^ Int.log 10 x ≤ x ∧ x < (10 : ℝ) ^ (Int.log 10 x + 1) := by
  have h1 := Int.zpow_log_le_self (R := ℝ) (b := 10) (by decide) hx
  have h2 := Int.lt_zpow_succ_log_self (R := ℝ) (b := 10) (by decide) x
  exact ⟨by exact_mod_cast h1, by exact_mod_cast h2⟩

theorem printed_bounds (h : Nearest rnd) {x : ℝ} (hx : 0 < x) :
    (10 : ℝ) ^ Int.log 10 x ≤ printed rnd x ∧ printed rnd x ≤ (10 : ℝ) ^ (Int.log 10 x + 1) := by
  obtain ⟨d1, d2⟩ := decade hx
  rw [printed_pos hx]
  set e := Int.log 10 x
  set P := (10 : ℝ) ^ (e - 5) with hP
  have hPp : 0 < P := zpow_pos (by norm_num) _
  have e1 : (10 : ℝ) ^ e = 100000 * P := by rw [zpow10_5 e]; ring
  have e2 : (10 : ℝ) ^ (e + 1) = 1000000 * P := by rw [zpow_add₀ (by norm_num : (10 : ℝ) ≠ 0), e1, zpow_one]; ring
  rw [e1] at d1 ⊢
  rw [e2] at d2 ⊢
  have q1 : (100000 : ℝ) ≤ x / P := by rw [le_div_iff₀ hPp]; exact d1
  have q2 : x / P < 1000000 := by rw [div_lt_iff₀ hPp]; exact d2
  have n := abs_le.1 (h (x / P) (by linarith))
  have m1 : (100000 : ℕ) ≤ rnd (x / P) := by
    have : (99999 : ℝ) < rnd (x / P) := by linarith
    have : 99999 < rnd (x / P) := by exact_mod_cast this
    omega
  have m2 : rnd (x / P) ≤ 1000000 := by
    have : (rnd (x / P) : ℝ) < 1000001 := by linarith
    have : rnd (x / P) < 1000001 := by exact_mod_cast this
    omega
  constructor
  · exact mul_le_mul_of_nonneg_right (by exact_mod_cast m1) hPp.le
  · exact mul_le_mul_of_nonneg_right (by exact_mod_cast m2) hPp.le

theorem printed_nonneg (h : Nearest rnd) {x : ℝ} (hx : 0 ≤ x) : 0 ≤ printed rnd x := by
  rcases hx.eq_or_lt with rfl | hp
  · rw [printed_zero]
  · exact (zpow_pos (by norm_num) _).le.trans (printed_bounds h hp).1

theorem printed_mono_pos (h : Nearest rnd) {x y : ℝ} (hx : 0 < x) (hxy : x ≤ y) : printed rnd x ≤ printed rnd y := by
  have hy := hx.trans_le hxy
  have hl : Int.log 10 x ≤ Int.log 10 y := Int.log_mono_right hx hxy
  rcases hl.eq_or_lt with he | hlt
  · rw [printed_pos hx, printed_pos hy, he]
    have hPp : (0 : ℝ) < 10 ^ (Int.log 10 y - 5) := zpow_pos (by norm_num) _
    refine mul_le_mul_of_nonneg_right ?_ hPp.le
    exact_mod_cast h.mono (by positivity) (div_le_div_of_nonneg_right hxy hPp.le)
  · refine (printed_bounds h hx).2.trans (le_trans ?_ (printed_bounds h hy).1)
    exact zpow_le_zpow_right₀ (by norm_num) (by omega)

/-- What is printed for the larger number is not smaller. -/
theorem printed_mono (h : Nearest rnd) {x y : ℝ} (hxy : x ≤ y) : printed rnd x ≤ printed rnd y := by
  rcases lt_trichotomy x 0 with hx | rfl | hx
  · have hx' : 0 < -x := by linarith
    have ex : printed rnd x = - printed rnd (-x) := by rw [← printed_neg hx', neg_neg]
    rcases lt_or_ge y 0 with hy | hy
    · have hy' : 0 < -y := by linarith
      have ey : printed rnd y = - printed rnd (-y) := by rw [← printed_neg hy', neg_neg]
      have := printed_mono_pos h hy' (by linarith : -y ≤ -x)
      rw [ex, ey]; linarith
    · have := printed_nonneg h hy
      have := printed_nonneg h hx'.le
      rw [ex]; linarith
  · rw [printed_zero]; exact printed_nonneg h hxy
  · exact printed_mono_pos h hx hxy

theorem printed_err (h : Nearest rnd) (x : ℝ) : |printed rnd x - x| ≤ 5 / 10 ^ 6 * |x| := (toSci_spec h x).2

end Verif.MeshFile
