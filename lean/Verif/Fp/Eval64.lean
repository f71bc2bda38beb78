import Verif.Fp.Arith

/-!
# Evaluating double precision roundings of given numbers
-/

namespace Verif.Fp.Rounding

theorem nearest_near {z : ℝ} {n : ℤ} (h : |z - n| < 1 / 2) : nearest z = n := by
  obtain ⟨h1, h2⟩ := abs_lt.1 h
  unfold nearest
  rw [if_neg]
  · rw [Int.floor_eq_iff]; constructor <;> linarith
  · rintro ⟨e, -⟩
    have f1 := Int.floor_le z
    have a1 : ((⌊z⌋ : ℤ) : ℝ) < n := by linarith
    have a2 : (n : ℝ) - 1 < ⌊z⌋ := by linarith
    have b1 : ⌊z⌋ < n := by exact_mod_cast a1
    have b2 : n - 1 < ⌊z⌋ := by exact_mod_cast a2
    omega

theorem nearest_even {z : ℝ} {n : ℤ} (hn : Even n) (h : |z - n| ≤ 1 / 2) : nearest z = n := by
  rcases h.lt_or_eq with h | h
  · exact nearest_near h
  · unfold nearest
    rcases le_total 0 (z - n) with hs | hs
    · rw [abs_of_nonneg hs] at h
      have hf : ⌊z⌋ = n := by rw [Int.floor_eq_iff]; constructor <;> linarith
      rw [if_pos ⟨by rw [hf]; linarith, by rw [hf]; exact hn⟩, hf]
    · rw [abs_of_nonpos hs] at h
      have hf : ⌊z⌋ = n - 1 := by rw [Int.floor_eq_iff]; push_cast; constructor <;> linarith
      rw [if_neg, Int.floor_eq_iff]
      · constructor <;> linarith
      · rintro ⟨-, c⟩
        rw [hf] at c
        rw [Int.even_iff] at hn c
        omega

theorem log_eq {x : ℝ} {e : ℤ} (h1 : (2 : ℝ) ^ e ≤ x) (h2 : x < (2 : ℝ) ^ (e + 1)) : Int.log 2 x = e := by
  have hx : 0 < x := lt_of_lt_of_le (zpow_pos (by norm_num) _) h1
  have l1 : (2 : ℝ) ^ Int.log 2 x ≤ x := by exact_mod_cast Int.zpow_log_le_self (b := 2) (by norm_num) hx
  have l2 : x < (2 : ℝ) ^ (Int.log 2 x + 1) := by exact_mod_cast Int.lt_zpow_succ_log_self (b := 2) (by norm_num) x
  have a1 : Int.log 2 x < e + 1 := (zpow_lt_zpow_iff_right₀ (by norm_num : (1 : ℝ) < 2)).1 (l1.trans_lt h2)
  have a2 : e < Int.log 2 x + 1 := (zpow_lt_zpow_iff_right₀ (by norm_num : (1 : ℝ) < 2)).1 (h1.trans_lt l2)
  omega

/-- Rounding a number between `2^e` and `2^(e+1)`: the multiple of `w = 2^(e-52)` closer than half of it, or as close as half of it
if even. -/
theorem binary64_round {x : ℝ} (e n : ℤ) (w : ℝ) (hw : w = 2 ^ (e - 52)) (h1 : (2 : ℝ) ^ e ≤ x) (h2 : x < (2 : ℝ) ^ (e + 1))
    (h : |x - n * w| < w / 2 ∨ (Even n ∧ |x - n * w| ≤ w / 2)) : binary64.fl x = n * w := by
  show flBits 52 x = _
  have hx : 0 < x := lt_of_lt_of_le (zpow_pos (by norm_num) _) h1
  unfold flBits
  rw [if_pos hx]
  unfold flPos
  rw [log_eq h1 h2]
  have hu : ulp 52 e = w := by rw [hw]; unfold ulp; norm_num
  have w0 : 0 < w := by rw [← hu]; exact ulp_pos _ _
  rw [hu]
  have e1 : x / w - n = (x - n * w) / w := by field_simp
  have : nearest (x / w) = n := by
    rcases h with h | ⟨hn, h⟩
    · apply nearest_near
      rw [e1, abs_div, abs_of_pos w0, div_lt_iff₀ w0]; linarith
    · apply nearest_even hn
      rw [e1, abs_div, abs_of_pos w0, div_le_iff₀ w0]; linarith
  rw [this]

/-- Representable numbers. -/
theorem binary64_rep (m e : ℤ) {x : ℝ} (hx : x = m * 2 ^ e) (hm : |m| ≤ 2 ^ 53) : binary64.fl x = x := by
  rw [hx]; exact binary64.exact m e hm

end Verif.Fp.Rounding
