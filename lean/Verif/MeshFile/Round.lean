import Verif.MeshFile.Text
import Mathlib.Tactic.Linarith
import Mathlib.Tactic.FieldSimp
import Mathlib.Algebra.Order.Floor.Semiring

/-!
# The decimal number printed by `%12.5e` is close to the double
-/

namespace Verif.MeshFile

/-- Rounding to a nearest integer (ties arbitrary). -/
def Nearest (rnd : ℝ → ℕ) : Prop := ∀ x, 0 ≤ x → |(rnd x : ℝ) - x| ≤ 1 / 2

/-- Such a rounding exists. -/
theorem nearest_exists : ∃ rnd, Nearest rnd := by
  refine ⟨fun x => ⌊x + 1 / 2⌋₊, fun x hx => ?_⟩
  have h1 := Nat.floor_le (show 0 ≤ x + 1 / 2 by linarith)
  have h2 := Nat.lt_floor_add_one (x + 1 / 2)
  rw [abs_le]
  constructor <;> linarith

theorem zpow10_5 (e : ℤ) : (10 : ℝ) ^ e = 10 ^ (e - 5) * 100000 := by
  rw [show e = (e - 5) + 5 by ring, zpow_add₀ (by norm_num : (10 : ℝ) ≠ 0)]
  norm_num

/-- The mantissa has six digits and the printed number is within `5e-6 |x|` of `x`. -/
theorem toSci_spec {rnd : ℝ → ℕ} (h : Nearest rnd) (x : ℝ) :
    (toSci rnd x).mant < 10 ^ 6 ∧ |(toSci rnd x).val - x| ≤ 5 / 10 ^ 6 * |x| := by
  by_cases hx : x = 0
  · unfold toSci Sci.val; rw [if_pos hx]; simp [hx]
  have ha : 0 < |x| := abs_pos.2 hx
  set e := Int.log 10 |x| with he
  have h1 : (10 : ℝ) ^ e ≤ |x| := by
    have := Int.zpow_log_le_self (R := ℝ) (b := 10) (by decide) ha; exact_mod_cast this
  have h2 : |x| < (10 : ℝ) ^ (e + 1) := by
    have := Int.lt_zpow_succ_log_self (R := ℝ) (b := 10) (by decide) |x|; exact_mod_cast this
  set P := (10 : ℝ) ^ (e - 5) with hP
  have hPp : 0 < P := zpow_pos (by norm_num) _
  have e1 : (10 : ℝ) ^ e = P * 100000 := zpow10_5 e
  have e2 : (10 : ℝ) ^ (e + 1) = P * 1000000 := by
    rw [zpow_add₀ (by norm_num : (10 : ℝ) ≠ 0), e1, zpow_one]; ring
  rw [e1] at h1; rw [e2] at h2
  have h3 := h (|x| / P) (div_nonneg ha.le hPp.le)
  set m := rnd (|x| / P) with hm
  rw [abs_le] at h3
  have q1 : (100000 : ℝ) ≤ |x| / P := by rw [le_div_iff₀ hPp]; linarith
  have q2 : |x| / P < 1000000 := by rw [div_lt_iff₀ hPp]; linarith
  have m2 : m ≤ 1000000 := by
    have : (m : ℝ) < 1000001 := by linarith
    have : m < 1000001 := by exact_mod_cast this
    omega
  have key : |(m : ℝ) * P - (|x|)| ≤ 5 / 10 ^ 6 * |x| := by
    have hxe : |x| = |x| / P * P := by field_simp
    rw [abs_le]
    have l1 : (m : ℝ) * P ≥ (|x| / P - 1 / 2) * P := mul_le_mul_of_nonneg_right (by linarith) hPp.le
    have l2 : (m : ℝ) * P ≤ (|x| / P + 1 / 2) * P := mul_le_mul_of_nonneg_right (by linarith) hPp.le
    rw [sub_mul, ← hxe] at l1
    rw [add_mul, ← hxe] at l2
    norm_num
    constructor <;> linarith
  have sgn : x = (if x < 0 then -1 else 1) * |x| := by
    split_ifs with hn
    · rw [abs_of_neg hn]; ring
    · rw [abs_of_nonneg (not_lt.1 hn)]; ring
  have hs : |(if x < 0 then (-1 : ℝ) else 1)| = 1 := by split_ifs <;> simp
  have fin : ∀ v : ℝ, v = (if x < 0 then -1 else 1) * ((m : ℝ) * P) → |v - x| ≤ 5 / 10 ^ 6 * |x| := by
    intro v hv
    have : v - x = (if x < 0 then -1 else 1) * ((m : ℝ) * P - |x|) := by
      rw [mul_sub, ← sgn, hv]
    rw [this, abs_mul, hs, one_mul]
    exact key
  unfold toSci
  rw [if_neg hx]
  simp only [← he, ← hP, ← hm]
  split_ifs with h6
  · refine ⟨by norm_num, fin _ ?_⟩
    unfold Sci.val
    simp only [decide_eq_true_eq]
    rw [show e + 1 - 5 = (e - 5) + 1 by ring, zpow_add₀ (by norm_num : (10 : ℝ) ≠ 0), zpow_one, ← hP, h6]
    push_cast
    ring
  · refine ⟨show m < 10 ^ 6 by omega, fin _ ?_⟩
    unfold Sci.val
    simp only [decide_eq_true_eq]
    rw [← hP]
    ring

/-- Reading back a double: what comes back is the printed decimal number. -/
theorem scanE_fmtE {rnd : ℝ → ℕ} (h : Nearest rnd) {w : List Char} (hw : ∀ c ∈ w, isSp c = true) (n : ℕ) (x : ℝ)
    {t : List Char} (ht : NoDig t) : scanE (w ++ (fmtE rnd n x ++ t)) = some ((toSci rnd x).val, t) := by
  unfold fmtE pad
  rw [List.append_assoc, ← List.append_assoc]
  refine scanE_text ?_ _ (toSci_spec h x).1 ht
  intro c hc
  rcases List.mem_append.1 hc with hc | hc
  · exact hw c hc
  · rw [(List.mem_replicate.1 hc).2]; decide

end Verif.MeshFile
