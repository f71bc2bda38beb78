import Mathlib.Algebra.Order.Field.Power
import Mathlib.Algebra.Order.Archimedean.Real.Basic
import Mathlib.Data.Int.Log
import Mathlib.Algebra.Order.Round
import Mathlib.Tactic.Linarith
import Mathlib.Tactic.Ring
import Mathlib.Tactic.NormNum
import Mathlib.Tactic.Positivity
import Mathlib.Tactic.FieldSimp
import Mathlib.Algebra.Ring.Int.Parity

/-!
# Rounded arithmetic

The other models compute with exact real numbers.  Here every arithmetic operation is followed by a rounding `fl`, of which only
the following is assumed: it is monotone, it has relative error at most `u`, and numbers with at most `bits` significant bits are
not changed.  Nothing is assumed about ties, so every rounding mode is covered; the exponent range is unbounded, that is, overflow
and underflow are left out.  `binary64` shows that the assumptions are met by the rounding of IEEE 754 double precision
(round to nearest, ties to even, 53 bits).
-/

namespace Verif.Fp

/-- A rounding. -/
structure Rounding where
  /-- the rounded value -/
  fl : ℝ → ℝ
  /-- unit roundoff -/
  u : ℝ
  /-- significant bits -/
  bits : ℕ
  mono : Monotone fl
  err : ∀ x, |fl x - x| ≤ u * |x|
  exact : ∀ (m e : ℤ), |m| ≤ 2 ^ bits → fl (m * 2 ^ e) = m * 2 ^ e
  u_nonneg : 0 ≤ u

namespace Rounding

/-- No rounding at all. -/
def none (bits : ℕ) : Rounding := ⟨id, 0, bits, monotone_id, by simp, by simp, le_refl 0⟩

/-! ### Round to nearest, ties to even -/

/-- The integer nearest to `z`, the even one of the two for ties. -/
noncomputable def nearest (z : ℝ) : ℤ := if z = ⌊z⌋ + 1 / 2 ∧ Even ⌊z⌋ then ⌊z⌋ else ⌊z + 1 / 2⌋

theorem nearest_int (n : ℤ) : nearest n = n := by
  have h1 : ¬ ((n : ℝ) = ⌊(n : ℝ)⌋ + 1 / 2 ∧ Even ⌊(n : ℝ)⌋) := by
    rw [Int.floor_intCast]; rintro ⟨h, -⟩; linarith
  unfold nearest
  rw [if_neg h1]
  rw [Int.floor_eq_iff]
  constructor <;> linarith

theorem nearest_mono : Monotone nearest := by
  intro z w h
  have hfl := Int.floor_mono h
  have z1 := Int.floor_le z
  have w1 := Int.floor_le w
  have hw : ⌊w⌋ ≤ nearest w := by
    unfold nearest
    split_ifs
    · exact le_refl _
    · exact Int.floor_mono (by linarith)
  by_cases hz : z = ⌊z⌋ + 1 / 2 ∧ Even ⌊z⌋
  · have : nearest z = ⌊z⌋ := if_pos hz
    omega
  · have ez : nearest z = ⌊z + 1 / 2⌋ := if_neg hz
    rw [ez]
    by_cases hw' : w = ⌊w⌋ + 1 / 2 ∧ Even ⌊w⌋
    · have ew : nearest w = ⌊w⌋ := if_pos hw'
      rw [ew]
      have hlt : z < w := lt_of_le_of_ne h fun q => hz (q ▸ hw')
      have : ⌊z + 1 / 2⌋ < ⌊w⌋ + 1 := by
        rw [Int.floor_lt]; push_cast; linarith [hw'.1]
      omega
    · have ew : nearest w = ⌊w + 1 / 2⌋ := if_neg hw'
      rw [ew]
      exact Int.floor_mono (by linarith)

theorem nearest_err (z : ℝ) : |(nearest z : ℝ) - z| ≤ 1 / 2 := by
  unfold nearest
  split_ifs with h
  · rw [abs_le]; constructor <;> linarith [h.1]
  · have h1 := Int.floor_le (z + 1 / 2)
    have h2 := Int.lt_floor_add_one (z + 1 / 2)
    rw [abs_le]; constructor <;> linarith

/-- Unit in the last place of the numbers in `[2^e, 2^(e+1))` with `p + 1` bits. -/
noncomputable def ulp (p : ℕ) (e : ℤ) : ℝ := 2 ^ (e - p)

/-- Rounding of a positive number to `p + 1` significant bits. -/
noncomputable def flPos (p : ℕ) (x : ℝ) : ℝ := nearest (x / ulp p (Int.log 2 x)) * ulp p (Int.log 2 x)

/-- Rounding to `p + 1` significant bits. -/
noncomputable def flBits (p : ℕ) (x : ℝ) : ℝ := if 0 < x then flPos p x else if x < 0 then -flPos p (-x) else 0

theorem ulp_pos (p : ℕ) (e : ℤ) : 0 < ulp p e := zpow_pos (by norm_num) _

theorem pow_ulp (p : ℕ) (e : ℤ) : ((2 ^ p : ℤ) : ℝ) * ulp p e = 2 ^ e := by
  unfold ulp
  push_cast
  rw [← zpow_natCast, ← zpow_add₀ (by norm_num : (2 : ℝ) ≠ 0)]
  congr 1; ring

/-- `2^e ≤ flPos p x ≤ 2^(e+1)` -/
theorem flPos_bounds (p : ℕ) {x : ℝ} (hx : 0 < x) : (2 : ℝ) ^ (Int.log 2 x) ≤ flPos p x ∧ flPos p x ≤ 2 ^ (Int.log 2 x + 1) := by
  have h1 : (2 : ℝ) ^ Int.log 2 x ≤ x := by exact_mod_cast Int.zpow_log_le_self (by norm_num) hx
  have h2 : x < (2 : ℝ) ^ (Int.log 2 x + 1) := by exact_mod_cast Int.lt_zpow_succ_log_self (b := 2) (by norm_num) x
  set e := Int.log 2 x with he
  have hu := ulp_pos p e
  have k1 : ((2 ^ p : ℤ) : ℝ) ≤ x / ulp p e := by rw [le_div_iff₀ hu, pow_ulp]; exact h1
  have k2 : x / ulp p e ≤ ((2 ^ (p + 1) : ℤ) : ℝ) := by
    rw [div_le_iff₀ hu]
    have : ((2 ^ (p + 1) : ℤ) : ℝ) * ulp p e = 2 ^ (e + 1) := by
      rw [zpow_add_one₀ (by norm_num), ← pow_ulp p e]; push_cast; ring
    rw [this]; exact h2.le
  have n1 := nearest_mono k1
  have n2 := nearest_mono k2
  rw [nearest_int] at n1 n2
  unfold flPos
  rw [← he]
  constructor
  · rw [← pow_ulp p e]
    exact mul_le_mul_of_nonneg_right (by exact_mod_cast n1) hu.le
  · have : ((2 ^ (p + 1) : ℤ) : ℝ) * ulp p e = 2 ^ (e + 1) := by
      rw [zpow_add_one₀ (by norm_num), ← pow_ulp p e]; push_cast; ring
    rw [← this]
    exact mul_le_mul_of_nonneg_right (by exact_mod_cast n2) hu.le

theorem flPos_pos (p : ℕ) {x : ℝ} (hx : 0 < x) : 0 < flPos p x :=
  lt_of_lt_of_le (zpow_pos (by norm_num) _) (flPos_bounds p hx).1

theorem flPos_mono (p : ℕ) {x y : ℝ} (hx : 0 < x) (h : x ≤ y) : flPos p x ≤ flPos p y := by
  have hy : 0 < y := hx.trans_le h
  rcases (Int.log_mono_right hx h : Int.log 2 x ≤ Int.log 2 y).eq_or_lt with e | e
  · unfold flPos
    rw [← e]
    have hu := ulp_pos p (Int.log 2 x)
    refine mul_le_mul_of_nonneg_right ?_ hu.le
    exact_mod_cast nearest_mono (div_le_div_of_nonneg_right h hu.le)
  · refine (flPos_bounds p hx).2.trans (le_trans ?_ (flPos_bounds p hy).1)
    exact zpow_le_zpow_right₀ (by norm_num) (by omega)

theorem flPos_err (p : ℕ) {x : ℝ} (hx : 0 < x) : |flPos p x - x| ≤ 1 / 2 ^ (p + 1) * x := by
  have h1 : (2 : ℝ) ^ Int.log 2 x ≤ x := by exact_mod_cast Int.zpow_log_le_self (by norm_num) hx
  set e := Int.log 2 x with he
  have hu := ulp_pos p e
  have q : flPos p x - x = (nearest (x / ulp p e) - x / ulp p e) * ulp p e := by
    unfold flPos; rw [← he]; field_simp
  rw [q, abs_mul, abs_of_pos hu]
  have hp : ulp p e = 2 ^ e / 2 ^ p := by
    rw [← pow_ulp p e]; push_cast; field_simp
  calc |(nearest (x / ulp p e) : ℝ) - x / ulp p e| * ulp p e ≤ 1 / 2 * ulp p e := mul_le_mul_of_nonneg_right (nearest_err _) hu.le
    _ = 1 / 2 ^ (p + 1) * 2 ^ e := by rw [hp, pow_succ]; field_simp
    _ ≤ 1 / 2 ^ (p + 1) * x := mul_le_mul_of_nonneg_left h1 (by positivity)

theorem flPos_exact (p : ℕ) (m e : ℤ) (h0 : 0 < m) (hm : m ≤ 2 ^ (p + 1)) : flPos p (m * 2 ^ e) = m * 2 ^ e := by
  set x : ℝ := m * 2 ^ e with hxd
  have hx : 0 < x := by positivity
  -- the exponent of `x` is at most `p + e` unless `x` is the power `2^(p+1+e)`
  have h1 : (2 : ℝ) ^ Int.log 2 x ≤ x := by exact_mod_cast Int.zpow_log_le_self (by norm_num) hx
  set l := Int.log 2 x with hl
  have hle : l ≤ p + 1 + e := by
    by_contra hcon
    push Not at hcon
    have : x ≤ 2 ^ ((p : ℤ) + 1 + e) := by
      rw [zpow_add₀ (by norm_num : (2 : ℝ) ≠ 0), hxd]
      refine mul_le_mul_of_nonneg_right ?_ (by positivity)
      have : (m : ℝ) ≤ ((2 ^ (p + 1) : ℤ) : ℝ) := by exact_mod_cast hm
      refine this.trans (le_of_eq ?_)
      push_cast
      rw [← zpow_natCast]; push_cast; rfl
    have h3 : (2 : ℝ) ^ ((p : ℤ) + 1 + e) < 2 ^ l := zpow_lt_zpow_right₀ (by norm_num) hcon
    linarith
  have hu := ulp_pos p l
  have key : ∃ k : ℤ, x / ulp p l = k := by
    rcases hle.eq_or_lt with q | q
    · -- then `x ≥ 2^(p+1+e)`, so `m = 2^(p+1)`
      refine ⟨2 ^ p, ?_⟩
      have : x = 2 ^ l := by
        refine le_antisymm ?_ h1
        rw [q, zpow_add₀ (by norm_num : (2 : ℝ) ≠ 0), hxd]
        refine mul_le_mul_of_nonneg_right ?_ (by positivity)
        have : (m : ℝ) ≤ ((2 ^ (p + 1) : ℤ) : ℝ) := by exact_mod_cast hm
        refine this.trans (le_of_eq ?_)
        push_cast
        rw [← zpow_natCast]; push_cast; rfl
      rw [div_eq_iff hu.ne', pow_ulp, this]
    · obtain ⟨d, hd⟩ : ∃ d : ℕ, e - (l - p) = d := ⟨(e - (l - p)).toNat, by omega⟩
      refine ⟨m * 2 ^ d, ?_⟩
      rw [div_eq_iff hu.ne', hxd]
      unfold ulp
      push_cast
      rw [mul_assoc, ← zpow_natCast, ← zpow_add₀ (by norm_num : (2 : ℝ) ≠ 0)]
      congr 2; omega
  obtain ⟨k, hk⟩ := key
  unfold flPos
  rw [← hl, hk, nearest_int, ← hk]
  field_simp

/-- Rounding to nearest, ties to even, with `p + 1` significant bits and unbounded exponents. -/
noncomputable def toNearest (p : ℕ) : Rounding where
  fl := flBits p
  u := 1 / 2 ^ (p + 1)
  bits := p + 1
  mono := by
    intro x y h
    unfold flBits
    by_cases hx : 0 < x
    · rw [if_pos hx, if_pos (hx.trans_le h)]
      exact flPos_mono p hx h
    · rw [if_neg hx]
      by_cases hy : 0 < y
      · rw [if_pos hy]
        split_ifs with hx'
        · linarith [flPos_pos p hy, flPos_pos p (x := -x) (by linarith)]
        · exact (flPos_pos p hy).le
      · rw [if_neg hy]
        by_cases hy' : y < 0
        · rw [if_pos hy', if_pos (by linarith)]
          have := flPos_mono p (x := -y) (y := -x) (by linarith) (by linarith)
          linarith
        · rw [if_neg hy']
          split_ifs with hx'
          · linarith [flPos_pos p (x := -x) (by linarith)]
          · exact le_refl _
  err := by
    intro x
    unfold flBits
    by_cases hx : 0 < x
    · rw [if_pos hx, abs_of_pos hx]; exact flPos_err p hx
    · rw [if_neg hx]
      split_ifs with hx'
      · have := flPos_err p (x := -x) (by linarith)
        rw [abs_of_neg hx', show -flPos p (-x) - x = -(flPos p (-x) - -x) by ring, abs_neg]
        exact this
      · have : x = 0 := by linarith
        subst this; simp
  exact := by
    intro m e hm
    unfold flBits
    have h2 : (0 : ℝ) < 2 ^ e := by positivity
    rcases lt_trichotomy m 0 with h | h | h
    · have : (m : ℝ) * 2 ^ e < 0 := mul_neg_of_neg_of_pos (by exact_mod_cast h) h2
      rw [if_neg (by linarith), if_pos this]
      have := flPos_exact p (-m) e (by omega) (by rw [abs_of_neg h] at hm; exact hm)
      push_cast at this
      rw [show -((m : ℝ) * 2 ^ e) = -m * 2 ^ e by ring, this]; ring
    · subst h; simp
    · have : (0 : ℝ) < m * 2 ^ e := mul_pos (by exact_mod_cast h) h2
      rw [if_pos this]
      exact flPos_exact p m e h (by rw [abs_of_pos h] at hm; exact hm)
  u_nonneg := by positivity

/-- IEEE 754 double precision, apart from its exponent range. -/
noncomputable def binary64 : Rounding := toNearest 52

theorem binary64_u : binary64.u = 1 / 2 ^ 53 := rfl
theorem binary64_bits : binary64.bits = 53 := rfl

/-- It does round: one third is not representable. -/
theorem binary64_third : binary64.fl (1 / 3) ≠ 1 / 3 := by
  show flBits 52 (1 / 3) ≠ 1 / 3
  unfold flBits
  rw [if_pos (by norm_num)]
  unfold flPos
  intro h
  set e := Int.log 2 (1 / 3 : ℝ)
  have hu := ulp_pos 52 e
  -- exponent is -2
  have he : e = -2 := by
    have h1 : (2 : ℝ) ^ e ≤ 1 / 3 := by exact_mod_cast Int.zpow_log_le_self (b := 2) (r := (1 / 3 : ℝ)) (by norm_num) (by norm_num)
    have h2 : (1 / 3 : ℝ) < (2 : ℝ) ^ (e + 1) := by exact_mod_cast Int.lt_zpow_succ_log_self (b := 2) (by norm_num) (1 / 3 : ℝ)
    have a1 : e < -1 := by
      by_contra q
      have : (2 : ℝ) ^ (-1 : ℤ) ≤ 2 ^ e := zpow_le_zpow_right₀ (by norm_num) (by omega)
      norm_num at this h1; linarith
    have a2 : -2 ≤ e := by
      by_contra q
      have : (2 : ℝ) ^ (e + 1) ≤ 2 ^ (-2 : ℤ) := zpow_le_zpow_right₀ (by norm_num) (by omega)
      norm_num at this h2; linarith
    omega
  rw [he] at h
  generalize nearest _ = n at h
  unfold ulp at h
  norm_num at h
  have h3 : (3 * n : ℝ) = 18014398509481984 := by field_simp at h; linarith
  have h4 : 3 * n = 18014398509481984 := by exact_mod_cast h3
  omega

/-! ### Consequences -/

variable (R : Rounding)

theorem fl_zero : R.fl 0 = 0 := by
  have := R.exact 0 0 (by positivity); simpa using this

theorem fl_int (m : ℤ) (h : |m| ≤ 2 ^ R.bits) : R.fl m = m := by
  have := R.exact m 0 h; simpa using this

theorem fl_nonneg {x : ℝ} (h : 0 ≤ x) : 0 ≤ R.fl x := by rw [← R.fl_zero]; exact R.mono h

theorem fl_abs_le (x : ℝ) : |R.fl x| ≤ (1 + R.u) * |x| := by
  have h1 := R.err x
  have h2 := abs_sub_abs_le_abs_sub (R.fl x) x
  nlinarith

end Rounding
end Verif.Fp
