import Verif.Fp.Arith

/-!
# Floating-point arithmetic with a limited exponent range

`Verif/Fp/Arith.lean` leaves out overflow and underflow.  Here they are included: a result is rounded with an error that is relative
for normal numbers and absolute below `δ` (gradual underflow), and a rounded result of magnitude `top` or more is an overflow, `none`
(in the program: an infinity).  `ieee64` is IEEE 754 double precision, round to nearest, ties to even.
-/

namespace Verif.Fp

/-- A floating-point arithmetic. -/
structure Ieee where
  /-- the rounded value -/
  fl : ℝ → ℝ
  /-- unit roundoff -/
  u : ℝ
  /-- smallest normal number -/
  δ : ℝ
  /-- significant bits -/
  bits : ℕ
  /-- exponent of the smallest positive number -/
  emin : ℤ
  /-- overflow threshold -/
  top : ℝ
  mono : Monotone fl
  err : ∀ x, |fl x - x| ≤ u * (|x| + δ)
  exact : ∀ (m e : ℤ), |m| ≤ 2 ^ bits → emin ≤ e → fl (m * 2 ^ e) = m * 2 ^ e
  u_nonneg : 0 ≤ u
  δ_nonneg : 0 ≤ δ

namespace Ieee

/-- The result of an operation whose exact value is `x`; `none` is an overflow. -/
noncomputable def rnd (A : Ieee) (x : ℝ) : Option ℝ := if |A.fl x| < A.top then some (A.fl x) else none

theorem rnd_some {A : Ieee} {x : ℝ} (h : |A.fl x| < A.top) : A.rnd x = some (A.fl x) := if_pos h

theorem rnd_eq_some {A : Ieee} {x y : ℝ} : A.rnd x = some y ↔ |A.fl x| < A.top ∧ A.fl x = y := by
  unfold rnd
  split_ifs with h
  · simp [h]
  · simp [h]

theorem fl_zero (A : Ieee) : A.fl 0 = 0 := by
  have := A.exact 0 (max A.emin 0) (by positivity) (le_max_left _ _)
  simpa using this

theorem fl_abs_le (A : Ieee) (x : ℝ) : |A.fl x| ≤ |x| + A.u * (|x| + A.δ) := by
  have h1 := A.err x
  have h2 := abs_sub_abs_le_abs_sub (A.fl x) x
  linarith

/-- A rounding without limits on the exponents. -/
def ofRounding (R : Rounding) (top : ℝ) : Ieee where
  fl := R.fl
  u := R.u
  δ := 0
  bits := R.bits
  emin := 0
  top := top
  mono := R.mono
  err := fun x => by rw [add_zero]; exact R.err x
  exact := fun m e hm _ => R.exact m e hm
  u_nonneg := R.u_nonneg
  δ_nonneg := le_refl _

/-- Rounding to a multiple of `2^-1074` below the normal numbers, to 53 significant bits above. -/
noncomputable def fl64 (x : ℝ) : ℝ :=
  if |x| < 2 ^ (-1022 : ℤ) then Rounding.nearest (x / 2 ^ (-1074 : ℤ)) * 2 ^ (-1074 : ℤ) else Rounding.binary64.fl x

theorem two_split : (2 : ℝ) ^ (-1022 : ℤ) = ((2 ^ 52 : ℤ) : ℝ) * 2 ^ (-1074 : ℤ) := by
  rw [show (-1022 : ℤ) = 52 + -1074 by norm_num, zpow_add₀ (by norm_num : (2 : ℝ) ≠ 0)]
  norm_num

theorem fl64_normal {x : ℝ} (h : 2 ^ (-1022 : ℤ) ≤ |x|) : fl64 x = Rounding.binary64.fl x := if_neg (not_lt.2 h)

theorem sub_bounds {x : ℝ} (h : |x| < 2 ^ (-1022 : ℤ)) : -2 ^ (-1022 : ℤ) ≤ fl64 x ∧ fl64 x ≤ 2 ^ (-1022 : ℤ) := by
  obtain ⟨h1, h2⟩ := abs_lt.1 h
  have hp : (0 : ℝ) < 2 ^ (-1074 : ℤ) := by positivity
  unfold fl64
  rw [if_pos h, two_split] at *
  have k1 : ((-2 ^ 52 : ℤ) : ℝ) ≤ x / 2 ^ (-1074 : ℤ) := by rw [le_div_iff₀ hp]; push_cast at h1 ⊢; linarith
  have k2 : x / 2 ^ (-1074 : ℤ) ≤ ((2 ^ 52 : ℤ) : ℝ) := by rw [div_le_iff₀ hp]; linarith
  have n1 := Rounding.nearest_mono k1
  have n2 := Rounding.nearest_mono k2
  rw [Rounding.nearest_int] at n1 n2
  constructor
  · have := mul_le_mul_of_nonneg_right (show ((-2 ^ 52 : ℤ) : ℝ) ≤ _ from Int.cast_le.2 n1) hp.le
    push_cast at this ⊢; linarith
  · exact mul_le_mul_of_nonneg_right (Int.cast_le.2 n2) hp.le

theorem binary64_min : Rounding.binary64.fl (2 ^ (-1022 : ℤ)) = 2 ^ (-1022 : ℤ) := by
  have := Rounding.binary64.exact 1 (-1022) (by rw [Rounding.binary64_bits]; norm_num)
  simpa using this

theorem binary64_negmin : Rounding.binary64.fl (-2 ^ (-1022 : ℤ)) = -2 ^ (-1022 : ℤ) := by
  have := Rounding.binary64.exact (-1) (-1022) (by rw [Rounding.binary64_bits]; norm_num)
  simpa using this

theorem fl64_mono : Monotone fl64 := by
  intro x y h
  have hp : (0 : ℝ) < 2 ^ (-1074 : ℤ) := by positivity
  have hd : (0 : ℝ) < 2 ^ (-1022 : ℤ) := by positivity
  by_cases hx : |x| < 2 ^ (-1022 : ℤ) <;> by_cases hy : |y| < 2 ^ (-1022 : ℤ)
  · unfold fl64
    rw [if_pos hx, if_pos hy]
    refine mul_le_mul_of_nonneg_right ?_ hp.le
    exact Int.cast_le.2 (Rounding.nearest_mono (div_le_div_of_nonneg_right h hp.le))
  · have h1 := (sub_bounds hx).2
    have h2 : 2 ^ (-1022 : ℤ) ≤ y := by
      rcases le_abs.1 (not_lt.1 hy) with g | g
      · exact g
      · linarith [(abs_lt.1 hx).1, (abs_lt.1 hx).2]
    have h3 := Rounding.binary64.mono h2
    rw [binary64_min] at h3
    rw [fl64_normal (not_lt.1 hy)]
    linarith
  · have h1 := (sub_bounds hy).1
    have h2 : x ≤ -2 ^ (-1022 : ℤ) := by
      rcases le_abs.1 (not_lt.1 hx) with g | g
      · linarith [(abs_lt.1 hy).1, (abs_lt.1 hy).2]
      · linarith
    have h3 := Rounding.binary64.mono h2
    rw [binary64_negmin] at h3
    rw [fl64_normal (not_lt.1 hx)]
    linarith
  · rw [fl64_normal (not_lt.1 hx), fl64_normal (not_lt.1 hy)]
    exact Rounding.binary64.mono h

/-- IEEE 754 double precision. -/
noncomputable def ieee64 : Ieee where
  fl := fl64
  u := 1 / 2 ^ 53
  δ := 2 ^ (-1022 : ℤ)
  bits := 53
  emin := -1074
  top := 2 ^ (1024 : ℤ)
  mono := fl64_mono
  err := by
    intro x
    have hp : (0 : ℝ) < 2 ^ (-1074 : ℤ) := by positivity
    by_cases hx : |x| < 2 ^ (-1022 : ℤ)
    · unfold fl64
      rw [if_pos hx]
      have h1 := Rounding.nearest_err (x / 2 ^ (-1074 : ℤ))
      have h2 : (Rounding.nearest (x / 2 ^ (-1074 : ℤ)) : ℝ) * 2 ^ (-1074 : ℤ) - x
          = (Rounding.nearest (x / 2 ^ (-1074 : ℤ)) - x / 2 ^ (-1074 : ℤ)) * 2 ^ (-1074 : ℤ) := by field_simp
      rw [h2, abs_mul, abs_of_pos hp]
      have h3 : |x| * (1 / 2 ^ 53) ≥ 0 := by positivity
      have h4 := mul_le_mul_of_nonneg_right h1 hp.le
      have h5 : (1 : ℝ) / 2 ^ 53 * 2 ^ (-1022 : ℤ) = 1 / 2 * 2 ^ (-1074 : ℤ) := by rw [two_split]; push_cast; ring
      rw [mul_add, h5]
      linarith
    · rw [fl64_normal (not_lt.1 hx)]
      have h1 := Rounding.binary64.err x
      rw [Rounding.binary64_u] at h1
      have : (0 : ℝ) ≤ 1 / 2 ^ 53 * 2 ^ (-1022 : ℤ) := by positivity
      rw [mul_add]; linarith
  exact := by
    intro m e hm he
    by_cases hx : |(m : ℝ) * 2 ^ e| < 2 ^ (-1022 : ℤ)
    · unfold fl64
      rw [if_pos hx]
      obtain ⟨d, hd⟩ : ∃ d : ℕ, e = d + -1074 := ⟨(e + 1074).toNat, by omega⟩
      have h1 : (m : ℝ) * 2 ^ e / 2 ^ (-1074 : ℤ) = ((m * 2 ^ d : ℤ) : ℝ) := by
        rw [hd, zpow_add₀ (by norm_num : (2 : ℝ) ≠ 0), zpow_natCast, ← mul_assoc, mul_div_cancel_right₀ _ (by positivity)]
        push_cast; rfl
      rw [h1, Rounding.nearest_int, ← h1]
      field_simp
    · rw [fl64_normal (not_lt.1 hx)]
      exact Rounding.binary64.exact m e hm
  u_nonneg := by positivity
  δ_nonneg := by positivity

theorem ieee64_u : ieee64.u = 1 / 2 ^ 53 := rfl
theorem ieee64_δ : ieee64.δ = 2 ^ (-1022 : ℤ) := rfl
theorem ieee64_top : ieee64.top = 2 ^ (1024 : ℤ) := rfl
theorem ieee64_emin : ieee64.emin = -1074 := rfl
theorem ieee64_bits : ieee64.bits = 53 := rfl

/-- Away from the ends of the exponent range double precision is `binary64`, the arithmetic of the other rounded models. -/
theorem ieee64_rnd {x : ℝ} (h1 : x = 0 ∨ 2 ^ (-1022 : ℤ) ≤ |x|) (h2 : |Rounding.binary64.fl x| < 2 ^ (1024 : ℤ)) :
    ieee64.rnd x = some (Rounding.binary64.fl x) := by
  have : ieee64.fl x = Rounding.binary64.fl x := by
    rcases h1 with rfl | h1
    · rw [fl_zero, Rounding.fl_zero]
    · exact fl64_normal h1
  rw [← this]
  exact rnd_some (by rw [this]; exact h2)

/-- Overflow exists. -/
theorem ieee64_overflow : ieee64.rnd (2 ^ (1024 : ℤ)) = none := by
  have : ieee64.fl (2 ^ (1024 : ℤ)) = 2 ^ (1024 : ℤ) := by
    have := ieee64.exact 1 1024 (by rw [ieee64_bits]; norm_num) (by rw [ieee64_emin]; norm_num)
    simpa using this
  unfold rnd
  rw [this, ieee64_top, abs_of_pos (by positivity), if_neg (lt_irrefl _)]

/-- A positive result may vanish. -/
theorem ieee64_underflow {x : ℝ} (h : |x| ≤ 2 ^ (-1075 : ℤ)) : ieee64.rnd x = some 0 := by
  have hp : (0 : ℝ) < 2 ^ (-1074 : ℤ) := by positivity
  have h5 : (2 : ℝ) ^ (-1075 : ℤ) = 1 / 2 * 2 ^ (-1074 : ℤ) := by
    rw [show (-1075 : ℤ) = -1 + -1074 by norm_num, zpow_add₀ (by norm_num : (2 : ℝ) ≠ 0)]; norm_num
  have hlt : |x| < 2 ^ (-1022 : ℤ) := lt_of_le_of_lt h (zpow_lt_zpow_right₀ (by norm_num) (by norm_num))
  obtain ⟨h1, h2⟩ := abs_le.1 h
  rw [h5] at h1 h2
  have z1 : -(1 / 2) ≤ x / 2 ^ (-1074 : ℤ) := by rw [le_div_iff₀ hp]; linarith
  have z2 : x / 2 ^ (-1074 : ℤ) ≤ 1 / 2 := by rw [div_le_iff₀ hp]; linarith
  have n0 : Rounding.nearest (1 / 2) = 0 := by
    unfold Rounding.nearest
    have : ⌊(1 / 2 : ℝ)⌋ = 0 := by rw [Int.floor_eq_iff]; norm_num
    rw [this, if_pos (by norm_num)]
  have n1 : 0 ≤ Rounding.nearest (-(1 / 2)) := by
    unfold Rounding.nearest
    have : ⌊(-(1 / 2) : ℝ)⌋ = -1 := by rw [Int.floor_eq_iff]; norm_num
    rw [this, if_neg (by norm_num)]
    norm_num
  have a1 := Rounding.nearest_mono z1
  have a2 := Rounding.nearest_mono z2
  have hz : Rounding.nearest (x / 2 ^ (-1074 : ℤ)) = 0 := by omega
  have hf : ieee64.fl x = 0 := by
    show fl64 x = 0
    unfold fl64
    rw [if_pos hlt, hz]; simp
  rw [rnd_some, hf]
  rw [hf, abs_zero, ieee64_top]; positivity

end Ieee
end Verif.Fp
