import Verif.Fp.LagrangeDer
import Verif.Fp.Eval64

/-!
# C95: first derivatives of the interpolant in rounded arithmetic
-/

namespace Verif.Fp.Rounding

theorem binary64_neg (x : ℝ) : binary64.fl (-x) = -binary64.fl x := by
  show flBits 52 (-x) = -flBits 52 x
  unfold flBits
  rcases lt_trichotomy x 0 with h | h | h
  · rw [if_pos (by linarith), if_neg (by linarith), if_pos h]; ring
  · subst h; simp
  · rw [if_neg (by linarith), if_pos (by linarith), if_pos h, neg_neg]

end Verif.Fp.Rounding

namespace Verif.Fp.Interp
open Verif.Fp Finset Verif.LagrangeElement.Spec

section
variable {R : Rounding} (hu : R.u ≤ 1 / 2) {tol : ℝ} (htol : 0 < tol) {N : ℕ} (hN : N < 2 ^ 64) {Z : ℕ → ℝ}
  (hsep : ∀ j < N, ∀ k < N, j ≠ k → 4 * tol ≤ |Z j - Z k|)
include hu htol hN hsep

/-- **C95** (at the vertices). There the derivative is accurate: the error is a small multiple of the sum of the moduli of the
differences of the data times the derivatives of the basis functions. -/
theorem C95_vertex_partial (w0 : ℕ → ℝ) {i : ℕ} (hi : i < N) (c : ℕ → ℝ) (hk : (7 * N + 3 : ℕ) * R.u < 1) :
    |evalDerInterp R N 1 (findVertex R tol N Z (Z i)) Z (weights R N Z w0) (Z i) c -
        (Polynomial.derivative (Lagrange.interpolate (range N) Z c)).eval (Z i)| ≤
      gam R (7 * N + 3) * ∑ j ∈ range N, |c j - c i| * |(Polynomial.derivative (Lagrange.basis (range N) Z j)).eval (Z i)| := by
  have hu1 : R.u < 1 := by linarith
  have hZ := inj_of_sep htol hsep
  have hf : findVertex R tol N Z (Z i) = i := by
    rcases findVertex_cases hu htol hN hsep (Z i) with ⟨k, hk, e, hn⟩ | ⟨-, h⟩
    · by_contra hne
      have := hsep k hk i hi (by rw [← e]; exact hne)
      linarith
    · exact absurd rfl (h i hi)
  obtain ⟨t, ht, e⟩ := der_vertex hu1 hZ w0 hi (Z i) c
  rw [hf, e, der_exact hZ hi, ← sum_sub_distrib, mul_sum]
  refine (abs_sum_le_sum_abs _ _).trans (sum_le_sum fun j hj => ?_)
  have hj' := mem_range.1 hj
  by_cases hji : j = i
  · rw [if_neg (not_not.2 hji), if_neg (not_not.2 hji), sub_self, abs_zero, hji, sub_self, abs_zero, zero_mul, mul_zero]
  · rw [if_pos hji, if_pos hji]
    have hd := dell_vertex hZ hi hj' hji
    have e2 : Lagrange.nodalWeight (range N) Z j * ((Z i - Z j)⁻¹ * (c i - c j)) * (-1 / Lagrange.nodalWeight (range N) Z i) =
        (c j - c i) * dell N Z j (Z i) := by rw [hd]; ring
    rw [e2]
    have := Rel.err hu1 (a := (c j - c i) * dell N Z j (Z i) * t j) (b := (c j - c i) * dell N Z j (Z i))
      ⟨t j, ht j hj', rfl⟩ hk
    rw [abs_mul (c j - c i) (dell N Z j (Z i))] at this
    exact this

/-- **C95** (constant data). At a vertex the derivative of constant data is exactly zero. -/
theorem C95_constant_partial (w0 : ℕ → ℝ) {i : ℕ} (hi : i < N) (a : ℝ) (hk : (7 * N + 3 : ℕ) * R.u < 1) :
    evalDerInterp R N 1 (findVertex R tol N Z (Z i)) Z (weights R N Z w0) (Z i) (fun _ => a) = 0 := by
  have h := C95_vertex_partial hu htol hN hsep w0 hi (fun _ => a) hk
  have hZ := inj_of_sep htol hsep
  rw [der_exact hZ hi] at h
  simpa using h

/-- **C95** (away from the vertices). The error is a small number divided by the distance to the nearest vertex. -/
theorem C95_away_partial (w0 : ℕ → ℝ) {x δ : ℝ} (hδ : 2 * tol ≤ δ) (hx : ∀ j < N, δ ≤ |x - Z j|) (c : ℕ → ℝ) {A : ℝ}
    (hc : ∀ j < N, |c j| ≤ A) (hk : (12 * N + 14 : ℕ) * R.u ≤ 1) :
    |evalDerInterp R N 1 (findVertex R tol N Z x) Z (weights R N Z w0) x c -
        (Polynomial.derivative (Lagrange.interpolate (range N) Z c)).eval x| ≤
      gam R (6 * N + 7) * A * (∑ j ∈ range N, |(Lagrange.basis (range N) Z j).eval x|) *
        (3 * (∑ j ∈ range N, |(Lagrange.basis (range N) Z j).eval x|) + 1) / δ := by
  have hu1 : R.u < 1 := by linarith
  have hδ0 : 0 < δ := by linarith
  have hZ := inj_of_sep htol hsep
  have hic : ¬ findVertex R tol N Z x < N ∧ ∀ j < N, x ≠ Z j := by
    rcases findVertex_cases hu htol hN hsep x with ⟨k, hk, e, hn⟩ | h
    · have := hx k hk
      rw [abs_sub_comm] at this
      linarith
    · exact h
  set S := ∑ j ∈ range N, |(Lagrange.basis (range N) Z j).eval x| with hS
  have hS0 : 0 ≤ S := sum_nonneg fun j _ => abs_nonneg _
  have hk7 : ((6 * N + 7 : ℕ) : ℝ) * R.u ≤ 1 / 2 := by push_cast at hk ⊢; linarith
  set γ := gam R (6 * N + 7) with hγ
  have hγ1 : γ ≤ 1 := by
    rw [hγ]; unfold gam
    rw [div_le_one (by linarith)]; linarith
  have hγ0 : 0 ≤ γ := by
    rw [hγ]; unfold gam
    exact div_nonneg (mul_nonneg (Nat.cast_nonneg _) R.u_nonneg) (by linarith)
  have hk1 : ((6 * N + 1 : ℕ) : ℝ) * R.u ≤ ((6 * N + 7 : ℕ) : ℝ) * R.u :=
    mul_le_mul_of_nonneg_right (by push_cast; linarith) R.u_nonneg
  have hγ' : gam R (6 * N + 1) ≤ γ := by
    rw [hγ]; unfold gam
    exact div_le_div₀ (mul_nonneg (Nat.cast_nonneg _) R.u_nonneg) hk1 (by linarith) (by linarith)
  obtain ⟨t, ht, e⟩ := der_off hu1 hic.1 w0 hic.2 c
  have hval := C94_interp_error hu htol hsep hN w0 x (fun j hj => Or.inr (by
    have := hx j hj
    rw [abs_sub_comm] at this
    linarith)) c (by linarith)
  set p := evalInterp R N (findVertex R tol N Z x) Z (weights R N Z w0) x c with hp
  set q := (Lagrange.interpolate (range N) Z c).eval x with hq
  rw [e, der_exact_off hZ hic.2]
  rcases Nat.eq_zero_or_pos N with h0 | h0
  · have : S = 0 := by rw [hS]; subst h0; simp
    subst h0
    rw [this]; simp
  have hA : 0 ≤ A := (abs_nonneg _).trans (hc 0 h0)
  have hsum : ∑ j ∈ range N, |c j| * |(Lagrange.basis (range N) Z j).eval x| ≤ A * S := by
    rw [hS, mul_sum]
    exact sum_le_sum fun j hj => mul_le_mul_of_nonneg_right (hc j (mem_range.1 hj)) (abs_nonneg _)
  have hpq : |p - q| ≤ γ * (A * S) := hval.trans (mul_le_mul hγ' hsum (sum_nonneg fun j _ => by positivity) hγ0)
  have hqA : |q| ≤ A * S := by
    rw [hq, Lagrange.interpolate_apply, Polynomial.eval_finsetSum]
    refine (abs_sum_le_sum_abs _ _).trans (le_trans (le_of_eq (sum_congr rfl fun j _ => ?_)) hsum)
    rw [Polynomial.eval_mul, Polynomial.eval_C, abs_mul]
  rw [← sum_sub_distrib]
  have hterm : ∀ j ∈ range N, |ell N Z j x * ((p - c j) / (x - Z j)) * t j - ell N Z j x * ((q - c j) / (x - Z j))| ≤
      |(Lagrange.basis (range N) Z j).eval x| * (γ * A * (3 * S + 1) / δ) := by
    intro j hj
    have hj' := mem_range.1 hj
    have ht1 := (ht j hj').err hu1 (by linarith)
    change |t j - 1| ≤ γ at ht1
    have ht2 : |t j| ≤ 2 := by
      have := abs_add_le (t j - 1) 1
      rw [sub_add_cancel, abs_one] at this
      linarith
    have e1 : ell N Z j x * ((p - c j) / (x - Z j)) * t j - ell N Z j x * ((q - c j) / (x - Z j)) =
        ell N Z j x * (((p - q) * t j + (q - c j) * (t j - 1)) / (x - Z j)) := by ring
    rw [e1, abs_mul, abs_div]
    refine mul_le_mul_of_nonneg_left ?_ (abs_nonneg _)
    have hxj := hx j hj'
    refine div_le_div₀ ?_ ?_ hδ0 hxj
    · exact mul_nonneg (mul_nonneg hγ0 hA) (by linarith)
    · refine (abs_add_le _ _).trans ?_
      rw [abs_mul, abs_mul]
      have hqc : |q - c j| ≤ A * S + A := (abs_sub _ _).trans (add_le_add hqA (hc j hj'))
      have m1 : |p - q| * |t j| ≤ γ * (A * S) * 2 := mul_le_mul hpq ht2 (abs_nonneg _) (by positivity)
      have m2 : |q - c j| * |t j - 1| ≤ (A * S + A) * γ := mul_le_mul hqc ht1 (abs_nonneg _) (by positivity)
      calc _ ≤ γ * (A * S) * 2 + (A * S + A) * γ := add_le_add m1 m2
        _ = γ * A * (3 * S + 1) := by ring
  calc _ ≤ ∑ j ∈ range N, |(Lagrange.basis (range N) Z j).eval x| * (γ * A * (3 * S + 1) / δ) :=
        (abs_sum_le_sum_abs _ _).trans (sum_le_sum hterm)
    _ = γ * A * S * (3 * S + 1) / δ := by rw [← sum_mul, ← hS]; ring

end

/-- Double precision, three vertices, the derivative at the second one. -/
example (c : ℕ → ℝ) :=
  C95_vertex_partial (R := .binary64) (by rw [Rounding.binary64_u]; norm_num) (tol := 1 / 2 ^ 51) (by norm_num)
    (by norm_num) sep3 0 (i := 1) (by norm_num) c (by rw [Rounding.binary64_u]; norm_num)

/-- The same vertices, the derivative at 1/3, which is 1/3 away from the nearest vertex. -/
example (c : ℕ → ℝ) (hc : ∀ j < 3, |c j| ≤ 10) :=
  C95_away_partial (R := .binary64) (by rw [Rounding.binary64_u]; norm_num) (tol := 1 / 2 ^ 51) (by norm_num)
    (by norm_num) sep3 0 (x := 1 / 3) (δ := 1 / 3) (by norm_num)
    (by intro j hj; interval_cases j <;> norm_num [abs_of_neg, abs_of_pos]) c hc (by rw [Rounding.binary64_u]; norm_num)

end Verif.Fp.Interp
