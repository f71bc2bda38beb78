import Verif.Tensor.Passes

/-!
# C31: tensor-product quadrature
-/

namespace Verif.Tensor
open Finset Verif.Quad Polynomial

/-- **C31 (the one-dimensional rules).**  For one to eight points `line_gauss_info` delivers, for `m = 1 … q`, the points and weights
of a rule that integrates every polynomial of degree below `2q` (exactly up to five points, within `3e-16` times the sum of the
moduli of the coefficients above), with increasing symmetric points and positive weights; `line_lobatto_info` (two to eight points)
delivers those of a rule for degrees below `2q - 2`, within `2e-21`, except that the three-point rule lists its points
from right to left.  Other sizes leave the results unset. -/
theorem C31_line :
    (∀ q : ℕ, 1 ≤ q → q ≤ 8 → ∃ x w : ℕ → ℝ, (∀ i : ℕ, i < q → lineGauss (i + 1) q = some (x i, w i)) ∧
      GoodRule q (2 * q) (if q ≤ 5 then 0 else 3 / 10 ^ 16) x w) ∧
    (∀ q : ℕ, 2 ≤ q → q ≤ 8 → ∃ x w : ℕ → ℝ, (∀ i : ℕ, i < q → lineLobatto (i + 1) q = some (x i, w i)) ∧
      GoodRule q (2 * q - 2) (if q ≤ 3 then 0 else 2 / 10 ^ 21) (fun i => if q = 3 then x (2 - i) else x i) w) ∧
    (∀ (q : ℕ) (m : ℤ), 8 < q → lineGauss m q = none ∧ lineLobatto m q = none) := by
  refine ⟨fun q h1 h8 => ⟨gx q, gw q, fun i hi => lineGauss_eq h1 h8 hi, gauss_good h1 h8⟩,
    fun q h2 h8 => ⟨lx q, lw q, fun i hi => lineLobatto_eq (by omega) h8 hi, ?_⟩, ?_⟩
  · by_cases h : q = 3
    · subst h; simpa using lob_good3
    · simp only [h, if_false]; exact lob_good h2 h8 h
  · intro q m h
    unfold lineGauss lineLobatto lineInfo
    simp only []
    constructor <;> rw [if_neg (by omega), if_neg (by omega)]

/-- **C31 (`gauss_2d`, `gauss_3d`).**  For every order from 1 to 8 the routines enumerate all combinations of the one-dimensional
points, first direction fastest, each once, with the weights of the directions and their product; so the sum over the points is the
iterated sum of the one-dimensional rule, for every integrand. -/
theorem C31_gauss (q : ℕ) (h1 : 1 ≤ q) (h8 : q ≤ 8) : ∃ x w : ℕ → ℝ, (∀ i : ℕ, i < q → lineGauss (i + 1) q = some (x i, w i)) ∧
    (∀ s : Out, s.pts.size = q * q * 2 → s.wts.size = q * q * 2 → s.tot.size = q * q → ∃ s', gauss2d q 2 2 s = some s' ∧
      (∀ i < q, ∀ j < q, s'.pts.val ((i + j * q) * 2 + 0) = x i ∧ s'.pts.val ((i + j * q) * 2 + 1) = x j ∧
        s'.wts.val ((i + j * q) * 2 + 0) = w i ∧ s'.wts.val ((i + j * q) * 2 + 1) = w j ∧ s'.tot.val (i + j * q) = w i * w j) ∧
      ∀ F : ℝ → ℝ → ℝ, ∑ m ∈ range (q * q), s'.tot.val m * F (s'.pts.val (m * 2 + 0)) (s'.pts.val (m * 2 + 1)) =
        ∑ j ∈ range q, ∑ i ∈ range q, w i * w j * F (x i) (x j)) ∧
    (∀ s : Out, s.pts.size = q * q * q * 3 → s.wts.size = q * q * q * 3 → s.tot.size = q * q * q → ∃ s', gauss3d q 3 3 s = some s' ∧
      (∀ i < q, ∀ j < q, ∀ k < q, ∀ m, m = i + j * q + k * q * q → s'.pts.val (m * 3 + 0) = x i ∧ s'.pts.val (m * 3 + 1) = x j ∧
        s'.pts.val (m * 3 + 2) = x k ∧ s'.wts.val (m * 3 + 0) = w i ∧ s'.wts.val (m * 3 + 1) = w j ∧ s'.wts.val (m * 3 + 2) = w k ∧
        s'.tot.val m = w i * w j * w k) ∧
      ∀ F : ℝ → ℝ → ℝ → ℝ, ∑ m ∈ range (q * q * q), s'.tot.val m *
          F (s'.pts.val (m * 3 + 0)) (s'.pts.val (m * 3 + 1)) (s'.pts.val (m * 3 + 2)) =
        ∑ k ∈ range q, ∑ j ∈ range q, ∑ i ∈ range q, w i * w j * w k * F (x i) (x j) (x k)) := by
  refine ⟨gx q, gw q, fun i hi => lineGauss_eq h1 h8 hi, ?_, ?_⟩
  · intro s hp hw ht
    obtain ⟨s', e, -, -, -, hv, hT⟩ := gauss2d_digits h1 h8 le_rfl le_rfl s (by omega) (by omega) (by omega)
    refine ⟨s', e, ?_, ?_⟩
    · intro i hi j hj
      have hm : i + j * q < q * q := calc
        i + j * q < q + j * q := by omega
        _ = (j + 1) * q := by ring
        _ ≤ q * q := Nat.mul_le_mul_right _ (by omega)
      have e1 : (i + j * q) % q = i := by rw [Nat.add_mul_mod_self_right, Nat.mod_eq_of_lt hi]
      have e2 : (i + j * q) / q = j := by rw [Nat.add_mul_div_right _ _ h1, Nat.div_eq_of_lt hi, zero_add]
      have a := hv _ hm 0 (by decide)
      have b := hv _ hm 1 (by decide)
      have c := hT _ hm trivial
      rw [e1, e2] at a b c
      exact ⟨a.1, b.1, a.2, b.2, c⟩
    · intro F
      rw [← sum_lex2 q q (fun i j => gw q i * gw q j * F (gx q i) (gx q j))]
      refine sum_congr rfl fun m hm => ?_
      have hm := mem_range.1 hm
      rw [hT m hm trivial, (hv m hm 0 (by decide)).1, (hv m hm 1 (by decide)).1]
      rfl
  · intro s hp hw ht
    obtain ⟨s', e, -, -, -, hv, hT⟩ := gauss3d_digits h1 h8 le_rfl le_rfl s (by omega) (by omega) (by omega)
    refine ⟨s', e, ?_, ?_⟩
    · rintro i hi j hj k hk m rfl
      have hm : i + j * q + k * q * q < q * q * q := lex3_lt hi hj hk
      obtain ⟨e1, e2, e3⟩ := lex3_mod (k := k) hi hj
      have a := hv _ hm 0 (by decide)
      have b := hv _ hm 1 (by decide)
      have d := hv _ hm 2 (by decide)
      have c := hT _ hm trivial
      rw [e1, e2, e3] at a b c d
      exact ⟨a.1, b.1, d.1, a.2, b.2, d.2, c⟩
    · intro F
      rw [← sum_lex3 q q q (fun i j k => gw q i * gw q j * gw q k * F (gx q i) (gx q j) (gx q k))]
      refine sum_congr rfl fun m hm => ?_
      have hm := mem_range.1 hm
      rw [hT m hm trivial, (hv m hm 0 (by decide)).1, (hv m hm 1 (by decide)).1, (hv m hm 2 (by decide)).1]
      rfl

/-- **C31 (`lobatto_2d`, `lobatto_3d`, `lobatto_4d`).**  The same for the Lobatto routines (which do not store the product of the
weights), in two, three and four dimensions. -/
theorem C31_lobatto (q : ℕ) (h1 : 1 ≤ q) (h8 : q ≤ 8) : ∃ x w : ℕ → ℝ, (∀ i : ℕ, i < q → lineLobatto (i + 1) q = some (x i, w i)) ∧
    (∀ s : Out, s.pts.size = q * q * 2 → s.wts.size = q * q * 2 → ∃ s', lobatto2d q 2 2 s = some s' ∧
      (∀ i < q, ∀ j < q, s'.pts.val ((i + j * q) * 2 + 0) = x i ∧ s'.pts.val ((i + j * q) * 2 + 1) = x j ∧
        s'.wts.val ((i + j * q) * 2 + 0) = w i ∧ s'.wts.val ((i + j * q) * 2 + 1) = w j) ∧
      ∀ F : ℝ → ℝ → ℝ, ∑ m ∈ range (q * q), s'.wts.val (m * 2 + 0) * s'.wts.val (m * 2 + 1) *
          F (s'.pts.val (m * 2 + 0)) (s'.pts.val (m * 2 + 1)) = ∑ j ∈ range q, ∑ i ∈ range q, w i * w j * F (x i) (x j)) ∧
    (∀ s : Out, s.pts.size = q * q * q * 3 → s.wts.size = q * q * q * 3 → ∃ s', lobatto3d q 3 3 s = some s' ∧
      (∀ i < q, ∀ j < q, ∀ k < q, ∀ m, m = i + j * q + k * q * q → s'.pts.val (m * 3 + 0) = x i ∧ s'.pts.val (m * 3 + 1) = x j ∧
        s'.pts.val (m * 3 + 2) = x k ∧ s'.wts.val (m * 3 + 0) = w i ∧ s'.wts.val (m * 3 + 1) = w j ∧ s'.wts.val (m * 3 + 2) = w k) ∧
      ∀ F : ℝ → ℝ → ℝ → ℝ, ∑ m ∈ range (q * q * q), s'.wts.val (m * 3 + 0) * s'.wts.val (m * 3 + 1) * s'.wts.val (m * 3 + 2) *
          F (s'.pts.val (m * 3 + 0)) (s'.pts.val (m * 3 + 1)) (s'.pts.val (m * 3 + 2)) =
        ∑ k ∈ range q, ∑ j ∈ range q, ∑ i ∈ range q, w i * w j * w k * F (x i) (x j) (x k)) ∧
    (∀ s : Out, s.pts.size = q * q * q * q * 4 → s.wts.size = q * q * q * q * 4 → ∃ s', lobatto4d q 4 4 4 s = some s' ∧
      (∀ i < q, ∀ j < q, ∀ k < q, ∀ l < q, ∀ m, m = i + (j + k * q + l * q * q) * q → s'.pts.val (m * 4 + 0) = x i ∧
        s'.pts.val (m * 4 + 1) = x j ∧ s'.pts.val (m * 4 + 2) = x k ∧ s'.pts.val (m * 4 + 3) = x l ∧ s'.wts.val (m * 4 + 0) = w i ∧
        s'.wts.val (m * 4 + 1) = w j ∧ s'.wts.val (m * 4 + 2) = w k ∧ s'.wts.val (m * 4 + 3) = w l) ∧
      ∀ F : ℝ → ℝ → ℝ → ℝ → ℝ, ∑ m ∈ range (q * q * q * q), s'.wts.val (m * 4 + 0) * s'.wts.val (m * 4 + 1) * s'.wts.val (m * 4 + 2) *
          s'.wts.val (m * 4 + 3) * F (s'.pts.val (m * 4 + 0)) (s'.pts.val (m * 4 + 1)) (s'.pts.val (m * 4 + 2)) (s'.pts.val (m * 4 + 3)) =
        ∑ l ∈ range q, ∑ k ∈ range q, ∑ j ∈ range q, ∑ i ∈ range q, w i * w j * w k * w l * F (x i) (x j) (x k) (x l)) := by
  refine ⟨lx q, lw q, fun i hi => lineLobatto_eq h1 h8 hi, ?_, ?_, ?_⟩
  · intro s hp hw
    obtain ⟨s', e, -, -, -, hv, -⟩ := lobatto2d_digits h1 h8 le_rfl le_rfl s (by omega) (by omega)
    refine ⟨s', e, ?_, ?_⟩
    · intro i hi j hj
      have hm : i + j * q < q * q := calc
        i + j * q < q + j * q := by omega
        _ = (j + 1) * q := by ring
        _ ≤ q * q := Nat.mul_le_mul_right _ (by omega)
      have e1 : (i + j * q) % q = i := by rw [Nat.add_mul_mod_self_right, Nat.mod_eq_of_lt hi]
      have e2 : (i + j * q) / q = j := by rw [Nat.add_mul_div_right _ _ h1, Nat.div_eq_of_lt hi, zero_add]
      have a := hv _ hm 0 (by decide)
      have b := hv _ hm 1 (by decide)
      rw [e1, e2] at a b
      exact ⟨a.1, b.1, a.2, b.2⟩
    · intro F
      rw [← sum_lex2 q q (fun i j => lw q i * lw q j * F (lx q i) (lx q j))]
      refine sum_congr rfl fun m hm => ?_
      have hm := mem_range.1 hm
      rw [(hv m hm 0 (by decide)).1, (hv m hm 1 (by decide)).1, (hv m hm 0 (by decide)).2, (hv m hm 1 (by decide)).2]
      rfl
  · intro s hp hw
    obtain ⟨s', e, -, -, -, hv, -⟩ := lobatto3d_digits h1 h8 le_rfl le_rfl s (by omega) (by omega)
    refine ⟨s', e, ?_, ?_⟩
    · rintro i hi j hj k hk m rfl
      have hm : i + j * q + k * q * q < q * q * q := lex3_lt hi hj hk
      obtain ⟨e1, e2, e3⟩ := lex3_mod (k := k) hi hj
      have a := hv _ hm 0 (by decide)
      have b := hv _ hm 1 (by decide)
      have d := hv _ hm 2 (by decide)
      rw [e1, e2, e3] at a b d
      exact ⟨a.1, b.1, d.1, a.2, b.2, d.2⟩
    · intro F
      rw [← sum_lex3 q q q (fun i j k => lw q i * lw q j * lw q k * F (lx q i) (lx q j) (lx q k))]
      refine sum_congr rfl fun m hm => ?_
      have hm := mem_range.1 hm
      rw [(hv m hm 0 (by decide)).1, (hv m hm 1 (by decide)).1, (hv m hm 2 (by decide)).1, (hv m hm 0 (by decide)).2,
        (hv m hm 1 (by decide)).2, (hv m hm 2 (by decide)).2]
      rfl
  · intro s hp hw
    obtain ⟨s', e, -, -, -, hv, -⟩ := lobatto4d_digits h1 h8 le_rfl le_rfl s (by omega) (by omega)
    refine ⟨s', e, ?_, ?_⟩
    · rintro i hi j hj k hk l hl m rfl
      have ht : j + k * q + l * q * q < q * q * q := lex3_lt hj hk hl
      have hm : i + (j + k * q + l * q * q) * q < q * q * q * q := calc
        _ < q + (j + k * q + l * q * q) * q := by omega
        _ = ((j + k * q + l * q * q) + 1) * q := by ring
        _ ≤ q * q * q * q := Nat.mul_le_mul_right _ (by omega)
      have e1 : (i + (j + k * q + l * q * q) * q) % q = i := by rw [Nat.add_mul_mod_self_right, Nat.mod_eq_of_lt hi]
      have e2 : (i + (j + k * q + l * q * q) * q) / q = j + k * q + l * q * q := by
        rw [Nat.add_mul_div_right _ _ h1, Nat.div_eq_of_lt hi, zero_add]
      obtain ⟨e3, e4, e5⟩ := lex3_mod (k := l) hj hk
      have a := hv _ hm 0 (by decide)
      have b := hv _ hm 1 (by decide)
      have d := hv _ hm 2 (by decide)
      have f := hv _ hm 3 (by decide)
      rw [e1, e2, e3, e4, e5] at a b d f
      exact ⟨a.1, b.1, d.1, f.1, a.2, b.2, d.2, f.2⟩
    · intro F
      rw [← sum_lex4 q (fun i j k l => lw q i * lw q j * lw q k * lw q l * F (lx q i) (lx q j) (lx q k) (lx q l))]
      refine sum_congr rfl fun m hm => ?_
      have hm := mem_range.1 hm
      rw [(hv m hm 0 (by decide)).1, (hv m hm 1 (by decide)).1, (hv m hm 2 (by decide)).1, (hv m hm 3 (by decide)).1,
        (hv m hm 0 (by decide)).2, (hv m hm 1 (by decide)).2, (hv m hm 2 (by decide)).2, (hv m hm 3 (by decide)).2]
      rfl

theorem prod3_error {ε A B C a b c a' b' c' : ℝ} (hε : 0 ≤ ε) (hε' : ε ≤ 1 / 1000) (hA : 0 ≤ A) (hB : 0 ≤ B) (hC : 0 ≤ C)
    (ha : |a - a'| ≤ ε * A) (hb : |b - b'| ≤ ε * B) (hc : |c - c'| ≤ ε * C) (ha' : |a'| ≤ 2 * A) (hb' : |b'| ≤ 2 * B)
    (hc' : |c'| ≤ 2 * C) : |a * b * c - a' * b' * c'| ≤ 13 * ε * (A * B * C) := by
  have hb2 : |b| ≤ 201 / 100 * B := by
    have := abs_sub_abs_le_abs_sub b b'
    nlinarith [mul_le_mul_of_nonneg_right hε' hB]
  have hc2 : |c| ≤ 201 / 100 * C := by
    have := abs_sub_abs_le_abs_sub c c'
    nlinarith [mul_le_mul_of_nonneg_right hε' hC]
  have e : a * b * c - a' * b' * c' = (a - a') * (b * c) + a' * ((b - b') * c) + a' * (b' * (c - c')) := by ring
  have t1 : |(a - a') * (b * c)| ≤ ε * A * (201 / 100 * B * (201 / 100 * C)) := by
    rw [abs_mul, abs_mul]; exact mul_le_mul ha (mul_le_mul hb2 hc2 (abs_nonneg _) (by positivity)) (by positivity) (by positivity)
  have t2 : |a' * ((b - b') * c)| ≤ 2 * A * (ε * B * (201 / 100 * C)) := by
    rw [abs_mul, abs_mul]; exact mul_le_mul ha' (mul_le_mul hb hc2 (abs_nonneg _) (by positivity)) (by positivity) (by positivity)
  have t3 : |a' * (b' * (c - c'))| ≤ 2 * A * (2 * B * (ε * C)) := by
    rw [abs_mul, abs_mul]; exact mul_le_mul ha' (mul_le_mul hb' hc (abs_nonneg _) (by positivity)) (by positivity) (by positivity)
  rw [e]
  have := abs_add_three ((a - a') * (b * c)) (a' * ((b - b') * c)) (a' * (b' * (c - c')))
  have P : 0 ≤ ε * (A * B * C) := by positivity
  nlinarith

theorem integral_bound (P : ℝ[X]) (D : ℕ) (hD : P.natDegree < D) :
    |∫ t in (-1 : ℝ)..1, P.eval t| ≤ 2 * ∑ k ∈ range D, |P.coeff k| := by
  have h : ‖∫ t in (-1 : ℝ)..1, P.eval t‖ ≤ (∑ k ∈ range D, |P.coeff k|) * |1 - (-1 : ℝ)| := by
    refine intervalIntegral.norm_integral_le_of_norm_le_const fun t ht => ?_
    rw [Set.uIoc_of_le (by norm_num)] at ht
    have ht1 : |t| ≤ 1 := abs_le.2 ⟨by linarith [ht.1], ht.2⟩
    rw [Polynomial.eval_eq_sum_range' hD, Real.norm_eq_abs]
    refine le_trans (abs_sum_le_sum_abs _ _) (sum_le_sum fun k _ => ?_)
    rw [abs_mul, abs_pow]
    exact mul_le_of_le_one_right (abs_nonneg _) (pow_le_one₀ (abs_nonneg _) ht1)
  rw [Real.norm_eq_abs] at h
  have : |(1 : ℝ) - (-1)| = 2 := by norm_num
  rw [this] at h
  linarith

/-- **C31 (accuracy of `gauss_3d`).**  The quadrature of a product of polynomials of degrees below `2q` is the product of the three
integrals, exactly for `q ≤ 5` and within `4e-15` of the product of the coefficient sums up to `q = 8`. -/
theorem C31_exact (q : ℕ) (h1 : 1 ≤ q) (h8 : q ≤ 8) (s : Out) (hp : s.pts.size = q * q * q * 3) (hw : s.wts.size = q * q * q * 3)
    (ht : s.tot.size = q * q * q) : ∃ s', gauss3d q 3 3 s = some s' ∧
    ∀ P Q R : ℝ[X], P.natDegree < 2 * q → Q.natDegree < 2 * q → R.natDegree < 2 * q →
      |∑ m ∈ range (q * q * q), s'.tot.val m * (P.eval (s'.pts.val (m * 3 + 0)) * Q.eval (s'.pts.val (m * 3 + 1)) *
          R.eval (s'.pts.val (m * 3 + 2))) -
        (∫ t in (-1 : ℝ)..1, P.eval t) * (∫ t in (-1 : ℝ)..1, Q.eval t) * (∫ t in (-1 : ℝ)..1, R.eval t)| ≤
        (if q ≤ 5 then 0 else 4 / 10 ^ 15) *
        ((∑ k ∈ range (2 * q), |P.coeff k|) * (∑ k ∈ range (2 * q), |Q.coeff k|) * (∑ k ∈ range (2 * q), |R.coeff k|)) := by
  obtain ⟨s', e, -, -, -, hv, hT⟩ := gauss3d_digits h1 h8 le_rfl le_rfl s (by omega) (by omega) (by omega)
  refine ⟨s', e, ?_⟩
  intro P Q R dP dQ dR
  have good := gauss_good h1 h8
  have es : ∑ m ∈ range (q * q * q), s'.tot.val m * (P.eval (s'.pts.val (m * 3 + 0)) * Q.eval (s'.pts.val (m * 3 + 1)) *
          R.eval (s'.pts.val (m * 3 + 2))) = quad q (gx q) (gw q) P.eval * quad q (gx q) (gw q) Q.eval * quad q (gx q) (gw q) R.eval := by
    have : ∑ m ∈ range (q * q * q), s'.tot.val m * (P.eval (s'.pts.val (m * 3 + 0)) * Q.eval (s'.pts.val (m * 3 + 1)) *
          R.eval (s'.pts.val (m * 3 + 2))) = ∑ k ∈ range q, ∑ j ∈ range q, ∑ i ∈ range q,
          gw q i * gw q j * gw q k * (P.eval (gx q i) * Q.eval (gx q j) * R.eval (gx q k)) := by
      rw [← sum_lex3 q q q (fun i j k => gw q i * gw q j * gw q k * (P.eval (gx q i) * Q.eval (gx q j) * R.eval (gx q k)))]
      refine sum_congr rfl fun m hm => ?_
      have hm := mem_range.1 hm
      rw [hT m hm trivial, (hv m hm 0 (by decide)).1, (hv m hm 1 (by decide)).1, (hv m hm 2 (by decide)).1]
      rfl
    rw [this]
    unfold quad
    simp only [sum_mul, mul_sum]
    refine sum_congr rfl fun k _ => ?_
    refine sum_congr rfl fun i _ => sum_congr rfl fun j _ => ?_
    ring
  rw [es]
  have hε : epsG q ≤ 1 / 1000 ∧ 0 ≤ epsG q ∧ 13 * epsG q ≤ (if q ≤ 5 then 0 else 4 / 10 ^ 15) := by
    unfold epsG; split_ifs <;> norm_num
  refine le_trans (prod3_error hε.2.1 hε.1 (sum_nonneg fun _ _ => abs_nonneg _) (sum_nonneg fun _ _ => abs_nonneg _)
    (sum_nonneg fun _ _ => abs_nonneg _) (good.accurate P dP) (good.accurate Q dQ) (good.accurate R dR)
    (integral_bound P _ dP) (integral_bound Q _ dQ) (integral_bound R _ dR)) ?_
  exact mul_le_mul_of_nonneg_right hε.2.2 (mul_nonneg (mul_nonneg (sum_nonneg fun _ _ => abs_nonneg _)
    (sum_nonneg fun _ _ => abs_nonneg _)) (sum_nonneg fun _ _ => abs_nonneg _))

/-- **C31 (`gauss_4d`, what it does).**  On weight arrays with at least five columns `gauss_4d` fills the points and the first three
weights correctly, but multiplies the fourth weight into the old contents of the array. -/
theorem C31_gauss4d_partial (q : ℕ) (h1 : 1 ≤ q) (h8 : q ≤ 8) : ∃ x w : ℕ → ℝ, (∀ i : ℕ, i < q → lineGauss (i + 1) q = some (x i, w i)) ∧
    ∀ cw s, 5 ≤ cw → s.pts.size = q * q * q * q * 4 → s.wts.size = q * q * q * q * cw → ∃ s', gauss4d q 4 4 cw s = some s' ∧
      ∀ i < q, ∀ j < q, ∀ k < q, ∀ l < q, ∀ m, m = i + (j + k * q + l * q * q) * q → s'.pts.val (m * 4 + 0) = x i ∧
        s'.pts.val (m * 4 + 1) = x j ∧ s'.pts.val (m * 4 + 2) = x k ∧ s'.pts.val (m * 4 + 3) = x l ∧ s'.wts.val (m * cw + 0) = w i ∧
        s'.wts.val (m * cw + 1) = w j ∧ s'.wts.val (m * cw + 2) = w k ∧ s'.wts.val (m * cw + 3) = s.wts.val (m * cw + 3) * w l := by
  refine ⟨gx q, gw q, fun i hi => lineGauss_eq h1 h8 hi, ?_⟩
  intro cw s hcw hp hw
  obtain ⟨s', e, -, -, -, hv, -⟩ := gauss4d_digits h1 h8 le_rfl hcw s (by omega) (by omega)
  refine ⟨s', e, ?_⟩
  rintro i hi j hj k hk l hl m rfl
  have ht : j + k * q + l * q * q < q * q * q := lex3_lt hj hk hl
  have hm : i + (j + k * q + l * q * q) * q < q * q * q * q := calc
    _ < q + (j + k * q + l * q * q) * q := by omega
    _ = ((j + k * q + l * q * q) + 1) * q := by ring
    _ ≤ q * q * q * q := Nat.mul_le_mul_right _ (by omega)
  have e1 : (i + (j + k * q + l * q * q) * q) % q = i := by rw [Nat.add_mul_mod_self_right, Nat.mod_eq_of_lt hi]
  have e2 : (i + (j + k * q + l * q * q) * q) / q = j + k * q + l * q * q := by
    rw [Nat.add_mul_div_right _ _ h1, Nat.div_eq_of_lt hi, zero_add]
  obtain ⟨e3, e4, e5⟩ := lex3_mod (k := l) hj hk
  have a := hv _ hm 0 (by decide)
  have b := hv _ hm 1 (by decide)
  have d := hv _ hm 2 (by decide)
  have f := hv _ hm 3 (by decide)
  rw [e1, e2, e3, e4, e5] at a b d f
  refine ⟨a.1, b.1, d.1, f.1, by simpa using a.2, by simpa using b.2, by simpa using d.2, by simpa using f.2⟩

theorem set_eq_none {nw : ℕ} {vw : ℕ → ℝ} {i : ℕ} (v : ℝ) (h : nw ≤ i) : Arr.set ⟨nw, vw⟩ i v = none := Arr.set_ge v h

/-- **C31 (`gauss_4d`, the claim fails).**  On arrays of the documented shape (four columns) `gauss_4d` writes outside the weight
array, for every order. -/
theorem C31_gauss4d_negation (q : ℕ) (h1 : 1 ≤ q) (dim : ℤ) (s : Out) (hw : s.wts.size = q * q * q * q * 4) :
    gauss4d q dim 4 4 s = none := by
  have hpos : 0 < q * q * q * q := by positivity
  refine loopM_none (fun _ (t : Out) => t.wts.size = s.wts.size) rfl ?_ (i := q * q * q * q - 1) (by omega) ?_
  · intro m t t' _ ht h
    simp only [Option.bind_eq_bind] at h
    obtain ⟨a1, b1, h⟩ := Option.bind_eq_some_iff.1 h
    obtain ⟨a2, b2, h⟩ := Option.bind_eq_some_iff.1 h
    obtain ⟨a3, b3, h⟩ := Option.bind_eq_some_iff.1 h
    obtain ⟨a4, b4, h⟩ := Option.bind_eq_some_iff.1 h
    obtain ⟨a5, b5, h⟩ := Option.bind_eq_some_iff.1 h
    obtain ⟨a6, b6, h⟩ := Option.bind_eq_some_iff.1 h
    obtain ⟨a7, b7, h⟩ := Option.bind_eq_some_iff.1 h
    rw [(dir_sizes h).2, (dir_sizes b7).2, (dir_sizes b6).2, (dir_sizes b5).2, (setW_sizes b4).2, (setW_sizes b3).2,
      (setW_sizes b2).2, (setW_sizes b1).2, ht]
  · rintro ⟨⟨np, vp⟩, ⟨nw, vw⟩, t⟩ ht
    simp only [] at ht
    subst ht
    simp only [Option.bind_eq_bind]
    rw [setW_eq 1 (show (q * q * q * q - 1) * 4 + 0 < s.wts.size by omega), Option.bind_some,
      setW_eq 1 (show (q * q * q * q - 1) * 4 + 1 < s.wts.size by omega), Option.bind_some,
      setW_eq 1 (show (q * q * q * q - 1) * 4 + 2 < s.wts.size by omega), Option.bind_some]
    unfold Out.setW
    simp only [Option.bind_eq_bind]
    rw [set_eq_none 1 (show s.wts.size ≤ (q * q * q * q - 1) * 4 + 4 by omega)]
    rfl

/-- Arrays of the required sizes exist, e.g. for eight points per direction. -/
example : ∃ s : Out, s.pts.size = 8 * 8 * 8 * 3 ∧ s.wts.size = 8 * 8 * 8 * 3 ∧ s.tot.size = 8 * 8 * 8 ∧
    (gauss3d 8 3 3 s).isSome := by
  obtain ⟨x, w, -, -, h⟩ := C31_gauss 8 (by decide) (by decide)
  obtain ⟨s', e, -⟩ := h ⟨⟨8 * 8 * 8 * 3, fun _ => 0⟩, ⟨8 * 8 * 8 * 3, fun _ => 0⟩, ⟨8 * 8 * 8, fun _ => 0⟩⟩ rfl rfl rfl
  exact ⟨_, rfl, rfl, rfl, by rw [e]; rfl⟩

end Verif.Tensor
