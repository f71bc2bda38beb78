import Verif.DetJac.Interp
import Verif.Quad.Theorems

/-!
# Polynomial maps as sums of monomials: their partial derivatives, Jacobian determinants, and tensor quadrature
-/

namespace Verif.Geometry
open Finset
open Verif.DetJac (polyAt partialAt jacDet)
open Verif.Swage.HighOrder (polyMap pt)

/-- Exponents of the monomials of degree at most `P` in each variable. -/
def expo (P : ℕ) : Finset (ℕ × ℕ × ℕ) := range (P + 1) ×ˢ range (P + 1) ×ˢ range (P + 1)

/-- Exponent of variable `d`. -/
def ex (s : ℕ × ℕ × ℕ) (d : ℕ) : ℕ := if d = 0 then s.1 else if d = 1 then s.2.1 else s.2.2

/-- Coefficient of a monomial. -/
def coef (c : ℕ → ℕ → ℕ → ℝ) (s : ℕ × ℕ × ℕ) : ℝ := c s.1 s.2.1 s.2.2

/-- Sum of the absolute values of the coefficients. -/
noncomputable def coefSum (P : ℕ) (c : ℕ → ℕ → ℕ → ℝ) : ℝ :=
  ∑ a ∈ range (P + 1), ∑ b ∈ range (P + 1), ∑ d ∈ range (P + 1), |c a b d|

theorem coefSum_eq (P : ℕ) (c : ℕ → ℕ → ℕ → ℝ) : coefSum P c = ∑ s ∈ expo P, |coef c s| := by
  unfold coefSum expo coef
  rw [sum_product]
  refine sum_congr rfl fun a _ => ?_
  rw [sum_product]

theorem coefSum_nonneg (P : ℕ) (c : ℕ → ℕ → ℕ → ℝ) : 0 ≤ coefSum P c := by
  rw [coefSum_eq]; exact sum_nonneg fun _ _ => abs_nonneg _

theorem ex_le {P : ℕ} {s : ℕ × ℕ × ℕ} (h : s ∈ expo P) (d : ℕ) : ex s d ≤ P := by
  unfold expo at h
  simp only [mem_product, mem_range] at h
  unfold ex
  split <;> [skip; split] <;> omega

theorem polyAt_sum (P : ℕ) (c : ℕ → ℕ → ℕ → ℝ) (X : ℕ → ℝ) :
    polyAt P c X = ∑ s ∈ expo P, coef c s * (X 0 ^ ex s 0 * X 1 ^ ex s 1 * X 2 ^ ex s 2) := by
  unfold polyAt polyMap expo coef
  rw [sum_product]
  refine sum_congr rfl fun a _ => ?_
  rw [sum_product]
  rfl

/-- The partial derivative of a monomial. -/
def dmon (s : ℕ × ℕ × ℕ) (d : ℕ) (X : ℕ → ℝ) : ℝ :=
  ex s d * (X 0 ^ (ex s 0 - if d = 0 then 1 else 0) * X 1 ^ (ex s 1 - if d = 1 then 1 else 0) *
    X 2 ^ (ex s 2 - if d = 2 then 1 else 0))

theorem mon_deriv (s : ℕ × ℕ × ℕ) (X : ℕ → ℝ) {d : ℕ} (hd : d < 3) :
    HasDerivAt (fun t => Function.update X d t 0 ^ ex s 0 * Function.update X d t 1 ^ ex s 1 *
      Function.update X d t 2 ^ ex s 2) (dmon s d X) (X d) := by
  unfold dmon
  interval_cases d
  · simp only [Function.update_self, ne_eq, one_ne_zero, not_false_eq_true, Function.update_of_ne, OfNat.ofNat_ne_zero, if_true,
      zero_ne_one, if_false, OfNat.zero_ne_ofNat, Nat.sub_zero]
    have := ((hasDerivAt_pow (ex s 0) (X 0)).mul_const (X 1 ^ ex s 1)).mul_const (X 2 ^ ex s 2)
    refine this.congr_deriv ?_
    ring
  · simp only [Function.update_self, ne_eq, zero_ne_one, not_false_eq_true, Function.update_of_ne, OfNat.ofNat_ne_one, if_true,
      one_ne_zero, if_false, OfNat.one_ne_ofNat, Nat.sub_zero]
    have := ((hasDerivAt_pow (ex s 1) (X 1)).const_mul (X 0 ^ ex s 0)).mul_const (X 2 ^ ex s 2)
    refine this.congr_deriv ?_
    ring
  · simp only [Function.update_self, ne_eq, OfNat.zero_ne_ofNat, not_false_eq_true, Function.update_of_ne, OfNat.one_ne_ofNat, if_true,
      OfNat.ofNat_ne_zero, OfNat.ofNat_ne_one, if_false, Nat.sub_zero]
    have := (hasDerivAt_pow (ex s 2) (X 2)).const_mul (X 0 ^ ex s 0 * X 1 ^ ex s 1)
    refine this.congr_deriv ?_
    ring

theorem polyAt_deriv (P : ℕ) (c : ℕ → ℕ → ℕ → ℝ) (X : ℕ → ℝ) {d : ℕ} (hd : d < 3) :
    HasDerivAt (fun t => polyAt P c (Function.update X d t)) (∑ s ∈ expo P, coef c s * dmon s d X) (X d) := by
  simp only [polyAt_sum]
  exact HasDerivAt.fun_sum fun s _ => (mon_deriv s X hd).const_mul (coef c s)

theorem polyAt_partial (P : ℕ) (c : ℕ → ℕ → ℕ → ℝ) (X : ℕ → ℝ) {d : ℕ} (hd : d < 3) :
    partialAt (polyAt P c) d X = ∑ s ∈ expo P, coef c s * dmon s d X := (polyAt_deriv P c X hd).deriv

/-! ### Determinants and cross products of exponents -/

/-- Determinant of three rows of exponents. -/
def edet (s t u : ℕ × ℕ × ℕ) : ℝ :=
  ex s 0 * (ex t 1 * ex u 2 - ex t 2 * ex u 1) - ex s 1 * (ex t 0 * ex u 2 - ex t 2 * ex u 0) +
    ex s 2 * (ex t 0 * ex u 1 - ex t 1 * ex u 0)

theorem npow (x : ℝ) (n m : ℕ) : (n : ℝ) * x ^ (n - 1) * x ^ m = n * x ^ (n + m - 1) := by
  cases n with
  | zero => simp
  | succ n => rw [mul_assoc, ← pow_add, show n + 1 - 1 + m = n + 1 + m - 1 by omega]

/-- The product of three partial derivatives of monomials in three different directions. -/
theorem dmon3 (s t u : ℕ × ℕ × ℕ) (X : ℕ → ℝ) : dmon s 0 X * dmon t 1 X * dmon u 2 X =
    (ex s 0 * ex t 1 * ex u 2 : ℝ) * (X 0 ^ (ex s 0 + ex t 0 + ex u 0 - 1) * X 1 ^ (ex s 1 + ex t 1 + ex u 1 - 1) *
      X 2 ^ (ex s 2 + ex t 2 + ex u 2 - 1)) := by
  unfold dmon
  simp only [if_true, zero_ne_one, one_ne_zero, OfNat.zero_ne_ofNat, OfNat.one_ne_ofNat, OfNat.ofNat_ne_zero,
    OfNat.ofNat_ne_one, if_false, Nat.sub_zero]
  have h0 := npow (X 0) (ex s 0) (ex t 0 + ex u 0)
  have h1 := npow (X 1) (ex t 1) (ex s 1 + ex u 1)
  have h2 := npow (X 2) (ex u 2) (ex s 2 + ex t 2)
  rw [show ex s 0 + (ex t 0 + ex u 0) = ex s 0 + ex t 0 + ex u 0 by ring] at h0
  rw [show ex t 1 + (ex s 1 + ex u 1) = ex s 1 + ex t 1 + ex u 1 by ring] at h1
  rw [show ex u 2 + (ex s 2 + ex t 2) = ex s 2 + ex t 2 + ex u 2 by ring] at h2
  rw [pow_add] at h0 h1 h2
  linear_combination (ex t 1 * X 1 ^ (ex t 1 - 1) * (X 1 ^ ex s 1 * X 1 ^ ex u 1) *
    (ex u 2 * X 2 ^ (ex u 2 - 1) * (X 2 ^ ex s 2 * X 2 ^ ex t 2))) * h0 +
    (ex s 0 * X 0 ^ (ex s 0 + ex t 0 + ex u 0 - 1)) * (ex u 2 * X 2 ^ (ex u 2 - 1) * (X 2 ^ ex s 2 * X 2 ^ ex t 2)) * h1 +
    (ex s 0 * X 0 ^ (ex s 0 + ex t 0 + ex u 0 - 1)) * (ex t 1 * X 1 ^ (ex s 1 + ex t 1 + ex u 1 - 1)) * h2

theorem sum3 (P : ℕ) (f g h : ℕ × ℕ × ℕ → ℝ) : (∑ s ∈ expo P, f s) * (∑ t ∈ expo P, g t) * (∑ u ∈ expo P, h u) =
    ∑ s ∈ expo P, ∑ t ∈ expo P, ∑ u ∈ expo P, f s * g t * h u := by
  rw [sum_mul_sum, sum_mul]
  refine sum_congr rfl fun s _ => ?_
  rw [sum_mul]
  refine sum_congr rfl fun t _ => ?_
  rw [mul_sum]

theorem jacDet_poly (P : ℕ) (c : ℕ → ℕ → ℕ → ℕ → ℝ) (X : ℕ → ℝ) : jacDet (fun a => polyAt P (c a)) X =
    ∑ s ∈ expo P, ∑ t ∈ expo P, ∑ u ∈ expo P, coef (c 0) s * coef (c 1) t * coef (c 2) u * edet s t u *
      (X 0 ^ (ex s 0 + ex t 0 + ex u 0 - 1) * X 1 ^ (ex s 1 + ex t 1 + ex u 1 - 1) *
      X 2 ^ (ex s 2 + ex t 2 + ex u 2 - 1)) := by
  unfold jacDet
  rw [Matrix.det_fin_three]
  simp only [Matrix.of_apply, Fin.val_zero, Fin.val_one, Fin.val_two]
  simp only [polyAt_partial P _ X (show (0:ℕ) < 3 by omega), polyAt_partial P _ X (show (1:ℕ) < 3 by omega),
    polyAt_partial P _ X (show (2:ℕ) < 3 by omega)]
  simp only [sum3, ← sum_add_distrib, ← sum_sub_distrib]
  refine sum_congr rfl fun s _ => sum_congr rfl fun t _ => sum_congr rfl fun u _ => ?_
  have a1 := dmon3 s t u X
  have a2 := dmon3 s u t X
  have a3 := dmon3 t s u X
  have a4 := dmon3 u s t X
  have a5 := dmon3 t u s X
  have a6 := dmon3 u t s X
  rw [show ∀ d, ex s d + ex u d + ex t d = ex s d + ex t d + ex u d from fun d => by ring,
    show ex s 1 + ex u 1 + ex t 1 = ex s 1 + ex t 1 + ex u 1 by ring,
    show ex s 2 + ex u 2 + ex t 2 = ex s 2 + ex t 2 + ex u 2 by ring] at a2
  rw [show ex t 0 + ex s 0 + ex u 0 = ex s 0 + ex t 0 + ex u 0 by ring,
    show ex t 1 + ex s 1 + ex u 1 = ex s 1 + ex t 1 + ex u 1 by ring,
    show ex t 2 + ex s 2 + ex u 2 = ex s 2 + ex t 2 + ex u 2 by ring] at a3
  rw [show ex u 0 + ex s 0 + ex t 0 = ex s 0 + ex t 0 + ex u 0 by ring,
    show ex u 1 + ex s 1 + ex t 1 = ex s 1 + ex t 1 + ex u 1 by ring,
    show ex u 2 + ex s 2 + ex t 2 = ex s 2 + ex t 2 + ex u 2 by ring] at a4
  rw [show ex t 0 + ex u 0 + ex s 0 = ex s 0 + ex t 0 + ex u 0 by ring,
    show ex t 1 + ex u 1 + ex s 1 = ex s 1 + ex t 1 + ex u 1 by ring,
    show ex t 2 + ex u 2 + ex s 2 = ex s 2 + ex t 2 + ex u 2 by ring] at a5
  rw [show ex u 0 + ex t 0 + ex s 0 = ex s 0 + ex t 0 + ex u 0 by ring,
    show ex u 1 + ex t 1 + ex s 1 = ex s 1 + ex t 1 + ex u 1 by ring,
    show ex u 2 + ex t 2 + ex s 2 = ex s 2 + ex t 2 + ex u 2 by ring] at a6
  unfold edet
  linear_combination (coef (c 0) s * coef (c 1) t * coef (c 2) u) * (a1 - a2 - a3 + a4 + a5 - a6)

theorem edet_le {P : ℕ} {s t u : ℕ × ℕ × ℕ} (hs : s ∈ expo P) (ht : t ∈ expo P) (hu : u ∈ expo P) : |edet s t u| ≤ 6 * P ^ 3 := by
  have b : ∀ s ∈ expo P, ∀ d, 0 ≤ (ex s d : ℝ) ∧ (ex s d : ℝ) ≤ P := fun s hs d => ⟨by positivity, by exact_mod_cast ex_le hs d⟩
  have q : ∀ a b c d e f : ℕ, ∀ x y : ℝ, x = (ex t a : ℝ) * ex u b → y = (ex t c : ℝ) * ex u d → |x - y| ≤ 2 * (P : ℝ) ^ 2 := by
    intro a b' c d e f x y hx hy
    have e1 := mul_le_mul (b t ht a).2 (b u hu b').2 (b u hu b').1 (by positivity)
    have e2 := mul_le_mul (b t ht c).2 (b u hu d).2 (b u hu d).1 (by positivity)
    have f1 := mul_nonneg (b t ht a).1 (b u hu b').1
    have f2 := mul_nonneg (b t ht c).1 (b u hu d).1
    rw [← hx] at e1 f1; rw [← hy] at e2 f2
    rw [abs_le]; constructor <;> nlinarith
  have m : ∀ d x, |x| ≤ 2 * (P : ℝ) ^ 2 → |(ex s d : ℝ) * x| ≤ 2 * (P : ℝ) ^ 3 := by
    intro d x hx
    rw [abs_mul, abs_of_nonneg (b s hs d).1]
    calc (ex s d : ℝ) * |x| ≤ P * (2 * (P : ℝ) ^ 2) := mul_le_mul (b s hs d).2 hx (abs_nonneg _) (by positivity)
      _ = _ := by ring
  unfold edet
  have h1 := m 0 _ (q 1 2 2 1 0 0 _ _ rfl rfl)
  have h2 := m 1 _ (q 0 2 2 0 0 0 _ _ rfl rfl)
  have h3 := m 2 _ (q 0 1 1 0 0 0 _ _ rfl rfl)
  refine (abs_add_le _ _).trans ((add_le_add ((abs_sub _ _)) le_rfl).trans ?_)
  linarith

end Verif.Geometry
