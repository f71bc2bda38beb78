import Verif.Geometry.Monomials
import Verif.Geometry.Measure

/-!
# Tensor quadrature of the Jacobian determinant of a polynomial map
-/

namespace Verif.Geometry
open Finset MeasureTheory
open Verif.DetJac (polyAt partialAt jacDet)
open Verif.Swage.HighOrder (polyMap pt)

/-- The volume of the image of the reference cube `[-1, 1]³` under the map with components `F`, counted with the sign of
the Jacobian determinant. -/
noncomputable def imageVolume (F : ℕ → (ℕ → ℝ) → ℝ) : ℝ :=
  ∫ z in (-1 : ℝ)..1, ∫ y in (-1 : ℝ)..1, ∫ x in (-1 : ℝ)..1, jacDet F (pt x y z)

/-- Tensor-product quadrature. -/
noncomputable def tensorQuad (n : ℕ) (x w : ℕ → ℝ) (f : (ℕ → ℝ) → ℝ) : ℝ :=
  ∑ k ∈ range n, ∑ j ∈ range n, ∑ i ∈ range n, w i * w j * w k * f (pt (x i) (x j) (x k))

theorem moments {n D : ℕ} {ε : ℝ} {x w : ℕ → ℝ} (h : Quad.GoodRule n D ε x w) {k : ℕ} (hk : k < D) :
    |Quad.quad n x w (fun t => t ^ k) - (Quad.mom k : ℝ)| ≤ ε := by
  have := h.accurate (Polynomial.X ^ k) (by rw [Polynomial.natDegree_X_pow]; exact hk)
  rw [show (Polynomial.X ^ k : Polynomial ℝ).eval = fun t => t ^ k by funext t; simp] at this
  rw [Quad.integral_mom, sum_eq_single_of_mem k (mem_range.2 hk)] at this
  · simpa using this
  · intro b _ hb
    rw [Polynomial.coeff_X_pow, if_neg hb, abs_zero]

theorem mom_le (k : ℕ) : |(Quad.mom k : ℝ)| ≤ 2 := by
  unfold Quad.mom
  split
  · push_cast
    rw [abs_of_nonneg (by positivity)]
    exact div_le_self (by norm_num) (by linarith [show (0:ℝ) ≤ k by positivity])
  · simp

theorem prod2_close {a b a' b' ε : ℝ} (ha : |a - a'| ≤ ε) (hb : |b - b'| ≤ ε) (ha' : |a'| ≤ 2) (hb' : |b'| ≤ 2) (h1 : ε ≤ 1) :
    |a * b - a' * b'| ≤ 5 * ε := by
  have hε : 0 ≤ ε := (abs_nonneg _).trans ha
  have h : a * b - a' * b' = (a - a') * (b - b') + (a - a') * b' + a' * (b - b') := by ring
  rw [h]
  have e1 : |(a - a') * (b - b')| ≤ ε * 1 := by rw [abs_mul]; exact mul_le_mul ha (hb.trans h1) (abs_nonneg _) hε
  have e2 : |(a - a') * b'| ≤ ε * 2 := by rw [abs_mul]; exact mul_le_mul ha hb' (abs_nonneg _) hε
  have e3 : |a' * (b - b')| ≤ 2 * ε := by rw [abs_mul]; exact mul_le_mul ha' hb (abs_nonneg _) (by norm_num)
  have := abs_add_le ((a - a') * (b - b') + (a - a') * b') (a' * (b - b'))
  have := abs_add_le ((a - a') * (b - b')) ((a - a') * b')
  linarith

theorem prod3_close {a b c a' b' c' ε : ℝ} (ha : |a - a'| ≤ ε) (hb : |b - b'| ≤ ε) (hc : |c - c'| ≤ ε) (ha' : |a'| ≤ 2) (hb' : |b'| ≤ 2)
    (hc' : |c'| ≤ 2) (h1 : ε ≤ 1) : |a * b * c - a' * b' * c'| ≤ 19 * ε := by
  have hε : 0 ≤ ε := (abs_nonneg _).trans ha
  have h2 := prod2_close ha hb ha' hb' h1
  have h : a * b * c - a' * b' * c' = (a * b - a' * b') * (c - c') + (a * b - a' * b') * c' + a' * b' * (c - c') := by ring
  rw [h]
  have e1 : |(a * b - a' * b') * (c - c')| ≤ 5 * ε * 1 := by
    rw [abs_mul]; exact mul_le_mul h2 (hc.trans h1) (abs_nonneg _) (by linarith)
  have e2 : |(a * b - a' * b') * c'| ≤ 5 * ε * 2 := by rw [abs_mul]; exact mul_le_mul h2 hc' (abs_nonneg _) (by linarith)
  have e3 : |a' * b' * (c - c')| ≤ 2 * 2 * ε := by
    rw [abs_mul, abs_mul]
    exact mul_le_mul (mul_le_mul ha' hb' (abs_nonneg _) (by norm_num)) hc (abs_nonneg _) (by norm_num)
  have := abs_add_le ((a * b - a' * b') * (c - c') + (a * b - a' * b') * c') (a' * b' * (c - c'))
  have := abs_add_le ((a * b - a' * b') * (c - c')) ((a * b - a' * b') * c')
  linarith

/-- Tensor quadrature of a monomial. -/
theorem tensorQuad_mon (n : ℕ) (x w : ℕ → ℝ) (a b c : ℕ) :
    tensorQuad n x w (fun X => X 0 ^ a * X 1 ^ b * X 2 ^ c) =
      Quad.quad n x w (fun t => t ^ a) * Quad.quad n x w (fun t => t ^ b) * Quad.quad n x w (fun t => t ^ c) := by
  unfold tensorQuad Quad.quad
  have : ∀ k ∈ range n, ∀ j ∈ range n, ∀ i ∈ range n, w i * w j * w k * (pt (x i) (x j) (x k) 0 ^ a * pt (x i) (x j) (x k) 1 ^ b *
      pt (x i) (x j) (x k) 2 ^ c) = (w i * x i ^ a) * ((w j * x j ^ b) * (w k * x k ^ c)) := by
    intro k _ j _ i _
    simp only [pt, if_true, one_ne_zero, if_false, OfNat.ofNat_ne_zero, OfNat.ofNat_ne_one]; ring
  rw [sum_congr rfl fun k hk => sum_congr rfl fun j hj => sum_congr rfl fun i hi => this k hk j hj i hi]
  simp only [← sum_mul, ← mul_sum]; ring

theorem tensorQuad_sum {ι : Type} (n : ℕ) (x w : ℕ → ℝ) (S : Finset ι) (κ : ι → ℝ) (f : ι → (ℕ → ℝ) → ℝ) :
    tensorQuad n x w (fun X => ∑ s ∈ S, κ s * f s X) = ∑ s ∈ S, κ s * tensorQuad n x w (f s) := by
  unfold tensorQuad
  simp only [mul_sum]
  rw [sum_congr rfl fun k _ => sum_congr rfl fun j _ => sum_comm, sum_congr rfl fun k _ => sum_comm, sum_comm]
  refine sum_congr rfl fun s _ => sum_congr rfl fun k _ => sum_congr rfl fun j _ => sum_congr rfl fun i _ => ?_
  ring

/-- The iterated integral of a sum of monomials. -/
theorem integral_mons {ι : Type} (S : Finset ι) (κ : ι → ℝ) (a b c : ι → ℕ) :
    ∫ z in (-1 : ℝ)..1, ∫ y in (-1 : ℝ)..1, ∫ x in (-1 : ℝ)..1, ∑ s ∈ S, κ s * (x ^ a s * y ^ b s * z ^ c s) =
      ∑ s ∈ S, κ s * ((Quad.mom (a s) : ℝ) * (Quad.mom (b s) : ℝ) * (Quad.mom (c s) : ℝ)) := by
  have lin : ∀ (g : ι → ℝ) (e : ι → ℕ), ∫ t in (-1 : ℝ)..1, ∑ s ∈ S, g s * t ^ e s = ∑ s ∈ S, g s * (Quad.mom (e s) : ℝ) := by
    intro g e
    rw [intervalIntegral.integral_finsetSum]
    · refine sum_congr rfl fun s _ => ?_
      rw [intervalIntegral.integral_const_mul, Quad.integral_mom]
    · intro s _
      exact (continuous_const.mul (continuous_id.pow _)).intervalIntegrable _ _
  have e1 : ∀ y z : ℝ, ∫ x in (-1 : ℝ)..1, ∑ s ∈ S, κ s * (x ^ a s * y ^ b s * z ^ c s) =
      ∑ s ∈ S, (κ s * (Quad.mom (a s) : ℝ) * z ^ c s) * y ^ b s := by
    intro y z
    have := lin (fun s => κ s * (y ^ b s * z ^ c s)) a
    rw [show (fun x : ℝ => ∑ s ∈ S, κ s * (x ^ a s * y ^ b s * z ^ c s)) = fun t => ∑ s ∈ S, κ s * (y ^ b s * z ^ c s) * t ^ a s by
      funext t; exact sum_congr rfl fun s _ => by ring]
    rw [this]
    exact sum_congr rfl fun s _ => by ring
  have e2 : ∀ z : ℝ, ∫ y in (-1 : ℝ)..1, ∑ s ∈ S, (κ s * (Quad.mom (a s) : ℝ) * z ^ c s) * y ^ b s =
      ∑ s ∈ S, (κ s * (Quad.mom (a s) : ℝ) * (Quad.mom (b s) : ℝ)) * z ^ c s := by
    intro z
    rw [lin (fun s => κ s * (Quad.mom (a s) : ℝ) * z ^ c s) b]
    exact sum_congr rfl fun s _ => by ring
  simp only [e1, e2, lin]
  exact sum_congr rfl fun s _ => by ring

/-- Accuracy of tensor quadrature on sums of monomials. -/
theorem tensorQuad_mons {ι : Type} (S : Finset ι) (κ : ι → ℝ) (a b c : ι → ℕ) {n D : ℕ} {ε : ℝ} {x w : ℕ → ℝ}
    (h : Quad.GoodRule n D ε x w) (h1 : ε ≤ 1) (ha : ∀ s ∈ S, a s < D ∧ b s < D ∧ c s < D) :
    |tensorQuad n x w (fun X => ∑ s ∈ S, κ s * (X 0 ^ a s * X 1 ^ b s * X 2 ^ c s)) -
      ∫ z in (-1 : ℝ)..1, ∫ y in (-1 : ℝ)..1, ∫ x in (-1 : ℝ)..1, ∑ s ∈ S, κ s * (x ^ a s * y ^ b s * z ^ c s)| ≤
      19 * ε * ∑ s ∈ S, |κ s| := by
  rw [integral_mons, tensorQuad_sum n x w S κ (fun s X => X 0 ^ a s * X 1 ^ b s * X 2 ^ c s), ← sum_sub_distrib, mul_sum]
  refine (abs_sum_le_sum_abs _ _).trans (sum_le_sum fun s hs => ?_)
  obtain ⟨d1, d2, d3⟩ := ha s hs
  rw [← mul_sub, abs_mul, mul_comm, tensorQuad_mon]
  exact mul_le_mul_of_nonneg_right (prod3_close (moments h d1) (moments h d2) (moments h d3) (mom_le _) (mom_le _) (mom_le _) h1)
    (abs_nonneg _)

/-- The Jacobian determinant of a polynomial map as one sum. -/
theorem jacDet_flat (P : ℕ) (c : ℕ → ℕ → ℕ → ℕ → ℝ) (X : ℕ → ℝ) : jacDet (fun a => polyAt P (c a)) X =
    ∑ q ∈ expo P ×ˢ expo P ×ˢ expo P, (coef (c 0) q.1 * coef (c 1) q.2.1 * coef (c 2) q.2.2 * edet q.1 q.2.1 q.2.2) *
      (X 0 ^ (ex q.1 0 + ex q.2.1 0 + ex q.2.2 0 - 1) * X 1 ^ (ex q.1 1 + ex q.2.1 1 + ex q.2.2 1 - 1) *
      X 2 ^ (ex q.1 2 + ex q.2.1 2 + ex q.2.2 2 - 1)) := by
  rw [jacDet_poly, sum_product]
  refine sum_congr rfl fun s _ => ?_
  rw [sum_product]

theorem kappa_sum (P : ℕ) (c : ℕ → ℕ → ℕ → ℕ → ℝ) :
    ∑ q ∈ expo P ×ˢ expo P ×ˢ expo P, |coef (c 0) q.1 * coef (c 1) q.2.1 * coef (c 2) q.2.2 * edet q.1 q.2.1 q.2.2| ≤
      6 * P ^ 3 * (coefSum P (c 0) * coefSum P (c 1) * coefSum P (c 2)) := by
  have : ∀ q ∈ expo P ×ˢ expo P ×ˢ expo P, |coef (c 0) q.1 * coef (c 1) q.2.1 * coef (c 2) q.2.2 * edet q.1 q.2.1 q.2.2| ≤
      6 * P ^ 3 * (|coef (c 0) q.1| * |coef (c 1) q.2.1| * |coef (c 2) q.2.2|) := by
    intro q hq
    simp only [mem_product] at hq
    rw [abs_mul, abs_mul, abs_mul, mul_comm]
    exact mul_le_mul_of_nonneg_right (edet_le hq.1 hq.2.1 hq.2.2) (by positivity)
  refine (sum_le_sum this).trans (le_of_eq ?_)
  rw [← mul_sum, coefSum_eq, coefSum_eq, coefSum_eq, sum3, sum_product]
  congr 1
  refine sum_congr rfl fun s _ => ?_
  rw [sum_product]

/-- A rule exact up to `ε` below degree `D` integrates the Jacobian determinant of a map of degree `P` in each variable,
`3 P ≤ D`, with the stated accuracy. -/
theorem quad_jacDet (P : ℕ) (c : ℕ → ℕ → ℕ → ℕ → ℝ) {n D : ℕ} {ε : ℝ} {x w : ℕ → ℝ} (hP : 1 ≤ P)
    (h : Quad.GoodRule n D ε x w) (h1 : ε ≤ 1) (hD : 3 * P ≤ D) :
    |tensorQuad n x w (jacDet fun a => polyAt P (c a)) - imageVolume (fun a => polyAt P (c a))| ≤
      114 * ε * P ^ 3 * (coefSum P (c 0) * coefSum P (c 1) * coefSum P (c 2)) := by
  have hm := tensorQuad_mons (expo P ×ˢ expo P ×ˢ expo P)
    (fun q => coef (c 0) q.1 * coef (c 1) q.2.1 * coef (c 2) q.2.2 * edet q.1 q.2.1 q.2.2)
    (fun q => ex q.1 0 + ex q.2.1 0 + ex q.2.2 0 - 1) (fun q => ex q.1 1 + ex q.2.1 1 + ex q.2.2 1 - 1)
    (fun q => ex q.1 2 + ex q.2.1 2 + ex q.2.2 2 - 1) h h1
    (by
      intro q hq
      simp only [mem_product] at hq
      have := ex_le hq.1; have := ex_le hq.2.1; have := ex_le hq.2.2
      have b : ∀ d, ex q.1 d + ex q.2.1 d + ex q.2.2 d - 1 < D := by
        intro d
        have := ex_le hq.1 d; have := ex_le hq.2.1 d; have := ex_le hq.2.2 d
        omega
      exact ⟨b 0, b 1, b 2⟩)
  have e1 : (jacDet fun a => polyAt P (c a)) = fun X => ∑ q ∈ expo P ×ˢ expo P ×ˢ expo P,
      (coef (c 0) q.1 * coef (c 1) q.2.1 * coef (c 2) q.2.2 * edet q.1 q.2.1 q.2.2) *
      (X 0 ^ (ex q.1 0 + ex q.2.1 0 + ex q.2.2 0 - 1) * X 1 ^ (ex q.1 1 + ex q.2.1 1 + ex q.2.2 1 - 1) *
      X 2 ^ (ex q.1 2 + ex q.2.1 2 + ex q.2.2 2 - 1)) := by funext X; exact jacDet_flat P c X
  have hε : 0 ≤ ε := (abs_nonneg _).trans (moments h (show 0 < D by omega))
  unfold imageVolume
  rw [e1]
  refine hm.trans ?_
  have := mul_le_mul_of_nonneg_left (kappa_sum P c) (show 0 ≤ 19 * ε by linarith)
  refine this.trans (le_of_eq (by ring))

end Verif.Geometry
