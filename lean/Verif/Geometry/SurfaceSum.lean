import Verif.Geometry.CurvedVolume

/-!
# The surface of a polynomial image of the cube is closed
-/

namespace Verif.Geometry
open Finset
open Verif.DetJac (polyAt partialAt jacDet)
open Verif.Swage.HighOrder (polyMap pt)

/-- Component `a` of the cross product of the gradients of `f` and `g`. -/
noncomputable def gradCross (f g : (ℕ → ℝ) → ℝ) (a : ℕ) (X : ℕ → ℝ) : ℝ :=
  partialAt f ((a + 1) % 3) X * partialAt g ((a + 2) % 3) X - partialAt f ((a + 2) % 3) X * partialAt g ((a + 1) % 3) X

/-- The flux of the field `G` through the surface of the reference cube by tensor quadrature on its six sides. -/
noncomputable def surfaceQuad (n : ℕ) (x w : ℕ → ℝ) (G : ℕ → (ℕ → ℝ) → ℝ) : ℝ :=
  ∑ k ∈ range n, ∑ j ∈ range n, w j * w k * (G 0 (pt 1 (x j) (x k)) - G 0 (pt (-1) (x j) (x k))) +
  ∑ k ∈ range n, ∑ i ∈ range n, w i * w k * (G 1 (pt (x i) 1 (x k)) - G 1 (pt (x i) (-1) (x k))) +
  ∑ j ∈ range n, ∑ i ∈ range n, w i * w j * (G 2 (pt (x i) (x j) 1) - G 2 (pt (x i) (x j) (-1)))

/-- Cross product of exponents. -/
def ecross (s t : ℕ × ℕ × ℕ) (a : ℕ) : ℝ :=
  ex s ((a + 1) % 3) * ex t ((a + 2) % 3) - ex s ((a + 2) % 3) * ex t ((a + 1) % 3)

theorem dmon12 (s t : ℕ × ℕ × ℕ) (X : ℕ → ℝ) : dmon s 1 X * dmon t 2 X =
    (ex s 1 * ex t 2 : ℝ) * (X 0 ^ (ex s 0 + ex t 0) * X 1 ^ (ex s 1 + ex t 1 - 1) * X 2 ^ (ex s 2 + ex t 2 - 1)) := by
  unfold dmon
  norm_num only [if_true, if_false, Nat.sub_zero]
  have h1 := npow (X 1) (ex s 1) (ex t 1)
  have h2 := npow (X 2) (ex t 2) (ex s 2)
  rw [show ex t 2 + ex s 2 = ex s 2 + ex t 2 by ring] at h2
  rw [pow_add]
  linear_combination (X 0 ^ ex s 0 * X 0 ^ ex t 0) * (ex t 2 * X 2 ^ (ex t 2 - 1) * X 2 ^ ex s 2) * h1 +
    (X 0 ^ ex s 0 * X 0 ^ ex t 0) * (ex s 1 * X 1 ^ (ex s 1 + ex t 1 - 1)) * h2

theorem dmon20 (s t : ℕ × ℕ × ℕ) (X : ℕ → ℝ) : dmon s 2 X * dmon t 0 X =
    (ex s 2 * ex t 0 : ℝ) * (X 0 ^ (ex s 0 + ex t 0 - 1) * X 1 ^ (ex s 1 + ex t 1) * X 2 ^ (ex s 2 + ex t 2 - 1)) := by
  unfold dmon
  norm_num only [if_true, if_false, Nat.sub_zero]
  have h1 := npow (X 2) (ex s 2) (ex t 2)
  have h2 := npow (X 0) (ex t 0) (ex s 0)
  rw [show ex t 0 + ex s 0 = ex s 0 + ex t 0 by ring] at h2
  rw [pow_add (X 1)]
  linear_combination (X 1 ^ ex s 1 * X 1 ^ ex t 1) * (ex t 0 * X 0 ^ (ex t 0 - 1) * X 0 ^ ex s 0) * h1 +
    (X 1 ^ ex s 1 * X 1 ^ ex t 1) * (ex s 2 * X 2 ^ (ex s 2 + ex t 2 - 1)) * h2

theorem dmon01 (s t : ℕ × ℕ × ℕ) (X : ℕ → ℝ) : dmon s 0 X * dmon t 1 X =
    (ex s 0 * ex t 1 : ℝ) * (X 0 ^ (ex s 0 + ex t 0 - 1) * X 1 ^ (ex s 1 + ex t 1 - 1) * X 2 ^ (ex s 2 + ex t 2)) := by
  unfold dmon
  norm_num only [if_true, if_false, Nat.sub_zero]
  have h1 := npow (X 0) (ex s 0) (ex t 0)
  have h2 := npow (X 1) (ex t 1) (ex s 1)
  rw [show ex t 1 + ex s 1 = ex s 1 + ex t 1 by ring] at h2
  rw [pow_add (X 2)]
  linear_combination (X 2 ^ ex s 2 * X 2 ^ ex t 2) * (ex t 1 * X 1 ^ (ex t 1 - 1) * X 1 ^ ex s 1) * h1 +
    (X 2 ^ ex s 2 * X 2 ^ ex t 2) * (ex s 0 * X 0 ^ (ex s 0 + ex t 0 - 1)) * h2

theorem sum2 (P : ℕ) (f g : ℕ × ℕ × ℕ → ℝ) : (∑ s ∈ expo P, f s) * (∑ t ∈ expo P, g t) =
    ∑ q ∈ expo P ×ˢ expo P, f q.1 * g q.2 := by rw [sum_mul_sum, sum_product]

theorem gradCross_poly0 (P : ℕ) (c c' : ℕ → ℕ → ℕ → ℝ) (X : ℕ → ℝ) : gradCross (polyAt P c) (polyAt P c') 0 X =
    ∑ q ∈ expo P ×ˢ expo P, coef c q.1 * coef c' q.2 * ecross q.1 q.2 0 *
      (X 0 ^ (ex q.1 0 + ex q.2 0) * X 1 ^ (ex q.1 1 + ex q.2 1 - 1) * X 2 ^ (ex q.1 2 + ex q.2 2 - 1)) := by
  unfold gradCross ecross
  norm_num only [Nat.reduceAdd, Nat.reduceMod]
  rw [polyAt_partial P c X (by omega), polyAt_partial P c' X (by omega), polyAt_partial P c X (by omega),
    polyAt_partial P c' X (by omega), sum2, sum2, ← sum_sub_distrib]
  refine sum_congr rfl fun q _ => ?_
  have a1 := dmon12 q.1 q.2 X
  have a2 := dmon12 q.2 q.1 X
  rw [show ex q.2 0 + ex q.1 0 = ex q.1 0 + ex q.2 0 by ring, show ex q.2 1 + ex q.1 1 = ex q.1 1 + ex q.2 1 by ring,
    show ex q.2 2 + ex q.1 2 = ex q.1 2 + ex q.2 2 by ring] at a2
  linear_combination (coef c q.1 * coef c' q.2) * (a1 - a2)

theorem gradCross_poly1 (P : ℕ) (c c' : ℕ → ℕ → ℕ → ℝ) (X : ℕ → ℝ) : gradCross (polyAt P c) (polyAt P c') 1 X =
    ∑ q ∈ expo P ×ˢ expo P, coef c q.1 * coef c' q.2 * ecross q.1 q.2 1 *
      (X 0 ^ (ex q.1 0 + ex q.2 0 - 1) * X 1 ^ (ex q.1 1 + ex q.2 1) * X 2 ^ (ex q.1 2 + ex q.2 2 - 1)) := by
  unfold gradCross ecross
  norm_num only [Nat.reduceAdd, Nat.reduceMod]
  rw [polyAt_partial P c X (by omega), polyAt_partial P c' X (by omega), polyAt_partial P c X (by omega),
    polyAt_partial P c' X (by omega), sum2, sum2, ← sum_sub_distrib]
  refine sum_congr rfl fun q _ => ?_
  have a1 := dmon20 q.1 q.2 X
  have a2 := dmon20 q.2 q.1 X
  rw [show ex q.2 0 + ex q.1 0 = ex q.1 0 + ex q.2 0 by ring, show ex q.2 1 + ex q.1 1 = ex q.1 1 + ex q.2 1 by ring,
    show ex q.2 2 + ex q.1 2 = ex q.1 2 + ex q.2 2 by ring] at a2
  linear_combination (coef c q.1 * coef c' q.2) * (a1 - a2)

theorem gradCross_poly2 (P : ℕ) (c c' : ℕ → ℕ → ℕ → ℝ) (X : ℕ → ℝ) : gradCross (polyAt P c) (polyAt P c') 2 X =
    ∑ q ∈ expo P ×ˢ expo P, coef c q.1 * coef c' q.2 * ecross q.1 q.2 2 *
      (X 0 ^ (ex q.1 0 + ex q.2 0 - 1) * X 1 ^ (ex q.1 1 + ex q.2 1 - 1) * X 2 ^ (ex q.1 2 + ex q.2 2)) := by
  unfold gradCross ecross
  norm_num only [Nat.reduceAdd, Nat.reduceMod]
  rw [polyAt_partial P c X (by omega), polyAt_partial P c' X (by omega), polyAt_partial P c X (by omega),
    polyAt_partial P c' X (by omega), sum2, sum2, ← sum_sub_distrib]
  refine sum_congr rfl fun q _ => ?_
  have a1 := dmon01 q.1 q.2 X
  have a2 := dmon01 q.2 q.1 X
  rw [show ex q.2 0 + ex q.1 0 = ex q.1 0 + ex q.2 0 by ring, show ex q.2 1 + ex q.1 1 = ex q.1 1 + ex q.2 1 by ring,
    show ex q.2 2 + ex q.1 2 = ex q.1 2 + ex q.2 2 by ring] at a2
  linear_combination (coef c q.1 * coef c' q.2) * (a1 - a2)

/-- Moments and boundary values: `k ∫ t^(k-1) = 1 - (-1)^k`. -/
theorem mom_pred (k : ℕ) : (k : ℝ) * (Quad.mom (k - 1) : ℝ) = 1 - (-1) ^ k := by
  rw [← Quad.integral_mom]
  cases k with
  | zero => simp
  | succ k =>
    rw [integral_pow, Nat.add_sub_cancel]
    push_cast
    field_simp
    simp

/-- The exact surface integral of a pair of monomials vanishes. -/
theorem exact_zero (s t : ℕ × ℕ × ℕ) :
    ecross s t 0 * (1 - (-1) ^ (ex s 0 + ex t 0)) * ((Quad.mom (ex s 1 + ex t 1 - 1) : ℝ) * (Quad.mom (ex s 2 + ex t 2 - 1) : ℝ)) +
    ecross s t 1 * (1 - (-1) ^ (ex s 1 + ex t 1)) * ((Quad.mom (ex s 0 + ex t 0 - 1) : ℝ) * (Quad.mom (ex s 2 + ex t 2 - 1) : ℝ)) +
    ecross s t 2 * (1 - (-1) ^ (ex s 2 + ex t 2)) * ((Quad.mom (ex s 0 + ex t 0 - 1) : ℝ) * (Quad.mom (ex s 1 + ex t 1 - 1) : ℝ)) = 0 := by
  rw [← mom_pred, ← mom_pred, ← mom_pred]
  unfold ecross
  norm_num only [Nat.reduceAdd, Nat.reduceMod]
  push_cast
  ring

theorem ecross_le {P : ℕ} {s t : ℕ × ℕ × ℕ} (hs : s ∈ expo P) (ht : t ∈ expo P) (a : ℕ) : |ecross s t a| ≤ P ^ 2 := by
  have b : ∀ s ∈ expo P, ∀ d, 0 ≤ (ex s d : ℝ) ∧ (ex s d : ℝ) ≤ P := fun s hs d => ⟨by positivity, by exact_mod_cast ex_le hs d⟩
  unfold ecross
  have e1 := mul_le_mul (b s hs ((a + 1) % 3)).2 (b t ht ((a + 2) % 3)).2 (b t ht ((a + 2) % 3)).1 (by positivity)
  have e2 := mul_le_mul (b s hs ((a + 2) % 3)).2 (b t ht ((a + 1) % 3)).2 (b t ht ((a + 1) % 3)).1 (by positivity)
  have f1 := mul_nonneg (b s hs ((a + 1) % 3)).1 (b t ht ((a + 2) % 3)).1
  have f2 := mul_nonneg (b s hs ((a + 2) % 3)).1 (b t ht ((a + 1) % 3)).1
  rw [abs_le]; constructor <;> nlinarith

/-- The quadrature of a pair of monomials over the surface. -/
theorem surface_pair {ι : Type} (S : Finset ι) (n : ℕ) (x w : ℕ → ℝ) (κ : ι → ℕ → ℝ) (A B C : ι → ℕ) (G : ℕ → (ℕ → ℝ) → ℝ)
    (h0 : ∀ X, G 0 X = ∑ q ∈ S, κ q 0 * (X 0 ^ A q * X 1 ^ (B q - 1) * X 2 ^ (C q - 1)))
    (h1 : ∀ X, G 1 X = ∑ q ∈ S, κ q 1 * (X 0 ^ (A q - 1) * X 1 ^ B q * X 2 ^ (C q - 1)))
    (h2 : ∀ X, G 2 X = ∑ q ∈ S, κ q 2 * (X 0 ^ (A q - 1) * X 1 ^ (B q - 1) * X 2 ^ C q)) :
    surfaceQuad n x w G = ∑ q ∈ S,
      (κ q 0 * (1 - (-1) ^ A q) * (Quad.quad n x w (fun t => t ^ (B q - 1)) * Quad.quad n x w (fun t => t ^ (C q - 1))) +
       κ q 1 * (1 - (-1) ^ B q) * (Quad.quad n x w (fun t => t ^ (A q - 1)) * Quad.quad n x w (fun t => t ^ (C q - 1))) +
       κ q 2 * (1 - (-1) ^ C q) * (Quad.quad n x w (fun t => t ^ (A q - 1)) * Quad.quad n x w (fun t => t ^ (B q - 1)))) := by
  have gen : ∀ (c : ι → ℝ) (u v : ι → ℕ) (g : ℝ → ℝ → ℝ), (∀ y z, g y z = ∑ q ∈ S, c q * (y ^ u q * z ^ v q)) →
      ∑ k ∈ range n, ∑ j ∈ range n, w j * w k * g (x j) (x k) =
        ∑ q ∈ S, c q * (Quad.quad n x w (fun t => t ^ u q) * Quad.quad n x w (fun t => t ^ v q)) := by
    intro c u v g hg
    have : ∀ k ∈ range n, ∀ j ∈ range n, w j * w k * g (x j) (x k) = ∑ q ∈ S, c q * ((w j * x j ^ u q) * (w k * x k ^ v q)) := by
      intro k _ j _
      rw [hg, mul_sum]
      exact sum_congr rfl fun q _ => by ring
    rw [sum_congr rfl fun k hk => sum_congr rfl fun j hj => this k hk j hj, sum_congr rfl fun k _ => sum_comm, sum_comm]
    refine sum_congr rfl fun q _ => ?_
    simp only [← mul_sum, ← sum_mul]
    unfold Quad.quad
    ring
  unfold surfaceQuad
  rw [gen (fun q => κ q 0 * (1 - (-1) ^ A q)) (fun q => B q - 1) (fun q => C q - 1)
      (fun y z => G 0 (pt 1 y z) - G 0 (pt (-1) y z)) (by
        intro y z
        rw [h0, h0, ← sum_sub_distrib]
        exact sum_congr rfl fun q _ => by simp [pt]; ring),
    gen (fun q => κ q 1 * (1 - (-1) ^ B q)) (fun q => A q - 1) (fun q => C q - 1)
      (fun y z => G 1 (pt y 1 z) - G 1 (pt y (-1) z)) (by
        intro y z
        rw [h1, h1, ← sum_sub_distrib]
        exact sum_congr rfl fun q _ => by simp [pt]; ring),
    gen (fun q => κ q 2 * (1 - (-1) ^ C q)) (fun q => A q - 1) (fun q => B q - 1)
      (fun y z => G 2 (pt y z 1) - G 2 (pt y z (-1))) (by
        intro y z
        rw [h2, h2, ← sum_sub_distrib]
        exact sum_congr rfl fun q _ => by simp [pt]; ring),
    ← sum_add_distrib, ← sum_add_distrib]

/-- A rule exact up to `ε` below degree `2 P` gives a surface closed up to the stated accuracy. -/
theorem surface_closed (P : ℕ) (c c' : ℕ → ℕ → ℕ → ℝ) {n D : ℕ} {ε : ℝ} {x w : ℕ → ℝ} (hP : 1 ≤ P)
    (h : Quad.GoodRule n D ε x w) (h1 : ε ≤ 1) (hD : 2 * P ≤ D) :
    |surfaceQuad n x w (gradCross (polyAt P c) (polyAt P c'))| ≤ 30 * ε * P ^ 2 * (coefSum P c * coefSum P c') := by
  have hε : 0 ≤ ε := (abs_nonneg _).trans (moments h (show 0 < D by omega))
  have key := surface_pair (expo P ×ˢ expo P) n x w (fun q a => coef c q.1 * coef c' q.2 * ecross q.1 q.2 a)
    (fun q => ex q.1 0 + ex q.2 0) (fun q => ex q.1 1 + ex q.2 1) (fun q => ex q.1 2 + ex q.2 2)
    (gradCross (polyAt P c) (polyAt P c')) (fun X => gradCross_poly0 P c c' X) (fun X => gradCross_poly1 P c c' X)
    (fun X => gradCross_poly2 P c c' X)
  rw [key]
  have bound : ∀ q ∈ expo P ×ˢ expo P, |coef c q.1 * coef c' q.2 * ecross q.1 q.2 0 * (1 - (-1) ^ (ex q.1 0 + ex q.2 0)) *
        (Quad.quad n x w (fun t => t ^ (ex q.1 1 + ex q.2 1 - 1)) * Quad.quad n x w (fun t => t ^ (ex q.1 2 + ex q.2 2 - 1))) +
      coef c q.1 * coef c' q.2 * ecross q.1 q.2 1 * (1 - (-1) ^ (ex q.1 1 + ex q.2 1)) *
        (Quad.quad n x w (fun t => t ^ (ex q.1 0 + ex q.2 0 - 1)) * Quad.quad n x w (fun t => t ^ (ex q.1 2 + ex q.2 2 - 1))) +
      coef c q.1 * coef c' q.2 * ecross q.1 q.2 2 * (1 - (-1) ^ (ex q.1 2 + ex q.2 2)) *
        (Quad.quad n x w (fun t => t ^ (ex q.1 0 + ex q.2 0 - 1)) * Quad.quad n x w (fun t => t ^ (ex q.1 1 + ex q.2 1 - 1)))| ≤
      30 * ε * P ^ 2 * (|coef c q.1| * |coef c' q.2|) := by
    intro q hq
    simp only [mem_product] at hq
    have hz := exact_zero q.1 q.2
    have m : ∀ d, |Quad.quad n x w (fun t => t ^ (ex q.1 d + ex q.2 d - 1)) - (Quad.mom (ex q.1 d + ex q.2 d - 1) : ℝ)| ≤ ε := by
      intro d
      have := ex_le hq.1 d; have := ex_le hq.2 d
      exact moments h (by omega)
    have p := fun d d' => prod2_close (m d) (m d') (mom_le _) (mom_le _) h1
    have sg : ∀ k : ℕ, |(1:ℝ) - (-1) ^ k| ≤ 2 := by
      intro k
      rcases neg_one_pow_eq_or ℝ k with e | e <;> rw [e] <;> norm_num
    have tm : ∀ (a : ℕ) (k : ℕ) (y : ℝ), |y| ≤ 5 * ε → |ecross q.1 q.2 a * (1 - (-1) ^ k) * y| ≤ 10 * ε * P ^ 2 := by
      intro a k y hy
      rw [abs_mul, abs_mul]
      calc |ecross q.1 q.2 a| * |1 - (-1) ^ k| * |y| ≤ P ^ 2 * 2 * (5 * ε) :=
            mul_le_mul (mul_le_mul (ecross_le hq.1 hq.2 a) (sg k) (abs_nonneg _) (by positivity)) hy (abs_nonneg _) (by positivity)
        _ = _ := by ring
    have t0 := tm 0 (ex q.1 0 + ex q.2 0) _ (p 1 2)
    have t1 := tm 1 (ex q.1 1 + ex q.2 1) _ (p 0 2)
    have t2 := tm 2 (ex q.1 2 + ex q.2 2) _ (p 0 1)
    have tri := abs_add_three (ecross q.1 q.2 0 * (1 - (-1) ^ (ex q.1 0 + ex q.2 0)) * (Quad.quad n x w (fun t => t ^ (ex q.1 1 + ex q.2 1 - 1)) * Quad.quad n x w (fun t => t ^ (ex q.1 2 + ex q.2 2 - 1)) - (Quad.mom (ex q.1 1 + ex q.2 1 - 1) : ℝ) * (Quad.mom (ex q.1 2 + ex q.2 2 - 1) : ℝ)))
      (ecross q.1 q.2 1 * (1 - (-1) ^ (ex q.1 1 + ex q.2 1)) * (Quad.quad n x w (fun t => t ^ (ex q.1 0 + ex q.2 0 - 1)) * Quad.quad n x w (fun t => t ^ (ex q.1 2 + ex q.2 2 - 1)) - (Quad.mom (ex q.1 0 + ex q.2 0 - 1) : ℝ) * (Quad.mom (ex q.1 2 + ex q.2 2 - 1) : ℝ)))
      (ecross q.1 q.2 2 * (1 - (-1) ^ (ex q.1 2 + ex q.2 2)) * (Quad.quad n x w (fun t => t ^ (ex q.1 0 + ex q.2 0 - 1)) * Quad.quad n x w (fun t => t ^ (ex q.1 1 + ex q.2 1 - 1)) - (Quad.mom (ex q.1 0 + ex q.2 0 - 1) : ℝ) * (Quad.mom (ex q.1 1 + ex q.2 1 - 1) : ℝ)))
    have tot := tri.trans (add_le_add (add_le_add t0 t1) t2)
    have e : ∀ X0 X1 X2 Y0 Y1 Y2 u0 u1 u2 k : ℝ, u0 * Y0 + u1 * Y1 + u2 * Y2 = 0 →
        |u0 * (X0 - Y0) + u1 * (X1 - Y1) + u2 * (X2 - Y2)| ≤ 10 * ε * P ^ 2 + 10 * ε * P ^ 2 + 10 * ε * P ^ 2 →
        |k * u0 * X0 + k * u1 * X1 + k * u2 * X2| ≤ 30 * ε * P ^ 2 * |k| := by
      intro X0 X1 X2 Y0 Y1 Y2 u0 u1 u2 k hu ht
      rw [show k * u0 * X0 + k * u1 * X1 + k * u2 * X2 = k * (u0 * (X0 - Y0) + u1 * (X1 - Y1) + u2 * (X2 - Y2)) by
        linear_combination k * hu, abs_mul]
      exact (mul_le_mul_of_nonneg_left ht (abs_nonneg _)).trans (le_of_eq (by ring))
    have := e _ _ _ _ _ _ _ _ _ (coef c q.1 * coef c' q.2) hz tot
    rw [abs_mul] at this
    simp only [← mul_assoc] at this ⊢
    exact this
  refine (abs_sum_le_sum_abs _ _).trans ((sum_le_sum bound).trans (le_of_eq ?_))
  rw [← mul_sum, coefSum_eq, coefSum_eq, sum2]

end Verif.Geometry
