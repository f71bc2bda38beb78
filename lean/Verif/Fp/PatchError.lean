import Verif.Fp.PatchModel
import Verif.Fp.RefineBins
import Verif.Swage.PatchGrid

/-!
# Rounded hash keys of the patches: how far from the exact ones
-/

namespace Verif.Swage.Key
open Verif.Swage Verif.Fp

variable (R : Rounding)

theorem sideCoordR_eq (nodes : ℕ → ℕ → ℕ) (x : ℕ → ℕ → ℝ) (c p d : ℕ) :
    sideCoordR R nodes x c p d = R.fl (R.fl (R.fl (R.fl (0 + R.fl (x (nodeInPatchInCell nodes c p 0) d / 4)) + R.fl (x (nodeInPatchInCell nodes c p 1) d / 4))
      + R.fl (x (nodeInPatchInCell nodes c p 2) d / 4)) + R.fl (x (nodeInPatchInCell nodes c p 3) d / 4)) := by
  unfold sideCoordR
  simp only [loop_succ, loop_zero]

/-- One step of a rounded sum. -/
theorem sum_step (hu : R.u ≤ 1 / 2 ^ 20) {A s s' b y e k : ℝ} (hA : 0 ≤ A) (he : e ≤ 4) (h : |s' - s| ≤ e * R.u * A)
    (hb : |b - y| ≤ R.u * (A / 4)) (hs : |s + y| ≤ k * A) : |R.fl (s' + b) - (s + y)| ≤ (e + 1 / 4 + k + 1 / 1000) * R.u * A := by
  have u0 := R.u_nonneg
  have h1 : |s' + b - (s + y)| ≤ (e + 1 / 4) * R.u * A := by
    rw [show s' + b - (s + y) = (s' - s) + (b - y) by ring]
    refine (abs_add_le _ _).trans ?_
    linarith
  refine (Refine.fl_near R h1).trans ?_
  norm_num at hu
  have a1 := mul_nonneg u0 hA
  have a2 := mul_le_mul_of_nonneg_left hs u0
  have a3 : R.u * ((e + 1 / 4) * R.u * A) ≤ 1 / 1000 * (R.u * A) := by
    have : (e + 1 / 4) * R.u ≤ 1 / 1000 := by nlinarith
    nlinarith
  nlinarith

theorem sideCoordR_near (hu : R.u ≤ 1 / 2 ^ 20) {nodes : ℕ → ℕ → ℕ} {x : ℕ → ℕ → ℝ} {A : ℝ} (hA : 0 ≤ A) {c p d : ℕ}
    (hx : ∀ q < 4, |x (nodeInPatchInCell nodes c p q) d| ≤ A) :
    |sideCoordR R nodes x c p d - sideCoord nodes x c p d| ≤ 5 * R.u * A ∧ |sideCoord nodes x c p d| ≤ A := by
  have u0 := R.u_nonneg
  have hq : ∀ q < 4, |R.fl (x (nodeInPatchInCell nodes c p q) d / 4) - x (nodeInPatchInCell nodes c p q) d / 4| ≤ R.u * (A / 4) := by
    intro q hq
    refine (R.err _).trans (mul_le_mul_of_nonneg_left ?_ u0)
    rw [abs_div, abs_of_pos (by norm_num : (0 : ℝ) < 4)]
    exact div_le_div_of_nonneg_right (hx q hq) (by norm_num)
  have b0 := abs_le.1 (hx 0 (by omega))
  have b1 := abs_le.1 (hx 1 (by omega))
  have b2 := abs_le.1 (hx 2 (by omega))
  have b3 := abs_le.1 (hx 3 (by omega))
  have q0 := hq 0 (by omega)
  have q1 := hq 1 (by omega)
  have q2 := hq 2 (by omega)
  have q3 := hq 3 (by omega)
  rw [sideCoordR_eq, sideCoord_eq]
  generalize x (nodeInPatchInCell nodes c p 0) d = y0 at *
  generalize x (nodeInPatchInCell nodes c p 1) d = y1 at *
  generalize x (nodeInPatchInCell nodes c p 2) d = y2 at *
  generalize x (nodeInPatchInCell nodes c p 3) d = y3 at *
  have s0 := sum_step R hu (s := 0) (s' := 0) (e := 0) (k := 1 / 4) hA (by norm_num) (by norm_num) q0
    (by rw [abs_le]; constructor <;> linarith)
  have s1 := sum_step R hu (k := 1 / 2) hA (by norm_num) s0 q1 (by rw [abs_le]; constructor <;> linarith)
  have s2 := sum_step R hu (k := 3 / 4) hA (by norm_num) s1 q2 (by rw [abs_le]; constructor <;> linarith)
  have s3 := sum_step R hu (k := 1) hA (by norm_num) s2 q3 (by rw [abs_le]; constructor <;> linarith)
  refine ⟨?_, by rw [abs_le]; constructor <;> linarith⟩
  rw [show (y0 + y1 + y2 + y3) / 4 = 0 + y0 / 4 + y1 / 4 + y2 / 4 + y3 / 4 by ring]
  refine s3.trans ?_
  have := mul_nonneg u0 hA
  norm_num
  nlinarith

/-- Numerators of the indices: `(y - m + 1e-12)` with `y` known up to `5uA`. -/
theorem numer_near (hu : R.u ≤ 1 / 2 ^ 20) {A y y' m : ℝ} (hA : 1 / 10 ^ 11 ≤ A) (hy : |y| ≤ A) (hm : |m| ≤ A) (hyy : |y' - y| ≤ 5 * R.u * A) :
    |R.fl (R.fl (y' - m) + R.fl (1 / 10 ^ 12)) - (y - m + 1 / 10 ^ 12)| ≤ 10 * R.u * A ∧ |y - m + 1 / 10 ^ 12| ≤ 2.1 * A := by
  have u0 := R.u_nonneg
  have hA0 : 0 ≤ A := le_trans (by positivity) hA
  obtain ⟨y1, y2⟩ := abs_le.1 hy
  obtain ⟨m1, m2⟩ := abs_le.1 hm
  have e1 : |y' - m - (y - m)| ≤ 5 * R.u * A := by rw [show y' - m - (y - m) = y' - y by ring]; exact hyy
  have h1 := Refine.fl_near R e1
  have hym : |y - m| ≤ 2 * A := by rw [abs_le]; constructor <;> linarith
  have h2 := R.err (1 / 10 ^ 12)
  rw [abs_of_nonneg (by positivity : (0 : ℝ) ≤ 1 / 10 ^ 12)] at h2
  have h3 : |R.fl (y' - m) + R.fl (1 / 10 ^ 12) - (y - m + 1 / 10 ^ 12)| ≤ 7.2 * R.u * A := by
    rw [show R.fl (y' - m) + R.fl (1 / 10 ^ 12) - (y - m + 1 / 10 ^ 12) = (R.fl (y' - m) - (y - m)) + (R.fl (1 / 10 ^ 12) - 1 / 10 ^ 12) by ring]
    refine (abs_add_le _ _).trans ((add_le_add h1 h2).trans ?_)
    have a1 := mul_le_mul_of_nonneg_left hym u0
    have a2 := mul_le_mul_of_nonneg_left hA u0
    have a3 := mul_nonneg u0 hA0
    have a4 : R.u * (5 * R.u * A) ≤ 1 / 1000 * (R.u * A) := by norm_num at hu; nlinarith
    norm_num at a2 ⊢
    nlinarith
  have hN : |y - m + 1 / 10 ^ 12| ≤ 2.1 * A := by
    norm_num at hA ⊢
    rw [abs_le]; constructor <;> linarith
  refine ⟨(Refine.fl_near R h3).trans ?_, hN⟩
  have a1 := mul_le_mul_of_nonneg_left hN u0
  have a3 := mul_nonneg u0 hA0
  have a4 : R.u * (7.2 * R.u * A) ≤ 1 / 1000 * (R.u * A) := by norm_num at hu ⊢; nlinarith
  norm_num at a1 a4 ⊢
  nlinarith

/-- A quotient of perturbed numbers. -/
theorem quot_near (hu : R.u ≤ 1 / 2 ^ 20) {A N N' δ δ' : ℝ} (hA : 0 ≤ A) (hδ : 0 < δ) (hδ' : |δ' - δ| ≤ 10 * R.u * δ) (hN : |N' - N| ≤ 10 * R.u * A)
    (hN2 : |N| ≤ 2.1 * A) : |R.fl (N' / δ') - N / δ| ≤ 34 * R.u * (A / δ) ∧ |N / δ| ≤ 2.1 * (A / δ) := by
  have u0 := R.u_nonneg
  norm_num at hu
  obtain ⟨t1, t2⟩ := abs_le.1 hδ'
  have uδ := mul_nonneg u0 hδ.le
  have hl : 0.999 * δ ≤ δ' := by norm_num; nlinarith
  have h'0 : 0 < δ' := lt_of_lt_of_le (by positivity) hl
  obtain ⟨r, hr⟩ : ∃ r, r = A / δ := ⟨_, rfl⟩
  obtain ⟨n, hn⟩ : ∃ n, n = N / δ := ⟨_, rfl⟩
  have eA : A = r * δ := by rw [hr]; field_simp
  have eN : N = n * δ := by rw [hn]; field_simp
  have r0 : 0 ≤ r := by rw [hr]; positivity
  have hn2 : |n| ≤ 2.1 * r := by
    rw [hn, hr, abs_div, abs_of_pos hδ, ← mul_div_assoc]
    exact div_le_div_of_nonneg_right hN2 hδ.le
  rw [← hr, ← hn]
  refine ⟨?_, hn2⟩
  have key : |N' / δ' - n| ≤ 31.1 * R.u * r := by
    have e : N' / δ' - n = ((N' - N) + n * (δ - δ')) / δ' := by rw [eN]; field_simp; ring
    rw [e, abs_div, abs_of_pos h'0, div_le_iff₀ h'0]
    refine (abs_add_le _ _).trans ?_
    rw [abs_mul, abs_sub_comm δ δ']
    have a1 := mul_le_mul hn2 hδ' (abs_nonneg _) (by positivity)
    rw [eA] at hN
    have a2 := mul_le_mul_of_nonneg_left hl (mul_nonneg (by norm_num : (0 : ℝ) ≤ 31.1) (mul_nonneg u0 r0))
    have a3 := mul_nonneg (mul_nonneg u0 r0) hδ.le
    norm_num at a1 a2 ⊢
    nlinarith
  refine (Refine.fl_near R key).trans ?_
  have a1 := mul_le_mul_of_nonneg_left hn2 u0
  have a3 := mul_nonneg u0 r0
  have a4 : R.u * (31.1 * R.u * r) ≤ 1 / 1000 * (R.u * r) := by norm_num; nlinarith
  norm_num at a1 a4 ⊢
  nlinarith

/-- A product of perturbed numbers. -/
theorem prod_near (hu : R.u ≤ 1 / 2 ^ 20) {a b x y P Q e f : ℝ} (hP : 0 ≤ P) (hQ : 0 ≤ Q) (e0 : 0 ≤ e ∧ e ≤ 50) (f0 : 0 ≤ f ∧ f ≤ 50) (ha : |a - x| ≤ e * R.u * P)
    (hb : |b - y| ≤ f * R.u * Q) (hx : |x| ≤ P) (hy : |y| ≤ Q) : |R.fl (a * b) - x * y| ≤ (e + f + 1.1) * R.u * (P * Q) := by
  have u0 := R.u_nonneg
  norm_num at hu
  have h := Refine.fl_near R (Refine.mul_near ha hb)
  refine h.trans ?_
  have PQ := mul_nonneg hP hQ
  have uPQ := mul_nonneg u0 PQ
  have hxy : |x * y| ≤ P * Q := by rw [abs_mul]; exact mul_le_mul hx hy (abs_nonneg _) hP
  have i1 : e * R.u * P * (|y| + f * R.u * Q) + |x| * (f * R.u * Q) ≤ (e + f + 0.01) * (R.u * (P * Q)) := by
    have c1 := mul_le_mul_of_nonneg_left hy (mul_nonneg (mul_nonneg e0.1 u0) hP)
    have c2 := mul_le_mul_of_nonneg_right hx (mul_nonneg (mul_nonneg f0.1 u0) hQ)
    have c3 : e * f * R.u ≤ 0.01 := by
      have : e * f ≤ 2500 := by nlinarith [e0.1, e0.2, f0.1, f0.2]
      norm_num
      nlinarith
    have c4 := mul_le_mul_of_nonneg_right c3 uPQ
    norm_num at c4 ⊢
    nlinarith
  have i2 := mul_le_mul_of_nonneg_left hxy u0
  have i3 : R.u * (e * R.u * P * (|y| + f * R.u * Q) + |x| * (f * R.u * Q)) ≤ 0.01 * (R.u * (P * Q)) := by
    refine (mul_le_mul_of_nonneg_left i1 u0).trans ?_
    have : R.u * (e + f + 0.01) ≤ 0.01 := by norm_num; nlinarith [e0.1, e0.2, f0.1, f0.2]
    nlinarith
  generalize e * R.u * P * (|y| + f * R.u * Q) + |x| * (f * R.u * Q) = Z at *
  generalize |x * y| = W at *
  generalize P * Q = V at *
  norm_num at i1 i3 ⊢
  nlinarith

/-- The sums of the combination, with `S` and `T` for `B²` and `B³`. -/
theorem hash_sums (hu : R.u ≤ 1 / 2 ^ 20) {B S T : ℝ} (b33 : 9 * B ≤ T) (b32 : 3 * S ≤ T) (T0 : 0 ≤ T) {i0 a b j0 y z : ℝ}
    (h0 : |i0 - j0| ≤ 17 * R.u * B) (p1 : |a - y| ≤ 35.1 * R.u * S) (p3 : |b - z| ≤ 53.2 * R.u * T)
    (b0 : |j0| ≤ B) (d1 : |y| ≤ S) (d3 : |z| ≤ T) :
    |R.fl (R.fl (i0 + a) + b) - (j0 + y + z)| ≤ 80 * R.u * T := by
  have u0 := R.u_nonneg
  have w1 := mul_le_mul_of_nonneg_left b33 u0
  have w2 := mul_le_mul_of_nonneg_left b32 u0
  have w3 := mul_nonneg u0 T0
  have s1 : |i0 + a - (j0 + y)| ≤ 14 * R.u * T := by
    rw [show i0 + a - (j0 + y) = (i0 - j0) + (a - y) by ring]
    refine (abs_add_le _ _).trans ((add_le_add h0 p1).trans ?_)
    norm_num; linarith
  have t1 := Refine.fl_near R s1
  have a01 : |j0 + y| ≤ 1 / 2 * T := (abs_add_le _ _).trans (by linarith)
  norm_num at hu
  have t1' : |R.fl (i0 + a) - (j0 + y)| ≤ 15 * R.u * T := by
    refine t1.trans ?_
    have c1 := mul_le_mul_of_nonneg_left a01 u0
    have c2 : R.u * (14 * R.u * T) ≤ 1 / 100 * (R.u * T) := by
      have := mul_le_mul_of_nonneg_right hu w3
      linarith
    linarith
  have s2 : |R.fl (i0 + a) + b - (j0 + y + z)| ≤ 73 * R.u * T := by
    rw [show R.fl (i0 + a) + b - (j0 + y + z) = (R.fl (i0 + a) - (j0 + y)) + (b - z) by ring]
    refine (abs_add_le _ _).trans ((add_le_add t1' p3).trans ?_)
    norm_num; linarith
  refine (Refine.fl_near R s2).trans ?_
  have a02 : |j0 + y + z| ≤ 3 / 2 * T := (abs_add_le _ _).trans (by linarith)
  have c1 := mul_le_mul_of_nonneg_left a02 u0
  have c2 : R.u * (73 * R.u * T) ≤ 1 / 100 * (R.u * T) := by
    have := mul_le_mul_of_nonneg_right hu w3
    linarith
  linarith

/-- The combination of three indices and two bin numbers. -/
theorem hash_near (hu : R.u ≤ 1 / 2 ^ 20) {B : ℝ} (hB : 3 ≤ B) {i0 i1 i2 n0 n1 j0 j1 j2 k0 k1 : ℝ}
    (h0 : |i0 - j0| ≤ 17 * R.u * B) (h1 : |i1 - j1| ≤ 17 * R.u * B) (h2 : |i2 - j2| ≤ 17 * R.u * B)
    (m0 : |n0 - k0| ≤ 17 * R.u * B) (m1 : |n1 - k1| ≤ 17 * R.u * B)
    (b0 : |j0| ≤ B) (b1 : |j1| ≤ B) (b2 : |j2| ≤ B) (c0 : |k0| ≤ B) (c1 : |k1| ≤ B) :
    |R.fl (R.fl (i0 + R.fl (i1 * n0)) + R.fl (R.fl (i2 * n0) * n1)) - (j0 + j1 * k0 + j2 * k0 * k1)| ≤ 80 * R.u * B ^ 3 := by
  have u0 := R.u_nonneg
  have B0 : 0 ≤ B := by linarith
  have BB : 0 ≤ B * B := mul_nonneg B0 B0
  have p1 := prod_near R hu B0 B0 (by norm_num) (by norm_num) h1 m0 b1 c0
  have p2 := prod_near R hu B0 B0 (by norm_num) (by norm_num) h2 m0 b2 c0
  have d2 : |j2 * k0| ≤ B * B := by rw [abs_mul]; exact mul_le_mul b2 c0 (abs_nonneg _) B0
  have d1 : |j1 * k0| ≤ B * B := by rw [abs_mul]; exact mul_le_mul b1 c0 (abs_nonneg _) B0
  have d3 : |j2 * k0 * k1| ≤ B * B * B := by rw [abs_mul]; exact mul_le_mul d2 c1 (abs_nonneg _) BB
  have p3 := prod_near R hu BB B0 (by norm_num) (by norm_num) p2 m1 d2 c1
  have e3 : B * B * B = B ^ 3 := by ring
  rw [e3] at p3 d3
  have b33 : 9 * B ≤ B ^ 3 := by rw [← e3]; nlinarith
  have b32 : 3 * (B * B) ≤ B ^ 3 := by rw [← e3]; nlinarith
  refine hash_sums R hu b33 b32 (by positivity) h0 (p1.trans (le_of_eq ?_)) (p3.trans (le_of_eq ?_)) b0 d1 d3 <;> norm_num

end Verif.Swage.Key
