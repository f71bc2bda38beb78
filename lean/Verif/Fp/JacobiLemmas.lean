import Verif.Fp.LegendreLemmas

/-!
# Stability of the Jacobi recurrence with parameters `(k, k)`, `k` a natural number
-/

namespace Verif.Fp.Legendre
open Verif.Fp Finset

/-- `P_{m-1}^{(k,k)}(1)`. -/
noncomputable def wt (k : ℕ) : ℕ → ℝ
  | 0 => 1
  | 1 => 1
  | m + 2 => wt k (m + 1) * ((m + 1 + k) / (m + 1))

theorem wt_pos (k : ℕ) : ∀ m, 0 < wt k m
  | 0 => one_pos
  | 1 => one_pos
  | m + 2 => by
    have := wt_pos k (m + 1)
    rw [wt]; positivity

theorem wt_choose (k m : ℕ) : wt k (m + 1) = ((m + k).choose k : ℝ) := by
  induction m with
  | zero => simp [wt]
  | succ m ih =>
    rw [wt, ih]
    have h := Nat.add_one_mul_choose_eq (m + k) k
    have h2 := Nat.choose_succ_right_eq (m + k + 1) k
    have e : (m + 1 + k).choose k * (m + 1) = (m + k).choose k * (m + k + 1) := by
      rw [show m + 1 + k = m + k + 1 by omega]
      rw [show m + k + 1 - k = m + 1 by omega] at h2
      rw [← h2, ← h]; ring
    have e' : (((m + 1 + k).choose k : ℕ) : ℝ) * (m + 1) = ((m + k).choose k : ℕ) * (m + k + 1) := by exact_mod_cast e
    have : (m : ℝ) + 1 ≠ 0 := by positivity
    field_simp
    linarith

variable {R : Rounding} {k : ℕ}

/-- The coefficients of the recurrence, normalised. -/
theorem ja_wt (k m : ℕ) : Verif.Legendre.ja (k : ℝ) k (m + 1) * wt k (m + 1) = (1 + ratio k m) * wt k (m + 2) := by
  have hm : (m : ℝ) + 1 ≠ 0 := by positivity
  have hk : (m : ℝ) + 1 + k ≠ 0 := by positivity
  have hk2 : (m : ℝ) + 1 + 2 * k ≠ 0 := by positivity
  have hk3 : (m : ℝ) + 1 + k + k ≠ 0 := by positivity
  rw [wt]
  unfold Verif.Legendre.ja ratio
  split
  · have : m = 0 := by omega
    subst this
    simp
    ring
  · push_cast
    have w := (wt_pos k (m + 1)).ne'
    field_simp
    ring

theorem jc_wt (k m : ℕ) : Verif.Legendre.jc (k : ℝ) k (m + 1) * wt k m = ratio k m * wt k (m + 2) := by
  rcases m with _ | m
  · simp [Verif.Legendre.jc, ratio]
  · have h1 : (m : ℝ) + 1 ≠ 0 := by positivity
    have h2 : (m : ℝ) + 1 + 1 ≠ 0 := by positivity
    have h3 : (m : ℝ) + 1 + 1 + 2 * k ≠ 0 := by positivity
    have h4 : (m : ℝ) + 1 + 1 + k + k ≠ 0 := by positivity
    have h5 : (m : ℝ) + 1 + k ≠ 0 := by positivity
    have e : wt k (m + 1 + 2) = wt k (m + 1) * ((m + 1 + k) / (m + 1)) * ((m + 1 + 1 + k) / (m + 1 + 1)) := by
      rw [wt, wt]; push_cast; ring
    rw [e]
    unfold Verif.Legendre.jc ratio
    rw [if_neg (by omega)]
    push_cast
    rw [show 2 * ((m : ℝ) + 1 + 1) + k + k - 2 = 2 * (m + 1 + k) by ring]
    have w := (wt_pos k (m + 1)).ne'
    field_simp
    ring

theorem jb_zero (k m : ℕ) : Verif.Legendre.jb (k : ℝ) k (m + 1) = 0 := by
  unfold Verif.Legendre.jb; split <;> simp

/-- Exact recurrence, normalised. -/
theorem jacobi_rec (x : ℝ) (m : ℕ) : Verif.Legendre.jacobiShift (k : ℝ) k x (m + 2) / wt k (m + 2) =
    (1 + ratio k m) * x * (Verif.Legendre.jacobiShift (k : ℝ) k x (m + 1) / wt k (m + 1)) -
      ratio k m * (Verif.Legendre.jacobiShift (k : ℝ) k x m / wt k m) := by
  have w0 := (wt_pos k m).ne'
  have w1 := (wt_pos k (m + 1)).ne'
  have w2 := (wt_pos k (m + 2)).ne'
  rw [Verif.Legendre.jacobiShift, jb_zero, add_zero, div_eq_iff w2]
  have a := ja_wt k m
  have c := jc_wt k m
  field_simp
  linear_combination (wt k m * x * Verif.Legendre.jacobiShift (k : ℝ) k x (m + 1)) * a -
    (wt k (m + 1) * Verif.Legendre.jacobiShift (k : ℝ) k x m) * c

/-- Integers are exact. -/
theorem exact_int (m : ℤ) (hm : |m| ≤ 2 ^ R.bits) : R.fl m = m := by
  have := R.exact m 0 hm
  simpa using this

theorem exact_nat (m : ℕ) (hm : m ≤ 2 ^ R.bits) : R.fl m = m := by
  have := exact_int (R := R) (m : ℤ) (by rw [abs_of_nonneg (by positivity)]; exact_mod_cast hm)
  exact_mod_cast this

theorem Rel.of_eq (hu : R.u < 1) {a b : ℝ} (h : a = b) : Rel R 0 a b := by rw [h]; exact Rel.refl hu 0 b

/-- The rounded coefficients. -/
theorem ja_rel (hu : R.u < 1) {m : ℕ} (hb : 2 * (m + 1 + k) ≤ 2 ^ R.bits) :
    Rel R 3 (ja R k k (m + 1)) (Verif.Legendre.ja (k : ℝ) k (m + 1)) := by
  have e1 : R.fl (2 * ((m + 1 : ℕ) : ℝ)) = 2 * ((m + 1 : ℕ) : ℝ) := by
    have := exact_nat (R := R) (2 * (m + 1)) (by omega); push_cast at this ⊢; exact this
  have e2 : R.fl (2 * ((m + 1 : ℕ) : ℝ) + k) = 2 * ((m + 1 : ℕ) : ℝ) + k := by
    have := exact_nat (R := R) (2 * (m + 1) + k) (by omega); push_cast at this ⊢; exact this
  have e3 : R.fl (2 * ((m + 1 : ℕ) : ℝ) + k + k) = 2 * ((m + 1 : ℕ) : ℝ) + k + k := by
    have := exact_nat (R := R) (2 * (m + 1) + k + k) (by omega); push_cast at this ⊢; exact this
  have e4 : R.fl (2 * ((m + 1 : ℕ) : ℝ) + k + k - 1) = 2 * ((m + 1 : ℕ) : ℝ) + k + k - 1 := by
    have := exact_nat (R := R) (2 * m + 1 + k + k) (by omega); push_cast at this ⊢
    rw [show (2 : ℝ) * (m + 1) + k + k - 1 = 2 * m + 1 + k + k by ring]; exact this
  have e5 : R.fl (((m + 1 : ℕ) : ℝ) + k) = ((m + 1 : ℕ) : ℝ) + k := by
    have := exact_nat (R := R) (m + 1 + k) (by omega); push_cast at this ⊢; exact this
  have e6 : R.fl (((m + 1 : ℕ) : ℝ) + k + k) = ((m + 1 : ℕ) : ℝ) + k + k := by
    have := exact_nat (R := R) (m + 1 + k + k) (by omega); push_cast at this ⊢; exact this
  have e7 : R.fl ((k : ℝ) + k) = k + k := by
    have := exact_nat (R := R) (k + k) (by omega); push_cast at this ⊢; exact this
  have e8 : R.fl (1 / 2 * ((k : ℝ) + k)) = k := by
    have := exact_nat (R := R) k (by omega)
    rw [show (1 : ℝ) / 2 * (k + k) = k by ring]; exact this
  have e9 : R.fl ((k : ℝ) + 1) = k + 1 := by
    have := exact_nat (R := R) (k + 1) (by omega); push_cast at this ⊢; exact this
  unfold ja Verif.Legendre.ja
  split
  · rw [e7, e8, e9, show (1 : ℝ) / 2 * (k + k) + 1 = k + 1 by ring]
    exact Rel.refl hu 3 _
  · rw [e1, e2, e3, e4, e5, e6]
    exact ((Rel.fl hu _).fldiv hu (Rel.fl hu _)).mono hu (by omega)

theorem jb_eq {m : ℕ} : jb R k k (m + 1) = 0 := by
  have z : R.fl 0 = 0 := by
    have := R.err 0
    simpa using this
  unfold jb
  split
  · simp [z]
  · simp [z]

theorem jc_rel (hu : R.u < 1) {m : ℕ} (hb : 2 * (m + 1 + k) ≤ 2 ^ R.bits) :
    Rel R 5 (jc R k k (m + 1)) (Verif.Legendre.jc (k : ℝ) k (m + 1)) := by
  have e1 : R.fl (2 * ((m + 1 : ℕ) : ℝ)) = 2 * ((m + 1 : ℕ) : ℝ) := by
    have := exact_nat (R := R) (2 * (m + 1)) (by omega); push_cast at this ⊢; exact this
  have e2 : R.fl (2 * ((m + 1 : ℕ) : ℝ) + k) = 2 * ((m + 1 : ℕ) : ℝ) + k := by
    have := exact_nat (R := R) (2 * (m + 1) + k) (by omega); push_cast at this ⊢; exact this
  have e3 : R.fl (2 * ((m + 1 : ℕ) : ℝ) + k + k) = 2 * ((m + 1 : ℕ) : ℝ) + k + k := by
    have := exact_nat (R := R) (2 * (m + 1) + k + k) (by omega); push_cast at this ⊢; exact this
  have e4 : R.fl (2 * ((m + 1 : ℕ) : ℝ) + k + k - 2) = 2 * ((m + 1 : ℕ) : ℝ) + k + k - 2 := by
    have := exact_nat (R := R) (2 * m + k + k) (by omega); push_cast at this ⊢
    rw [show (2 : ℝ) * (m + 1) + k + k - 2 = 2 * m + k + k by ring]; exact this
  have e5 : R.fl (((m + 1 : ℕ) : ℝ) + k) = ((m + 1 : ℕ) : ℝ) + k := by
    have := exact_nat (R := R) (m + 1 + k) (by omega); push_cast at this ⊢; exact this
  have e6 : R.fl (((m + 1 : ℕ) : ℝ) + k + k) = ((m + 1 : ℕ) : ℝ) + k + k := by
    have := exact_nat (R := R) (m + 1 + k + k) (by omega); push_cast at this ⊢; exact this
  have e7 : R.fl (((m + 1 : ℕ) : ℝ) + k - 1) = ((m + 1 : ℕ) : ℝ) + k - 1 := by
    have := exact_nat (R := R) (m + k) (by omega); push_cast at this ⊢
    rw [show (m : ℝ) + 1 + k - 1 = m + k by ring]; exact this
  unfold jc Verif.Legendre.jc
  split
  · exact Rel.refl hu 5 _
  · rw [e1, e2, e3, e4, e5, e6, e7]
    exact (((Rel.fl hu _).flmul hu (Rel.refl hu 0 _)).fldiv hu ((Rel.fl hu _).flmul hu (Rel.refl hu 0 _))).mono hu (by omega)

/-- The rounding errors of one step. -/
theorem jacobi_local (hu : 7 * R.u < 1) {m : ℕ} (hb : 2 * (m + 1 + k) ≤ 2 ^ R.bits) (x : ℝ) :
    |jacobiShift R k k x (m + 2) - (Verif.Legendre.ja (k : ℝ) k (m + 1) * x * jacobiShift R k k x (m + 1) -
        Verif.Legendre.jc (k : ℝ) k (m + 1) * jacobiShift R k k x m)| ≤
      7 * R.u / (1 - 7 * R.u) * (|Verif.Legendre.ja (k : ℝ) k (m + 1)| * |x| * |jacobiShift R k k x (m + 1)| +
        |Verif.Legendre.jc (k : ℝ) k (m + 1)| * |jacobiShift R k k x m|) := by
  have hu1 : R.u < 1 := by linarith [R.u_nonneg]
  rw [jacobiShift, jb_eq, add_zero]
  obtain ⟨t1, h1, r1⟩ := (((Rel.fl hu1 _).trans hu1 ((ja_rel hu1 hb).flmul hu1 (Rel.refl hu1 0 x))).flmul hu1
    (Rel.refl hu1 0 (jacobiShift R k k x (m + 1))))
  obtain ⟨t2, h2, r2⟩ := (jc_rel hu1 hb).flmul hu1 (Rel.refl hu1 0 (jacobiShift R k k x m))
  rw [r1, r2]
  set a := Verif.Legendre.ja (k : ℝ) k (m + 1)
  set c := Verif.Legendre.jc (k : ℝ) k (m + 1)
  set p := jacobiShift R k k x (m + 1)
  set q := jacobiShift R k k x m
  obtain ⟨t3, h3, r3⟩ := Pert.fl hu1 (a * x * p * t1 - c * q * t2)
  rw [r3, show (a * x * p * t1 - c * q * t2) * t3 - (a * x * p - c * q) = a * x * p * (t1 * t3 - 1) - c * q * (t2 * t3 - 1) by ring]
  have T1 := (h1.mul hu1 h3).err hu1 (by push_cast; linarith)
  have T2 := (h2.mul hu1 h3).err hu1 (by push_cast; linarith)
  norm_num at T1 T2
  refine (abs_sub _ _).trans ?_
  rw [abs_mul, abs_mul, abs_mul, abs_mul, abs_mul]
  have := mul_le_mul_of_nonneg_left T1 (show 0 ≤ |a| * |x| * |p| by positivity)
  have := mul_le_mul_of_nonneg_left T2 (show 0 ≤ |c| * |q| by positivity)
  linarith

theorem jacobi_le {x : ℝ} (hx : |x| ≤ 1) (n : ℕ) : |Verif.Legendre.jacobiEval n (k : ℝ) k x| ≤ wt k (n + 1) := by
  have := seq_le hx (r := ratio k) (P := fun m => Verif.Legendre.jacobiShift (k : ℝ) k x m / wt k m) (ratio_mem k) (by simp [ratio])
    (by simp [Verif.Legendre.jacobiShift]) (by simp [Verif.Legendre.jacobiShift, wt]) (jacobi_rec x) (n + 1)
  rw [abs_div, abs_of_pos (wt_pos k (n + 1)), div_le_one (wt_pos k (n + 1))] at this
  exact this

/-- Errors of the rounded Jacobi recurrence. -/
theorem jacobi_err (hu : 7 * R.u < 1) (n : ℕ) (hb : 2 * (n + k) ≤ 2 ^ R.bits)
    (hn : 3 * n * (n + 1) * (7 * R.u / (1 - 7 * R.u)) ≤ 1) {x : ℝ} (hx : |x| ≤ 1) :
    |jacobiEval R n k k x - Verif.Legendre.jacobiEval n (k : ℝ) k x| ≤ 3 * n * (n + 1) * (7 * R.u / (1 - 7 * R.u)) * wt k (n + 1) := by
  have key := (seq_err hx (r := ratio k) (P := fun m => Verif.Legendre.jacobiShift (k : ℝ) k x m / wt k m)
    (S := fun m => jacobiShift R k k x m / wt k m) (div_nonneg (by linarith [R.u_nonneg]) (by linarith : (0 : ℝ) ≤ 1 - 7 * R.u))
    (ratio_mem k) (by simp [ratio]) (by simp [Verif.Legendre.jacobiShift]) (by simp [Verif.Legendre.jacobiShift, wt]) (jacobi_rec x)
    (by simp [jacobiShift]) (by simp [jacobiShift, wt]) n (by
      intro j hj
      have loc := jacobi_local (k := k) hu (m := j) (by omega) x
      have w0 := wt_pos k j
      have w1 := wt_pos k (j + 1)
      have w2 := wt_pos k (j + 2)
      have a : Verif.Legendre.ja (k : ℝ) k (j + 1) = (1 + ratio k j) * wt k (j + 2) / wt k (j + 1) := by
        rw [eq_div_iff w1.ne']; exact ja_wt k j
      have c : Verif.Legendre.jc (k : ℝ) k (j + 1) = ratio k j * wt k (j + 2) / wt k j := by
        rw [eq_div_iff w0.ne']; exact jc_wt k j
      have q := ratio_mem k j
      have q1 : 0 ≤ 1 + ratio k j := by linarith [q.1]
      rw [a, c, abs_of_nonneg (show 0 ≤ (1 + ratio k j) * wt k (j + 2) / wt k (j + 1) by positivity),
        abs_of_nonneg (show 0 ≤ ratio k j * wt k (j + 2) / wt k j by have := q.1; positivity)] at loc
      rw [abs_div, abs_div, abs_of_pos w1, abs_of_pos w0]
      refine le_of_mul_le_mul_right ?_ w2
      refine le_trans (le_of_eq ?_) (loc.trans (le_of_eq ?_))
      · rw [← abs_of_pos w2, ← abs_mul]
        congr 1
        rw [abs_of_pos w2]
        field_simp
      · ring) hn).2.2
  simp only [← sub_div] at key
  rw [abs_div, abs_of_pos (wt_pos k (n + 1)), div_le_iff₀ (wt_pos k (n + 1))] at key
  exact key

end Verif.Fp.Legendre
