import Verif.Fp.LUSolve
import Verif.LU.Theorems

/-!
# C89: rounding errors of the LU solver

Every operation of `LU_decompos`, `LU_backsub`, `LU_invert` and `LU_determ` is rounded (`Verif/Fp/LUModel.lean`).  The computed
results are exact for a nearby matrix; how near is measured by the computed factors.
-/

set_option linter.unusedSectionVars false
namespace Verif.LU
open Finset Verif.Fp

variable (R : Rounding)

/-- Entrywise absolute value. -/
def absM {n : ℕ} (M : Matrix (Fin n) (Fin n) ℝ) : Matrix (Fin n) (Fin n) ℝ := fun i j => |M i j|

/-- The bound on the perturbation of the matrix, in the row order of the factorisation: `ε |L| |U|`, and on the diagonal the tiny
number that replaced a pivot that was exactly zero. -/
noncomputable def pertBound (n : ℕ) (a : ℕ → ℕ → ℝ) (ε : ℝ) (i k : Fin n) : ℝ :=
  ε * (absM (Lmat n a) * absM (Umat n a)) i k + if i = k ∧ a i i = tinyR R then tinyR R else 0

theorem g_eq (hu : R.u < 1) (k : ℕ) : R.g k = 1 / (1 - R.u) ^ k - 1 := by
  unfold Rounding.g; rw [R.one_add_v hu, div_pow, one_pow]

/-- Without rounding the model is that of `Verif/LU/Model.lean`. -/
theorem none_decompos (p n : ℕ) (a : ℕ → ℕ → ℝ) (indx : ℕ → ℕ) : decomposR (Rounding.none p) n a indx = decompos n a indx := by
  unfold decomposR decompos
  cases scaling n a <;> rfl
theorem none_backsub (p n : ℕ) (a : ℕ → ℕ → ℝ) (indx : ℕ → ℕ) (b : ℕ → ℝ) :
    backsubR (Rounding.none p) n a indx b = backsub n a indx b := rfl

theorem sum_LU (n : ℕ) (a : ℕ → ℕ → ℝ) (f : ℝ → ℝ) (f0 : f 0 = 0) (i k : Fin n) :
    ∑ l : Fin n, f (Lmat n a i l) * f (Umat n a l k) = ∑ l ∈ range (k + 1), f (Lf a i l) * f (a l k) := by
  have : ∀ l : Fin n, f (Lmat n a i l) * f (Umat n a l k) =
      (fun l : ℕ => f (Lf a i l) * f (if l ≤ (k : ℕ) then a l k else 0)) l := by
    intro l
    simp only [Lmat, Umat, Lf, Fin.lt_def, Fin.le_def, Fin.ext_iff]
  rw [Finset.sum_congr rfl (fun l _ => this l),
    Fin.sum_univ_eq_sum_range (fun l : ℕ => f (Lf a i l) * f (if l ≤ (k : ℕ) then a l k else 0)) n]
  symm
  refine (sum_congr rfl fun l hl => ?_).trans
    (sum_subset (range_subset_range.2 (show (k : ℕ) + 1 ≤ n by omega)) fun l _ hl => ?_)
  · rw [mem_range] at hl
    rw [if_pos (show l ≤ (k : ℕ) by omega)]
  · rw [mem_range] at hl
    rw [if_neg (show ¬ l ≤ (k : ℕ) by omega), f0, mul_zero]

theorem sum_L (n : ℕ) (a : ℕ → ℕ → ℝ) (y : ℕ → ℝ) (f : ℝ → ℝ) (f0 : f 0 = 0) (i : Fin n) :
    ∑ l : Fin n, f (Lmat n a i l) * f (y l) = ∑ l ∈ range ((i : ℕ) + 1), f (Lf a i l) * f (y l) := by
  have : ∀ l : Fin n, f (Lmat n a i l) * f (y l) = (fun l : ℕ => f (Lf a i l) * f (y l)) l := by
    intro l; simp only [Lmat, Lf, Fin.lt_def, Fin.ext_iff]
  rw [Finset.sum_congr rfl (fun l _ => this l), Fin.sum_univ_eq_sum_range (fun l : ℕ => f (Lf a i l) * f (y l)) n]
  symm
  refine sum_subset (range_subset_range.2 (show (i : ℕ) + 1 ≤ n by omega)) fun l _ hl => ?_
  rw [mem_range] at hl
  unfold Lf; rw [if_neg (by omega), if_neg (by omega), f0, zero_mul]

theorem sum_U (n : ℕ) (a : ℕ → ℕ → ℝ) (x : ℕ → ℝ) (f : ℝ → ℝ) (f0 : f 0 = 0) (i : Fin n) :
    ∑ l : Fin n, f (Umat n a i l) * f (x l) = ∑ l ∈ Ico (i : ℕ) n, f (a i l) * f (x l) := by
  have : ∀ l : Fin n, f (Umat n a i l) * f (x l) = (fun l : ℕ => f (if (i : ℕ) ≤ l then a i l else 0) * f (x l)) l := by
    intro l; simp only [Umat, Fin.le_def]
  rw [Finset.sum_congr rfl (fun l _ => this l), Fin.sum_univ_eq_sum_range (fun l : ℕ => f (if (i : ℕ) ≤ l then a i l else 0) * f (x l)) n]
  symm
  refine (sum_congr rfl fun k hk => ?_).trans (sum_subset (fun k hk => ?_) fun k hk hk' => ?_)
  · rw [mem_Ico] at hk; rw [if_pos hk.1]
  · rw [mem_Ico] at hk; rw [mem_range]; exact hk.2
  · rw [mem_range] at hk
    rw [mem_Ico] at hk'
    rw [if_neg (by omega), f0, zero_mul]

/-- **C89** (return value).  Rounding does not change it: 0 exactly when some row of the input is zero. -/
theorem C89_ret (n : ℕ) (a : ℕ → ℕ → ℝ) (indx : ℕ → ℕ) :
    ((decomposR R n a indx).ret = 0 ↔ ∃ i < n, ∀ j < n, a i j = 0) ∧
    ((decomposR R n a indx).ret = 0 ∨ (decomposR R n a indx).ret = 1) := by
  have h := (scaling_spec n a).1
  unfold decomposR
  cases e : scaling n a with
  | none => exact ⟨⟨fun _ => h.1 e, fun _ => rfl⟩, Or.inl rfl⟩
  | some vv =>
    refine ⟨⟨fun h0 => absurd h0 (by simp), fun h0 => ?_⟩, Or.inr rfl⟩
    rw [h.2 h0] at e; cases e

/-- **C89** (factorisation).  Unless a row is zero, the factors `LU_decompos` stores multiply, up to the recorded interchanges, to
the input with the entrywise error `((1-u)^(-n) - 1) |L| |U|` (and `TINY` where a computed pivot was exactly zero).  No pivot
stored is zero, the interchanges are valid and the parity is their sign. -/
theorem C89_factor (hu : R.u < 1) (n : ℕ) (a : ℕ → ℕ → ℝ) (indx : ℕ → ℕ) (hret : (decomposR R n a indx).ret = 1) :
    let r := decomposR R n a indx
    (∀ i k : Fin n, |(Lmat n r.a * Umat n r.a) i k - a (rowPerm n r.indx n i) k| ≤
        pertBound R n r.a (1 / (1 - R.u) ^ n - 1) i k) ∧
      r.parity = ((Equiv.Perm.sign (rowPerm n r.indx n) : ℤˣ) : ℤ) ∧
      (∀ k < n, k ≤ r.indx k ∧ r.indx k < n) ∧ (∀ k < n, r.a k k ≠ 0) ∧
      ∀ i k, n ≤ i ∨ n ≤ k → r.a i k = a i k := by
  intro r
  unfold decomposR at hret
  cases e : scaling n a with
  | none => rw [e] at hret; simp at hret
  | some vv =>
    have hr : r = let s := loop n (columnR R n) { a := a, indx := indx, parity := 1, vv := vv }
        { ret := 1, a := s.a, indx := s.indx, parity := s.parity } := by
      show decomposR R n a indx = _
      unfold decomposR; rw [e]
    obtain ⟨δ, h⟩ := invR_all R hu n a indx vv ((scaling_spec n a).2 vv e)
    set s := loop n (columnR R n) { a := a, indx := indx, parity := 1, vv := vv }
    rw [hr]
    refine ⟨fun i k => ?_, h.parity, h.indx, h.piv, h.frame⟩
    have h1 := h.done i k k.2
    unfold pertBound
    rw [← g_eq R hu, Matrix.mul_apply, Matrix.mul_apply]
    have e1 := sum_LU n s.a id rfl i k
    have e2 := sum_LU n s.a abs abs_zero i k
    simp only [id] at e1
    show |∑ l, Lmat n s.a i l * Umat n s.a l k - _| ≤ R.g n * ∑ l, |Lmat n s.a i l| * |Umat n s.a l k| + _
    rw [e1, e2]
    refine h1.trans (add_le_add_right ?_ _)
    by_cases hik : i = k
    · subst hik
      rw [if_pos rfl]
      rcases h.delta i i.2 with hd | ⟨hd, hd'⟩
      · rw [hd]; split_ifs
        · exact tinyR_nonneg R
        · exact le_refl _
      · rw [hd, if_pos ⟨rfl, hd'⟩]
    · rw [if_neg hik, if_neg (fun h => hik h.1)]

/-- A residual bounded by `∑ B |x|` is removed by a perturbation bounded by `B`. -/
theorem row_pert {n : ℕ} (B x : Fin n → ℝ) (r : ℝ) (hB : ∀ k, 0 ≤ B k) (h : |r| ≤ ∑ k, B k * |x k|) :
    ∃ e : Fin n → ℝ, (∀ k, |e k| ≤ B k) ∧ ∑ k, e k * x k = r := by
  set T := ∑ k, B k * |x k| with hT
  by_cases h0 : T = 0
  · have : r = 0 := abs_nonpos_iff.1 (by rw [← h0]; exact h)
    exact ⟨fun _ => 0, fun k => by simpa using hB k, by simp [this]⟩
  · have hTn : 0 ≤ T := (abs_nonneg r).trans h
    have hTp : 0 < T := lt_of_le_of_ne hTn (Ne.symm h0)
    set sg : Fin n → ℝ := fun k => if 0 ≤ x k then 1 else -1 with hsg
    have hs1 : ∀ k, |sg k| ≤ 1 := by intro k; rw [hsg]; simp only; split_ifs <;> simp
    have hs2 : ∀ k, sg k * x k = |x k| := by
      intro k; rw [hsg]; simp only
      split_ifs with q
      · rw [one_mul, abs_of_nonneg q]
      · rw [abs_of_neg (not_le.1 q), neg_one_mul]
    refine ⟨fun k => r / T * (B k * sg k), fun k => ?_, ?_⟩
    · rw [abs_mul, abs_div, abs_of_pos hTp, abs_mul, abs_of_nonneg (hB k)]
      have h1 : |r| / T ≤ 1 := (div_le_one hTp).2 h
      calc |r| / T * (B k * |sg k|) ≤ 1 * (B k * 1) :=
            mul_le_mul h1 (mul_le_mul_of_nonneg_left (hs1 k) (hB k)) (mul_nonneg (hB k) (abs_nonneg _)) zero_le_one
        _ = B k := by ring
    · have : ∀ k, r / T * (B k * sg k) * x k = r / T * (B k * |x k|) := by
        intro k
        rw [← hs2 k]; ring
      rw [sum_congr rfl fun k _ => this k, ← mul_sum, ← hT, div_mul_cancel₀ _ h0]

/-- the residual of the computed solution -/
theorem residual (hu : R.u < 1) (n : ℕ) (a : ℕ → ℕ → ℝ) (indx : ℕ → ℕ) (hret : (decomposR R n a indx).ret = 1) (b : ℕ → ℝ)
    (i : Fin n) :
    let r := decomposR R n a indx
    let x := backsubR R n r.a r.indx b
    |b (rowPerm n r.indx n i) - ∑ k : Fin n, a (rowPerm n r.indx n i) k * x k| ≤
      ∑ k : Fin n, pertBound R n r.a (1 / (1 - R.u) ^ (3 * n) - 1) i k * |x k| := by
  intro r x
  obtain ⟨hf, -, hi, hp, -⟩ := C89_factor R hu n a indx hret
  obtain ⟨f1, -⟩ := forwardR_spec R hu n r.a r.indx b hi
  obtain ⟨g1, -⟩ := backwardR_spec R hu n r.a (forwardR R n r.a r.indx b).1 hp
  set y := (forwardR R n r.a r.indx b).1 with hy
  have hx : backwardR R n r.a y = x := rfl
  rw [hx] at g1
  set L := Lmat n r.a
  set U := Umat n r.a
  set σ := rowPerm n r.indx n
  set g := R.g n with hg
  have hgn : 0 ≤ g := R.g_nonneg hu n
  have hge : 1 / (1 - R.u) ^ n - 1 = g := (g_eq R hu n).symm
  -- `|U x - y| ≤ g |U||x|`, `|L y - P b| ≤ g |L||y|`
  have hU : ∀ l : Fin n, |∑ k : Fin n, U l k * x k - y l| ≤ g * ∑ k : Fin n, |U l k| * |x k| := by
    intro l
    have e1 := sum_U n r.a x id rfl l
    have e2 := sum_U n r.a x abs abs_zero l
    simp only [id] at e1
    rw [e1, e2]; exact g1 l l.2
  have hL : |∑ l : Fin n, L i l * y l - b (σ i)| ≤ g * ∑ l : Fin n, |L i l| * |y l| := by
    have e1 := sum_L n r.a y id rfl i
    have e2 := sum_L n r.a y abs abs_zero i
    simp only [id] at e1
    rw [e1, e2]; exact f1 i
  set P := ∑ l : Fin n, |L i l| * ∑ k : Fin n, |U l k| * |x k| with hP
  have hPn : 0 ≤ P := sum_nonneg fun l _ => mul_nonneg (abs_nonneg _) (sum_nonneg fun k _ => by positivity)
  have hy' : ∀ l : Fin n, |y l| ≤ (1 + g) * ∑ k : Fin n, |U l k| * |x k| := by
    intro l
    have h1 := hU l
    have h2 : |∑ k : Fin n, U l k * x k| ≤ ∑ k : Fin n, |U l k| * |x k| :=
      (abs_sum_le_sum_abs _ _).trans (le_of_eq (sum_congr rfl fun k _ => abs_mul _ _))
    have h3 : |y l| - |∑ k : Fin n, U l k * x k| ≤ |∑ k : Fin n, U l k * x k - y l| := by
      rw [abs_sub_comm]; exact abs_sub_abs_le_abs_sub _ _
    linarith
  have hLy : ∑ l : Fin n, |L i l| * |y l| ≤ (1 + g) * P := by
    rw [hP, mul_sum]
    refine sum_le_sum fun l _ => ?_
    have := mul_le_mul_of_nonneg_left (hy' l) (abs_nonneg (L i l))
    linarith
  have hLU : |∑ l : Fin n, L i l * (∑ k : Fin n, U l k * x k - y l)| ≤ g * P := by
    refine (abs_sum_le_sum_abs _ _).trans ?_
    rw [hP, mul_sum]
    refine sum_le_sum fun l _ => ?_
    rw [abs_mul]
    have := mul_le_mul_of_nonneg_left (hU l) (abs_nonneg (L i l))
    linarith
  have hP' : P = ∑ k : Fin n, (absM L * absM U) i k * |x k| := by
    have : ∀ k : Fin n, (absM L * absM U) i k * |x k| = ∑ l : Fin n, |L i l| * (|U l k| * |x k|) := by
      intro k
      rw [Matrix.mul_apply, sum_mul]
      exact sum_congr rfl fun l _ => mul_assoc _ _ _
    rw [sum_congr rfl fun k _ => this k, sum_comm, hP]
    exact sum_congr rfl fun l _ => mul_sum _ _ _
  set D := fun k : Fin n => if i = k ∧ r.a i i = tinyR R then tinyR R else 0
  have hA : |∑ k : Fin n, ((L * U) i k - a (σ i) k) * x k| ≤ g * P + ∑ k, D k * |x k| := by
    refine (abs_sum_le_sum_abs _ _).trans ?_
    rw [hP', mul_sum, ← sum_add_distrib]
    refine sum_le_sum fun k _ => ?_
    rw [abs_mul]
    have := mul_le_mul_of_nonneg_right (hf i k) (abs_nonneg (x k))
    unfold pertBound at this
    rw [hge] at this
    refine this.trans (le_of_eq ?_)
    rw [add_mul, mul_assoc]
  have hsplit : b (σ i) - ∑ k : Fin n, a (σ i) k * x k =
      ∑ k : Fin n, ((L * U) i k - a (σ i) k) * x k - ∑ l : Fin n, L i l * (∑ k : Fin n, U l k * x k - y l) -
        (∑ l : Fin n, L i l * y l - b (σ i)) := by
    have e1 : ∑ k : Fin n, (L * U) i k * x k = ∑ l : Fin n, L i l * ∑ k : Fin n, U l k * x k := by
      have : ∀ k : Fin n, (L * U) i k * x k = ∑ l : Fin n, L i l * (U l k * x k) := by
        intro k
        rw [Matrix.mul_apply, sum_mul]
        exact sum_congr rfl fun l _ => mul_assoc _ _ _
      rw [sum_congr rfl fun k _ => this k, sum_comm]
      exact sum_congr rfl fun l _ => (mul_sum _ _ _).symm
    simp only [sub_mul, mul_sub, sum_sub_distrib]
    rw [e1]; ring
  have hfin : |b (σ i) - ∑ k : Fin n, a (σ i) k * x k| ≤ (g * P + ∑ k, D k * |x k|) + g * P + g * ((1 + g) * P) := by
    rw [hsplit]
    refine (abs_sub _ _).trans (add_le_add ((abs_sub _ _).trans (add_le_add hA hLU)) ?_)
    exact hL.trans (mul_le_mul_of_nonneg_left hLy hgn)
  refine hfin.trans ?_
  have e3 : ∑ k : Fin n, pertBound R n r.a (1 / (1 - R.u) ^ (3 * n) - 1) i k * |x k| =
      (1 / (1 - R.u) ^ (3 * n) - 1) * P + ∑ k, D k * |x k| := by
    rw [hP', mul_sum, ← sum_add_distrib]
    refine sum_congr rfl fun k _ => ?_
    unfold pertBound
    rw [add_mul, mul_assoc]
  rw [e3, ← g_eq R hu]
  have e4 : R.g (3 * n) = (1 + g) ^ 3 - 1 := by
    rw [hg]; unfold Rounding.g; rw [mul_comm, pow_mul]; ring
  rw [e4]
  have : 0 ≤ g ^ 2 * P := by positivity
  have : 0 ≤ g ^ 3 * P := by positivity
  nlinarith

theorem pertBound_nonneg (n : ℕ) (a : ℕ → ℕ → ℝ) {ε : ℝ} (hε : 0 ≤ ε) (i k : Fin n) : 0 ≤ pertBound R n a ε i k := by
  unfold pertBound
  refine add_nonneg (mul_nonneg hε ?_) ?_
  · rw [Matrix.mul_apply]
    exact sum_nonneg fun l _ => mul_nonneg (abs_nonneg _) (abs_nonneg _)
  · split_ifs
    · exact tinyR_nonneg R
    · exact le_refl _

/-- **C89** (solution).  After `LU_decompos` returned 1, `LU_backsub` replaces `b` by the exact solution of a system whose matrix
differs from the given one by at most `((1-u)^(-3n) - 1) |L| |U|` in each entry (rows in the order of the factorisation), plus
`TINY` on the diagonal where a pivot was exactly zero. -/
theorem C89_solve (hu : R.u < 1) (n : ℕ) (a : ℕ → ℕ → ℝ) (indx : ℕ → ℕ) (hret : (decomposR R n a indx).ret = 1) (b : ℕ → ℝ) :
    let r := decomposR R n a indx
    let x := backsubR R n r.a r.indx b
    ∃ E : Matrix (Fin n) (Fin n) ℝ,
      (∀ i k, |E (rowPerm n r.indx n i) k| ≤ pertBound R n r.a (1 / (1 - R.u) ^ (3 * n) - 1) i k) ∧
      (toMat n a + E).mulVec (fun i => x i) = fun i : Fin n => b i := by
  intro r x
  have hε : 0 ≤ 1 / (1 - R.u) ^ (3 * n) - 1 := by rw [← g_eq R hu]; exact R.g_nonneg hu _
  have H := fun i : Fin n => row_pert (pertBound R n r.a (1 / (1 - R.u) ^ (3 * n) - 1) i) (fun k => x k) _
    (fun k => pertBound_nonneg R n r.a hε i k) (residual R hu n a indx hret b i)
  choose e he1 he2 using H
  set σ := rowPerm n r.indx n with hσ
  refine ⟨fun i k => e (σ.symm i) k, fun i k => ?_, ?_⟩
  · show |e (σ.symm (σ i)) k| ≤ _
    rw [Equiv.symm_apply_apply]; exact he1 i k
  · funext i
    show ∑ k : Fin n, (a i k + e (σ.symm i) k) * x k = b i
    have h2 := he2 (σ.symm i)
    have e0 : rowPerm n (decomposR R n a indx).indx n (σ.symm i) = i := Equiv.apply_symm_apply σ i
    rw [e0] at h2
    simp only [add_mul, sum_add_distrib]
    rw [h2]
    show ∑ k : Fin n, a i k * x k + (b i - ∑ k : Fin n, a i k * x k) = b i
    ring

/-- **C89** (accuracy).  If the matrix is non-singular, the distance to the true solution is at most `|A⁻¹|` times the
perturbation bound times the computed solution. -/
theorem C89_forward (hu : R.u < 1) (n : ℕ) (a : ℕ → ℕ → ℝ) (indx : ℕ → ℕ) (hret : (decomposR R n a indx).ret = 1) (b : ℕ → ℝ)
    (hdet : (toMat n a).det ≠ 0) (z : Fin n → ℝ) (hz : (toMat n a).mulVec z = fun i : Fin n => b i) (i : Fin n) :
    let r := decomposR R n a indx
    let x := backsubR R n r.a r.indx b
    |x i - z i| ≤ ∑ j : Fin n, |(toMat n a)⁻¹ i (rowPerm n r.indx n j)| *
      ∑ k : Fin n, pertBound R n r.a (1 / (1 - R.u) ^ (3 * n) - 1) j k * |x k| := by
  intro r x
  have hres := residual R hu n a indx hret b
  set A := toMat n a
  set σ := rowPerm n r.indx n with hσ
  have hunit : IsUnit A.det := hdet.isUnit
  have h1 : (fun i : Fin n => x i) - z = A⁻¹.mulVec (A.mulVec (fun i : Fin n => x i) - fun i : Fin n => b i) := by
    rw [← hz, ← Matrix.mulVec_sub, Matrix.mulVec_mulVec, Matrix.nonsing_inv_mul _ hunit, Matrix.one_mulVec]
  have h2 : x i - z i = ∑ j : Fin n, A⁻¹ i j * (∑ k : Fin n, a j k * x k - b j) := congrFun h1 i
  rw [h2, ← Equiv.sum_comp σ (fun j => A⁻¹ i j * (∑ k : Fin n, a j k * x k - b j))]
  refine (abs_sum_le_sum_abs _ _).trans (sum_le_sum fun j _ => ?_)
  rw [abs_mul, abs_sub_comm]
  exact mul_le_mul_of_nonneg_left (hres j) (abs_nonneg _)

/-- **C89** (inverse).  Each column `LU_invert` stores is the exact solution for the unit vector and a nearby matrix. -/
theorem C89_invert (hu : R.u < 1) (n : ℕ) (a : ℕ → ℕ → ℝ) (indx : ℕ → ℕ) (hret : (decomposR R n a indx).ret = 1)
    (inv0 : ℕ → ℕ → ℝ) (col0 : ℕ → ℝ) :
    let r := decomposR R n a indx
    let X := (invertR R n r.a r.indx inv0 col0).1
    ∀ k : Fin n, ∃ E : Matrix (Fin n) (Fin n) ℝ,
      (∀ i l, |E (rowPerm n r.indx n i) l| ≤ pertBound R n r.a (1 / (1 - R.u) ^ (3 * n) - 1) i l) ∧
      (toMat n a + E).mulVec (fun i => X i k) = fun i : Fin n => if i = k then 1 else 0 := by
  intro r X
  have key := loop_inv (n := n) (s := ((inv0, col0) : (ℕ → ℕ → ℝ) × (ℕ → ℝ)))
    (body := fun j s =>
      let col := loop n (fun i col => store col i 0) s.2
      let col := store col j 1
      let col := backsubR R n r.a r.indx col
      (loop n (fun i inv => store2 inv i j (col i)) s.1, col))
    (I := fun j s => ∀ k : Fin n, (k : ℕ) < j → ∃ E : Matrix (Fin n) (Fin n) ℝ,
      (∀ i l, |E (rowPerm n r.indx n i) l| ≤ pertBound R n r.a (1 / (1 - R.u) ^ (3 * n) - 1) i l) ∧
      (toMat n a + E).mulVec (fun i : Fin n => s.1 i k) = fun i : Fin n => if i = k then 1 else 0)
    (by simp) ?_
  · exact fun k => key k k.2
  · rintro j ⟨inv, col⟩ hj ih k hk
    simp only [loop_store]
    have hst : ∀ (c : ℕ → ℝ) (i k : ℕ), loop n (fun i inv => store2 inv i j (c i)) inv i k =
        if k = j ∧ i < n then c i else inv i k := by
      intro c i k
      refine loop_inv (n := n) (I := fun m (v : ℕ → ℕ → ℝ) => ∀ i k,
        v i k = if k = j ∧ i < m then c i else inv i k) (by simp) ?_ i k
      intro m v hm hv i k
      simp only [store2]
      by_cases e : i = m ∧ k = j
      · obtain ⟨rfl, rfl⟩ := e; simp
      · rw [if_neg e, hv]
        by_cases e2 : k = j ∧ i < m
        · rw [if_pos e2, if_pos ⟨e2.1, by omega⟩]
        · rw [if_neg e2, if_neg (by rintro ⟨h1, h2⟩; exact e2 ⟨h1, by omega⟩)]
    rcases Nat.lt_succ_iff_lt_or_eq.1 hk with hk | hk
    · obtain ⟨E, h1, h2⟩ := ih k hk
      refine ⟨E, h1, ?_⟩
      rw [← h2]
      congr 1
      funext i
      rw [hst, if_neg (by omega)]
    · set c := store (fun i => if i < n then (0 : ℝ) else col i) j 1 with hc
      obtain ⟨E, h1, h2⟩ := C89_solve R hu n a indx hret c
      refine ⟨E, h1, ?_⟩
      have e1 : (fun i : Fin n => loop n (fun i inv => store2 inv i j (backsubR R n r.a r.indx c i)) inv i k) =
          fun i : Fin n => backsubR R n r.a r.indx c i := by
        funext i; rw [hst, if_pos ⟨hk, i.2⟩]
      rw [e1]
      refine h2.trans ?_
      funext i
      by_cases e : i = k
      · rw [if_pos e, hc, e, hk, store_same]
      · rw [if_neg e, hc, store_ne _ _ (by intro h; exact e (Fin.ext (by omega))), if_pos i.2]

/-- rounding errors of a product -/
theorem loop_prod_err (n : ℕ) (d : ℕ → ℝ) (c : ℝ) :
    ∃ θ, |θ| ≤ (1 + R.u) ^ n - 1 ∧ loop n (fun j res => R.fl (res * d j)) c = c * (∏ j ∈ range n, d j) * (1 + θ) := by
  induction n with
  | zero => exact ⟨0, by simp, by simp⟩
  | succ n ih =>
    obtain ⟨θ, h1, h2⟩ := ih
    rw [loop_succ, h2, prod_range_succ]
    set q := c * (∏ j ∈ range n, d j) * (1 + θ) * d n with hq
    have he := R.err q
    have hu := R.u_nonneg
    by_cases h0 : q = 0
    · refine ⟨θ, h1.trans ?_, ?_⟩
      · have : (1 + R.u) ^ n ≤ (1 + R.u) ^ (n + 1) := pow_le_pow_right₀ (by linarith) (by omega)
        linarith
      · rw [h0, R.fl_zero, ← h0, hq]; ring
    · set ε := (R.fl q - q) / q with hε
      have h3 : |ε| ≤ R.u := by
        rw [hε, abs_div, div_le_iff₀ (abs_pos.2 h0)]; exact he
      have h4 : R.fl q = q * (1 + ε) := by rw [hε]; field_simp; ring
      refine ⟨θ + ε + θ * ε, ?_, ?_⟩
      · have k1 := abs_add_le (θ + ε) (θ * ε)
        have k2 := abs_add_le θ ε
        rw [abs_mul] at k1
        have k3 : |θ| * |ε| ≤ ((1 + R.u) ^ n - 1) * R.u := mul_le_mul h1 h3 (abs_nonneg _) ((abs_nonneg _).trans h1)
        rw [pow_succ]
        nlinarith
      · rw [h4, hq]; ring

/-- **C89** (determinant).  `LU_determ` returns, up to the relative error of `n` products, the determinant of a matrix within the
factorisation error of the given one. -/
theorem C89_determ (hu : R.u < 1) (n : ℕ) (a : ℕ → ℕ → ℝ) (indx : ℕ → ℕ) (hret : (decomposR R n a indx).ret = 1) :
    let r := decomposR R n a indx
    ∃ (E : Matrix (Fin n) (Fin n) ℝ) (θ : ℝ),
      (∀ i k, |E (rowPerm n r.indx n i) k| ≤ pertBound R n r.a (1 / (1 - R.u) ^ n - 1) i k) ∧
      |θ| ≤ (1 + R.u) ^ n - 1 ∧ determR R n r.a r.parity = (toMat n a + E).det * (1 + θ) := by
  intro r
  obtain ⟨hf, hpar, -, -, -⟩ := C89_factor R hu n a indx hret
  obtain ⟨θ, h1, h2⟩ := loop_prod_err R n (fun j => r.a j j) (r.parity : ℝ)
  set σ := rowPerm n r.indx n with hσ
  set L := Lmat n r.a with hLd
  set U := Umat n r.a with hUd
  refine ⟨(L * U).submatrix σ.symm id - toMat n a, θ, fun i k => ?_, h1, ?_⟩
  · have := hf i k
    show |(L * U) (σ.symm (σ i)) k - a (σ i) k| ≤ _
    rw [Equiv.symm_apply_apply]; exact this
  · have hL : L.det = 1 := by
      rw [Matrix.det_of_isLowerTriangular]
      · simp [hLd, Lmat]
      · intro i j hij
        have hij' : i < j := hij
        simp [hLd, Lmat, not_lt_of_gt hij', hij'.ne]
    have hU : U.det = ∏ i : Fin n, r.a i i := by
      rw [Matrix.det_of_isUpperTriangular]
      · simp [hUd, Umat]
      · intro i j hij
        have hij' : j < i := hij
        simp [hUd, Umat, not_le_of_gt hij']
    rw [add_sub_cancel, Matrix.det_permute, Matrix.det_mul, hL, hU, one_mul, Equiv.Perm.sign_symm,
      Fin.prod_univ_eq_prod_range (fun j => r.a j j) n]
    unfold determR
    rw [h2, hpar]

end Verif.LU
