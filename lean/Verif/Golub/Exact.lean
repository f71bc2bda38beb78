import Verif.Golub.Weight
import Verif.Golub.Model
import Mathlib.LinearAlgebra.Matrix.NonsingularInverse
import Mathlib.MeasureTheory.Integral.IntervalIntegral.Basic

/-!
# The mathematics of the Golub-Welsch rule
-/

namespace Verif.Golub
open Polynomial Finset Verif.Legendre

variable {α β : ℝ}

/-- The integral as a linear map. -/
noncomputable def Ilin (hα : -1 < α) (hβ : -1 < β) : ℝ[X] →ₗ[ℝ] ℝ where
  toFun := I α β
  map_add' := I_add hα hβ
  map_smul' c p := by rw [smul_eq_C_mul, I_C_mul]; rfl

/-- A linear functional that vanishes on the first `n` Jacobi polynomials vanishes on all polynomials of degree below `n`. -/
theorem vanish (hα : -1 < α) (hβ : -1 < β) (F : ℝ[X] →ₗ[ℝ] ℝ) (n : ℕ) (h : ∀ k < n, F (JP α β k) = 0) :
    ∀ f : ℝ[X], f.degree < n → F f = 0 := by
  induction n with
  | zero =>
    intro f hf
    have : f = 0 := by
      rw [Nat.cast_zero] at hf
      exact degree_lt_iff_coeff_zero f 0 |>.1 (by exact_mod_cast hf) |> fun h => by ext m; exact h m (Nat.zero_le m)
    rw [this, map_zero]
  | succ n ih =>
    intro f hf
    obtain ⟨d, c⟩ := jp_degree hα hβ n
    have key : F (f - C (f.coeff n / (JP α β n).coeff n) * JP α β n) = 0 := by
      refine ih (fun k hk => h k (by omega)) _ ?_
      rw [degree_lt_iff_coeff_zero]
      intro m hm
      rw [coeff_sub, coeff_C_mul]
      rcases Nat.eq_or_lt_of_le hm with rfl | hlt
      · rw [div_mul_cancel₀ _ c, sub_self]
      · rw [coeff_eq_zero_of_natDegree_lt (show (JP α β n).natDegree < m by omega), mul_zero, sub_zero]
        exact (degree_lt_iff_coeff_zero f (n + 1)).1 hf m hlt
    rw [map_sub, ← smul_eq_C_mul, map_smul, h n (by omega), smul_zero, sub_zero] at key
    exact key

/-- Orthogonality to lower powers. -/
theorem I_pow (hα : -1 < α) (hβ : -1 < β) (m : ℕ) : ∀ k, m < k → I α β (X ^ m * JP α β k) = 0 := by
  induction m with
  | zero =>
    intro k hk
    obtain ⟨k, rfl⟩ := Nat.exists_eq_succ_of_ne_zero hk.ne'
    rw [pow_zero, one_mul]
    exact I_jp hα hβ k
  | succ m ih =>
    intro k hk
    obtain ⟨k, rfl⟩ := Nat.exists_eq_succ_of_ne_zero (show k ≠ 0 by omega)
    have ha := (ja_pos hα hβ (k + 1)).ne'
    have e : C (ja α β (k + 2)) * (X ^ (m + 1) * JP α β (k + 1)) =
        X ^ m * JP α β (k + 2) + (C (-jb α β (k + 2)) * (X ^ m * JP α β (k + 1)) + C (jc α β (k + 2)) * (X ^ m * JP α β k)) := by
      rw [jp_succ, C_neg]; ring
    have h := congrArg (I α β) e
    rw [I_C_mul, I_add hα hβ, I_add hα hβ, I_C_mul, I_C_mul, ih _ (by omega), ih _ (by omega), ih _ (by omega)] at h
    simp only [mul_zero, add_zero] at h
    exact (mul_eq_zero.1 h).resolve_left ha

theorem I_mul (hα : -1 < α) (hβ : -1 < β) (n : ℕ) (q : ℝ[X]) (hq : q.natDegree < n) : I α β (JP α β n * q) = 0 := by
  rw [mul_comm, q.as_sum_range' n hq, sum_mul]
  show Ilin hα hβ _ = 0
  rw [map_sum]
  refine sum_eq_zero fun m hm => ?_
  rw [← C_mul_X_pow_eq_monomial, mul_assoc, ← smul_eq_C_mul, map_smul]
  show _ • I α β _ = 0
  rw [I_pow hα hβ m n (mem_range.1 hm), smul_zero]

/-- Diagonal entries. -/
noncomputable def dg (α β : ℝ) (k : ℕ) : ℝ := -jb α β (k + 1) / ja α β (k + 1)
/-- Subdiagonal entries. -/
noncomputable def sb (α β : ℝ) (k : ℕ) : ℝ := √(jc α β (k + 2) / (ja α β (k + 1) * ja α β (k + 2)))

theorem sb_pos (hα : -1 < α) (hβ : -1 < β) (k : ℕ) : 0 < sb α β k :=
  Real.sqrt_pos.2 (div_pos (jc_pos hα hβ k) (mul_pos (ja_pos hα hβ k) (ja_pos hα hβ (k + 1))))

theorem sb_sq (hα : -1 < α) (hβ : -1 < β) (k : ℕ) : sb α β k * sb α β k = jc α β (k + 2) / (ja α β (k + 1) * ja α β (k + 2)) :=
  Real.mul_self_sqrt (div_pos (jc_pos hα hβ k) (mul_pos (ja_pos hα hβ k) (ja_pos hα hβ (k + 1)))).le

/-- Normalisation factors. -/
noncomputable def kap (α β : ℝ) : ℕ → ℝ
  | 0 => 1
  | k + 1 => kap α β k / (ja α β (k + 1) * sb α β k)

theorem kap_pos (hα : -1 < α) (hβ : -1 < β) : ∀ k, 0 < kap α β k
  | 0 => one_pos
  | k + 1 => div_pos (kap_pos hα hβ k) (mul_pos (ja_pos hα hβ k) (sb_pos hα hβ k))

/-- The scaled polynomials obey the recurrence of the symmetric matrix. -/
theorem scaled_zero (hα : -1 < α) (hβ : -1 < β) (x : ℝ) :
    dg α β 0 * (kap α β 0 * (JP α β 0).eval x) + sb α β 0 * (kap α β 1 * (JP α β 1).eval x) = x * (kap α β 0 * (JP α β 0).eval x) := by
  have ha := (ja_pos hα hβ 0).ne'
  have hs := (sb_pos hα hβ 0).ne'
  rw [jp_one, jp_zero]
  simp only [kap, dg, eval_add, eval_mul, eval_C, eval_X, Polynomial.eval_one, zero_add] at ha ⊢
  field_simp
  ring

theorem scaled_succ (hα : -1 < α) (hβ : -1 < β) (x : ℝ) (k : ℕ) :
    sb α β k * (kap α β k * (JP α β k).eval x) + dg α β (k + 1) * (kap α β (k + 1) * (JP α β (k + 1)).eval x) +
      sb α β (k + 1) * (kap α β (k + 2) * (JP α β (k + 2)).eval x) = x * (kap α β (k + 1) * (JP α β (k + 1)).eval x) := by
  have ha := (ja_pos hα hβ k).ne'
  have ha1 := (ja_pos hα hβ (k + 1)).ne'
  have hs := (sb_pos hα hβ k).ne'
  have hs1 := (sb_pos hα hβ (k + 1)).ne'
  have hsq := sb_sq hα hβ k
  rw [eval_succ]
  simp only [kap, dg, show k + 1 + 1 = k + 2 from rfl] at *
  rw [eq_div_iff (mul_ne_zero ha ha1)] at hsq
  field_simp
  linear_combination (kap α β k * (JP α β k).eval x) * hsq

/-- Entries of the symmetric tridiagonal matrix with diagonal `d` and subdiagonal `e`. -/
def tri (d e : ℕ → ℝ) (i k : ℕ) : ℝ := if i = k then d i else if k = i + 1 then e i else if i = k + 1 then e k else 0

theorem tri_sum {n i : ℕ} (d e z : ℕ → ℝ) (hi : i < n) : ∑ k ∈ range n, tri d e i k * z k =
    (if 0 < i then e (i - 1) * z (i - 1) else 0) + d i * z i + (if i + 1 < n then e i * z (i + 1) else 0) := by
  have h : ∀ k, tri d e i k * z k = (if k = i then d i * z i else 0) + (if k = i + 1 then e i * z (i + 1) else 0) +
      (if k = i - 1 then (if 0 < i then e (i - 1) * z (i - 1) else 0) else 0) := by
    intro k
    unfold tri
    rcases Nat.lt_trichotomy i k with h | h | h
    · rw [if_neg (by omega), if_neg (show ¬ k = i by omega), if_neg (show ¬ k = i - 1 by omega)]
      by_cases h2 : k = i + 1
      · subst h2; simp
      · rw [if_neg h2, if_neg h2, if_neg (by omega)]; simp
    · subst h
      simp
      intro h1 h2; omega
    · rw [if_neg (by omega), if_neg (show ¬ k = i + 1 by omega), if_neg (show ¬ k = i by omega), if_neg (show ¬ k = i + 1 by omega)]
      by_cases h2 : i = k + 1
      · subst h2; simp
      · rw [if_neg h2, if_neg (show ¬ k = i - 1 by omega)]; simp
  simp only [h, sum_add_distrib, sum_ite_eq', mem_range]
  rw [if_pos hi, if_pos (show i - 1 < n by omega)]
  ring

/-- An eigenvector of the matrix is the vector of scaled polynomial values, and the eigenvalue is a root of the next polynomial unless
the eigenvector is zero. -/
theorem eigvec (hα : -1 < α) (hβ : -1 < β) {n : ℕ} (hn : 0 < n) {z : ℕ → ℝ} {l : ℝ}
    (h : ∀ i < n, ∑ k ∈ range n, tri (dg α β) (sb α β) i k * z k = l * z i) :
    (∀ i < n, z i = kap α β i * (JP α β i).eval l * z 0) ∧ (JP α β n).eval l * z 0 = 0 := by
  have all : ∀ i < n, z i = kap α β i * (JP α β i).eval l * z 0 := by
    intro i
    induction i using Nat.strong_induction_on with
    | _ i ih =>
      intro hi
      match i with
      | 0 => simp [kap, jp_zero]
      | 1 =>
        have r := h 0 hn
        rw [tri_sum _ _ _ hn, if_neg (by omega), if_pos (by omega)] at r
        have s := scaled_zero hα hβ l
        have e0 : kap α β 0 * (JP α β 0).eval l = 1 := by simp [kap, jp_zero]
        rw [e0] at s
        refine mul_left_cancel₀ (sb_pos hα hβ 0).ne' ?_
        linear_combination r - z 0 * s
      | i + 2 =>
        have r := h (i + 1) (by omega)
        rw [tri_sum _ _ _ (by omega), if_pos (by omega), if_pos (by omega), Nat.add_sub_cancel, ih i (by omega) (by omega),
          ih (i + 1) (by omega) (by omega)] at r
        have s := scaled_succ hα hβ l i
        refine mul_left_cancel₀ (sb_pos hα hβ (i + 1)).ne' ?_
        linear_combination r - z 0 * s
  refine ⟨all, ?_⟩
  obtain ⟨m, rfl⟩ := Nat.exists_eq_succ_of_ne_zero hn.ne'
  have hk := (kap_pos hα hβ (m + 1)).ne'
  have hs := (sb_pos hα hβ m).ne'
  have r := h m (by omega)
  rw [tri_sum _ _ _ (by omega), if_neg (show ¬ m + 1 < m + 1 by omega)] at r
  refine mul_left_cancel₀ (mul_ne_zero hs hk) ?_
  rcases Nat.eq_zero_or_pos m with rfl | hm
  · rw [if_neg (by omega)] at r
    have s := scaled_zero hα hβ l
    have e0 : kap α β 0 * (JP α β 0).eval l = 1 := by simp [kap, jp_zero]
    rw [e0] at s
    show sb α β 0 * kap α β 1 * ((JP α β 1).eval l * z 0) = _
    linear_combination z 0 * s - r
  · obtain ⟨i, rfl⟩ := Nat.exists_eq_succ_of_ne_zero hm.ne'
    rw [if_pos hm, show i.succ - 1 = i from rfl, all i (by omega), all i.succ (by omega)] at r
    have s := scaled_succ hα hβ l i
    show sb α β (i + 1) * kap α β (i + 2) * ((JP α β (i + 2)).eval l * z 0) = _
    simp only [Nat.succ_eq_add_one] at r
    linear_combination z 0 * s - r

/-- Orthonormal vectors of a square system are orthonormal the other way, too. -/
theorem rows_orth {n : ℕ} {Z : ℕ → ℕ → ℝ}
    (ho : ∀ j < n, ∀ j' < n, ∑ i ∈ range n, Z j i * Z j' i = if j = j' then 1 else 0) :
    ∀ i < n, ∀ k < n, ∑ j ∈ range n, Z j i * Z j k = if i = k then 1 else 0 := by
  let M : Matrix (Fin n) (Fin n) ℝ := fun j i => Z j i
  have e : M * M.transpose = 1 := by
    ext j j'
    rw [Matrix.mul_apply, Matrix.one_apply]
    have := ho j j.2 j' j'.2
    rw [Finset.sum_range] at this
    simp only [Fin.ext_iff]
    exact this
  have e2 : M.transpose * M = 1 := mul_eq_one_comm.1 e
  intro i hi k hk
  have := congrFun (congrFun e2 ⟨i, hi⟩) ⟨k, hk⟩
  rw [Matrix.mul_apply, Matrix.one_apply] at this
  rw [Finset.sum_range]
  simp only [Fin.ext_iff] at this
  exact this

/-- A non-zero polynomial that is not negative inside the interval has a positive integral. -/
theorem I_pos (hα : -1 < α) (hβ : -1 < β) {p : ℝ[X]} (hp : p ≠ 0) (h : ∀ x, -1 < x → x < 1 → 0 ≤ p.eval x) : 0 < I α β p := by
  have wpos : ∀ x, -1 < x → x < 1 → 0 < wt α β x := fun x h1 h2 =>
    mul_pos (Real.rpow_pos_of_pos (by linarith) _) (Real.rpow_pos_of_pos (by linarith) _)
  unfold I
  rw [intervalIntegral.integral_pos_iff_support_of_nonneg_ae' ?_ (intble hα hβ p)]
  · refine ⟨by norm_num, ?_⟩
    have sub : Set.Ioo (-1 : ℝ) 1 \ (p.roots.toFinset : Set ℝ) ⊆ Function.support (fun x => p.eval x * wt α β x) ∩ Set.Ioc (-1) 1 := by
      rintro x ⟨⟨h1, h2⟩, h3⟩
      refine ⟨?_, h1, h2.le⟩
      refine mul_ne_zero ?_ (wpos x h1 h2).ne'
      intro h0
      apply h3
      simp only [Multiset.mem_toFinset, Finset.mem_coe]
      exact (mem_roots hp).2 h0
    refine lt_of_lt_of_le ?_ (MeasureTheory.measure_mono sub)
    rw [MeasureTheory.measure_sdiff_null (Finset.measure_zero _ _), Real.volume_Ioo]
    norm_num
  · rw [Set.uIoc_of_le (by norm_num)]
    have : ∀ᵐ x : ℝ, x ≠ 1 := by
      rw [MeasureTheory.ae_iff]
      simp
    rw [Filter.EventuallyLE, MeasureTheory.ae_restrict_iff' measurableSet_Ioc]
    filter_upwards [this] with x hx hx2
    have h2 := lt_of_le_of_ne hx2.2 hx
    exact mul_nonneg (h x hx2.1 h2) (wpos x hx2.1 h2).le

section Rule
variable {n : ℕ} {l : ℕ → ℝ} {Z : ℕ → ℕ → ℝ}

theorem gw_exact (hα : -1 < α) (hβ : -1 < β) (hn : 0 < n)
    (he : ∀ j < n, ∀ i < n, ∑ k ∈ range n, tri (dg α β) (sb α β) i k * Z j k = l j * Z j i)
    (ho : ∀ j < n, ∀ j' < n, ∑ i ∈ range n, Z j i * Z j' i = if j = j' then 1 else 0)
    (f : ℝ[X]) (hf : f.natDegree < 2 * n) : ∑ j ∈ range n, Z j 0 * Z j 0 * I α β 1 * f.eval (l j) = I α β f := by
  have hr := rows_orth ho
  have hv := fun j hj => eigvec hα hβ hn (he j hj)
  have hI0 : I α β 1 = I α β (JP α β 0) := by rw [jp_zero]
  let R : ℝ[X] →ₗ[ℝ] ℝ :=
    { toFun := fun f => ∑ j ∈ range n, Z j 0 * Z j 0 * I α β 1 * f.eval (l j)
      map_add' := fun p q => by rw [← sum_add_distrib]; exact sum_congr rfl fun j _ => by rw [eval_add]; ring
      map_smul' := fun c p => by
        rw [smul_eq_mul, mul_sum]; exact sum_congr rfl fun j _ => by rw [eval_smul, smul_eq_mul]; simp only [RingHom.id_apply]; ring }
  have low : ∀ g : ℝ[X], g.degree < n → R g = I α β g := by
    intro g hg
    have := vanish hα hβ (R - Ilin hα hβ) n (by
      intro k hk
      show (∑ j ∈ range n, Z j 0 * Z j 0 * I α β 1 * (JP α β k).eval (l j)) - I α β (JP α β k) = 0
      have hk0 := (kap_pos hα hβ k).ne'
      have e : ∑ j ∈ range n, Z j 0 * Z j 0 * I α β 1 * (JP α β k).eval (l j) =
          I α β 1 / kap α β k * ∑ j ∈ range n, Z j 0 * Z j k := by
        rw [mul_sum]
        refine sum_congr rfl fun j hj => ?_
        rw [(hv j (mem_range.1 hj)).1 k hk]
        field_simp
      rw [e, hr 0 hn k hk]
      rcases Nat.eq_zero_or_pos k with rfl | hk1
      · rw [← hI0]; simp [kap]
      · obtain ⟨m, rfl⟩ := Nat.exists_eq_succ_of_ne_zero hk1.ne'
        rw [I_jp hα hβ m]; simp) g hg
    rw [LinearMap.sub_apply, sub_eq_zero] at this
    exact this
  have hd := jp_natDegree hα hβ n
  have hne := jp_ne hα hβ n
  have split := EuclideanDomain.div_add_mod f (JP α β n)
  have hmod : (f % JP α β n).degree < n := by
    have h := degree_mod_lt f hne
    rwa [degree_eq_natDegree hne, hd] at h
  have hq : (f / JP α β n).natDegree < n := by
    rw [Polynomial.div_def]
    refine lt_of_le_of_lt (natDegree_C_mul_le _ _) ?_
    rw [natDegree_divByMonic _ (monic_mul_leadingCoeff_inv hne),
      natDegree_mul_C (inv_ne_zero (leadingCoeff_ne_zero.2 hne)), hd]
    omega
  have e1 : I α β f = I α β (f % JP α β n) := by
    conv_lhs => rw [← split]
    rw [I_add hα hβ, I_mul hα hβ n _ hq, zero_add]
  have e2 : R f = R (f % JP α β n) := by
    show ∑ j ∈ range n, Z j 0 * Z j 0 * I α β 1 * f.eval (l j) = ∑ j ∈ range n, Z j 0 * Z j 0 * I α β 1 * (f % JP α β n).eval (l j)
    refine sum_congr rfl fun j hj => ?_
    have hz := (hv j (mem_range.1 hj)).2
    conv_lhs => rw [← split]
    rw [eval_add, eval_mul]
    linear_combination (Z j 0 * I α β 1 * (f / JP α β n).eval (l j)) * hz
  rw [e1, ← low _ hmod, ← e2]
  rfl

theorem gw_first (hα : -1 < α) (hβ : -1 < β) (hn : 0 < n)
    (he : ∀ j < n, ∀ i < n, ∑ k ∈ range n, tri (dg α β) (sb α β) i k * Z j k = l j * Z j i)
    (ho : ∀ j < n, ∀ j' < n, ∑ i ∈ range n, Z j i * Z j' i = if j = j' then 1 else 0) : ∀ j < n, Z j 0 ≠ 0 := by
  intro j hj h0
  have := ho j hj j hj
  rw [if_pos rfl, sum_eq_zero] at this
  · exact zero_ne_one this
  · intro i hi
    rw [(eigvec hα hβ hn (he j hj)).1 i (mem_range.1 hi), h0, mul_zero, mul_zero]

theorem gw_distinct (hα : -1 < α) (hβ : -1 < β) (hn : 0 < n)
    (he : ∀ j < n, ∀ i < n, ∑ k ∈ range n, tri (dg α β) (sb α β) i k * Z j k = l j * Z j i)
    (ho : ∀ j < n, ∀ j' < n, ∑ i ∈ range n, Z j i * Z j' i = if j = j' then 1 else 0) : ∀ j < n, ∀ j' < n, l j = l j' → j = j' := by
  intro j hj j' hj' hl
  by_contra hne
  have h0 := gw_first hα hβ hn he ho
  have a := ho j hj j' hj'
  have b := ho j hj j hj
  rw [if_neg hne] at a
  rw [if_pos rfl] at b
  have e : (∑ i ∈ range n, Z j i * Z j' i) * Z j 0 = (∑ i ∈ range n, Z j i * Z j i) * Z j' 0 := by
    rw [sum_mul, sum_mul]
    refine sum_congr rfl fun i hi => ?_
    rw [(eigvec hα hβ hn (he j hj)).1 i (mem_range.1 hi), (eigvec hα hβ hn (he j' hj')).1 i (mem_range.1 hi), hl]
    ring
  rw [a, b, zero_mul, one_mul] at e
  exact h0 j' hj' e.symm

theorem gw_inside (hα : -1 < α) (hβ : -1 < β) (hn : 0 < n)
    (he : ∀ j < n, ∀ i < n, ∑ k ∈ range n, tri (dg α β) (sb α β) i k * Z j k = l j * Z j i)
    (ho : ∀ j < n, ∀ j' < n, ∑ i ∈ range n, Z j i * Z j' i = if j = j' then 1 else 0) : ∀ j < n, -1 < l j ∧ l j < 1 := by
  intro j hj
  set g : ℝ[X] := ∏ i ∈ (range n).erase j, (X - C (l i)) with hg
  have hm : g.Monic := monic_prod_of_monic _ _ fun i _ => monic_X_sub_C _
  have hdeg : g.natDegree = n - 1 := by
    rw [hg, natDegree_prod_of_monic _ _ fun i _ => monic_X_sub_C _]
    simp [card_erase_of_mem (mem_range.2 hj)]
  have I1 : 0 < I α β 1 := I_pos hα hβ one_ne_zero fun x _ _ => by simp
  have hz : ∀ i ∈ range n, i ≠ j → g.eval (l i) = 0 := by
    intro i hi hij
    rw [hg, eval_prod]
    exact prod_eq_zero (mem_erase.2 ⟨hij, hi⟩) (by simp)
  have key : ∀ (s : ℝ[X]), s.natDegree ≤ 1 → s ≠ 0 → (∀ x, -1 < x → x < 1 → 0 ≤ s.eval x) → 0 < s.eval (l j) := by
    intro s hs hs0 hpos
    have hI : 0 < I α β (s * (g * g)) := I_pos hα hβ (mul_ne_zero hs0 (mul_ne_zero hm.ne_zero hm.ne_zero)) (fun x h1 h2 => by
      rw [eval_mul, eval_mul]; exact mul_nonneg (hpos x h1 h2) (mul_self_nonneg _))
    rw [← gw_exact hα hβ hn he ho _ (by
      have a := natDegree_mul_le (p := s) (q := g * g)
      have b := natDegree_mul_le (p := g) (q := g)
      omega), sum_eq_single j] at hI
    · rw [eval_mul, eval_mul] at hI
      have : 0 ≤ Z j 0 * Z j 0 * I α β 1 * (g.eval (l j) * g.eval (l j)) :=
        mul_nonneg (mul_nonneg (mul_self_nonneg _) I1.le) (mul_self_nonneg _)
      by_contra hc
      have hc : s.eval (l j) ≤ 0 := not_lt.1 hc
      have := mul_nonpos_of_nonneg_of_nonpos this hc
      linarith
    · intro i hi hij
      rw [eval_mul, eval_mul, hz i hi hij]; ring
    · intro h; exact absurd (mem_range.2 hj) h
  constructor
  · have := key (X + C 1) (natDegree_X_add_C _).le (X_add_C_ne_zero _) (fun x h1 _ => by simp; linarith)
    simp at this; linarith
  · have := key (C 1 - X) (by
        have := natDegree_sub_le (C (1 : ℝ)) X
        simpa using this) (by
        intro h
        have := congrArg (fun p => p.eval 0) h
        simp at this) (fun x _ h2 => by simp; linarith)
    simp at this; linarith

end Rule

end Verif.Golub
