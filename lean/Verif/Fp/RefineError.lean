import Verif.Fp.RefineSwap

/-!
# Rounded `refine_mesh`: error bounds
-/

namespace Verif.Swage.Refine
open Verif.Swage Verif.Fp

variable (R : Rounding)

/-- Rounding of a perturbed value. -/
theorem fl_near {x y e : ℝ} (h : |x - y| ≤ e) : |R.fl x - y| ≤ e + R.u * (|y| + e) := by
  have h1 := R.err x
  have h2 : |x| ≤ |y| + e := by
    have := abs_add_le (x - y) y
    rw [sub_add_cancel] at this; linarith
  have h3 : |R.fl x - y| ≤ |R.fl x - x| + |x - y| := abs_sub_le _ _ _
  have h4 := mul_le_mul_of_nonneg_left h2 R.u_nonneg
  linarith

/-- Product of perturbed values. -/
theorem mul_near {a b x y e f : ℝ} (h1 : |a - x| ≤ e) (h2 : |b - y| ≤ f) : |a * b - x * y| ≤ e * (|y| + f) + |x| * f := by
  have hb : |b| ≤ |y| + f := by
    have := abs_add_le (b - y) y
    rw [sub_add_cancel] at this; linarith
  have e0 : 0 ≤ e := (abs_nonneg _).trans h1
  calc |a * b - x * y| = |(a - x) * b + x * (b - y)| := by ring_nf
    _ ≤ |a - x| * |b| + |x| * |b - y| := by rw [← abs_mul, ← abs_mul]; exact abs_add_le _ _
    _ ≤ e * (|y| + f) + |x| * f := by
      refine add_le_add (mul_le_mul h1 hb (abs_nonneg _) e0) (mul_le_mul_of_nonneg_left h2 (abs_nonneg _))

/-! ### Reference points -/

theorem sqrt21 : √21 ^ 2 = (21 : ℝ) ∧ 4.5 < √21 ∧ √21 < 4.6 := by
  have hs : √21 ^ 2 = (21 : ℝ) := Real.sq_sqrt (by norm_num)
  have h0 : 0 < √21 := Real.sqrt_pos.2 (by norm_num)
  exact ⟨hs, by nlinarith, by nlinarith⟩

/-- The computed reference points: error at most `2u`, exact ends. -/
theorem lobR_near (hu : R.u ≤ 1 / 2 ^ 20) (hb : 1 ≤ R.bits) {p : ℕ} (hp : p ≤ 9) :
    (∀ i < pts1d p, |(lobNodesR R (pts1d p)).getD i 0 - (Quad.lobNodes (pts1d p)).getD i 0| ≤ 2 * R.u) ∧
      (lobNodesR R (pts1d p)).getD 0 0 = -1 ∧ (lobNodesR R (pts1d p)).getD (pts1d p - 1) 0 = 1 := by
  have u0 := R.u_nonneg
  have f1 := fl_one R hb
  by_cases h2 : p = 2
  · subst h2
    have hx : Quad.lobNodes (pts1d 2) = [-1, -1/7*√21, 0, 1/7*√21, (1:ℝ)] := rfl
    have hy : lobNodesR R (pts1d 2) = [-1, R.fl (R.fl (-1 / 7) * R.fl √21), 0, R.fl (R.fl (1 / 7) * R.fl √21), 1] := rfl
    rw [hx, hy]
    refine ⟨?_, rfl, rfl⟩
    obtain ⟨-, s1, s2⟩ := sqrt21
    have hs : |R.fl √21 - √21| ≤ R.u * 4.6 := by
      refine (R.err _).trans (mul_le_mul_of_nonneg_left ?_ u0)
      rw [abs_of_pos (by linarith)]; exact s2.le
    have key : ∀ c : ℝ, |c| = 1 / 7 → |R.fl (R.fl c * R.fl √21) - c * √21| ≤ 2 * R.u := by
      intro c hc
      have h1 : |R.fl c - c| ≤ R.u * (1 / 7) := by rw [← hc]; exact R.err c
      have h3 := fl_near R (mul_near h1 hs)
      rw [hc, abs_mul, hc, abs_of_pos (show (0 : ℝ) < √21 by linarith)] at h3
      refine h3.trans ?_
      norm_num at s1 s2 hu ⊢
      nlinarith [mul_nonneg u0 u0, mul_nonneg u0 (mul_nonneg u0 u0)]
    intro i hi
    have hi' : i < 5 := hi
    interval_cases i
    · simpa using u0
    · exact key (-1 / 7) (by norm_num)
    · simpa using u0
    · exact key (1 / 7) (by norm_num)
    · simpa using u0
  · have hne : pts1d p ≠ 4 ∧ pts1d p ≠ 5 ∧ pts1d p ≠ 6 := by unfold pts1d; split <;> omega
    have n2 : 2 ≤ pts1d p := by unfold pts1d; split <;> omega
    have hQ : lobNodesR R (pts1d p) = (Quad.lobNodesQ (pts1d p)).map fun q : ℚ => if q < 0 then -R.fl ((-q : ℚ) : ℝ) else R.fl (q : ℝ) := by
      unfold lobNodesR; split <;> simp_all
    have hlen : (Quad.lobNodesQ (pts1d p)).length = pts1d p :=
      (Quad.lob_check (pts1d p) (by unfold pts1d; split <;> omega) n2 hne).1
    have hget : ∀ i < pts1d p, (lobNodesR R (pts1d p)).getD i 0 =
        (fun q : ℚ => if q < 0 then -R.fl ((-q : ℚ) : ℝ) else R.fl (q : ℝ)) ((Quad.lobNodesQ (pts1d p)).getD i 0) := by
      intro i hi
      rw [hQ, List.getD_eq_getElem _ _ (by rw [List.length_map, hlen]; exact hi), List.getElem_map,
        List.getD_eq_getElem _ _ (by rw [hlen]; exact hi)]
    have hget' : ∀ i < pts1d p, (Quad.lobNodes (pts1d p)).getD i 0 = (((Quad.lobNodesQ (pts1d p)).getD i 0 : ℚ) : ℝ) := by
      intro i hi
      rw [Quad.lobNodes_eq hne, Quad.getD_map_cast]
    obtain ⟨lob, hl, gn1, gn2, gn3, gn4⟩ := good_nodes hp (fun _ => 0)
    have hv : ∀ i < pts1d p, lob.val i = (((Quad.lobNodesQ (pts1d p)).getD i 0 : ℚ) : ℝ) := fun i hi => by
      rw [lob_val n2 (by unfold pts1d; split <;> omega) hl i hi, hget' i hi]
    refine ⟨?_, ?_, ?_⟩
    · intro i hi
      rw [hget i hi, hget' i hi]
      have hb1 := gn1 i hi
      rw [hv i hi] at hb1
      generalize (Quad.lobNodesQ (pts1d p)).getD i 0 = t at hb1
      simp only []
      split_ifs with ht
      · have h1 := R.err ((-t : ℚ) : ℝ)
        push_cast at h1 ⊢
        have h3 : |(-(t : ℝ))| ≤ 1 := by rw [abs_neg, abs_le]; exact hb1
        have h4 := mul_le_mul_of_nonneg_left h3 u0
        rw [show -R.fl (-(t : ℝ)) - t = -(R.fl (-(t : ℝ)) - -(t : ℝ)) by ring, abs_neg]
        linarith
      · have h1 := R.err (t : ℝ)
        have h3 : |(t : ℝ)| ≤ 1 := by rw [abs_le]; exact hb1
        have h4 := mul_le_mul_of_nonneg_left h3 u0
        linarith
    · rw [hget 0 (by omega)]
      have : (((Quad.lobNodesQ (pts1d p)).getD 0 0 : ℚ) : ℝ) = -1 := by rw [← hv 0 (by omega)]; exact gn3
      have h : (Quad.lobNodesQ (pts1d p)).getD 0 0 = -1 := by exact_mod_cast this
      rw [h]; norm_num; rw [f1]
    · rw [hget (pts1d p - 1) (by omega)]
      have : (((Quad.lobNodesQ (pts1d p)).getD (pts1d p - 1) 0 : ℚ) : ℝ) = 1 := by rw [← hv _ (by omega)]; exact gn4
      have h : (Quad.lobNodesQ (pts1d p)).getD (pts1d p - 1) 0 = 1 := by exact_mod_cast this
      rw [h]; norm_num; rw [f1]

/-! ### Gauss points -/

theorem wR_near (hu : R.u ≤ 1 / 2 ^ 20) {t s : ℝ} (ht : |t - s| ≤ 2 * R.u) (hs : |s| ≤ 1) (b : ℕ) :
    |wR R t b - (1 + (if b = 1 then 1 else -1) * s)| ≤ 6 * R.u ∧ 0 ≤ 1 + (if b = 1 then 1 else -1) * s ∧
      1 + (if b = 1 then 1 else -1) * s ≤ 2 := by
  have u0 := R.u_nonneg
  have hs' := abs_le.1 hs
  set σ : ℝ := if b = 1 then 1 else -1 with hσ
  have hσ1 : |σ| = 1 := by rw [hσ]; split <;> simp
  have hr : 0 ≤ 1 + σ * s ∧ 1 + σ * s ≤ 2 := by
    rw [hσ]; split <;> constructor <;> linarith [hs'.1, hs'.2]
  refine ⟨?_, hr⟩
  have h1 : |t * σ - s * σ| ≤ 2 * R.u := by rw [← sub_mul, abs_mul, hσ1, mul_one]; exact ht
  have h2 := fl_near R h1
  have hsσ : |s * σ| ≤ 1 := by rw [abs_mul, hσ1, mul_one]; exact hs
  have h3 : |1 + R.fl (t * σ) - (1 + σ * s)| ≤ 2 * R.u + R.u * (1 + 2 * R.u) := by
    rw [show 1 + R.fl (t * σ) - (1 + σ * s) = R.fl (t * σ) - s * σ by ring]
    refine h2.trans ?_
    have := mul_le_mul_of_nonneg_left (add_le_add_left hsσ (2 * R.u)) u0
    linarith
  have h4 := fl_near R h3
  unfold wR
  rw [← hσ]
  refine h4.trans ?_
  rw [abs_of_nonneg hr.1]
  norm_num at hu
  nlinarith [mul_nonneg u0 u0, mul_nonneg u0 (mul_nonneg u0 u0), hr.2]

theorem fl_eighth (hb : 1 ≤ R.bits) : R.fl (1 / 8) = 1 / 8 := by
  have := R.exact 1 (-3) (by
    have : (2 : ℤ) ^ 0 ≤ 2 ^ R.bits := pow_le_pow_right₀ (by norm_num) (by omega)
    simpa using this)
  norm_num at this ⊢
  exact this

theorem bR_near (hu : R.u ≤ 1 / 2 ^ 20) (hb : 1 ≤ R.bits) {a b c x y z : ℝ} (ha : |a - x| ≤ 6 * R.u) (hb' : |b - y| ≤ 6 * R.u)
    (hc : |c - z| ≤ 6 * R.u) (hx : 0 ≤ x ∧ x ≤ 2) (hy : 0 ≤ y ∧ y ≤ 2) (hz : 0 ≤ z ∧ z ≤ 2) :
    |bR R a b c - x / 2 * (y / 2) * (z / 2)| ≤ 13 * R.u := by
  have u0 := R.u_nonneg
  norm_num at hu
  unfold bR
  rw [fl_eighth R hb]
  have xy : 0 ≤ x * y ∧ x * y ≤ 4 := ⟨mul_nonneg hx.1 hy.1, by nlinarith [hx.1, hx.2, hy.1, hy.2]⟩
  have s1 : |1 / 8 * a - 1 / 8 * x| ≤ 3 / 4 * R.u := by
    rw [← mul_sub, abs_mul, abs_of_pos (by norm_num : (0 : ℝ) < 1 / 8)]; linarith
  have s2 := fl_near R s1
  have s2' : |R.fl (1 / 8 * a) - 1 / 8 * x| ≤ 1.01 * R.u := by
    refine s2.trans ?_
    rw [abs_of_nonneg (by linarith [hx.1])]
    norm_num
    nlinarith [mul_nonneg u0 u0, hx.2]
  have s3 := fl_near R (mul_near s2' hb')
  have s3' : |R.fl (R.fl (1 / 8 * a) * b) - 1 / 8 * x * y| ≤ 4.1 * R.u := by
    refine s3.trans ?_
    have e1 : |1 / 8 * x * y| = 1 / 8 * x * y := abs_of_nonneg (by have := xy.1; nlinarith)
    rw [e1, abs_of_nonneg (by linarith [hx.1] : (0 : ℝ) ≤ 1 / 8 * x), abs_of_nonneg hy.1]
    norm_num
    nlinarith [mul_nonneg u0 u0, mul_nonneg u0 (mul_nonneg u0 u0), mul_le_mul_of_nonneg_left hx.2 u0, mul_le_mul_of_nonneg_left hy.2 u0,
      mul_le_mul_of_nonneg_left xy.2 u0, mul_nonneg (mul_nonneg u0 u0) hx.1, mul_nonneg (mul_nonneg u0 u0) hy.1,
      mul_le_mul_of_nonneg_left hx.2 (mul_nonneg u0 u0), mul_le_mul_of_nonneg_left hy.2 (mul_nonneg u0 u0)]
  have s4 := fl_near R (mul_near s3' hc)
  have e2 : x / 2 * (y / 2) * (z / 2) = 1 / 8 * x * y * z := by ring
  rw [e2]
  refine s4.trans ?_
  have w0 : 0 ≤ 1 / 8 * x * y := by have := xy.1; nlinarith
  have w1 : 1 / 8 * x * y ≤ 1 / 2 := by have := xy.2; nlinarith
  have v0 : 0 ≤ 1 / 8 * x * y * z := mul_nonneg w0 hz.1
  have v1 : 1 / 8 * x * y * z ≤ 1 := by nlinarith [hz.1, hz.2]
  rw [abs_of_nonneg v0, abs_of_nonneg w0, abs_of_nonneg hz.1]
  generalize 1 / 8 * x * y * z = V at v0 v1 ⊢
  generalize 1 / 8 * x * y = W at w0 w1 ⊢
  norm_num
  nlinarith [mul_nonneg u0 u0, mul_nonneg u0 (mul_nonneg u0 u0), mul_le_mul_of_nonneg_left hz.2 u0, mul_le_mul_of_nonneg_left w1 u0,
    mul_le_mul_of_nonneg_left v1 u0, mul_le_mul_of_nonneg_left hz.2 (mul_nonneg u0 u0), mul_le_mul_of_nonneg_left w1 (mul_nonneg u0 u0)]

theorem step_near (hu : R.u ≤ 1 / 2 ^ 20) {A s t e : ℝ} {s' b b' x : ℝ} (hA : 0 ≤ A) (hs : |s' - s| ≤ e) (he : e ≤ 200 * R.u * A)
    (hbb : |b' - b| ≤ 13 * R.u) (h0 : 0 ≤ b ∧ b ≤ 1) (hx : |x| ≤ A) (ht : t = s + b * x) (htA : |t| ≤ A) :
    |R.fl (s' + R.fl (b' * x)) - t| ≤ e + 17 * R.u * A := by
  have u0 := R.u_nonneg
  norm_num at hu
  have uA := mul_nonneg u0 hA
  have h1 : |b' * x - b * x| ≤ 13 * R.u * A := by
    rw [← sub_mul, abs_mul]
    exact mul_le_mul hbb hx (abs_nonneg _) (by linarith)
  have h2 := fl_near R h1
  have hbx : |b * x| ≤ A := by
    rw [abs_mul, abs_of_nonneg h0.1]
    nlinarith [abs_nonneg x, h0.2]
  have h2' : |R.fl (b' * x) - b * x| ≤ 15 * R.u * A := by
    refine h2.trans ?_
    have := mul_le_mul_of_nonneg_left (add_le_add_left hbx (13 * R.u * A)) u0
    nlinarith
  have h3 : |s' + R.fl (b' * x) - t| ≤ e + 15 * R.u * A := by
    rw [ht, show s' + R.fl (b' * x) - (s + b * x) = (s' - s) + (R.fl (b' * x) - b * x) by ring]
    exact (abs_add_le _ _).trans (add_le_add hs h2')
  refine (fl_near R h3).trans ?_
  have := mul_le_mul_of_nonneg_left (add_le_add htA (add_le_add_left he (15 * R.u * A))) u0
  nlinarith

/-- Nonnegative weights that sum to one. -/
theorem sum_abs_le {b x : ℕ → ℝ} {A : ℝ} (hA : 0 ≤ A) (h0 : ∀ v < 8, 0 ≤ b v) (h1 : ∑ v ∈ Finset.range 8, b v = 1) (hx : ∀ v < 8, |x v| ≤ A)
    (m : ℕ) (hm : m ≤ 8) : |∑ v ∈ Finset.range m, b v * x v| ≤ A := by
  calc |∑ v ∈ Finset.range m, b v * x v| ≤ ∑ v ∈ Finset.range m, |b v * x v| := Finset.abs_sum_le_sum_abs _ _
    _ ≤ ∑ v ∈ Finset.range m, b v * A := Finset.sum_le_sum fun v hv => by
        have := Finset.mem_range.1 hv
        rw [abs_mul, abs_of_nonneg (h0 v (by omega))]
        exact mul_le_mul_of_nonneg_left (hx v (by omega)) (h0 v (by omega))
    _ ≤ ∑ v ∈ Finset.range 8, b v * A := Finset.sum_le_sum_of_subset_of_nonneg (Finset.range_mono hm) fun v hv _ =>
        mul_nonneg (h0 v (Finset.mem_range.1 hv)) hA
    _ = A := by rw [← Finset.sum_mul, h1, one_mul]

/-- The error of a computed Gauss point. -/
theorem gPointR_near (hu : R.u ≤ 1 / 2 ^ 20) {b b' x : ℕ → ℝ} {A : ℝ} (hA : 0 ≤ A) (hb : ∀ v < 8, |b' v - b v| ≤ 13 * R.u)
    (h0 : ∀ v < 8, 0 ≤ b v) (h1 : ∑ v ∈ Finset.range 8, b v = 1) (hx : ∀ v < 8, |x v| ≤ A) :
    |gPointR R b' x - gPoint b x| ≤ 140 * R.u * A := by
  have u0 := R.u_nonneg
  have uA := mul_nonneg u0 hA
  have hb1 : ∀ v < 8, b v ≤ 1 := fun v hv => by
    rw [← h1]
    exact Finset.single_le_sum (f := b) (fun i hi => h0 i (Finset.mem_range.1 hi)) (Finset.mem_range.2 hv)
  rw [gPoint_eq]
  unfold gPointR
  have key : ∀ m ≤ 8, |loop m (fun v s => R.fl (s + R.fl (b' v * x v))) 0 - ∑ v ∈ Finset.range m, b v * x v| ≤ (17 * m : ℝ) * (R.u * A) := by
    intro m
    induction m with
    | zero => intro _; simp [loop]
    | succ m ih =>
      intro hm
      have hm8 : (m : ℝ) ≤ 8 := by exact_mod_cast (show m ≤ 8 by omega)
      rw [loop_succ]
      have := step_near R hu (t := ∑ v ∈ Finset.range (m + 1), b v * x v) hA (ih (by omega)) (by nlinarith) (hb m (by omega))
        ⟨h0 m (by omega), hb1 m (by omega)⟩ (hx m (by omega)) (Finset.sum_range_succ _ _) (sum_abs_le hA h0 h1 hx _ hm)
      refine this.trans (le_of_eq ?_)
      push_cast; ring
  refine (key 8 le_rfl).trans ?_
  push_cast
  nlinarith

end Verif.Swage.Refine
