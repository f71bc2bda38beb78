import Verif.Fp.JacModel
import Verif.Fp.HexLemmas
import Verif.Geometry.VolTheorems

/-!
# Determinants and inverses in rounded arithmetic, and the loops of the Jacobian routines
-/

namespace Verif.Fp.Geom
open Verif.Geometry Verif.RefElem Expr Finset

variable {R : Rounding}

/-- The determinant in the variables `J i j`. -/
def detExpr : Expr := det3 Expr.var

/-- The cofactors in the variables `M i j`. -/
def cofExpr (i j : ℕ) : Expr := cof3 Expr.var i j

theorem det_eq_expr (J : ℕ → ℕ → ℝ) : det R J = detExpr.evalFl R J := rfl

theorem det_eq_eval (J : ℕ → ℕ → ℝ) : detExpr.eval J = (Jacobian.mat 3 J).det := by rw [← det_mat]; rfl

theorem detExpr_cost : detExpr.cost = 5 := by decide

theorem detExpr_mag {J : ℕ → ℕ → ℝ} {K : ℕ → ℝ} (hK : ∀ i < 3, ∀ j < 3, |J i j| ≤ K i) :
    detExpr.mag J ≤ 6 * (K 0 * K 1 * K 2) := by
  have K0 : ∀ i < 3, 0 ≤ K i := fun i hi => (abs_nonneg _).trans (hK i hi 0 (by omega))
  have h1 : detExpr.mag J ≤ detExpr.mag (fun i _ => K i) := by
    refine mag_mono ?_
    have q : detExpr.All (fun i j => i < 3 ∧ j < 3) := by
      simp only [detExpr, det3, all_add', all_sub', all_mul', Expr.All]
      norm_num
    refine q.imp fun i j h => ?_
    rw [abs_of_nonneg (K0 i h.1)]
    exact hK i h.1 j h.2
  refine h1.trans (le_of_eq ?_)
  simp only [detExpr, det3, mag_add', mag_sub', mag_mul', Expr.mag]
  rw [abs_of_nonneg (K0 0 (by omega)), abs_of_nonneg (K0 1 (by omega)), abs_of_nonneg (K0 2 (by omega))]
  ring

/-- Rounded against exact determinant of the same matrix. -/
theorem det_err (hu : R.u < 1) {J : ℕ → ℕ → ℝ} {K : ℕ → ℝ} (hK : ∀ i < 3, ∀ j < 3, |J i j| ≤ K i) :
    |det R J - (Jacobian.mat 3 J).det| ≤ (((1 - R.u) ^ 5)⁻¹ - 1) * (6 * (K 0 * K 1 * K 2)) := by
  rw [det_eq_expr, ← det_eq_eval]
  have h := evalFl_err hu J detExpr
  rw [detExpr_cost] at h
  exact h.trans (mul_le_mul_of_nonneg_left (detExpr_mag hK) (err_nonneg hu 5))

theorem prod3_diff {a b c a' b' c' A B C E F G : ℝ} (ha : |a| ≤ A) (hb : |b| ≤ B) (hc : |c| ≤ C) (ha' : |a' - a| ≤ E)
    (hb' : |b' - b| ≤ F) (hc' : |c' - c| ≤ G) :
    |a' * b' * c' - a * b * c| ≤ (A + E) * (B + F) * (C + G) - A * B * C := by
  have A0 := (abs_nonneg a).trans ha
  have B0 := (abs_nonneg b).trans hb
  have C0 := (abs_nonneg c).trans hc
  have E0 := (abs_nonneg _).trans ha'
  have F0 := (abs_nonneg _).trans hb'
  have G0 := (abs_nonneg _).trans hc'
  have b1 : |b'| ≤ B + F := by
    have := abs_add_le (b' - b) b; rw [sub_add_cancel] at this; linarith
  have c1 : |c'| ≤ C + G := by
    have := abs_add_le (c' - c) c; rw [sub_add_cancel] at this; linarith
  rw [show a' * b' * c' - a * b * c = (a' - a) * (b' * c') + (a * (b' - b) * c' + a * b * (c' - c)) by ring]
  have t1 : |(a' - a) * (b' * c')| ≤ E * ((B + F) * (C + G)) := by
    rw [abs_mul, abs_mul]
    exact mul_le_mul ha' (mul_le_mul b1 c1 (abs_nonneg _) (by linarith)) (by positivity) E0
  have t2 : |a * (b' - b) * c'| ≤ A * F * (C + G) := by
    rw [abs_mul, abs_mul]
    exact mul_le_mul (mul_le_mul ha hb' (abs_nonneg _) A0) c1 (abs_nonneg _) (by positivity)
  have t3 : |a * b * (c' - c)| ≤ A * B * G := by
    rw [abs_mul, abs_mul]
    exact mul_le_mul (mul_le_mul ha hb (abs_nonneg _) A0) hc' (abs_nonneg _) (by positivity)
  refine (abs_add_le _ _).trans ((add_le_add t1 ((abs_add_le _ _).trans (add_le_add t2 t3))).trans (le_of_eq ?_))
  ring

/-- Determinants of nearby matrices. -/
theorem det_diff {S J : ℕ → ℕ → ℝ} {K E : ℕ → ℝ} (hK : ∀ i < 3, ∀ j < 3, |S i j| ≤ K i)
    (hE : ∀ i < 3, ∀ j < 3, |J i j - S i j| ≤ E i) :
    |(Jacobian.mat 3 J).det - (Jacobian.mat 3 S).det| ≤
      6 * ((K 0 + E 0) * (K 1 + E 1) * (K 2 + E 2) - K 0 * K 1 * K 2) := by
  have p : ∀ i j k, i < 3 → j < 3 → k < 3 → |J 0 i * J 1 j * J 2 k - S 0 i * S 1 j * S 2 k| ≤
      (K 0 + E 0) * (K 1 + E 1) * (K 2 + E 2) - K 0 * K 1 * K 2 := fun i j k hi hj hk =>
    prod3_diff (hK 0 (by omega) i hi) (hK 1 (by omega) j hj) (hK 2 (by omega) k hk) (hE 0 (by omega) i hi)
      (hE 1 (by omega) j hj) (hE 2 (by omega) k hk)
  rw [← det_mat, ← det_mat]
  unfold Geometry.det
  have p1 := abs_le.1 (p 0 1 2 (by omega) (by omega) (by omega))
  have p2 := abs_le.1 (p 0 2 1 (by omega) (by omega) (by omega))
  have p3 := abs_le.1 (p 1 0 2 (by omega) (by omega) (by omega))
  have p4 := abs_le.1 (p 1 2 0 (by omega) (by omega) (by omega))
  have p5 := abs_le.1 (p 2 0 1 (by omega) (by omega) (by omega))
  have p6 := abs_le.1 (p 2 1 0 (by omega) (by omega) (by omega))
  rw [abs_le]
  constructor <;> linarith

theorem cofExpr_cost (i j : ℕ) (hi : i < 3) (hj : j < 3) : (cofExpr i j).cost = 2 := by
  interval_cases i <;> interval_cases j <;> decide

theorem cofExpr_mag {J : ℕ → ℕ → ℝ} {K : ℕ → ℝ} (hK : ∀ i < 3, ∀ j < 3, |J i j| ≤ K i) {i j : ℕ} (hi : i < 3) (hj : j < 3) :
    (cofExpr i j).mag J ≤ 2 * (K ((j + 1) % 3) * K ((j + 2) % 3)) := by
  have K0 : ∀ i < 3, 0 ≤ K i := fun i hi => (abs_nonneg _).trans (hK i hi 0 (by omega))
  have t : ∀ a b c d, a < 3 → b < 3 → c < 3 → d < 3 → |J a b| * |J c d| ≤ K a * K c := fun a b c d ha hb hc hd =>
    mul_le_mul (hK a ha b hb) (hK c hc d hd) (abs_nonneg _) (K0 a ha)
  interval_cases i <;> interval_cases j <;> simp only [cofExpr, cof3, mag_sub', mag_mul', Expr.mag] <;>
    norm_num only
  · linarith [t 1 1 2 2 (by omega) (by omega) (by omega) (by omega), t 2 1 1 2 (by omega) (by omega) (by omega) (by omega)]
  · linarith [t 0 2 2 1 (by omega) (by omega) (by omega) (by omega), t 0 1 2 2 (by omega) (by omega) (by omega) (by omega)]
  · linarith [t 0 1 1 2 (by omega) (by omega) (by omega) (by omega), t 0 2 1 1 (by omega) (by omega) (by omega) (by omega)]
  · linarith [t 1 2 2 0 (by omega) (by omega) (by omega) (by omega), t 1 0 2 2 (by omega) (by omega) (by omega) (by omega)]
  · linarith [t 0 0 2 2 (by omega) (by omega) (by omega) (by omega), t 0 2 2 0 (by omega) (by omega) (by omega) (by omega)]
  · linarith [t 1 0 0 2 (by omega) (by omega) (by omega) (by omega), t 0 0 1 2 (by omega) (by omega) (by omega) (by omega)]
  · linarith [t 1 0 2 1 (by omega) (by omega) (by omega) (by omega), t 2 0 1 1 (by omega) (by omega) (by omega) (by omega)]
  · linarith [t 2 0 0 1 (by omega) (by omega) (by omega) (by omega), t 0 0 2 1 (by omega) (by omega) (by omega) (by omega)]
  · linarith [t 0 0 1 1 (by omega) (by omega) (by omega) (by omega), t 1 0 0 1 (by omega) (by omega) (by omega) (by omega)]

/-- The exact inverse in terms of the cofactors. -/
theorem inv_eq_cof {J : ℕ → ℕ → ℝ} (hD : (Jacobian.mat 3 J).det ≠ 0) (i j : Fin 3) :
    (Jacobian.mat 3 J)⁻¹ i j = (cofExpr i j).eval J / (Jacobian.mat 3 J).det := by
  have h := Jacobian.C20_mat_inverse (fun _ _ => 0) J hD
  rw [Matrix.inv_eq_right_inv h.1, ← det_mat]
  show Jacobian.matInverse (fun _ _ => 0) J i j = _
  have es : ∀ e f : Expr, (e - f).eval J = e.eval J - f.eval J := fun _ _ => rfl
  have em : ∀ e f : Expr, (e * f).eval J = e.eval J * f.eval J := fun _ _ => rfl
  fin_cases i <;> fin_cases j <;>
    simp [Jacobian.matInverse, store2, cofExpr, cof3, Geometry.det, es, em, Expr.eval, div_eq_mul_inv]

theorem matInverse_eq (J : ℕ → ℕ → ℝ) (i j : ℕ) (hi : i < 3) (hj : j < 3) : matInverse R J i j =
    R.fl ((cofExpr i j).evalFl R J * R.fl (1 / det R J)) := by
  interval_cases i <;> interval_cases j <;> rfl

/-- **The rounded inverse** of a matrix. -/
theorem matInverse_err (hu : R.u < 1) {J : ℕ → ℕ → ℝ} {K : ℕ → ℝ} (hK : ∀ i < 3, ∀ j < 3, |J i j| ≤ K i) {η : ℝ}
    (hη : (((1 - R.u) ^ 5)⁻¹ - 1) * (6 * (K 0 * K 1 * K 2)) ≤ η * |(Jacobian.mat 3 J).det|) (hη1 : η < 1)
    (hD : (Jacobian.mat 3 J).det ≠ 0) (i j : Fin 3) :
    |matInverse R J i j - (Jacobian.mat 3 J)⁻¹ i j| ≤
      2 * (K ((j + 1) % 3) * K ((j + 2) % 3)) / |(Jacobian.mat 3 J).det| * (((((1 - R.u) ^ 4)⁻¹ - 1) + η) / (1 - η)) := by
  have K0 : ∀ i < 3, 0 ≤ K i := fun i hi => (abs_nonneg _).trans (hK i hi 0 (by omega))
  have hd := det_err hu hK
  rw [inv_eq_cof hD, matInverse_eq J i j i.2 j.2]
  set D := (Jacobian.mat 3 J).det with hDd
  set d := det R J with hdd
  have hD0 : 0 < |D| := abs_pos.2 hD
  have hη0 : 0 ≤ η := by
    by_contra h
    push Not at h
    have h1 : 0 ≤ (((1 - R.u) ^ 5)⁻¹ - 1) * (6 * (K 0 * K 1 * K 2)) := by
      have := err_nonneg hu 5
      have := K0 0 (by omega); have := K0 1 (by omega); have := K0 2 (by omega)
      positivity
    have : η * |D| < 0 := mul_neg_of_neg_of_pos h hD0
    linarith
  have hdD : |d - D| ≤ η * |D| := hd.trans hη
  have hd_lo : (1 - η) * |D| ≤ |d| := by
    have := abs_sub_abs_le_abs_sub D d
    rw [abs_sub_comm] at this
    linarith
  have hd0 : 0 < |d| := lt_of_lt_of_le (mul_pos (by linarith) hD0) hd_lo
  have hdne : d ≠ 0 := abs_pos.1 hd0
  -- the product of the cofactor with the reciprocal, up to three more roundings
  have hc := evalFl_err hu J (cofExpr i j)
  rw [cofExpr_cost i j i.2 j.2] at hc
  have hca := abs_eval_le J (cofExpr i j)
  set C := (cofExpr i j).eval J
  set Cf := (cofExpr i j).evalFl R J
  set M := (cofExpr i j).mag J
  have hM : M ≤ 2 * (K ((j + 1) % 3) * K ((j + 2) % 3)) := cofExpr_mag hK i.2 j.2
  have hM0 : 0 ≤ M := mag_nonneg _ _
  -- `fl (1 / d) = 1 / d * t`
  obtain ⟨t, ht, et⟩ := Pert.fl hu (1 / d)
  obtain ⟨r, hr, er⟩ := Pert.fl hu (Cf * R.fl (1 / d))
  have hp : Pert R 2 (t * r) := ht.mul hu hr
  rw [er, et, show Cf * (1 / d * t) * r - C / D = (Cf * (t * r)) / d - C / D by ring]
  have hX : |Cf * (t * r) - C| ≤ (((1 - R.u) ^ 4)⁻¹ - 1) * M := by
    have hcf : |Cf| ≤ ((1 - R.u) ^ 2)⁻¹ * M := by
      have := abs_add_le (Cf - C) C; rw [sub_add_cancel] at this; linarith
    have htr : |t * r - 1| ≤ ((1 - R.u) ^ 2)⁻¹ - 1 := by
      have q := q_pos hu 2
      have q1 := q_le_one hu 2
      have h2 : 1 - ((1 - R.u) ^ 2) ≤ ((1 - R.u) ^ 2)⁻¹ - 1 := by
        have : 0 ≤ ((1 - R.u) ^ 2)⁻¹ * (1 - (1 - R.u) ^ 2) ^ 2 := mul_nonneg (inv_pos.2 q).le (sq_nonneg _)
        have e : ((1 - R.u) ^ 2)⁻¹ * (1 - (1 - R.u) ^ 2) ^ 2 = ((1 - R.u) ^ 2)⁻¹ - 2 + (1 - R.u) ^ 2 := by
          have aux : ∀ z : ℝ, 0 < z → z⁻¹ * (1 - z) ^ 2 = z⁻¹ - 2 + z := by
            intro z hz
            field_simp
            ring
          exact aux _ q
        linarith
      rw [abs_le]; constructor
      · have := hp.1; linarith
      · have := hp.2; linarith
    rw [show Cf * (t * r) - C = Cf * (t * r - 1) + (Cf - C) by ring]
    have g2 := err_nonneg hu 2
    have s1 : |Cf * (t * r - 1)| ≤ ((1 - R.u) ^ 2)⁻¹ * M * (((1 - R.u) ^ 2)⁻¹ - 1) := by
      rw [abs_mul]
      exact mul_le_mul hcf htr (abs_nonneg _) (mul_nonneg (inv_pos.2 (q_pos hu 2)).le hM0)
    refine (abs_add_le _ _).trans ((add_le_add s1 hc).trans (le_of_eq ?_))
    rw [show (1 - R.u) ^ 4 = (1 - R.u) ^ 2 * (1 - R.u) ^ 2 by ring, mul_inv]
    ring
  have key : Cf * (t * r) / d - C / D = (Cf * (t * r) - C) / d + C * (D - d) / (d * D) := by
    field_simp; ring
  rw [key]
  have g4 := err_nonneg hu 4
  have s1 : |(Cf * (t * r) - C) / d| ≤ (((1 - R.u) ^ 4)⁻¹ - 1) * M / ((1 - η) * |D|) := by
    rw [abs_div]
    exact div_le_div₀ (mul_nonneg g4 hM0) hX (mul_pos (by linarith) hD0) hd_lo
  have s2 : |C * (D - d) / (d * D)| ≤ M * η / ((1 - η) * |D|) := by
    rw [abs_div, abs_mul, abs_mul, abs_sub_comm, div_le_div_iff₀ (by positivity) (mul_pos (by linarith) hD0)]
    calc |C| * |d - D| * ((1 - η) * |D|) ≤ M * (η * |D|) * |d| := by
          refine mul_le_mul (mul_le_mul hca hdD (abs_nonneg _) hM0) hd_lo (mul_nonneg (by linarith) hD0.le) ?_
          positivity
      _ = M * η * (|d| * |D|) := by ring
  have hpos : 0 < (1 - η) * |D| := mul_pos (by linarith) hD0
  calc _ ≤ (((1 - R.u) ^ 4)⁻¹ - 1) * M / ((1 - η) * |D|) + M * η / ((1 - η) * |D|) :=
        (abs_add_le _ _).trans (add_le_add s1 s2)
    _ = M * ((((1 - R.u) ^ 4)⁻¹ - 1) + η) / ((1 - η) * |D|) := by ring
    _ ≤ 2 * (K ((j + 1) % 3) * K ((j + 2) % 3)) * ((((1 - R.u) ^ 4)⁻¹ - 1) + η) / ((1 - η) * |D|) := by
        gcongr
    _ = _ := by
        have : (1 - η) ≠ 0 := by linarith
        field_simp

/-! ### Loops -/

/-- A rounded sum of products. -/
noncomputable def flDot (R : Rounding) (N : ℕ) (g x : ℕ → ℝ) : ℝ := loop N (fun v p => R.fl (p + R.fl (g v * x v))) 0

theorem flDot_err (hu : R.u < 1) (N : ℕ) (g x : ℕ → ℝ) :
    |flDot R N g x - ∑ v ∈ range N, g v * x v| ≤ (((1 - R.u) ^ (N + 1))⁻¹ - 1) * ∑ v ∈ range N, |g v| * |x v| := by
  induction N with
  | zero => simp [flDot]
  | succ N ih =>
    have e : flDot R (N + 1) g x = R.fl (flDot R N g x + R.fl (g N * x N)) := by unfold flDot; rw [loop_succ]
    have h1 : |R.fl (g N * x N) - g N * x N| ≤ (((1 - R.u) ^ 1)⁻¹ - 1) * (|g N| * |x N|) :=
      fl_step hu (k := 0) (by simp) (by rw [abs_mul])
    have h1' := h1.trans (mul_le_mul_of_nonneg_right (mono_err hu (show 1 ≤ N + 1 by omega)) (by positivity))
    rw [e, sum_range_succ, sum_range_succ]
    refine fl_step hu (k := N + 1) ?_ ?_
    · rw [show flDot R N g x + R.fl (g N * x N) - (∑ v ∈ range N, g v * x v + g N * x N) =
        (flDot R N g x - ∑ v ∈ range N, g v * x v) + (R.fl (g N * x N) - g N * x N) by ring, mul_add]
      exact (abs_add_le _ _).trans (add_le_add ih h1')
    · refine (abs_add_le _ _).trans (add_le_add ((abs_sum_le_sum_abs _ _).trans (le_of_eq ?_)) (le_of_eq (abs_mul _ _)))
      exact sum_congr rfl fun v _ => abs_mul _ _

/-- Coordinate `i` of vertex `v` of element `e`. -/
def vertPt (m : Mesh) (vm : ℕ → ℕ) (e v i : ℕ) : ℝ := m.coords.val (m.nodesInElem.val (e * m.gaussInElem + vm v)) i

theorem vertLoop_spec (m : Mesh) (N : ℕ) (vm : ℕ → ℕ) (grad : Arr (ℕ → ℕ → ℝ)) (e lid i j : ℕ)
    (h1 : ∀ v < N, e * m.gaussInElem + vm v < m.nodesInElem.size)
    (h2 : ∀ v < N, m.nodesInElem.val (e * m.gaussInElem + vm v) < m.coords.size) (h3 : lid < grad.size)
    (J : ℕ → ℕ → ℝ) :
    loopM N (fun v J => do
      let node ← m.nodesInElem.get (e * m.gaussInElem + vm v)
      let g ← grad.get lid
      let x ← m.coords.get node
      pure (store2 J i j (R.fl (J i j + R.fl (g v j * x i))))) (store2 J i j 0) =
    some (store2 J i j (flDot R N (fun v => grad.val lid v j) (fun v => vertPt m vm e v i))) := by
  induction N with
  | zero => simp [flDot]
  | succ N ih =>
    rw [loopM_succ, ih (fun v hv => h1 v (by omega)) (fun v hv => h2 v (by omega))]
    simp only [Option.bind_eq_bind, Option.bind_some]
    rw [Arr.get_lt (h1 N (by omega)), Option.bind_some, Arr.get_lt h3, Option.bind_some,
      Arr.get_lt (h2 N (by omega)), Option.bind_some]
    refine congrArg some ?_
    funext i' j'
    unfold flDot
    rw [loop_succ]
    by_cases h : i' = i ∧ j' = j <;> simp [store2, h, vertPt]

theorem fillJ_spec (m : Mesh) (N : ℕ) (vm : ℕ → ℕ) (grad : Arr (ℕ → ℕ → ℝ)) (e lid : ℕ)
    (h1 : ∀ v < N, e * m.gaussInElem + vm v < m.nodesInElem.size)
    (h2 : ∀ v < N, m.nodesInElem.val (e * m.gaussInElem + vm v) < m.coords.size) (h3 : lid < grad.size)
    (J : ℕ → ℕ → ℝ) :
    ∃ J', fillJ R m N vm grad e lid J = some J' ∧ ∀ i < 3, ∀ j < 3, J' i j =
      flDot R N (fun v => grad.val lid v j) (fun v => vertPt m vm e v i) := by
  obtain ⟨s, e1, e2⟩ := loopM2_spec (n := 3) (w := 3) (body := fun i j J =>
    loopM N (fun v J => do
      let node ← m.nodesInElem.get (e * m.gaussInElem + vm v)
      let g ← grad.get lid
      let x ← m.coords.get node
      pure (store2 J i j (R.fl (J i j + R.fl (g v j * x i))))) (store2 J i j 0)) (s := J)
    (fun t s => ∀ i < 3, ∀ j < 3, 3 * i + j < t → s i j =
      flDot R N (fun v => grad.val lid v j) (fun v => vertPt m vm e v i))
    (by intro i _ j _ h; omega)
    (by
      intro i j s hi hj hI
      refine ⟨_, vertLoop_spec m N vm grad e lid i j h1 h2 h3 s, ?_⟩
      intro i' hi' j' hj' ht
      by_cases h : i' = i ∧ j' = j
      · obtain ⟨rfl, rfl⟩ := h; simp [store2]
      · simp only [store2, if_neg h]
        exact hI i' hi' j' hj' (by omega))
  exact ⟨s, e1, fun i hi j hj => e2 i hi j hj (by omega)⟩

/-- What one point of the arrays contains. -/
structure PointFl (R : Rounding) (S : ℕ → ℕ → ℝ) (s : Jac) (gid : ℕ) : Prop where
  entries : ∀ i < 3, ∀ j < 3, s.jac.val gid i j = S i j
  det : s.det.val gid = det R (s.jac.val gid)
  inv : s.inv.val gid = matInverse R (s.jac.val gid)

theorem PointFl.frame {S : ℕ → ℕ → ℝ} {s s' : Jac} {g g' : ℕ} (h : PointFl R S s g) (hne : g ≠ g')
    (h1 : ∃ a, s'.jac.val = store s.jac.val g' a) (h2 : ∃ a, s'.inv.val = store s.inv.val g' a)
    (h3 : ∃ a, s'.det.val = store s.det.val g' a) : PointFl R S s' g := by
  obtain ⟨a, h1⟩ := h1
  obtain ⟨b, h2⟩ := h2
  obtain ⟨c, h3⟩ := h3
  constructor
  · intro i hi j hj; rw [h1, store_ne _ _ hne]; exact h.entries i hi j hj
  · rw [h3, h1, store_ne _ _ hne, store_ne _ _ hne]; exact h.det
  · rw [h2, h1, store_ne _ _ hne, store_ne _ _ hne]; exact h.inv

theorem pointJ_spec (m : Mesh) (N : ℕ) (vm : ℕ → ℕ) (grad : Arr (ℕ → ℕ → ℝ)) (e lid gid size : ℕ)
    (h1 : ∀ v < N, e * m.gaussInElem + vm v < m.nodesInElem.size)
    (h2 : ∀ v < N, m.nodesInElem.val (e * m.gaussInElem + vm v) < m.coords.size) (h3 : lid < grad.size)
    (s : Jac) (hs : s.Sized size) (hg : gid < size) :
    ∃ s', pointJ R m N vm grad e lid gid s = some s' ∧ s'.Sized size ∧
      PointFl R (fun i j => flDot R N (fun v => grad.val lid v j) (fun v => vertPt m vm e v i)) s' gid ∧
      (∃ a, s'.jac.val = store s.jac.val gid a) ∧ (∃ a, s'.inv.val = store s.inv.val gid a) ∧
      (∃ a, s'.det.val = store s.det.val gid a) := by
  obtain ⟨s1, s2, s3⟩ := hs
  obtain ⟨J', e1, e2⟩ := fillJ_spec (R := R) m N vm grad e lid h1 h2 h3 (s.jac.val gid)
  refine ⟨⟨⟨s.jac.size, store s.jac.val gid J'⟩, ⟨s.inv.size, store s.inv.val gid (matInverse R J')⟩,
    ⟨s.det.size, store s.det.val gid (det R J')⟩⟩, ?_, ⟨s1, s2, s3⟩, ?_, ⟨_, rfl⟩, ⟨_, rfl⟩, ⟨_, rfl⟩⟩
  · unfold pointJ
    simp only [Option.bind_eq_bind]
    rw [Arr.get_lt (by omega), Option.bind_some, e1, Option.bind_some, Arr.set_lt _ (by omega), Option.bind_some,
      Arr.set_lt _ (by omega), Option.bind_some, Arr.set_lt _ (by omega), Option.bind_some]
    rfl
  · constructor
    · intro i hi j hj; simp only [store_same]; exact e2 i hi j hj
    · simp only [store_same]
    · simp only [store_same]

theorem jacobian_spec (m : Mesh) (N : ℕ) (vm : ℕ → ℕ) (grad : Arr (ℕ → ℕ → ℝ)) (M size : ℕ) (gid : ℕ → ℕ → ℕ)
    (gid' : ℕ → ℕ → Option ℕ) (hgid' : ∀ e < m.elems, ∀ l < M, gid' e l = some (gid e l))
    (hgid : ∀ e < m.elems, ∀ l < M, gid e l < size)
    (hinj : ∀ e l e' l', e < m.elems → l < M → e' < m.elems → l' < M → gid e l = gid e' l' → e = e' ∧ l = l')
    (h1 : ∀ e < m.elems, ∀ v < N, e * m.gaussInElem + vm v < m.nodesInElem.size)
    (h2 : ∀ e < m.elems, ∀ v < N, m.nodesInElem.val (e * m.gaussInElem + vm v) < m.coords.size)
    (h3 : M ≤ grad.size) (s : Jac) (hs : s.Sized size) :
    ∃ s', jacobian R m N vm grad M gid' s = some s' ∧ s'.Sized size ∧
      ∀ e < m.elems, ∀ l < M,
        PointFl R (fun i j => flDot R N (fun v => grad.val l v j) (fun v => vertPt m vm e v i)) s' (gid e l) := by
  unfold jacobian
  obtain ⟨s', e1, e2, e3⟩ := loopM_spec (n := m.elems) (s := s) (body := fun e => loopM M fun l s => do
      let g ← gid' e l
      pointJ R m N vm grad e l g s)
    (fun E s => s.Sized size ∧ ∀ e < E, ∀ l < M,
      PointFl R (fun i j => flDot R N (fun v => grad.val l v j) (fun v => vertPt m vm e v i)) s (gid e l))
    ⟨hs, fun e he => absurd he (Nat.not_lt_zero e)⟩
    (by
      rintro E s hE ⟨hS, hI⟩
      obtain ⟨t, t1, t2, t3, t4⟩ := loopM_spec (n := M) (s := s) (body := fun l s => do
          let g ← gid' E l
          pointJ R m N vm grad E l g s)
        (fun L s => s.Sized size ∧ (∀ e < E, ∀ l < M,
          PointFl R (fun i j => flDot R N (fun v => grad.val l v j) (fun v => vertPt m vm e v i)) s (gid e l)) ∧
          ∀ l < L, PointFl R (fun i j => flDot R N (fun v => grad.val l v j) (fun v => vertPt m vm E v i)) s (gid E l))
        ⟨hS, hI, fun l hl => absurd hl (Nat.not_lt_zero l)⟩
        (by
          rintro L s hL ⟨i1, i2, i3⟩
          obtain ⟨s', p1, p2, p3, p4, p5, p6⟩ := pointJ_spec (R := R) m N vm grad E L (gid E L) size (h1 E hE) (h2 E hE)
            (by omega) s i1 (hgid E hE L hL)
          refine ⟨s', ?_, p2, ?_, ?_⟩
          · simp only [Option.bind_eq_bind]
            rw [hgid' E hE L hL, Option.bind_some, p1]
          · intro e he l hl
            refine (i2 e he l hl).frame (fun q => ?_) p4 p5 p6
            have := (hinj e l E L (by omega) hl hE hL q).1
            omega
          · intro l hl
            by_cases h : l = L
            · subst h; exact p3
            · exact (i3 l (by omega)).frame (fun q => h (hinj E l E L hE (by omega) hE hL q).2) p4 p5 p6)
      refine ⟨t, t1, t2, ?_⟩
      intro e he l hl
      by_cases h : e = E
      · subst h; exact t4 l hl
      · exact t3 e (by omega) l hl)
  exact ⟨s', e1, e2, e3⟩

end Verif.Fp.Geom
