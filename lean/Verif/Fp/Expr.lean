import Verif.Fp.Rel

/-!
# Rounding errors of arithmetic expressions

An expression in variables, evaluated exactly or with a rounding after each operation; `mag` replaces every variable by its
modulus and every difference by a sum.  The error is at most `(1 - u)^-k - 1` times `mag`, where `k` counts the
roundings along the worst path.
-/

namespace Verif.Fp

/-- Expressions built with `+`, `-`, `*` and negation from variables (an array and an index). -/
inductive Expr
  | var (a i : ℕ)
  | neg (e : Expr)
  | add (e f : Expr)
  | sub (e f : Expr)
  | mul (e f : Expr)

namespace Expr

/-- Exact value. -/
def eval (v : ℕ → ℕ → ℝ) : Expr → ℝ
  | var a i => v a i
  | neg e => -e.eval v
  | add e f => e.eval v + f.eval v
  | sub e f => e.eval v - f.eval v
  | mul e f => e.eval v * f.eval v

/-- Value with a rounding after each operation; changing the sign is exact. -/
noncomputable def evalFl (R : Rounding) (v : ℕ → ℕ → ℝ) : Expr → ℝ
  | var a i => v a i
  | neg e => -e.evalFl R v
  | add e f => R.fl (e.evalFl R v + f.evalFl R v)
  | sub e f => R.fl (e.evalFl R v - f.evalFl R v)
  | mul e f => R.fl (e.evalFl R v * f.evalFl R v)

/-- Sum of the moduli of all terms of the expanded expression. -/
def mag (v : ℕ → ℕ → ℝ) : Expr → ℝ
  | var a i => |v a i|
  | neg e => e.mag v
  | add e f => e.mag v + f.mag v
  | sub e f => e.mag v + f.mag v
  | mul e f => e.mag v * f.mag v

/-- Largest number of roundings a term goes through. -/
def cost : Expr → ℕ
  | var _ _ => 0
  | neg e => e.cost
  | add e f => max e.cost f.cost + 1
  | sub e f => max e.cost f.cost + 1
  | mul e f => e.cost + f.cost + 1

theorem mag_nonneg (v : ℕ → ℕ → ℝ) : ∀ e : Expr, 0 ≤ e.mag v
  | var _ _ => abs_nonneg _
  | neg e => mag_nonneg v e
  | add e f => add_nonneg (mag_nonneg v e) (mag_nonneg v f)
  | sub e f => add_nonneg (mag_nonneg v e) (mag_nonneg v f)
  | mul e f => mul_nonneg (mag_nonneg v e) (mag_nonneg v f)

theorem abs_eval_le (v : ℕ → ℕ → ℝ) : ∀ e : Expr, |e.eval v| ≤ e.mag v
  | var _ _ => le_refl _
  | neg e => by
    show |-e.eval v| ≤ e.mag v
    rw [abs_neg]; exact abs_eval_le v e
  | add e f => (abs_add_le _ _).trans (add_le_add (abs_eval_le v e) (abs_eval_le v f))
  | sub e f => (abs_sub _ _).trans (add_le_add (abs_eval_le v e) (abs_eval_le v f))
  | mul e f => by
    show |e.eval v * f.eval v| ≤ e.mag v * f.mag v
    rw [abs_mul]
    exact mul_le_mul (abs_eval_le v e) (abs_eval_le v f) (abs_nonneg _) (mag_nonneg v e)

variable {R : Rounding}

/-- One more rounding. -/
theorem fl_step (hu : R.u < 1) {x y M : ℝ} {k : ℕ} (h : |x - y| ≤ (((1 - R.u) ^ k)⁻¹ - 1) * M) (hM : |y| ≤ M) :
    |R.fl x - y| ≤ (((1 - R.u) ^ (k + 1))⁻¹ - 1) * M := by
  have hM0 : 0 ≤ M := (abs_nonneg y).trans hM
  have hx : |x| ≤ ((1 - R.u) ^ k)⁻¹ * M := by
    have := abs_add_le (x - y) y
    rw [sub_add_cancel] at this
    linarith
  have h1 := R.err x
  have h2 : |R.fl x - y| ≤ |R.fl x - x| + |x - y| := by
    have := abs_add_le (R.fl x - x) (x - y)
    rwa [sub_add_sub_cancel] at this
  have hp : 0 ≤ ((1 - R.u) ^ k)⁻¹ := (inv_pos.2 (q_pos hu k)).le
  have h3 : R.u * |x| ≤ R.u * (((1 - R.u) ^ k)⁻¹ * M) := mul_le_mul_of_nonneg_left hx R.u_nonneg
  have h4 : 1 + R.u ≤ (1 - R.u)⁻¹ := by
    rw [← one_div, le_div_iff₀ (by linarith)]
    nlinarith [R.u_nonneg]
  calc |R.fl x - y| ≤ ((1 + R.u) * ((1 - R.u) ^ k)⁻¹ - 1) * M := by linarith
    _ ≤ ((1 - R.u)⁻¹ * ((1 - R.u) ^ k)⁻¹ - 1) * M :=
        mul_le_mul_of_nonneg_right (sub_le_sub_right (mul_le_mul_of_nonneg_right h4 hp) 1) hM0
    _ = _ := by rw [pow_succ, mul_inv, mul_comm ((1 - R.u) ^ k)⁻¹]

theorem mono_err (hu : R.u < 1) {k l : ℕ} (h : k ≤ l) : ((1 - R.u) ^ k)⁻¹ - 1 ≤ ((1 - R.u) ^ l)⁻¹ - 1 :=
  sub_le_sub_right (inv_anti₀ (q_pos hu l)
    (pow_le_pow_of_le_one (by linarith) (by linarith [R.u_nonneg]) h)) 1

theorem err_nonneg (hu : R.u < 1) (k : ℕ) : 0 ≤ ((1 - R.u) ^ k)⁻¹ - 1 := by
  have := (one_le_inv₀ (q_pos hu k)).2 (q_le_one hu k)
  linarith

/-- **The error of an expression.** -/
theorem evalFl_err (hu : R.u < 1) (v : ℕ → ℕ → ℝ) : ∀ e : Expr,
    |e.evalFl R v - e.eval v| ≤ (((1 - R.u) ^ e.cost)⁻¹ - 1) * e.mag v
  | var a i => by simp [evalFl, eval, cost]
  | neg e => by
    show |-e.evalFl R v - -e.eval v| ≤ _
    rw [show -e.evalFl R v - -e.eval v = -(e.evalFl R v - e.eval v) by ring, abs_neg]
    exact evalFl_err hu v e
  | add e f => by
    refine fl_step hu (k := max e.cost f.cost) ?_ (abs_eval_le v (add e f))
    have h1 := (evalFl_err hu v e).trans
      (mul_le_mul_of_nonneg_right (mono_err hu (le_max_left e.cost f.cost)) (mag_nonneg v e))
    have h2 := (evalFl_err hu v f).trans
      (mul_le_mul_of_nonneg_right (mono_err hu (le_max_right e.cost f.cost)) (mag_nonneg v f))
    show |e.evalFl R v + f.evalFl R v - (e.eval v + f.eval v)| ≤ _ * (e.mag v + f.mag v)
    rw [show e.evalFl R v + f.evalFl R v - (e.eval v + f.eval v) =
      (e.evalFl R v - e.eval v) + (f.evalFl R v - f.eval v) by ring, mul_add]
    exact (abs_add_le _ _).trans (add_le_add h1 h2)
  | sub e f => by
    refine fl_step hu (k := max e.cost f.cost) ?_ (abs_eval_le v (sub e f))
    have h1 := (evalFl_err hu v e).trans
      (mul_le_mul_of_nonneg_right (mono_err hu (le_max_left e.cost f.cost)) (mag_nonneg v e))
    have h2 := (evalFl_err hu v f).trans
      (mul_le_mul_of_nonneg_right (mono_err hu (le_max_right e.cost f.cost)) (mag_nonneg v f))
    show |e.evalFl R v - f.evalFl R v - (e.eval v - f.eval v)| ≤ _ * (e.mag v + f.mag v)
    rw [show e.evalFl R v - f.evalFl R v - (e.eval v - f.eval v) =
      (e.evalFl R v - e.eval v) - (f.evalFl R v - f.eval v) by ring, mul_add]
    exact (abs_sub _ _).trans (add_le_add h1 h2)
  | mul e f => by
    refine fl_step hu (k := e.cost + f.cost) ?_ (abs_eval_le v (mul e f))
    have h1 := evalFl_err hu v e
    have h2 := evalFl_err hu v f
    have a1 := abs_eval_le v e
    have a2 := abs_eval_le v f
    have m1 := mag_nonneg v e
    have m2 := mag_nonneg v f
    show |e.evalFl R v * f.evalFl R v - e.eval v * f.eval v| ≤ _ * (e.mag v * f.mag v)
    have g1 := err_nonneg hu e.cost
    have g2 := err_nonneg hu f.cost
    set G1 := ((1 - R.u) ^ e.cost)⁻¹ - 1 with hG1
    set G2 := ((1 - R.u) ^ f.cost)⁻¹ - 1 with hG2
    have hG : ((1 - R.u) ^ (e.cost + f.cost))⁻¹ - 1 = (1 + G1) * (1 + G2) - 1 := by
      rw [pow_add, mul_inv, hG1, hG2]; ring
    have b2 : |f.evalFl R v| ≤ (1 + G2) * f.mag v := by
      have := abs_add_le (f.evalFl R v - f.eval v) (f.eval v)
      rw [sub_add_cancel] at this
      linarith
    rw [hG, show e.evalFl R v * f.evalFl R v - e.eval v * f.eval v =
      (e.evalFl R v - e.eval v) * f.evalFl R v + e.eval v * (f.evalFl R v - f.eval v) by ring]
    refine (abs_add_le _ _).trans ?_
    rw [abs_mul, abs_mul]
    have c1 : |e.evalFl R v - e.eval v| * |f.evalFl R v| ≤ G1 * e.mag v * ((1 + G2) * f.mag v) :=
      mul_le_mul h1 b2 (abs_nonneg _) (mul_nonneg g1 m1)
    have c2 : |e.eval v| * |f.evalFl R v - f.eval v| ≤ e.mag v * (G2 * f.mag v) :=
      mul_le_mul a1 h2 (abs_nonneg _) m1
    calc _ ≤ G1 * e.mag v * ((1 + G2) * f.mag v) + e.mag v * (G2 * f.mag v) := add_le_add c1 c2
      _ = _ := by ring

/-- The factor in the usual form. -/
theorem factor_le (hu : R.u < 1) {k : ℕ} (hk : k * R.u < 1) : ((1 - R.u) ^ k)⁻¹ - 1 ≤ k * R.u / (1 - k * R.u) := by
  have h := Pert.err hu (k := k) (t := ((1 - R.u) ^ k)⁻¹)
    ⟨(q_le_one hu k).trans ((one_le_inv₀ (q_pos hu k)).2 (q_le_one hu k)), le_refl _⟩ hk
  exact (le_abs_self _).trans h

/-! ### Exact evaluation -/

/-- `e` is homogeneous: with variables of array `a` that are multiples of `2^(s a)`, all terms are multiples of `2^k`. -/
inductive Homog (s : ℕ → ℤ) : Expr → ℤ → Prop
  | var (a i) : Homog s (var a i) (s a)
  | neg {e k} : Homog s e k → Homog s (neg e) k
  | add {e f k} : Homog s e k → Homog s f k → Homog s (add e f) k
  | sub {e f k} : Homog s e k → Homog s f k → Homog s (sub e f) k
  | mul {e f k l} : Homog s e k → Homog s f l → Homog s (mul e f) (k + l)

/-- Value of a homogeneous expression of integers. -/
def evalZ (m : ℕ → ℕ → ℤ) : Expr → ℤ
  | var a i => m a i
  | neg e => -e.evalZ m
  | add e f => e.evalZ m + f.evalZ m
  | sub e f => e.evalZ m - f.evalZ m
  | mul e f => e.evalZ m * f.evalZ m

/-- Sum of the moduli of the terms, in integers. -/
def magZ (m : ℕ → ℕ → ℤ) : Expr → ℤ
  | var a i => |m a i|
  | neg e => e.magZ m
  | add e f => e.magZ m + f.magZ m
  | sub e f => e.magZ m + f.magZ m
  | mul e f => e.magZ m * f.magZ m

theorem magZ_nonneg (m : ℕ → ℕ → ℤ) : ∀ e : Expr, 0 ≤ e.magZ m
  | var _ _ => abs_nonneg _
  | neg e => magZ_nonneg m e
  | add e f => add_nonneg (magZ_nonneg m e) (magZ_nonneg m f)
  | sub e f => add_nonneg (magZ_nonneg m e) (magZ_nonneg m f)
  | mul e f => mul_nonneg (magZ_nonneg m e) (magZ_nonneg m f)

theorem abs_evalZ_le (m : ℕ → ℕ → ℤ) : ∀ e : Expr, |e.evalZ m| ≤ e.magZ m
  | var _ _ => le_refl _
  | neg e => by
    show |-e.evalZ m| ≤ e.magZ m
    rw [abs_neg]; exact abs_evalZ_le m e
  | add e f => (abs_add_le _ _).trans (add_le_add (abs_evalZ_le m e) (abs_evalZ_le m f))
  | sub e f => (abs_sub _ _).trans (add_le_add (abs_evalZ_le m e) (abs_evalZ_le m f))
  | mul e f => by
    show |e.evalZ m * f.evalZ m| ≤ e.magZ m * f.magZ m
    rw [abs_mul]
    exact mul_le_mul (abs_evalZ_le m e) (abs_evalZ_le m f) (abs_nonneg _) (magZ_nonneg m e)

theorem eval_eq {s : ℕ → ℤ} {m : ℕ → ℕ → ℤ} {v : ℕ → ℕ → ℝ} (hv : ∀ a i, v a i = m a i * 2 ^ s a) {e : Expr} {k : ℤ}
    (h : Homog s e k) : e.eval v = e.evalZ m * 2 ^ k := by
  induction h with
  | var a i => exact hv a i
  | neg _ ih => show -_ = _; rw [ih]; simp only [evalZ]; push_cast; ring
  | add _ _ ih ih' => show _ + _ = _; rw [ih, ih']; simp only [evalZ]; push_cast; ring
  | sub _ _ ih ih' => show _ - _ = _; rw [ih, ih']; simp only [evalZ]; push_cast; ring
  | mul _ _ ih ih' =>
    show _ * _ = _
    rw [ih, ih', zpow_add₀ (by norm_num : (2 : ℝ) ≠ 0)]; simp only [evalZ]; push_cast; ring

/-- With few enough significant bits in the variables nothing is rounded. -/
theorem evalFl_exact {s : ℕ → ℤ} {m : ℕ → ℕ → ℤ} {v : ℕ → ℕ → ℝ} (hv : ∀ a i, v a i = m a i * 2 ^ s a) {e : Expr} {k : ℤ}
    (h : Homog s e k) (hm : e.magZ m ≤ 2 ^ R.bits) : e.evalFl R v = e.eval v := by
  have key : ∀ {e : Expr} {k : ℤ}, Homog s e k → e.magZ m ≤ 2 ^ R.bits → R.fl (e.eval v) = e.eval v := fun {e k} h hm => by
    rw [eval_eq hv h]
    exact R.exact _ _ ((abs_evalZ_le m e).trans hm)
  induction h with
  | var a i => rfl
  | neg _ ih => show -_ = -_; rw [ih hm]
  | @add e f k he hf ih ih' =>
    have h1 := magZ_nonneg m e
    have h2 := magZ_nonneg m f
    have hm' : e.magZ m + f.magZ m ≤ 2 ^ R.bits := hm
    show R.fl (_ + _) = _
    rw [ih (by linarith), ih' (by linarith)]
    exact key (he.add hf) hm
  | @sub e f k he hf ih ih' =>
    have h1 := magZ_nonneg m e
    have h2 := magZ_nonneg m f
    have hm' : e.magZ m + f.magZ m ≤ 2 ^ R.bits := hm
    show R.fl (_ - _) = _
    rw [ih (by linarith), ih' (by linarith)]
    exact key (he.sub hf) hm
  | @mul e f k l he hf ih ih' =>
    have h1 := magZ_nonneg m e
    have h2 := magZ_nonneg m f
    have hm' : e.magZ m * f.magZ m ≤ 2 ^ R.bits := hm
    show R.fl (_ * _) = _
    have hzero : ∀ {e : Expr} {k : ℤ}, Homog s e k → e.magZ m = 0 → e.eval v = 0 := fun {e k} h h0 => by
      have := abs_evalZ_le m e
      rw [h0] at this
      rw [eval_eq hv h, abs_nonpos_iff.1 this]; simp
    have hb : (0 : ℤ) ≤ 2 ^ R.bits := by positivity
    have fl0 : R.fl 0 = 0 := by simpa using R.err 0
    rcases h1.eq_or_lt with h0 | h0
    · rw [ih (by rw [← h0]; exact hb), hzero he h0.symm, zero_mul, fl0]
      show 0 = _ * _
      rw [hzero he h0.symm, zero_mul]
    · rcases h2.eq_or_lt with h0' | h0'
      · rw [ih' (by rw [← h0']; exact hb), hzero hf h0'.symm, mul_zero, fl0]
        show 0 = _ * _
        rw [hzero hf h0'.symm, mul_zero]
      · have i1 : e.magZ m ≤ e.magZ m * f.magZ m := by nlinarith
        have i2 : f.magZ m ≤ e.magZ m * f.magZ m := by nlinarith
        rw [ih (by linarith), ih' (by linarith)]
        exact key (he.mul hf) hm

end Expr

end Verif.Fp
