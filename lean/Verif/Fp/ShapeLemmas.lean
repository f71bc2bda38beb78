import Verif.Fp.ShapeExpr
import Verif.Shape.Theorems

/-!
# Error bounds and exactness for the trees of the shape functions
-/

namespace Verif.Fp.Elem
open Expr Finset

/-- The tree with the entries of the vertex table rounded first (multiplied by 1). -/
def roundV : Expr → Expr
  | var 1 i => mul (var 2 1) (var 1 i)
  | var a i => var a i
  | neg e => neg (roundV e)
  | add e f => add (roundV e) (roundV f)
  | sub e f => sub (roundV e) (roundV f)
  | mul e f => mul (roundV e) (roundV f)

theorem vars_one (x r : ℕ → ℝ) : vars x r 2 1 = 1 := rfl

theorem evalFl_roundV (R : Rounding) (x r : ℕ → ℝ) : ∀ e : Expr,
    (roundV e).evalFl R (vars x r) = e.evalFl R (vars x fun d => R.fl (r d))
  | var 0 i => rfl
  | var 1 i => by
    show R.fl (vars x r 2 1 * r i) = R.fl (r i)
    rw [vars_one, one_mul]
  | var (a + 2) i => rfl
  | neg e => by simp only [roundV, evalFl, evalFl_roundV R x r e]
  | add e f => by simp only [roundV, evalFl, evalFl_roundV R x r e, evalFl_roundV R x r f]
  | sub e f => by simp only [roundV, evalFl, evalFl_roundV R x r e, evalFl_roundV R x r f]
  | mul e f => by simp only [roundV, evalFl, evalFl_roundV R x r e, evalFl_roundV R x r f]

theorem eval_roundV (x r : ℕ → ℝ) : ∀ e : Expr, (roundV e).eval (vars x r) = e.eval (vars x r)
  | var 0 i => rfl
  | var 1 i => by
    show vars x r 2 1 * vars x r 1 i = vars x r 1 i
    rw [vars_one, one_mul]
  | var (a + 2) i => rfl
  | neg e => by simp only [roundV, eval, eval_roundV x r e]
  | add e f => by simp only [roundV, eval, eval_roundV x r e, eval_roundV x r f]
  | sub e f => by simp only [roundV, eval, eval_roundV x r e, eval_roundV x r f]
  | mul e f => by simp only [roundV, eval, eval_roundV x r e, eval_roundV x r f]

/-- Bound of the magnitude on the reference element. -/
def magQ : Expr → ℚ
  | var 0 _ => 1
  | var 1 _ => 1
  | var _ i => |cstQ i|
  | neg e => magQ e
  | add e f => magQ e + magQ f
  | sub e f => magQ e + magQ f
  | mul e f => magQ e * magQ f

/-- Only coordinates below `D` occur. -/
def within (D : ℕ) : Expr → Bool
  | var 0 i => i < D
  | var 1 i => i < D
  | var _ _ => true
  | neg e => within D e
  | add e f => within D e && within D f
  | sub e f => within D e && within D f
  | mul e f => within D e && within D f

theorem magQ_nonneg : ∀ e : Expr, 0 ≤ magQ e
  | var 0 _ => zero_le_one
  | var 1 _ => zero_le_one
  | var (_ + 2) _ => abs_nonneg _
  | neg e => magQ_nonneg e
  | add e f => add_nonneg (magQ_nonneg e) (magQ_nonneg f)
  | sub e f => add_nonneg (magQ_nonneg e) (magQ_nonneg f)
  | mul e f => mul_nonneg (magQ_nonneg e) (magQ_nonneg f)

theorem mag_le {D : ℕ} {x r : ℕ → ℝ} (hx : ∀ d < D, |x d| ≤ 1) (hr : ∀ d < D, |r d| ≤ 1) :
    ∀ e : Expr, within D e = true → (roundV e).mag (vars x r) ≤ (magQ e : ℝ)
  | var 0 i, h => by
    have : |x i| ≤ 1 := hx i (by simpa [within] using h)
    simpa [roundV, mag, magQ, vars] using this
  | var 1 i, h => by
    have : |r i| ≤ 1 := hr i (by simpa [within] using h)
    show |vars x r 2 1| * |vars x r 1 i| ≤ _
    rw [vars_one, abs_one, one_mul]
    simpa [magQ, vars] using this
  | var (a + 2) i, _ => by
    show |cst i| ≤ ((|cstQ i| : ℚ) : ℝ)
    rw [cst_eq]; push_cast; exact le_refl _
  | neg e, h => mag_le hx hr e h
  | add e f, h => by
    simp only [within, Bool.and_eq_true] at h
    simp only [roundV, mag, magQ, Rat.cast_add]
    exact add_le_add (mag_le hx hr e h.1) (mag_le hx hr f h.2)
  | sub e f, h => by
    simp only [within, Bool.and_eq_true] at h
    simp only [roundV, mag, magQ, Rat.cast_add]
    exact add_le_add (mag_le hx hr e h.1) (mag_le hx hr f h.2)
  | mul e f, h => by
    simp only [within, Bool.and_eq_true] at h
    simp only [roundV, mag, magQ, Rat.cast_mul]
    exact mul_le_mul (mag_le hx hr e h.1) (mag_le hx hr f h.2) (mag_nonneg _ _) (by exact_mod_cast magQ_nonneg e)

/-- The check done on each tree: dimension, roundings, magnitude. -/
def fits (D : ℕ) (M : ℚ) (e : Expr) : Bool := within D e && decide ((roundV e).cost ≤ 18) && decide (magQ e ≤ M)

theorem abs_eval_bound {D : ℕ} {M : ℚ} {e : Expr} (h : fits D M e = true) {x r : ℕ → ℝ} (hx : ∀ d < D, |x d| ≤ 1)
    (hr : ∀ d < D, |r d| ≤ 1) : |e.eval (vars x r)| ≤ (M : ℝ) := by
  simp only [fits, Bool.and_eq_true, decide_eq_true_eq] at h
  rw [← eval_roundV]
  exact (abs_eval_le _ _).trans ((mag_le hx hr e h.1.1).trans (by exact_mod_cast h.2))

/-- The error of a checked tree. -/
theorem fits_err {R : Rounding} (hu : R.u < 1) {D : ℕ} {M : ℚ} {e : Expr} (h : fits D M e = true) {x r : ℕ → ℝ}
    (hx : ∀ d < D, |x d| ≤ 1) (hr : ∀ d < D, |r d| ≤ 1) :
    |e.evalFl R (vars x fun d => R.fl (r d)) - e.eval (vars x r)| ≤ (((1 - R.u) ^ 18)⁻¹ - 1) * M := by
  simp only [fits, Bool.and_eq_true, decide_eq_true_eq] at h
  rw [← evalFl_roundV, ← eval_roundV]
  refine (evalFl_err hu _ _).trans (mul_le_mul (mono_err hu h.1.2) ?_ (mag_nonneg _ _) (err_nonneg hu _))
  exact (mag_le hx hr e h.1.1).trans (by exact_mod_cast h.2)

/-! ### Exact evaluation at rational points -/

/-- Value at rational variables. -/
def evalQ (v : ℕ → ℕ → ℚ) : Expr → ℚ
  | var a i => v a i
  | neg e => -evalQ v e
  | add e f => evalQ v e + evalQ v f
  | sub e f => evalQ v e - evalQ v f
  | mul e f => evalQ v e * evalQ v f

/-- A multiple of 1/64 of modulus at most 64. -/
def good (q : ℚ) : Bool := decide ((64 * q).den = 1) && decide ((64 * q).num.natAbs ≤ 4096)

/-- All intermediate results are multiples of 1/64 of modulus at most 64. -/
def chk (v : ℕ → ℕ → ℚ) : Expr → Bool
  | var _ _ => true
  | neg e => chk v e
  | add e f => chk v e && chk v f && good (evalQ v e + evalQ v f)
  | sub e f => chk v e && chk v f && good (evalQ v e - evalQ v f)
  | mul e f => chk v e && chk v f && good (evalQ v e * evalQ v f)

theorem fl_good {R : Rounding} (hb : 12 ≤ R.bits) {q : ℚ} (h : good q = true) : R.fl (q : ℝ) = q := by
  simp only [good, Bool.and_eq_true, decide_eq_true_eq] at h
  have h1 : ((64 * q).num : ℚ) = 64 * q := by
    have := Rat.num_div_den (64 * q)
    rw [h.1] at this; simpa using this
  have h2 : (q : ℝ) = ((64 * q).num : ℤ) * (2 : ℝ) ^ (-6 : ℤ) := by
    have : (((64 * q).num : ℤ) : ℝ) = 64 * (q : ℝ) := by exact_mod_cast h1
    rw [this]; norm_num; ring
  rw [h2]
  refine R.exact _ _ ?_
  have h3 : |(64 * q).num| ≤ 2 ^ 12 := by
    rw [Int.abs_eq_natAbs]; exact_mod_cast h.2
  exact h3.trans (by exact_mod_cast Nat.pow_le_pow_right (by norm_num) hb)

theorem evalFl_chk {R : Rounding} (hb : 12 ≤ R.bits) (v : ℕ → ℕ → ℚ) : ∀ e : Expr, chk v e = true →
    e.evalFl R (fun a i => (v a i : ℝ)) = (evalQ v e : ℝ)
  | var a i, _ => rfl
  | neg e, h => by simp only [evalFl, evalQ, evalFl_chk hb v e h, Rat.cast_neg]
  | add e f, h => by
    simp only [chk, Bool.and_eq_true] at h
    simp only [evalFl, evalQ, evalFl_chk hb v e h.1.1, evalFl_chk hb v f h.1.2]
    rw [← Rat.cast_add]; exact fl_good hb h.2
  | sub e f, h => by
    simp only [chk, Bool.and_eq_true] at h
    simp only [evalFl, evalQ, evalFl_chk hb v e h.1.1, evalFl_chk hb v f h.1.2]
    rw [← Rat.cast_sub]; exact fl_good hb h.2
  | mul e f, h => by
    simp only [chk, Bool.and_eq_true] at h
    simp only [evalFl, evalQ, evalFl_chk hb v e h.1.1, evalFl_chk hb v f h.1.2]
    rw [← Rat.cast_mul]; exact fl_good hb h.2

/-- The variables as rational numbers. -/
def varsQ (x r : ℕ → ℚ) (a i : ℕ) : ℚ := match a with
  | 0 => x i
  | 1 => r i
  | _ => cstQ i

theorem vars_cast (x r : ℕ → ℚ) : vars (fun i => (x i : ℝ)) (fun i => (r i : ℝ)) = fun a i => (varsQ x r a i : ℝ) := by
  funext a i
  match a with
  | 0 => rfl
  | 1 => rfl
  | a + 2 => exact cst_eq i

/-! ### The accumulation loops -/

theorem accumulateR_spec (R : Rounding) (dim nv : ℕ) (V : ℕ → ℕ → ℝ) (basis x0 : ℕ → ℝ) :
    ∃ p, accumulateR R dim nv nv V basis x0 = some p ∧
      ∀ d < dim, p d = loop nv (fun v s => R.fl (s + R.fl (V v d * basis v))) 0 := by
  have h0 : ∀ n d, d < n → loop n (fun d p => store p d (0 : ℝ)) x0 d = 0 := by
    intro n d hd
    rw [loop_store n (fun _ => 0) x0]; exact if_pos hd
  have row : ∀ (f : ℕ → ℝ) (n : ℕ) (p : ℕ → ℝ) (d : ℕ),
      loop n (fun d p => store p d (R.fl (p d + f d))) p d = if d < n then R.fl (p d + f d) else p d := by
    intro f n p
    induction n with
    | zero => intro d; simp
    | succ n ih =>
      intro d
      rw [loop_succ]
      by_cases h : d = n
      · subst h; rw [store_same, ih]; simp
      · rw [store_ne _ _ h, ih]
        by_cases h2 : d < n
        · rw [if_pos h2, if_pos (by omega)]
        · rw [if_neg h2, if_neg (by omega)]
  have key : ∀ m ≤ nv, ∃ p, loop m (fun v (s : Option (ℕ → ℝ)) => s.bind fun p =>
      if v < nv then some (loop dim (fun d p => store p d (R.fl (p d + R.fl (V v d * basis v)))) p) else none)
      (some (loop dim (fun d p => store p d 0) x0)) = some p ∧
      ∀ d < dim, p d = loop m (fun v s => R.fl (s + R.fl (V v d * basis v))) 0 := by
    intro m
    induction m with
    | zero => intro _; exact ⟨_, rfl, fun d hd => h0 dim d hd⟩
    | succ m ih =>
      intro hm
      obtain ⟨p, hp, hd⟩ := ih (by omega)
      refine ⟨loop dim (fun d p => store p d (R.fl (p d + R.fl (V m d * basis m)))) p, ?_, fun d h => ?_⟩
      · rw [loop_succ, hp, Option.bind_some, if_pos (by omega)]
      · rw [row (fun d => R.fl (V m d * basis m)), if_pos h, loop_succ, hd d h]
  exact key nv (le_refl _)

theorem accumulateDimOuterR_spec (R : Rounding) (dim nv : ℕ) (V : ℕ → ℕ → ℝ) (basis x0 : ℕ → ℝ) :
    ∃ p, accumulateDimOuterR R dim nv nv V basis x0 = some p ∧
      ∀ d < dim, p d = loop nv (fun v s => R.fl (s + R.fl (V v d * basis v))) 0 := by
  have h0 : ∀ n d, d < n → loop n (fun d p => store p d (0 : ℝ)) x0 d = 0 := by
    intro n d hd
    rw [loop_store n (fun _ => 0) x0]; exact if_pos hd
  have inner : ∀ (d : ℕ) (p : ℕ → ℝ), ∀ m ≤ nv, ∃ p', loop m (fun v (s : Option (ℕ → ℝ)) => s.bind fun p =>
      if v < nv then some (store p d (R.fl (p d + R.fl (V v d * basis v)))) else none) (some p) = some p' ∧
      p' d = loop m (fun v s => R.fl (s + R.fl (V v d * basis v))) (p d) ∧ ∀ d', d' ≠ d → p' d' = p d' := by
    intro d p m
    induction m with
    | zero => intro _; exact ⟨p, rfl, rfl, fun _ _ => rfl⟩
    | succ m ih =>
      intro hm
      obtain ⟨q, hq, h1, h2⟩ := ih (by omega)
      refine ⟨store q d (R.fl (q d + R.fl (V m d * basis m))), ?_, ?_, fun d' hd' => ?_⟩
      · rw [loop_succ, hq, Option.bind_some, if_pos (by omega)]
      · rw [store_same, loop_succ, h1]
      · rw [store_ne _ _ hd', h2 d' hd']
  have key : ∀ n ≤ dim, ∃ p, loop n (fun d (s : Option (ℕ → ℝ)) => loop nv (fun v s => s.bind fun p =>
      if v < nv then some (store p d (R.fl (p d + R.fl (V v d * basis v)))) else none) s)
      (some (loop dim (fun d p => store p d 0) x0)) = some p ∧
      (∀ d < n, p d = loop nv (fun v s => R.fl (s + R.fl (V v d * basis v))) 0) ∧ ∀ d < dim, n ≤ d → p d = 0 := by
    intro n
    induction n with
    | zero => intro _; exact ⟨_, rfl, fun d hd => by omega, fun d hd _ => h0 dim d hd⟩
    | succ n ih =>
      intro hn
      obtain ⟨p, hp, h1, h2⟩ := ih (by omega)
      obtain ⟨q, hq, g1, g2⟩ := inner n p nv (le_refl _)
      refine ⟨q, by rw [loop_succ, hp, hq], fun d hd => ?_, fun d hd hd' => ?_⟩
      · by_cases h : d = n
        · subst h; rw [g1, h2 d (by omega) (le_refl _)]
        · rw [g2 d h, h1 d (by omega)]
      · rw [g2 d (by omega), h2 d hd (by omega)]
  obtain ⟨p, hp, h1, -⟩ := key dim (le_refl _)
  exact ⟨p, hp, h1⟩

end Verif.Fp.Elem
