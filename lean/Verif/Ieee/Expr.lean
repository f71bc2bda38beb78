import Verif.Ieee.Arith
import Verif.Fp.HexLemmas

/-!
# Expressions in floating-point arithmetic with overflow and underflow
-/

namespace Verif.Fp

/-- A number of the program: a finite number, or `none` for an infinity or a NaN.  Operations on a `none` give `none`. -/
def FNum (_ : Ieee) := Option ℝ

namespace FNum
variable {A : Ieee}
/-- A finite number. -/
def fin (x : ℝ) : FNum A := some x
/-- `-x`: changing the sign is exact. -/
instance : Neg (FNum A) := ⟨fun a => Option.map (fun x => -x) a⟩
/-- `x + y` -/
noncomputable instance : Add (FNum A) := ⟨fun a b => Option.bind a fun x => Option.bind b fun y => A.rnd (x + y)⟩
/-- `x - y` -/
noncomputable instance : Sub (FNum A) := ⟨fun a b => Option.bind a fun x => Option.bind b fun y => A.rnd (x - y)⟩
/-- `x * y` -/
noncomputable instance : Mul (FNum A) := ⟨fun a b => Option.bind a fun x => Option.bind b fun y => A.rnd (x * y)⟩

theorem add_fin (x y : ℝ) : (fin x + fin y : FNum A) = A.rnd (x + y) := rfl
theorem sub_fin (x y : ℝ) : (fin x - fin y : FNum A) = A.rnd (x - y) := rfl
theorem mul_fin (x y : ℝ) : (fin x * fin y : FNum A) = A.rnd (x * y) := rfl
theorem neg_fin (x : ℝ) : (-fin x : FNum A) = fin (-x) := rfl
end FNum

namespace Expr
variable {A : Ieee}

/-- Value in the arithmetic `A`. -/
noncomputable def evalI (A : Ieee) (v : ℕ → ℕ → ℝ) : Expr → FNum A
  | var a i => FNum.fin (v a i)
  | neg e => -e.evalI A v
  | add e f => e.evalI A v + f.evalI A v
  | sub e f => e.evalI A v - f.evalI A v
  | mul e f => e.evalI A v * f.evalI A v

/-- Sum of the moduli of all terms, with one smallest normal number for each operation. -/
def magI (δ : ℝ) (v : ℕ → ℕ → ℝ) : Expr → ℝ
  | var a i => |v a i|
  | neg e => e.magI δ v
  | add e f => e.magI δ v + f.magI δ v + δ
  | sub e f => e.magI δ v + f.magI δ v + δ
  | mul e f => e.magI δ v * f.magI δ v + δ

theorem magI_nonneg {δ : ℝ} (hδ : 0 ≤ δ) (v : ℕ → ℕ → ℝ) : ∀ e : Expr, 0 ≤ e.magI δ v
  | var _ _ => abs_nonneg _
  | neg e => magI_nonneg hδ v e
  | add e f => add_nonneg (add_nonneg (magI_nonneg hδ v e) (magI_nonneg hδ v f)) hδ
  | sub e f => add_nonneg (add_nonneg (magI_nonneg hδ v e) (magI_nonneg hδ v f)) hδ
  | mul e f => add_nonneg (mul_nonneg (magI_nonneg hδ v e) (magI_nonneg hδ v f)) hδ

theorem abs_eval_magI {δ : ℝ} (hδ : 0 ≤ δ) (v : ℕ → ℕ → ℝ) : ∀ e : Expr, |e.eval v| ≤ e.magI δ v
  | var _ _ => le_refl _
  | neg e => by
    show |-e.eval v| ≤ e.magI δ v
    rw [abs_neg]; exact abs_eval_magI hδ v e
  | add e f => by
    have := (abs_add_le (e.eval v) (f.eval v)).trans (add_le_add (abs_eval_magI hδ v e) (abs_eval_magI hδ v f))
    show |e.eval v + f.eval v| ≤ e.magI δ v + f.magI δ v + δ
    linarith
  | sub e f => by
    have := (abs_sub (e.eval v) (f.eval v)).trans (add_le_add (abs_eval_magI hδ v e) (abs_eval_magI hδ v f))
    show |e.eval v - f.eval v| ≤ e.magI δ v + f.magI δ v + δ
    linarith
  | mul e f => by
    show |e.eval v * f.eval v| ≤ e.magI δ v * f.magI δ v + δ
    rw [abs_mul]
    have := mul_le_mul (abs_eval_magI hδ v e) (abs_eval_magI hδ v f) (abs_nonneg _) (magI_nonneg hδ v e)
    linarith

theorem magI_mono {δ : ℝ} (hδ : 0 ≤ δ) {v w : ℕ → ℕ → ℝ} : ∀ {e : Expr}, e.All (fun a i => |v a i| ≤ |w a i|) → e.magI δ v ≤ e.magI δ w
  | var _ _, h => h
  | neg e, h => magI_mono (e := e) hδ h
  | add e f, h => by
    have h1 := magI_mono hδ h.1
    have h2 := magI_mono hδ h.2
    show e.magI δ v + f.magI δ v + δ ≤ e.magI δ w + f.magI δ w + δ
    linarith
  | sub e f, h => by
    have h1 := magI_mono hδ h.1
    have h2 := magI_mono hδ h.2
    show e.magI δ v + f.magI δ v + δ ≤ e.magI δ w + f.magI δ w + δ
    linarith
  | mul e f, h => by
    have h1 := magI_mono hδ h.1
    have h2 := magI_mono hδ h.2
    show e.magI δ v * f.magI δ v + δ ≤ e.magI δ w * f.magI δ w + δ
    have := mul_le_mul h1 h2 (magI_nonneg hδ v f) (magI_nonneg hδ w e)
    linarith

/-- The growth factor of `k` roundings. -/
noncomputable def grow (A : Ieee) (k : ℕ) : ℝ := ((1 - A.u) ^ k)⁻¹

section
variable (hu : A.u < 1)
include hu

theorem base_pos : 0 < 1 - A.u := by linarith
theorem grow_pos (k : ℕ) : 0 < grow A k := inv_pos.2 (pow_pos (base_pos hu) k)
theorem one_le_grow (k : ℕ) : 1 ≤ grow A k :=
  (one_le_inv₀ (pow_pos (base_pos hu) k)).2 (pow_le_one₀ (base_pos hu).le (by linarith [A.u_nonneg]))
theorem grow_mono {k l : ℕ} (h : k ≤ l) : grow A k ≤ grow A l :=
  inv_anti₀ (pow_pos (base_pos hu) l) (pow_le_pow_of_le_one (base_pos hu).le (by linarith [A.u_nonneg]) h)
omit hu in
theorem grow_add (k l : ℕ) : grow A (k + l) = grow A k * grow A l := by unfold grow; rw [pow_add, mul_inv]
theorem grow_succ (k : ℕ) : (1 + A.u) * grow A k ≤ grow A (k + 1) := by
  rw [add_comm k 1, grow_add]
  refine mul_le_mul_of_nonneg_right ?_ (grow_pos hu k).le
  unfold grow
  rw [pow_one, ← one_div, le_div_iff₀ (base_pos hu)]
  nlinarith [A.u_nonneg]

/-- One more rounding. -/
theorem rnd_step {x y M : ℝ} {k : ℕ} (h : |x - y| ≤ (grow A k - 1) * M) (hM : |y| ≤ M) :
    |A.fl x - y| ≤ (grow A (k + 1) - 1) * (M + A.δ) := by
  have hu0 := A.u_nonneg
  have hδ := A.δ_nonneg
  have hM0 : 0 ≤ M := (abs_nonneg y).trans hM
  have hx : |x| ≤ grow A k * M := by
    have := abs_add_le (x - y) y
    rw [sub_add_cancel] at this
    linarith
  have h1 := A.err x
  have h2 : |A.fl x - y| ≤ |A.fl x - x| + |x - y| := by
    have := abs_add_le (A.fl x - x) (x - y)
    rwa [sub_add_sub_cancel] at this
  have hg := one_le_grow hu k
  have hs := grow_succ hu k
  have h3 : A.u * (|x| + A.δ) ≤ A.u * (grow A k * M + A.δ) := mul_le_mul_of_nonneg_left (by linarith) hu0
  have h4 : A.u * A.δ ≤ (grow A (k + 1) - 1) * A.δ := mul_le_mul_of_nonneg_right (by nlinarith) hδ
  have h5 : (1 + A.u) * grow A k * M ≤ grow A (k + 1) * M := mul_le_mul_of_nonneg_right hs hM0
  linarith
end

/-- Every operation stays below the overflow threshold. -/
def Fits (A : Ieee) (v : ℕ → ℕ → ℝ) : Expr → Prop
  | var _ _ => True
  | neg e => e.Fits A v
  | add e f => e.Fits A v ∧ f.Fits A v ∧ grow A (max e.cost f.cost + 1) * (e.magI A.δ v + f.magI A.δ v + A.δ) < A.top
  | sub e f => e.Fits A v ∧ f.Fits A v ∧ grow A (max e.cost f.cost + 1) * (e.magI A.δ v + f.magI A.δ v + A.δ) < A.top
  | mul e f => e.Fits A v ∧ f.Fits A v ∧ grow A (e.cost + f.cost + 1) * (e.magI A.δ v * f.magI A.δ v + A.δ) < A.top

/-- From the exact value, the error bound and the threshold to the result. -/
theorem rnd_fin (hu : A.u < 1) {x y M : ℝ} {k : ℕ} (h : |x - y| ≤ (grow A k - 1) * M) (hM : |y| ≤ M)
    (ht : grow A (k + 1) * (M + A.δ) < A.top) : ∃ r, A.rnd x = some r ∧ |r - y| ≤ (grow A (k + 1) - 1) * (M + A.δ) := by
  have h1 := rnd_step hu h hM
  refine ⟨_, Ieee.rnd_some (lt_of_le_of_lt ?_ ht), h1⟩
  have := abs_add_le (A.fl x - y) y
  rw [sub_add_cancel] at this
  have := A.δ_nonneg
  linarith

/-- **The error of an expression**: no overflow, and the result differs from the exact value by at most `grow - 1` times `magI`. -/
theorem evalI_err (hu : A.u < 1) (v : ℕ → ℕ → ℝ) : ∀ e : Expr, e.Fits A v →
    ∃ r, e.evalI A v = FNum.fin r ∧ |r - e.eval v| ≤ (grow A e.cost - 1) * e.magI A.δ v
  | var a i, _ => ⟨v a i, rfl, by simp [eval, cost, grow]⟩
  | neg e, h => by
    obtain ⟨r, e1, e2⟩ := evalI_err hu v e h
    refine ⟨-r, ?_, ?_⟩
    · show -e.evalI A v = _
      rw [e1, FNum.neg_fin]
    · show |-r - -e.eval v| ≤ _
      rw [show -r - -e.eval v = -(r - e.eval v) by ring, abs_neg]
      exact e2
  | add e f, h => by
    obtain ⟨r, e1, e2⟩ := evalI_err hu v e h.1
    obtain ⟨s, f1, f2⟩ := evalI_err hu v f h.2.1
    have me := magI_nonneg A.δ_nonneg v e
    have mf := magI_nonneg A.δ_nonneg v f
    have g1 := e2.trans (mul_le_mul_of_nonneg_right (sub_le_sub_right (grow_mono hu (le_max_left e.cost f.cost)) 1) me)
    have g2 := f2.trans (mul_le_mul_of_nonneg_right (sub_le_sub_right (grow_mono hu (le_max_right e.cost f.cost)) 1) mf)
    obtain ⟨t, t1, t2⟩ := rnd_fin (A := A) hu (x := r + s) (y := e.eval v + f.eval v) (k := max e.cost f.cost) (M := e.magI A.δ v + f.magI A.δ v)
      (by
        rw [show r + s - (e.eval v + f.eval v) = (r - e.eval v) + (s - f.eval v) by ring, mul_add]
        exact (abs_add_le _ _).trans (add_le_add g1 g2))
      ((abs_add_le _ _).trans (add_le_add (abs_eval_magI A.δ_nonneg v e) (abs_eval_magI A.δ_nonneg v f))) h.2.2
    exact ⟨t, by show e.evalI A v + f.evalI A v = _; rw [e1, f1, FNum.add_fin]; exact t1, t2⟩
  | sub e f, h => by
    obtain ⟨r, e1, e2⟩ := evalI_err hu v e h.1
    obtain ⟨s, f1, f2⟩ := evalI_err hu v f h.2.1
    have me := magI_nonneg A.δ_nonneg v e
    have mf := magI_nonneg A.δ_nonneg v f
    have g1 := e2.trans (mul_le_mul_of_nonneg_right (sub_le_sub_right (grow_mono hu (le_max_left e.cost f.cost)) 1) me)
    have g2 := f2.trans (mul_le_mul_of_nonneg_right (sub_le_sub_right (grow_mono hu (le_max_right e.cost f.cost)) 1) mf)
    obtain ⟨t, t1, t2⟩ := rnd_fin (A := A) hu (x := r - s) (y := e.eval v - f.eval v) (k := max e.cost f.cost) (M := e.magI A.δ v + f.magI A.δ v)
      (by
        rw [show r - s - (e.eval v - f.eval v) = (r - e.eval v) - (s - f.eval v) by ring, mul_add]
        exact (abs_sub _ _).trans (add_le_add g1 g2))
      ((abs_sub _ _).trans (add_le_add (abs_eval_magI A.δ_nonneg v e) (abs_eval_magI A.δ_nonneg v f))) h.2.2
    exact ⟨t, by show e.evalI A v - f.evalI A v = _; rw [e1, f1, FNum.sub_fin]; exact t1, t2⟩
  | mul e f, h => by
    obtain ⟨r, e1, e2⟩ := evalI_err hu v e h.1
    obtain ⟨s, f1, f2⟩ := evalI_err hu v f h.2.1
    have me := magI_nonneg A.δ_nonneg v e
    have mf := magI_nonneg A.δ_nonneg v f
    have ae := abs_eval_magI A.δ_nonneg v e
    have af := abs_eval_magI A.δ_nonneg v f
    have ge := one_le_grow hu e.cost
    have gf := one_le_grow hu f.cost
    obtain ⟨t, t1, t2⟩ := rnd_fin (A := A) hu (x := r * s) (y := e.eval v * f.eval v) (k := e.cost + f.cost) (M := e.magI A.δ v * f.magI A.δ v)
      (by
        rw [grow_add]
        set G1 := grow A e.cost
        set G2 := grow A f.cost
        have b2 : |s| ≤ G2 * f.magI A.δ v := by
          have := abs_add_le (s - f.eval v) (f.eval v)
          rw [sub_add_cancel] at this
          linarith
        rw [show r * s - e.eval v * f.eval v = (r - e.eval v) * s + e.eval v * (s - f.eval v) by ring]
        refine (abs_add_le _ _).trans ?_
        rw [abs_mul, abs_mul]
        have c1 : |r - e.eval v| * |s| ≤ (G1 - 1) * e.magI A.δ v * (G2 * f.magI A.δ v) :=
          mul_le_mul e2 b2 (abs_nonneg _) (mul_nonneg (by linarith) me)
        have c2 : |e.eval v| * |s - f.eval v| ≤ e.magI A.δ v * ((G2 - 1) * f.magI A.δ v) :=
          mul_le_mul ae f2 (abs_nonneg _) me
        calc _ ≤ (G1 - 1) * e.magI A.δ v * (G2 * f.magI A.δ v) + e.magI A.δ v * ((G2 - 1) * f.magI A.δ v) := add_le_add c1 c2
          _ = _ := by ring)
      (by rw [abs_mul]; exact mul_le_mul ae af (abs_nonneg _) me) h.2.2
    exact ⟨t, by show e.evalI A v * f.evalI A v = _; rw [e1, f1, FNum.mul_fin]; exact t1, t2⟩

/-- If every variable is at most `w ≥ 1` in modulus, it is enough that the whole expression fits, computed with `w`. -/
theorem fits_of (hu : A.u < 1) {v w : ℕ → ℕ → ℝ} (hw : ∀ a i, 1 ≤ w a i) : ∀ {e : Expr}, e.All (fun a i => |v a i| ≤ w a i) →
    grow A e.cost * e.magI A.δ w < A.top → e.Fits A v ∧ 1 ≤ e.magI A.δ w := by
  intro e
  have one : ∀ e : Expr, 1 ≤ e.magI A.δ w := by
    intro e
    have hδ := A.δ_nonneg
    induction e with
    | var a i => show 1 ≤ |w a i|; exact (hw a i).trans (le_abs_self _)
    | neg e ih => exact ih
    | add e f ih ih' => show 1 ≤ _ + _ + _; linarith
    | sub e f ih ih' => show 1 ≤ _ + _ + _; linarith
    | mul e f ih ih' => show 1 ≤ _ * _ + _; nlinarith
  have hδ := A.δ_nonneg
  have mono : ∀ {e : Expr}, e.All (fun a i => |v a i| ≤ w a i) → e.magI A.δ v ≤ e.magI A.δ w := fun h =>
    magI_mono hδ (h.imp fun a i q => q.trans (le_abs_self _))
  intro hall ht
  refine ⟨?_, one e⟩
  induction e with
  | var a i => trivial
  | neg e ih => exact ih hall ht
  | add e f ih ih' =>
    have m1 := mono hall.1
    have m2 := mono hall.2
    have o1 := one e
    have o2 := one f
    have gp := grow_pos hu (max e.cost f.cost + 1)
    change grow A (max e.cost f.cost + 1) * (e.magI A.δ w + f.magI A.δ w + A.δ) < A.top at ht
    refine ⟨ih hall.1 (lt_of_le_of_lt ?_ ht), ih' hall.2 (lt_of_le_of_lt ?_ ht), lt_of_le_of_lt ?_ ht⟩
    · exact mul_le_mul (grow_mono hu (by have := le_max_left e.cost f.cost; omega)) (by linarith) (by linarith) gp.le
    · exact mul_le_mul (grow_mono hu (by have := le_max_right e.cost f.cost; omega)) (by linarith) (by linarith) gp.le
    · exact mul_le_mul_of_nonneg_left (by linarith) gp.le
  | sub e f ih ih' =>
    have m1 := mono hall.1
    have m2 := mono hall.2
    have o1 := one e
    have o2 := one f
    have gp := grow_pos hu (max e.cost f.cost + 1)
    change grow A (max e.cost f.cost + 1) * (e.magI A.δ w + f.magI A.δ w + A.δ) < A.top at ht
    refine ⟨ih hall.1 (lt_of_le_of_lt ?_ ht), ih' hall.2 (lt_of_le_of_lt ?_ ht), lt_of_le_of_lt ?_ ht⟩
    · exact mul_le_mul (grow_mono hu (by have := le_max_left e.cost f.cost; omega)) (by linarith) (by linarith) gp.le
    · exact mul_le_mul (grow_mono hu (by have := le_max_right e.cost f.cost; omega)) (by linarith) (by linarith) gp.le
    · exact mul_le_mul_of_nonneg_left (by linarith) gp.le
  | mul e f ih ih' =>
    have m1 := mono hall.1
    have m2 := mono hall.2
    have o1 := one e
    have o2 := one f
    have gp := grow_pos hu (e.cost + f.cost + 1)
    change grow A (e.cost + f.cost + 1) * (e.magI A.δ w * f.magI A.δ w + A.δ) < A.top at ht
    refine ⟨ih hall.1 (lt_of_le_of_lt ?_ ht), ih' hall.2 (lt_of_le_of_lt ?_ ht), lt_of_le_of_lt ?_ ht⟩
    · exact mul_le_mul (grow_mono hu (by omega)) (by nlinarith) (by linarith) gp.le
    · exact mul_le_mul (grow_mono hu (by omega)) (by nlinarith) (by linarith) gp.le
    · have := mul_le_mul m1 m2 (magI_nonneg hδ v f) (by linarith : 0 ≤ e.magI A.δ w)
      exact mul_le_mul_of_nonneg_left (by linarith) gp.le

/-- The growth factor in the usual form. -/
theorem grow_le (hu : A.u < 1) {k : ℕ} (hk : k * A.u < 1) : grow A k - 1 ≤ k * A.u / (1 - k * A.u) := by
  have e1 : 1 + (k : ℝ) * (-A.u) ≤ (1 + -A.u) ^ k := one_add_mul_le_pow (by linarith) k
  have hp : 0 < 1 - k * A.u := by linarith
  have h2 : grow A k ≤ (1 - k * A.u)⁻¹ := inv_anti₀ hp (by
    have : (1 : ℝ) + -A.u = 1 - A.u := by ring
    rw [this] at e1; linarith)
  have h3 : (1 - k * A.u)⁻¹ - 1 = k * A.u / (1 - k * A.u) := by field_simp; ring
  linarith

theorem evalI_congr {v w : ℕ → ℕ → ℝ} : ∀ {e : Expr}, e.All (fun a i => v a i = w a i) → e.evalI A v = e.evalI A w
  | var _ _, h => congrArg FNum.fin h
  | neg e, h => by show -e.evalI A v = -e.evalI A w; rw [evalI_congr (e := e) h]
  | add e f, h => by show e.evalI A v + f.evalI A v = e.evalI A w + f.evalI A w; rw [evalI_congr h.1, evalI_congr h.2]
  | sub e f, h => by show e.evalI A v - f.evalI A v = e.evalI A w - f.evalI A w; rw [evalI_congr h.1, evalI_congr h.2]
  | mul e f, h => by show e.evalI A v * f.evalI A v = e.evalI A w * f.evalI A w; rw [evalI_congr h.1, evalI_congr h.2]

theorem _root_.Verif.Fp.FNum.add_some {a b : FNum A} {r : ℝ} (h : a + b = FNum.fin r) :
    ∃ x y, a = FNum.fin x ∧ b = FNum.fin y ∧ A.fl (x + y) = r ∧ |r| < A.top := by
  obtain ⟨x, hx, h⟩ := Option.bind_eq_some_iff.1 (show Option.bind a _ = some r from h)
  obtain ⟨y, hy, h⟩ := Option.bind_eq_some_iff.1 h
  obtain ⟨h1, h2⟩ := Ieee.rnd_eq_some.1 h
  exact ⟨x, y, hx, hy, h2, h2 ▸ h1⟩

theorem _root_.Verif.Fp.FNum.sub_some {a b : FNum A} {r : ℝ} (h : a - b = FNum.fin r) :
    ∃ x y, a = FNum.fin x ∧ b = FNum.fin y ∧ A.fl (x - y) = r ∧ |r| < A.top := by
  obtain ⟨x, hx, h⟩ := Option.bind_eq_some_iff.1 (show Option.bind a _ = some r from h)
  obtain ⟨y, hy, h⟩ := Option.bind_eq_some_iff.1 h
  obtain ⟨h1, h2⟩ := Ieee.rnd_eq_some.1 h
  exact ⟨x, y, hx, hy, h2, h2 ▸ h1⟩

theorem _root_.Verif.Fp.FNum.mul_some {a b : FNum A} {r : ℝ} (h : a * b = FNum.fin r) :
    ∃ x y, a = FNum.fin x ∧ b = FNum.fin y ∧ A.fl (x * y) = r ∧ |r| < A.top := by
  obtain ⟨x, hx, h⟩ := Option.bind_eq_some_iff.1 (show Option.bind a _ = some r from h)
  obtain ⟨y, hy, h⟩ := Option.bind_eq_some_iff.1 h
  obtain ⟨h1, h2⟩ := Ieee.rnd_eq_some.1 h
  exact ⟨x, y, hx, hy, h2, h2 ▸ h1⟩

/-- Small integers times powers of two with nonnegative exponents are computed exactly, or overflow. -/
theorem evalI_exact {s : ℕ → ℤ} {m : ℕ → ℕ → ℤ} {v : ℕ → ℕ → ℝ} (hem : A.emin ≤ 0) (hs : ∀ a, 0 ≤ s a) (hv : ∀ a i, v a i = m a i * 2 ^ s a)
    {e : Expr} {k : ℤ} (h : Homog s e k) : 0 ≤ k ∧ (e.magZ m ≤ 2 ^ A.bits → ∀ r, e.evalI A v = FNum.fin r → r = e.eval v) := by
  have key : ∀ {e : Expr} {k : ℤ}, Homog s e k → 0 ≤ k → e.magZ m ≤ 2 ^ A.bits → A.fl (e.eval v) = e.eval v := fun {e k} h hk hm => by
    rw [eval_eq hv h]
    exact A.exact _ _ ((abs_evalZ_le m e).trans hm) (hem.trans hk)
  induction h with
  | var a i => exact ⟨hs a, fun _ r hr => (Option.some.inj hr).symm⟩
  | @neg e k he ih =>
    refine ⟨ih.1, fun hm r hr => ?_⟩
    obtain ⟨x, hx, hr⟩ := Option.map_eq_some_iff.1 (show Option.map _ (e.evalI A v) = some r from hr)
    rw [← hr, ih.2 hm x hx]; rfl
  | @add e f k he hf ih ih' =>
    refine ⟨ih.1, fun hm r hr => ?_⟩
    have h1 := magZ_nonneg m e
    have h2 := magZ_nonneg m f
    have hm' : e.magZ m + f.magZ m ≤ 2 ^ A.bits := hm
    obtain ⟨x, y, hx, hy, hr, -⟩ := FNum.add_some (show e.evalI A v + f.evalI A v = _ from hr)
    rw [← hr, ih.2 (by linarith) x hx, ih'.2 (by linarith) y hy]
    exact key (he.add hf) ih.1 hm
  | @sub e f k he hf ih ih' =>
    refine ⟨ih.1, fun hm r hr => ?_⟩
    have h1 := magZ_nonneg m e
    have h2 := magZ_nonneg m f
    have hm' : e.magZ m + f.magZ m ≤ 2 ^ A.bits := hm
    obtain ⟨x, y, hx, hy, hr, -⟩ := FNum.sub_some (show e.evalI A v - f.evalI A v = _ from hr)
    rw [← hr, ih.2 (by linarith) x hx, ih'.2 (by linarith) y hy]
    exact key (he.sub hf) ih.1 hm
  | @mul e f k l he hf ih ih' =>
    refine ⟨add_nonneg ih.1 ih'.1, fun hm r hr => ?_⟩
    have h1 := magZ_nonneg m e
    have h2 := magZ_nonneg m f
    have hm' : e.magZ m * f.magZ m ≤ 2 ^ A.bits := hm
    obtain ⟨x, y, hx, hy, hr, -⟩ := FNum.mul_some (show e.evalI A v * f.evalI A v = _ from hr)
    have hzero : ∀ {e : Expr} {k : ℤ}, Homog s e k → e.magZ m = 0 → e.eval v = 0 := fun {e k} h h0 => by
      have := abs_evalZ_le m e
      rw [h0] at this
      rw [eval_eq hv h, abs_nonpos_iff.1 this]; simp
    have hb : (0 : ℤ) ≤ 2 ^ A.bits := by positivity
    rcases h1.eq_or_lt with h0 | h0
    · rw [← hr, ih.2 (by rw [← h0]; exact hb) x hx, hzero he h0.symm, zero_mul, A.fl_zero]
      show 0 = _ * _
      rw [hzero he h0.symm, zero_mul]
    · rcases h2.eq_or_lt with h0' | h0'
      · rw [← hr, ih'.2 (by rw [← h0']; exact hb) y hy, hzero hf h0'.symm, mul_zero, A.fl_zero]
        show 0 = _ * _
        rw [hzero hf h0'.symm, mul_zero]
      · have i1 : e.magZ m ≤ e.magZ m * f.magZ m := by nlinarith
        have i2 : f.magZ m ≤ e.magZ m * f.magZ m := by nlinarith
        rw [← hr, ih.2 (by linarith) x hx, ih'.2 (by linarith) y hy]
        exact key (he.mul hf) (add_nonneg ih.1 ih'.1) hm

end Expr
end Verif.Fp
