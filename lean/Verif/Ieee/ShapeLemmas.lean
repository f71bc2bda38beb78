import Verif.Ieee.ShapeModel
import Verif.Fp.ShapeTheorems
import Verif.Ieee.HexTheorems

/-!
# Errors of the shape functions in floating-point arithmetic with overflow and underflow
-/

namespace Verif.Fp.ElemI
open Expr Finset
open Verif.Shape (Kind)
open Verif.Fp.Elem (vars roundV within cst cstQ vars_one magQ mag_le)

variable {A : Ieee}

theorem evalI_roundV (x r : ℕ → ℝ) {D : ℕ} (hr : ∀ d < D, |A.fl (r d)| < A.top) : ∀ e : Expr, within D e = true →
    (roundV e).evalI A (vars x r) = e.evalI A (vars x fun d => A.fl (r d))
  | var 0 i, _ => rfl
  | var 1 i, h => by
    show A.rnd (vars x r 2 1 * r i) = FNum.fin (A.fl (r i))
    rw [vars_one, one_mul]
    exact Ieee.rnd_some (hr i (by simpa [within] using h))
  | var (a + 2) i, _ => rfl
  | neg e, h => by simp only [roundV, evalI, evalI_roundV x r hr e h]
  | add e f, h => by
    simp only [within, Bool.and_eq_true] at h
    simp only [roundV, evalI, evalI_roundV x r hr e h.1, evalI_roundV x r hr f h.2]
  | sub e f, h => by
    simp only [within, Bool.and_eq_true] at h
    simp only [roundV, evalI, evalI_roundV x r hr e h.1, evalI_roundV x r hr f h.2]
  | mul e f, h => by
    simp only [within, Bool.and_eq_true] at h
    simp only [roundV, evalI, evalI_roundV x r hr e h.1, evalI_roundV x r hr f h.2]

/-- The effect of underflow: at most `δ` times what it would be for `δ = 1`. -/
theorem magI_le {δ : ℝ} (h0 : 0 ≤ δ) (h1 : δ ≤ 1) (v : ℕ → ℕ → ℝ) : ∀ e : Expr, e.mag v ≤ e.magI 1 v ∧
    e.magI δ v ≤ e.mag v + δ * (e.magI 1 v - e.mag v)
  | var a i => ⟨le_refl _, by show |v a i| ≤ |v a i| + δ * (|v a i| - |v a i|); rw [sub_self, mul_zero, add_zero]⟩
  | neg e => magI_le h0 h1 v e
  | add e f => by
    obtain ⟨e1, e2⟩ := magI_le h0 h1 v e
    obtain ⟨f1, f2⟩ := magI_le h0 h1 v f
    simp only [mag, magI]
    constructor <;> nlinarith
  | sub e f => by
    obtain ⟨e1, e2⟩ := magI_le h0 h1 v e
    obtain ⟨f1, f2⟩ := magI_le h0 h1 v f
    simp only [mag, magI]
    constructor <;> nlinarith
  | mul e f => by
    obtain ⟨e1, e2⟩ := magI_le h0 h1 v e
    obtain ⟨f1, f2⟩ := magI_le h0 h1 v f
    have me := mag_nonneg v e
    have mf := mag_nonneg v f
    have mi := magI_nonneg h0 v f
    simp only [mag, magI]
    set a := e.mag v
    set b := f.mag v
    obtain ⟨a', ha⟩ : ∃ a', a' = e.magI 1 v - a := ⟨_, rfl⟩
    obtain ⟨b', hb⟩ : ∃ b', b' = f.magI 1 v - b := ⟨_, rfl⟩
    rw [← ha] at e2
    rw [← hb] at f2
    rw [show e.magI 1 v = a + a' by linarith, show f.magI 1 v = b + b' by linarith]
    have a0 : 0 ≤ a' := by linarith
    have b0 : 0 ≤ b' := by linarith
    have p1 := mul_nonneg me b0
    have p2 := mul_nonneg a0 mf
    have p3 := mul_nonneg a0 b0
    refine ⟨by nlinarith, ?_⟩
    have := mul_le_mul e2 f2 mi (by positivity)
    have d2 : δ * δ ≤ δ := by nlinarith
    have := mul_le_mul_of_nonneg_right d2 p3
    nlinarith

/-- `magI 1` with every variable at most 19 in modulus (the largest constant), as a rational number. -/
def bigQ : Expr → ℚ
  | var _ _ => 19
  | neg e => bigQ e
  | add e f => bigQ e + bigQ f + 1
  | sub e f => bigQ e + bigQ f + 1
  | mul e f => bigQ e * bigQ f + 1

theorem bigQ_eq {δ : ℝ} (h1 : δ ≤ 1) (h0 : 0 ≤ δ) : ∀ e : Expr, 0 ≤ bigQ e ∧ e.magI δ (fun _ _ => 19) ≤ (bigQ e : ℝ)
  | var _ _ => by simp [bigQ, magI]
  | neg e => bigQ_eq h1 h0 e
  | add e f => by
    obtain ⟨e0, e1⟩ := bigQ_eq h1 h0 e
    obtain ⟨f0, f1⟩ := bigQ_eq h1 h0 f
    simp only [bigQ, magI]
    refine ⟨by positivity, ?_⟩
    push_cast
    linarith
  | sub e f => by
    obtain ⟨e0, e1⟩ := bigQ_eq h1 h0 e
    obtain ⟨f0, f1⟩ := bigQ_eq h1 h0 f
    simp only [bigQ, magI]
    refine ⟨by positivity, ?_⟩
    push_cast
    linarith
  | mul e f => by
    obtain ⟨e0, e1⟩ := bigQ_eq h1 h0 e
    obtain ⟨f0, f1⟩ := bigQ_eq h1 h0 f
    simp only [bigQ, magI]
    refine ⟨by positivity, ?_⟩
    push_cast
    have := mul_le_mul e1 f1 (magI_nonneg h0 _ f) (by exact_mod_cast e0)
    linarith

theorem abs_cst_le (i : ℕ) : |cst i| ≤ 19 := by
  unfold cst; split <;> norm_num [abs_le]

theorem all_within {D : ℕ} {x r : ℕ → ℝ} (hx : ∀ d < D, |x d| ≤ 1) (hr : ∀ d < D, |r d| ≤ 1) :
    ∀ e : Expr, within D e = true → (roundV e).All fun a i => |vars x r a i| ≤ 19
  | var 0 i, h => by
    have : |x i| ≤ 1 := hx i (by simpa [within] using h)
    show |x i| ≤ 19
    linarith
  | var 1 i, h => by
    have : |r i| ≤ 1 := hr i (by simpa [within] using h)
    refine ⟨?_, ?_⟩
    · show |vars x r 2 1| ≤ 19
      rw [vars_one]; norm_num
    · show |r i| ≤ 19
      linarith
  | var (a + 2) i, _ => abs_cst_le i
  | neg e, h => all_within hx hr e h
  | add e f, h => by
    simp only [within, Bool.and_eq_true] at h
    exact ⟨all_within hx hr e h.1, all_within hx hr f h.2⟩
  | sub e f, h => by
    simp only [within, Bool.and_eq_true] at h
    exact ⟨all_within hx hr e h.1, all_within hx hr f h.2⟩
  | mul e f, h => by
    simp only [within, Bool.and_eq_true] at h
    exact ⟨all_within hx hr e h.1, all_within hx hr f h.2⟩

/-- The check done on each tree. -/
def small (e : Expr) : Bool := decide (bigQ (roundV e) ≤ 10 ^ 20)

/-- The error of a checked tree in double precision. -/
theorem small_err {D : ℕ} {M : ℚ} {e : Expr} (h : Elem.fits D M e = true) (hs : small e = true) {x r : ℕ → ℝ}
    (hx : ∀ d < D, |x d| ≤ 1) (hr : ∀ d < D, |r d| ≤ 1) :
    ∃ y, e.evalI Ieee.ieee64 (vars x fun d => Ieee.ieee64.fl (r d)) = FNum.fin y ∧
      |y - e.eval (vars x r)| ≤ (grow Ieee.ieee64 18 - 1) * (M + 2 ^ (-950 : ℤ)) := by
  simp only [Elem.fits, small, Bool.and_eq_true, decide_eq_true_eq] at h hs
  have hδ := Ieee.ieee64.δ_nonneg
  have hδ6 := GeomI.delta_le
  have hu := GeomI.u_lt
  have hδ1 : Ieee.ieee64.δ ≤ 1 := hδ6.trans (by norm_num)
  have hg := GeomI.grow19
  have hg18 := grow_mono hu (show (roundV e).cost ≤ 19 by omega)
  have h30 : (2 : ℝ) ^ (80 : ℤ) ≤ 2 ^ (1024 : ℤ) := zpow_le_zpow_right₀ (by norm_num) (by norm_num)
  have top := Ieee.ieee64_top
  obtain ⟨b0, b1⟩ := bigQ_eq hδ1 hδ (roundV e)
  have b2 : (bigQ (roundV e) : ℝ) ≤ 10 ^ 20 := by exact_mod_cast hs
  have hg1 := one_le_grow hu (roundV e).cost
  have hw : ∀ d < D, |Ieee.ieee64.fl (r d)| < Ieee.ieee64.top := by
    intro d hd
    have := Ieee.ieee64.fl_abs_le (r d)
    have h1 := hr d hd
    rw [top]
    rw [Ieee.ieee64_u] at this
    generalize (2 : ℝ) ^ (1024 : ℤ) = T at *
    generalize Ieee.ieee64.δ = δ at *
    norm_num at this h30
    linarith
  have fit := (fits_of hu (A := Ieee.ieee64) (v := vars x r) (w := fun _ _ => 19) (fun _ _ => by norm_num) (e := roundV e)
    (all_within hx hr e h.1.1) (by
      rw [top]
      have m0 := magI_nonneg hδ (fun _ _ => 19) (roundV e)
      generalize (2 : ℝ) ^ (1024 : ℤ) = T at *
      generalize Ieee.ieee64.δ = δ at *
      generalize (roundV e).magI δ (fun _ _ => 19) = G at *
      generalize grow Ieee.ieee64 19 = g19 at *
      generalize grow Ieee.ieee64 (roundV e).cost = g at *
      norm_num at hg h30 b2
      have : g * G ≤ 2 * G := mul_le_mul_of_nonneg_right (by linarith) m0
      linarith)).1
  obtain ⟨y, y1, y2⟩ := evalI_err hu (vars x r) (roundV e) fit
  refine ⟨y, by rw [← evalI_roundV x r hw e h.1.1, y1], ?_⟩
  rw [← Elem.eval_roundV]
  refine y2.trans (mul_le_mul (sub_le_sub_right (grow_mono hu h.1.2) 1) ?_ (magI_nonneg hδ _ _) (by linarith [one_le_grow hu 18]))
  obtain ⟨q1, q2⟩ := magI_le hδ hδ1 (vars x r) (roundV e)
  have q3 := mag_nonneg (vars x r) (roundV e)
  have q4 : (roundV e).mag (vars x r) ≤ (M : ℝ) := (mag_le hx hr e h.1.1).trans (by exact_mod_cast h.2)
  have q5 : (roundV e).magI 1 (vars x r) ≤ 10 ^ 20 := (magI_mono zero_le_one ((all_within hx hr e h.1.1).imp fun a i q => by
      rw [abs_of_nonneg (by norm_num : (0 : ℝ) ≤ 19)]; exact q)).trans
    ((bigQ_eq (le_refl 1) zero_le_one (roundV e)).2.trans b2)
  have q6 : Ieee.ieee64.δ * (10 ^ 20) ≤ 2 ^ (-950 : ℤ) := by
    rw [Ieee.ieee64_δ]
    calc (2 : ℝ) ^ (-1022 : ℤ) * 10 ^ 20 ≤ 2 ^ (-1022 : ℤ) * 2 ^ (72 : ℤ) := by
          refine mul_le_mul_of_nonneg_left ?_ (by positivity); norm_num
      _ = 2 ^ (-950 : ℤ) := by rw [← zpow_add₀ (by norm_num : (2 : ℝ) ≠ 0)]; norm_num
  have q7 : Ieee.ieee64.δ * ((roundV e).magI 1 (vars x r) - (roundV e).mag (vars x r)) ≤ Ieee.ieee64.δ * 10 ^ 20 :=
    mul_le_mul_of_nonneg_left (by linarith) hδ
  linarith

end Verif.Fp.ElemI
