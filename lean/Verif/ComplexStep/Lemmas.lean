import Verif.ComplexStep.Model
import Verif.ComplexStep.Spec
import Verif.Legendre.ElementTheorems
import Mathlib.Algebra.Polynomial.Taylor
import Mathlib.Algebra.Polynomial.Div

/-! Complex step through real polynomials; the complex instantiations evaluate real polynomials. -/

namespace Verif.ComplexStep
open Polynomial Finset Complex

/-- Evaluation of a real polynomial at a complex number. -/
noncomputable def ev (p : ℝ[X]) (z : ℂ) : ℂ := (p.map ofRealHom).eval z

theorem ev_real (p : ℝ[X]) (x : ℝ) : ev p x = (p.eval x : ℝ) := by
  unfold ev
  rw [show (x : ℂ) = ofRealHom x from rfl, eval_map, eval₂_at_apply]; rfl

theorem ev_bound (p : ℝ[X]) {z : ℂ} (hz : ‖z‖ ≤ 1) : ‖ev p z‖ ≤ ∑ k ∈ range (p.natDegree + 1), |p.coeff k| := by
  unfold ev
  rw [eval_map, eval₂_eq_sum_range]
  refine (norm_sum_le _ _).trans (sum_le_sum fun k _ => ?_)
  rw [norm_mul, norm_pow, ofRealHom_eq_coe, norm_real, Real.norm_eq_abs]
  exact mul_le_of_le_one_right (abs_nonneg _) (pow_le_one₀ (norm_nonneg _) hz)

/-- Third-order expansion of a real polynomial around a real point. -/
theorem ev_expand (p : ℝ[X]) (x : ℝ) :
    ∃ (q : ℝ) (r : ℝ[X]), ∀ y : ℂ, ev p (x + y) = (p.eval x : ℝ) + ((derivative p).eval x : ℝ) * y + q * y ^ 2 + ev r y * y ^ 3 := by
  refine ⟨(taylor x p).coeff 2, divX (divX (divX (taylor x p))), fun y => ?_⟩
  have e : ev p (x + y) = ev (taylor x p) y := by
    unfold ev
    rw [map_taylor, taylor_eval]
    rw [add_comm]; rfl
  have h1 : ∀ s : ℝ[X], ev s y = ev (divX s) y * y + (s.coeff 0 : ℝ) := by
    intro s
    conv_lhs => rw [← divX_mul_X_add s]
    simp [ev]
  rw [e, h1, h1 (divX (taylor x p)), h1 (divX (divX (taylor x p))), coeff_divX, coeff_divX, coeff_divX, taylor_coeff_zero]
  have : (taylor x p).coeff (0 + 1) = (derivative p).eval x := taylor_coeff_one x p
  rw [this]
  ring

theorem add_mul_I_re (a b : ℝ) : ((a : ℂ) + (b : ℂ) * I).re = a := by simp
theorem add_mul_I_im (a b : ℝ) : ((a : ℂ) + (b : ℂ) * I).im = b := by simp

/-- The complex step is accurate for every real polynomial. -/
theorem step_poly {f : ℂ → ℂ} {p : ℝ[X]} {x : ℝ} (hf : ∀ h : ℝ, h ≠ 0 → f (x + h * I) = ev p (x + h * I)) :
    Step f x (p.eval x) ((derivative p).eval x) := by
  obtain ⟨q, r, e⟩ := ev_expand p x
  set B := ∑ k ∈ range (r.natDegree + 1), |r.coeff k| with hB
  have hB0 : 0 ≤ B := sum_nonneg fun _ _ => abs_nonneg _
  refine ⟨|q| + B, fun h h0 h1 => ?_⟩
  have hz : ‖((h : ℂ) * I)‖ ≤ 1 := by simpa using h1
  have hr := ev_bound r hz
  rw [← hB] at hr
  set w := ev r (h * I) with hw
  have hre : |w.re| ≤ B := (abs_re_le_norm w).trans hr
  have him : |w.im| ≤ B := (abs_im_le_norm w).trans hr
  have hh : 0 ≤ h ^ 2 := sq_nonneg h
  have hI2 : ((h : ℂ) * I) ^ 2 = ((-(h ^ 2) : ℝ) : ℂ) := by
    rw [mul_pow, I_sq]; push_cast; ring
  have hI3 : ((h : ℂ) * I) ^ 3 = ((-(h ^ 3) : ℝ) : ℂ) * I := by
    rw [pow_succ, hI2]; push_cast; ring
  have key : f (x + h * I) = ((p.eval x - q * h ^ 2 + w.im * h ^ 3 : ℝ) : ℂ) +
      (((derivative p).eval x * h - w.re * h ^ 3 : ℝ) : ℂ) * I := by
    rw [hf h h0, e, hI2, hI3, ← hw]
    apply Complex.ext <;> simp <;> ring
  have kre : (f (x + h * I)).re = p.eval x - q * h ^ 2 + w.im * h ^ 3 := by rw [key]; exact (add_mul_I_re _ _)
  have kim : (f (x + h * I)).im = (derivative p).eval x * h - w.re * h ^ 3 := by rw [key]; exact (add_mul_I_im _ _)
  constructor
  · rw [kre, show p.eval x - q * h ^ 2 + w.im * h ^ 3 - p.eval x = (-q + w.im * h) * h ^ 2 by ring, abs_mul, abs_of_nonneg hh]
    refine mul_le_mul_of_nonneg_right ?_ hh
    calc |-q + w.im * h| ≤ |-q| + |w.im * h| := abs_add_le _ _
      _ ≤ |q| + B := by
        rw [abs_neg, abs_mul]
        have := mul_le_mul him h1 (abs_nonneg h) hB0
        linarith
  · rw [kim, show ((derivative p).eval x * h - w.re * h ^ 3) / h - (derivative p).eval x = -w.re * h ^ 2 by field_simp; ring,
      abs_mul, abs_neg, abs_of_nonneg hh]
    refine mul_le_mul_of_nonneg_right ?_ hh
    have := abs_nonneg q
    linarith

/-! ### Vertex search -/

/-- The complex search is the real search on the real parts. -/
theorem find_eq (tol : ℝ) (N : ℕ) (z : ℕ → ℂ) (x : ℂ) :
    find tol N z x = LagrangeElement.find tol N (fun j => (z j).re) x.re := by
  unfold find LagrangeElement.find findCoincidentVertex Verif.Lagrange.findCoincidentVertex almostEqual
    Verif.Lagrange.almostEqual abs
  simp only [sub_re]

open LagrangeElement LagrangeElement.Spec

/-- Real vertices as complex numbers. -/
def cx (Z : ℕ → ℝ) : ℕ → ℂ := fun j => (Z j : ℂ)

variable {tol : ℝ} {N : ℕ} {Z : ℕ → ℝ}

theorem find_cx (x : ℂ) : find tol N (cx Z) x = LagrangeElement.find tol N Z x.re := by
  rw [find_eq]; rfl

theorem verts_cx (h : Separated tol N Z) : Verts N (cx Z) :=
  ⟨h.pos, h.fits, fun _ ha _ hb e => h.verts.inj ha hb (ofReal_injective e)⟩

/-- The search is correct at points whose real part is far from all vertices, and at real resolved points. -/
theorem hits_far (h : Separated tol N Z) {x : ℂ} (hx : ∀ j < N, tol ≤ |Z j - x.re|) :
    Hits N (cx Z) x (find tol N (cx Z) x) := by
  rw [find_cx]
  refine Or.inr ⟨(Verif.Lagrange.C05_none tol N h.lt Z x.re hx).2, fun j hj e => ?_⟩
  have := hx j hj
  rw [e] at this
  simp only [cx, ofReal_re, sub_self, abs_zero] at this
  have := h.tol_pos
  linarith

theorem hits_real (h : Separated tol N Z) {x : ℝ} (hx : Resolved tol N Z x) :
    Hits N (cx Z) (x : ℂ) (find tol N (cx Z) x) := by
  rw [find_cx, ofReal_re]
  rcases hits h hx with ⟨h1, h2⟩ | ⟨h1, h2⟩
  · exact Or.inl ⟨h1, by show (x : ℂ) = (Z _ : ℂ); rw [← h2]⟩
  · exact Or.inr ⟨h1, fun j hj e => h2 j hj (ofReal_injective e)⟩

/-! ### The polynomials -/

theorem basis_map (s : Finset ℕ) (Z : ℕ → ℝ) (i : ℕ) :
    _root_.Lagrange.basis s (cx Z) i = (_root_.Lagrange.basis s Z i).map ofRealHom := by
  unfold _root_.Lagrange.basis _root_.Lagrange.basisDivisor cx
  rw [Polynomial.map_prod]
  refine prod_congr rfl fun j _ => ?_
  simp

theorem ell_cx (i : ℕ) (x : ℂ) : ell N (cx Z) i x = ev (_root_.Lagrange.basis (range N) Z i) x := by
  unfold ell ev; rw [basis_map]

theorem dell_cx (i : ℕ) (x : ℂ) : dell N (cx Z) i x = ev (derivative (_root_.Lagrange.basis (range N) Z i)) x := by
  unfold dell ev; rw [basis_map, derivative_map]

theorem ell_real (i : ℕ) (x : ℝ) : ell N (cx Z) i x = (ell N Z i x : ℝ) := by
  rw [ell_cx, ev_real]; rfl

theorem dell_real (i : ℕ) (x : ℝ) : dell N (cx Z) i x = (dell N Z i x : ℝ) := by
  rw [dell_cx, ev_real]; rfl

theorem ev_C_mul (a : ℝ) (p : ℝ[X]) (z : ℂ) : ev (C a * p) z = a * ev p z := by simp [ev]
theorem ev_sum {ι : Type*} (s : Finset ι) (p : ι → ℝ[X]) (z : ℂ) : ev (∑ i ∈ s, p i) z = ∑ i ∈ s, ev (p i) z := by
  simp [ev, Polynomial.map_sum, eval_finsetSum]

/-! ### Legendre and Jacobi -/

/-- The Jacobi polynomial evaluated by the recurrence. -/
noncomputable def jac (α β : ℝ) : ℕ → ℝ[X]
  | 0 => 0
  | 1 => 1
  | m + 2 => (C (Legendre.ja α β (m + 1)) * X + C (Legendre.jb α β (m + 1))) * jac α β (m + 1)
      - C (Legendre.jc α β (m + 1)) * jac α β m

theorem jac_real (α β x : ℝ) (m : ℕ) : Legendre.jacobiShift α β x m = (jac α β m).eval x := by
  induction m using Nat.twoStepInduction with
  | zero => simp [Legendre.jacobiShift, jac]
  | one => simp [Legendre.jacobiShift, jac]
  | more m ih1 ih2 => rw [Legendre.jacobiShift, ih1, ih2, jac]; simp

theorem jac_cx (α β : ℝ) (z : ℂ) (m : ℕ) : jacobiShift α β z m = ev (jac α β m) z := by
  induction m using Nat.twoStepInduction with
  | zero => simp [jacobiShift, jac, ev]
  | one => simp [jacobiShift, jac, ev]
  | more m ih1 ih2 => rw [jacobiShift, ih1, ih2, jac]; simp [ev]

theorem legQ_cx (z : ℂ) (m : ℕ) : Legendre.evalShift z m = ev (Legendre.Q m) z := by
  induction m using Nat.twoStepInduction with
  | zero => simp [Legendre.evalShift, Legendre.Q, ev]
  | one => simp [Legendre.evalShift, Legendre.Q, ev]
  | more m ih1 ih2 => rw [Legendre.evalShift, ih1, ih2, Legendre.Q]; simp [ev]

theorem leg_cx (n : ℕ) (z : ℂ) : Legendre.eval n z = ev (Legendre.P n) z := legQ_cx z (n + 1)

theorem leg_real (n : ℕ) (x : ℝ) : Legendre.eval n (x : ℂ) = (Legendre.eval n x : ℝ) := by
  rw [leg_cx, ev_real, Legendre.eval_eq]

/-- The polynomial evaluated by `jacobi::eval_der`. -/
noncomputable def jacDer (n k : ℕ) (α β : ℝ) : ℝ[X] :=
  if n = 0 ∨ k > n then 0
  else C ((1 / 2) ^ k * Real.Gamma (n + (α + α) + 1 + k) / Real.Gamma (n + (α + α) + 1)) * jac (α + k) (β + k) (n - k + 1)

theorem jacDer_real (n k : ℕ) (α β x : ℝ) : Legendre.jacobiEvalDer n k α β x = (jacDer n k α β).eval x := by
  unfold Legendre.jacobiEvalDer jacDer
  split
  · simp
  · simp only [eval_mul, eval_C, Legendre.jacobiEval, jac_real]
    ring

theorem jacDer_cx (n k : ℕ) (α β : ℝ) (z : ℂ) : jacobiEvalDer n k α β z = ev (jacDer n k α β) z := by
  unfold jacobiEvalDer jacDer
  split
  · simp [ev]
  · simp only [ev_C_mul, jacobiEval, jac_cx]
    push_cast
    ring

end Verif.ComplexStep
