import Verif.Legendre.Jacobi
import Verif.Legendre.Poly
import Mathlib.Analysis.Calculus.IteratedDeriv.Lemmas

/-!
# C12 - C14: Legendre and Jacobi polynomials
-/

namespace Verif.Legendre
open Polynomial Finset

/-! ## C12 -/

/-- **C12** (degree). `legendre::eval(n, .)` is a polynomial function of degree exactly `n`. -/
theorem C12_degree {K : Type*} [Field K] [CharZero K] (n : ℕ) :
    ∃ p : K[X], p.natDegree = n ∧ ∀ X : K, eval n X = p.eval X :=
  ⟨P n, P_natDegree n, eval_eq n⟩

/-- **C12** (normalisation and parity). -/
theorem C12_one_parity {K : Type*} [Field K] [CharZero K] (n : ℕ) :
    eval n (1 : K) = 1 ∧ ∀ X : K, eval n (-X) = (-1) ^ n * eval n X := by
  refine ⟨?_, fun X => ?_⟩
  · rw [eval_eq, P_eval_one]
  · rw [eval_eq, eval_eq, P_eval_neg]

/-- **C12** (orthogonality on [-1,1] and norm), for all pairs of degrees. -/
theorem C12_orthogonal (m n : ℕ) :
    ∫ x in (-1 : ℝ)..1, eval m x * eval n x = if m = n then (2 : ℝ) / (2 * n + 1) else 0 := by
  have h : ∫ x in (-1 : ℝ)..1, eval m x * eval n x = L (P m * P n) := by
    unfold L
    congr 1
    funext x
    rw [eval_mul, eval_eq, eval_eq]
  rw [h]
  rcases lt_trichotomy m n with hlt | rfl | hgt
  · rw [if_neg (by omega), L_orth m n hlt]
  · rw [if_pos rfl, L_norm]
  · rw [if_neg (by omega), mul_comm, L_orth n m hgt]

/-- A concrete value: `P_2(x) = (3x^2 - 1)/2`. -/
example (x : ℚ) : eval 2 x = (3 * x ^ 2 - 1) / 2 := by
  norm_num [eval, evalShift]; ring

/-! ## C13, C14 -/

/-- Legendre is Jacobi with zero parameters. -/
theorem jacobi_zero {K : Type*} [Field K] [CharZero K] (n : ℕ) (x : K) :
    jacobiEval n 0 0 x = eval n x := by
  unfold jacobiEval eval
  induction n using Nat.twoStepInduction with
  | zero => rfl
  | one => simp [jacobiShift, evalShift, ja, jb, jc]; norm_num
  | more n ih1 ih2 =>
    have h1 : ((n : K) + 2) ≠ 0 := by exact_mod_cast Nat.succ_ne_zero (n + 1)
    have h2 : ((n : K) + 1) ≠ 0 := by exact_mod_cast Nat.succ_ne_zero n
    rw [jacobiShift, evalShift, ih1, ih2]
    simp only [ja, jb, jc, show n + 1 + 1 ≠ 1 by omega, if_false]
    push_cast
    have h3 : (n : K) + 1 + 1 ≠ 0 := by rwa [add_assoc, one_add_one_eq_two]
    have h4 : 2 * ((n : K) + 1 + 1) + 0 + 0 - 2 ≠ 0 := by
      rw [show 2 * ((n : K) + 1 + 1) + 0 + 0 - 2 = 2 * (n + 1) by ring]
      exact mul_ne_zero two_ne_zero h2
    have h5 : (n : K) + 1 + 1 + 0 + 0 ≠ 0 := by simpa using h3
    field_simp
    ring

/-- First derivative of the recursive Jacobi evaluator. -/
theorem jacobi_hasDerivAt {α β : ℝ} (hα : -1 < α) (hβ : -1 < β) (n : ℕ) (x : ℝ) :
    HasDerivAt (jacobiEval (n + 1) α β)
      ((n + 1 + α + β + 1) / 2 * jacobiEval n (α + 1) (β + 1) x) x := by
  have h1 : HasDerivAt (fun x : ℝ => (1 - x) / 2) (-1 / 2) x := by
    simpa using ((hasDerivAt_const x (1 : ℝ)).sub (hasDerivAt_id x)).div_const 2
  have h2 := ((Jt α β (n + 1)).hasDerivAt ((1 - x) / 2)).comp x h1
  rw [Jt_deriv] at h2
  have e : jacobiEval (n + 1) α β = fun x => (Jt α β (n + 1)).eval ((1 - x) / 2) := by
    funext y; exact jacobiEval_eq hα hβ y (n + 1)
  rw [e]
  refine h2.congr_deriv ?_
  rw [jacobiEval_eq (by linarith) (by linarith)]
  simp only [eval_mul, eval_neg, eval_C]
  ring

/-- k-th derivative in terms of a product of the first factors. -/
theorem jacobi_iteratedDeriv (k : ℕ) : ∀ (n : ℕ) {α β : ℝ}, -1 < α → -1 < β → ∀ x,
    iteratedDeriv k (jacobiEval (n + k) α β) x =
      (1 / 2) ^ k * asc (n + k + α + β + 1) k * jacobiEval n (α + k) (β + k) x := by
  induction k with
  | zero => intro n α β _ _ x; simp [asc]
  | succ k ih =>
    intro n α β hα hβ x
    rw [iteratedDeriv_succ']
    have e : deriv (jacobiEval (n + (k + 1)) α β) =
        fun x => ((n + k : ℕ) + 1 + α + β + 1) / 2 * jacobiEval (n + k) (α + 1) (β + 1) x := by
      funext y
      exact (jacobi_hasDerivAt hα hβ (n + k) y).deriv
    rw [e, iteratedDeriv_const_mul_field, ih n (by linarith) (by linarith), asc_left]
    push_cast
    rw [show (n : ℝ) + (k + 1) + α + β + 1 + 1 = n + k + (α + 1) + (β + 1) + 1 by ring,
      show α + 1 + (k : ℝ) = α + (k + 1) by ring, show β + 1 + (k : ℝ) = β + (k + 1) by ring,
      pow_succ]
    ring

theorem Gamma_ratio (θ : ℝ) (hθ : 0 < θ) (k : ℕ) :
    Real.Gamma (θ + k) = asc θ k * Real.Gamma θ := by
  induction k with
  | zero => simp [asc]
  | succ k ih =>
    have : θ + (k : ℝ) ≠ 0 := by positivity
    push_cast
    rw [← add_assoc, Real.Gamma_add_one this, ih, asc]; ring

theorem iteratedDeriv_gt {α β : ℝ} (hα : -1 < α) (hβ : -1 < β) {n k : ℕ} (h : n < k) (x : ℝ) :
    iteratedDeriv k (jacobiEval n α β) x = 0 := by
  obtain ⟨j, rfl⟩ : ∃ j, k = j + 1 + n := ⟨k - n - 1, by omega⟩
  rw [iteratedDeriv_eq_iterate, Function.iterate_add_apply, ← iteratedDeriv_eq_iterate (n := n)]
  have h0 : iteratedDeriv n (jacobiEval n α β) =
      fun _ => (1 / 2) ^ n * asc (n + α + β + 1) n := by
    funext y
    have := jacobi_iteratedDeriv n 0 hα hβ y
    simp only [zero_add, Nat.cast_zero] at this
    rw [this]
    simp [jacobiEval, jacobiShift]
  rw [h0, Function.iterate_succ_apply]
  simp only [deriv_const']
  rw [← iteratedDeriv_eq_iterate, iteratedDeriv_const]
  split <;> rfl

/-- **C14 (partial)**. The full claim ranges over all `alpha, beta > -1`; it holds when
`alpha = beta` (and is false otherwise, `C14_negation`): for every degree `n`, order `k ≥ 1` and
point, `jacobi::eval_der` is the `k`-th derivative of `jacobi::eval`. -/
theorem C14_jacobi_der_partial (n k : ℕ) (hk : 1 ≤ k) (α : ℝ) (hα : -1 < α) (x : ℝ) :
    jacobiEvalDer n k α α x = iteratedDeriv k (fun y => jacobiEval n α α y) x := by
  show _ = iteratedDeriv k (jacobiEval n α α) x
  unfold jacobiEvalDer
  by_cases h : n = 0 ∨ k > n
  · rw [if_pos h, iteratedDeriv_gt hα hα (by omega)]
  · rw [if_neg h]
    obtain ⟨m, rfl⟩ : ∃ m, n = m + k := ⟨n - k, by omega⟩
    have hθ : 0 < ((m + k : ℕ) : ℝ) + (α + α) + 1 := by
      have : (1 : ℝ) ≤ ((m + k : ℕ) : ℝ) := by exact_mod_cast (by omega : 1 ≤ m + k)
      linarith
    simp only []
    rw [Gamma_ratio _ hθ, Nat.add_sub_cancel, jacobi_iteratedDeriv k m hα hα]
    have hG := (Real.Gamma_pos_of_pos hθ).ne'
    have e : ((m + k : ℕ) : ℝ) + (α + α) + 1 = m + k + α + α + 1 := by push_cast; ring
    rw [e] at hG ⊢
    field_simp

/-- **C13**. `legendre::eval_der(n, k, X)` is the `k`-th derivative of `legendre::eval(n, .)` for
every degree, every order `k ≥ 1` and every point; in particular it vanishes for `k > n`. -/
theorem C13_legendre_der (n k : ℕ) (hk : 1 ≤ k) (x : ℝ) :
    evalDer n k x = iteratedDeriv k (fun y => eval n y) x ∧ (n < k → evalDer n k x = 0) := by
  refine ⟨?_, ?_⟩
  · unfold evalDer
    rw [C14_jacobi_der_partial n k hk 0 (by norm_num)]
    congr 1
    funext y
    exact jacobi_zero n y
  · intro h
    unfold evalDer jacobiEvalDer
    rw [if_pos (Or.inr h)]

example : evalDer 2 1 (1 / 2 : ℝ) = 3 / 2 := by
  rw [(C13_legendre_der 2 1 le_rfl (1 / 2)).1, iteratedDeriv_one]
  have : (fun y : ℝ => eval 2 y) = fun y => (3 * y ^ 2 - 1) / 2 := by
    funext y; norm_num [eval, evalShift]; ring
  rw [this]
  have h := (((hasDerivAt_pow 2 (1 / 2 : ℝ)).const_mul 3).sub_const 1).div_const 2
  rw [h.deriv]; norm_num

/-- **C14 negation**. For `alpha = 1, beta = 0` the first derivative of the degree-1 Jacobi
polynomial is not the returned value: `theta` is computed from `alpha + alpha`. -/
theorem C14_negation :
    ∃ (n k : ℕ) (α β x : ℝ), 1 ≤ k ∧ -1 < α ∧ -1 < β ∧
      jacobiEvalDer n k α β x ≠ iteratedDeriv k (fun y => jacobiEval n α β y) x := by
  refine ⟨1, 1, 1, 0, 0, le_rfl, by norm_num, by norm_num, ?_⟩
  have h : iteratedDeriv 1 (fun y => jacobiEval 1 (1 : ℝ) 0 y) 0 = 3 / 2 := by
    have := jacobi_iteratedDeriv 1 0 (α := 1) (β := 0) (by norm_num) (by norm_num) 0
    rw [show (0 + 1 : ℕ) = 1 from rfl] at this
    show iteratedDeriv 1 (jacobiEval 1 (1 : ℝ) 0) 0 = _
    rw [this]
    norm_num [asc, jacobiEval, jacobiShift]
  rw [h]
  unfold jacobiEvalDer
  rw [if_neg (by omega)]
  simp only []
  have hG : Real.Gamma ((1 : ℕ) + (1 + 1) + 1 + (1 : ℕ)) =
      asc ((1 : ℕ) + (1 + 1) + 1) 1 * Real.Gamma ((1 : ℕ) + (1 + 1) + 1) :=
    Gamma_ratio _ (by norm_num) 1
  rw [hG]
  have hG0 : Real.Gamma (((1 : ℕ) : ℝ) + (1 + 1) + 1) ≠ 0 :=
    (Real.Gamma_pos_of_pos (by norm_num)).ne'
  generalize Real.Gamma (((1 : ℕ) : ℝ) + (1 + 1) + 1) = G at *
  norm_num [asc, jacobiEval, jacobiShift]
  field_simp
  norm_num

end Verif.Legendre
