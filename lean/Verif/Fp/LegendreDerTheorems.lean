import Verif.Fp.JacobiLemmas
import Verif.Fp.LegendreTheorems

/-!
# C100: derivatives of Legendre polynomials and expansions in rounded arithmetic
-/

namespace Verif.Fp.Legendre
open Verif.Fp Finset

variable {R : Rounding}

/-- The `k`-th derivative of the Legendre polynomial of order `n` at one: `(n + k)! / (2^k k! (n - k)!)`, zero for `k > n`. -/
noncomputable def derAtOne (n k : ℕ) : ℝ := (n + k).factorial / (2 ^ k * n.factorial) * n.choose k

theorem derAtOne_nonneg (n k : ℕ) : 0 ≤ derAtOne n k := by unfold derAtOne; positivity

/-- First derivatives: `n (n + 1) / 2`. -/
theorem derAtOne_one (n : ℕ) : derAtOne n 1 = n * (n + 1) / 2 := by
  unfold derAtOne
  rw [Nat.factorial_succ, Nat.choose_one_right]
  have : (n.factorial : ℝ) ≠ 0 := by positivity
  push_cast
  field_simp

/-- What is assumed of `std::tgamma`: relative error at most `ε` at the integers up to `m + 1`. -/
def GammaOk (tg : ℝ → ℝ) (ε : ℝ) (m : ℕ) : Prop := ∀ j ≤ m, |tg ((j : ℝ) + 1) - j.factorial| ≤ ε * j.factorial

/-- The quotient of two values of the gamma function. -/
theorem quot_close {ε d1 d0 : ℝ} (he : ε < 1) (h1 : |d1| ≤ ε) (h0 : |d0| ≤ ε) :
    |(1 + d1) / (1 + d0) - 1| ≤ 2 * ε / (1 - ε) := by
  obtain ⟨a, b⟩ := abs_le.1 h0
  have p : 0 < 1 + d0 := by linarith
  rw [div_sub_one p.ne', abs_div, abs_of_pos p]
  refine div_le_div₀ (by linarith [abs_nonneg d0]) ?_ (by linarith) (by linarith)
  have := abs_sub d1 d0
  rw [show 1 + d1 - (1 + d0) = d1 - d0 by ring]
  linarith

/-- Composition of two relative errors. -/
theorem mul_close {s t e g : ℝ} (hs : |s - 1| ≤ e) (ht : |t - 1| ≤ g) : |s * t - 1| ≤ (1 + e) * (1 + g) - 1 := by
  rw [show s * t - 1 = (s - 1) * (t - 1) + (s - 1) + (t - 1) by ring]
  have := mul_le_mul hs ht (abs_nonneg _) ((abs_nonneg _).trans hs)
  rw [← abs_mul] at this
  have := abs_add_three ((s - 1) * (t - 1)) (s - 1) (t - 1)
  linarith

/-- **C100.**  `legendre::eval_der` in rounded arithmetic at a point of [-1, 1], with a library gamma function of relative error `ε`: the
exact derivative is at most its value at one, and the error is at most `(1 + E) (1 + γ) (1 + 2 ε / (1 - ε)) - 1` times that value, where
`E = 3 (n - k) (n - k + 1) 7 u / (1 - 7 u)` and `γ = 3 u / (1 - 3 u)`. -/
theorem C100_eval (hu : 7 * R.u < 1) (n k : ℕ) (hk : 1 ≤ k) (hb : 2 * n < 2 ^ R.bits) (E : ℝ)
    (hE : E = 3 * (n - k : ℕ) * ((n - k : ℕ) + 1) * (7 * R.u / (1 - 7 * R.u))) (hE1 : E ≤ 1)
    (tg : ℝ → ℝ) (ε : ℝ) (he1 : ε < 1) (hg : GammaOk tg ε (n + k)) (x : ℝ) (hx : |x| ≤ 1) :
    |iteratedDeriv k (fun y => Verif.Legendre.eval n y) x| ≤ derAtOne n k ∧
    |evalDer R tg n k x - iteratedDeriv k (fun y => Verif.Legendre.eval n y) x| ≤
      ((1 + E) * ((1 + 3 * R.u / (1 - 3 * R.u)) * (1 + 2 * ε / (1 - ε))) - 1) * derAtOne n k := by
  have hu1 : R.u < 1 := by linarith [R.u_nonneg]
  rw [← (Verif.Legendre.C13_legendre_der n k hk x).1]
  unfold evalDer jacobiEvalDer Verif.Legendre.evalDer Verif.Legendre.jacobiEvalDer
  by_cases hnk : n = 0 ∨ k > n
  · rw [if_pos hnk, if_pos hnk]
    have : derAtOne n k = 0 := by
      unfold derAtOne
      rw [Nat.choose_eq_zero_of_lt (by omega)]; simp
    rw [this]; simp
  rw [if_neg hnk, if_neg hnk]
  have hn : 0 < n ∧ k ≤ n := by omega
  have e0 : R.fl ((0 : ℝ) + 0) = 0 := by have := exact_nat (R := R) 0 (by omega); simpa using this
  have e1 : R.fl ((n : ℝ) + 0) = n := by have := exact_nat (R := R) n (by omega); simpa using this
  have e2 : R.fl ((n : ℝ) + 1) = n + 1 := by have := exact_nat (R := R) (n + 1) (by omega); push_cast at this; exact this
  have e3 : R.fl ((n : ℝ) + 1 + k) = ((n + k : ℕ) : ℝ) + 1 := by
    have := exact_nat (R := R) (n + 1 + k) (by omega)
    push_cast at this ⊢
    rw [this]; ring
  have e4 : R.fl ((0 : ℝ) + k) = k := by have := exact_nat (R := R) k (by omega); simpa using this
  simp only [e0, e1, e2, e3, e4]
  have g1 : Real.Gamma ((n : ℝ) + 1 + k) = (n + k).factorial := by
    rw [show (n : ℝ) + 1 + k = ((n + k : ℕ) : ℝ) + 1 by push_cast; ring]; exact Real.Gamma_nat_eq_factorial _
  have g0 : Real.Gamma ((n : ℝ) + 1) = n.factorial := Real.Gamma_nat_eq_factorial _
  have j1 := jacobi_err (R := R) (k := k) hu (n - k) (by omega) (hE ▸ hE1) hx
  have j2 := jacobi_le (k := k) hx (n - k)
  rw [wt_choose, Nat.sub_add_cancel hn.2] at j1 j2
  rw [← hE] at j1
  rw [show (n : ℝ) + (0 + 0) = n by ring, g1, g0, zero_add]
  obtain ⟨F1, h1⟩ : ∃ F : ℝ, F = ((n + k).factorial : ℝ) := ⟨_, rfl⟩
  obtain ⟨F0, h0⟩ : ∃ F : ℝ, F = (n.factorial : ℝ) := ⟨_, rfl⟩
  have p1 : 0 < F1 := by rw [h1]; positivity
  have p0 : 0 < F0 := by rw [h0]; positivity
  have c1 := hg (n + k) le_rfl
  have c0 := hg n (by omega)
  obtain ⟨d1, k1, b1⟩ : ∃ d, tg (((n + k : ℕ) : ℝ) + 1) = F1 * (1 + d) ∧ |d| ≤ ε := by
    refine ⟨(tg (((n + k : ℕ) : ℝ) + 1) - F1) / F1, by field_simp; ring, ?_⟩
    rw [abs_div, abs_of_pos p1, div_le_iff₀ p1, h1]; exact c1
  obtain ⟨d0, k0, b0⟩ : ∃ d, tg ((n : ℝ) + 1) = F0 * (1 + d) ∧ |d| ≤ ε := by
    refine ⟨(tg ((n : ℝ) + 1) - F0) / F0, by field_simp; ring, ?_⟩
    rw [abs_div, abs_of_pos p0, div_le_iff₀ p0, h0]; exact c0
  have D : derAtOne n k = (1 / 2) ^ k * F1 / F0 * n.choose k := by
    unfold derAtOne
    rw [h1, h0, one_div, inv_pow]
    field_simp
  rw [D, ← h1, ← h0, k1, k0]
  set J := jacobiEval R (n - k) k k x
  set J' := Verif.Legendre.jacobiEval (n - k) (k : ℝ) k x
  set w : ℝ := ((n.choose k : ℕ) : ℝ)
  have A0 : 0 ≤ (1 / 2 : ℝ) ^ k * F1 / F0 := by positivity
  constructor
  · rw [show (1 / 2 : ℝ) ^ k * F1 * J' / F0 = (1 / 2) ^ k * F1 / F0 * J' by ring, abs_mul, abs_of_nonneg A0]
    exact mul_le_mul_of_nonneg_left j2 A0
  · obtain ⟨t, ht, et⟩ := ((Rel.fl hu1 ((1 / 2) ^ k * (F1 * (1 + d1)))).flmul hu1 (Rel.refl hu1 0 J)).fldiv hu1
      (Rel.refl hu1 0 (F0 * (1 + d0)))
    rw [et]
    have q := ht.err hu1 (by push_cast; linarith [R.u_nonneg])
    norm_num at q
    have s := mul_close q (quot_close he1 b1 b0)
    set r := (1 + d1) / (1 + d0)
    set G := (1 + 3 * R.u / (1 - 3 * R.u)) * (1 + 2 * ε / (1 - ε))
    rw [show (1 / 2 : ℝ) ^ k * (F1 * (1 + d1)) * J / (F0 * (1 + d0)) * t - (1 / 2) ^ k * F1 * J' / F0 =
      (1 / 2) ^ k * F1 / F0 * (J * (t * r - 1) + (J - J')) by
        rw [show (1 / 2 : ℝ) ^ k * (F1 * (1 + d1)) * J / (F0 * (1 + d0)) = (1 / 2) ^ k * F1 / F0 * J * r by
          simp only [r, div_eq_mul_inv, mul_inv]; ring]
        ring,
      abs_mul, abs_of_nonneg A0]
    have J1 : |J| ≤ (1 + E) * w := by
      have := abs_add_le (J - J') J'
      rw [sub_add_cancel] at this
      linarith
    have G1 : 0 ≤ G - 1 := (abs_nonneg _).trans s
    have := mul_le_mul J1 s (abs_nonneg _) (le_trans (abs_nonneg _) J1)
    rw [← abs_mul] at this
    refine (mul_le_mul_of_nonneg_left ((abs_add_le _ _).trans (add_le_add this j1)) A0).trans (le_of_eq ?_)
    ring

/-- The bounds for all orders below `N`. -/
theorem der_close (hu : 7 * R.u < 1) {N : ℕ} (hb : 2 * N ≤ 2 ^ R.bits) {k : ℕ} (hk : 1 ≤ k) {E : ℝ}
    (hE : E = 3 * (N * (N - 1 : ℕ)) * (7 * R.u / (1 - 7 * R.u))) (hE1 : E ≤ 1)
    {tg : ℝ → ℝ} {ε : ℝ} (he0 : 0 ≤ ε) (he1 : ε < 1) (hg : GammaOk tg ε (N - 1 + k)) {x : ℝ} (hx : |x| ≤ 1) {n : ℕ} (hn : n < N) :
    |iteratedDeriv k (fun y => Verif.Legendre.eval n y) x| ≤ derAtOne n k ∧
    |evalDer R tg n k x - iteratedDeriv k (fun y => Verif.Legendre.eval n y) x| ≤
      ((1 + E) * ((1 + 3 * R.u / (1 - 3 * R.u)) * (1 + 2 * ε / (1 - ε))) - 1) * derAtOne n k := by
  have g0 : 0 ≤ 7 * R.u / (1 - 7 * R.u) := div_nonneg (by linarith [R.u_nonneg]) (by linarith)
  have le : 3 * (n - k : ℕ) * ((n - k : ℕ) + 1) * (7 * R.u / (1 - 7 * R.u)) ≤ E := by
    rw [hE]
    refine mul_le_mul_of_nonneg_right ?_ g0
    have : (n - k) * (n - k + 1) ≤ N * (N - 1) := by rw [mul_comm]; exact Nat.mul_le_mul (by omega) (by omega)
    have : (((n - k) * (n - k + 1) : ℕ) : ℝ) ≤ ((N * (N - 1) : ℕ) : ℝ) := by exact_mod_cast this
    rw [Nat.cast_mul, Nat.cast_mul, Nat.cast_add] at this
    push_cast at this ⊢
    linarith
  obtain ⟨h1, h2⟩ := C100_eval hu n k hk (by omega) _ rfl (le.trans hE1) tg ε he1 (fun j hj => hg j (by omega)) x hx
  refine ⟨h1, h2.trans (mul_le_mul_of_nonneg_right ?_ (derAtOne_nonneg n k))⟩
  have a : 0 ≤ 3 * R.u / (1 - 3 * R.u) := div_nonneg (by linarith [R.u_nonneg]) (by linarith [R.u_nonneg])
  have b : 0 ≤ 2 * ε / (1 - ε) := div_nonneg (by linarith) (by linarith)
  have := mul_le_mul_of_nonneg_right le (show 0 ≤ (1 + 3 * R.u / (1 - 3 * R.u)) * (1 + 2 * ε / (1 - ε)) by positivity)
  linarith

/-- Weighted sums with perturbed weights and values. -/
theorem sum_close {M : ℕ} {g F : ℝ} (c t f f' W : ℕ → ℝ) (ht : ∀ I < M, |t I - 1| ≤ g) (hf : ∀ I < M, |f I - f' I| ≤ F * W I)
    (hf' : ∀ I < M, |f' I| ≤ W I) :
    |∑ I ∈ range M, c I * t I * f I - ∑ I ∈ range M, c I * f' I| ≤ ((1 + F) * (1 + g) - 1) * ∑ I ∈ range M, |c I| * W I := by
  rw [← sum_sub_distrib, mul_sum]
  refine (abs_sum_le_sum_abs _ _).trans (sum_le_sum fun I hI => ?_)
  have hI := mem_range.1 hI
  rw [show c I * t I * f I - c I * f' I = c I * ((t I - 1) * f I + (f I - f' I)) by ring, abs_mul]
  have b : |f I| ≤ (1 + F) * W I := by
    have := abs_add_le (f I - f' I) (f' I)
    rw [sub_add_cancel] at this
    linarith [hf I hI, hf' I hI]
  have m := mul_le_mul (ht I hI) b (abs_nonneg _) ((abs_nonneg _).trans (ht I hI))
  rw [← abs_mul] at m
  refine (mul_le_mul_of_nonneg_left ((abs_add_le _ _).trans (add_le_add m (hf I hI))) (abs_nonneg _)).trans (le_of_eq ?_)
  ring

/-- **C100 (expansions).**  `legendre::eval_der_approx` with `N` terms: with `F` the bound for one derivative, the error is at most
`(1 + F) (1 + γ) - 1` times the sum of the moduli of the coefficients weighted by the derivatives at one,
`γ = (N + 1) u / (1 - (N + 1) u)`. -/
theorem C100_approx (hu : 7 * R.u < 1) (N : ℕ) (hb : 2 * N ≤ 2 ^ R.bits) (huN : (N + 1) * R.u < 1) (k : ℕ) (hk : 1 ≤ k) (E F : ℝ)
    (hE : E = 3 * (N * (N - 1 : ℕ)) * (7 * R.u / (1 - 7 * R.u))) (hE1 : E ≤ 1)
    (tg : ℝ → ℝ) (ε : ℝ) (he0 : 0 ≤ ε) (he1 : ε < 1) (hg : GammaOk tg ε (N - 1 + k))
    (hF : F = (1 + E) * ((1 + 3 * R.u / (1 - 3 * R.u)) * (1 + 2 * ε / (1 - ε))) - 1) (c : ℕ → ℝ) (x : ℝ) (hx : |x| ≤ 1) :
    |evalDerApprox R tg N k c x - ∑ j ∈ range N, c j * iteratedDeriv k (fun y => Verif.Legendre.eval j y) x| ≤
      ((1 + F) * (1 + (N + 1) * R.u / (1 - (N + 1) * R.u)) - 1) * ∑ j ∈ range N, |c j| * derAtOne j k := by
  have hu1 : R.u < 1 := by linarith [R.u_nonneg]
  obtain ⟨t, ht, e⟩ := line_pert hu1 N c fun j => evalDer R tg j k x
  rw [show evalDerApprox R tg N k c x = line R N c fun j => evalDer R tg j k x from rfl, e]
  refine sum_close c t _ _ (fun j => derAtOne j k) (fun j hj => ?_) (fun j hj => ?_) (fun j hj => ?_)
  · have q := (ht j hj).err hu1 (by push_cast; exact huN)
    push_cast at q; exact q
  · rw [hF]; exact (der_close hu hb hk hE hE1 he0 he1 hg hx hj).2
  · exact (der_close hu hb hk hE hE1 he0 he1 hg hx hj).1

/-- Products of three perturbed numbers, with weights. -/
theorem prod3_weight {F a b c a' b' c' A B C : ℝ} (F0 : 0 ≤ F) (ha : |a - a'| ≤ F * A) (hb : |b - b'| ≤ F * B) (hc : |c - c'| ≤ F * C)
    (ha' : |a'| ≤ A) (hb' : |b'| ≤ B) (hc' : |c'| ≤ C) :
    |a * b * c - a' * b' * c'| ≤ ((1 + F) ^ 3 - 1) * (A * B * C) ∧ |a' * b' * c'| ≤ A * B * C := by
  have A0 := (abs_nonneg _).trans ha'
  have B0 := (abs_nonneg _).trans hb'
  have C0 := (abs_nonneg _).trans hc'
  have bd : ∀ {x x' w : ℝ}, |x - x'| ≤ F * w → |x'| ≤ w → |x| ≤ (1 + F) * w := by
    intro x x' w h h'
    have := abs_add_le (x - x') x'
    rw [sub_add_cancel] at this
    linarith
  have B1 := bd hb hb'
  have C1 := bd hc hc'
  constructor
  · rw [show a * b * c - a' * b' * c' = (a - a') * (b * c) + a' * ((b - b') * c) + a' * (b' * (c - c')) by ring]
    have h1 : |(a - a') * (b * c)| ≤ F * A * ((1 + F) * B * ((1 + F) * C)) := by
      rw [abs_mul, abs_mul]
      exact mul_le_mul ha (mul_le_mul B1 C1 (abs_nonneg _) (by positivity)) (by positivity) (by positivity)
    have h2 : |a' * ((b - b') * c)| ≤ A * (F * B * ((1 + F) * C)) := by
      rw [abs_mul, abs_mul]
      exact mul_le_mul ha' (mul_le_mul hb C1 (abs_nonneg _) (by positivity)) (by positivity) A0
    have h3 : |a' * (b' * (c - c'))| ≤ A * (B * (F * C)) := by
      rw [abs_mul, abs_mul]
      exact mul_le_mul ha' (mul_le_mul hb' hc (abs_nonneg _) B0) (by positivity) A0
    refine (abs_add_three _ _ _).trans ?_
    calc _ ≤ F * A * ((1 + F) * B * ((1 + F) * C)) + A * (F * B * ((1 + F) * C)) + A * (B * (F * C)) := by linarith
      _ = _ := by ring
  · rw [abs_mul, abs_mul]
    exact mul_le_mul (mul_le_mul ha' hb' (abs_nonneg _) A0) hc' (abs_nonneg _) (by positivity)

/-- The exact function along one direction: the polynomial, or its derivative when `d` holds. -/
noncomputable def exact1 (d : Bool) (n : ℕ) (x : ℝ) : ℝ :=
  if d then deriv (fun y => Verif.Legendre.eval n y) x else Verif.Legendre.eval n x

/-- Its value at one. -/
noncomputable def weight1 (d : Bool) (n : ℕ) : ℝ := if d then n * (n + 1) / 2 else 1

/-- The computed one. -/
noncomputable def comp1 (R : Rounding) (tg : ℝ → ℝ) (d : Bool) (n : ℕ) (x : ℝ) : ℝ := if d then evalDer R tg n 1 x else eval R n x

theorem close1 (hu : 7 * R.u < 1) {N : ℕ} (hb : 2 * N ≤ 2 ^ R.bits) {E F : ℝ}
    (hE : E = 3 * (N * (N - 1 : ℕ)) * (7 * R.u / (1 - 7 * R.u))) (hE1 : E ≤ 1)
    {tg : ℝ → ℝ} {ε : ℝ} (he0 : 0 ≤ ε) (he1 : ε < 1) (hg : GammaOk tg ε N)
    (hF : F = (1 + E) * ((1 + 3 * R.u / (1 - 3 * R.u)) * (1 + 2 * ε / (1 - ε))) - 1)
    {x : ℝ} (hx : |x| ≤ 1) {n : ℕ} (hn : n < N) (d : Bool) :
    |comp1 R tg d n x - exact1 d n x| ≤ F * weight1 d n ∧ |exact1 d n x| ≤ weight1 d n := by
  have u0 := R.u_nonneg
  cases d
  · simp only [comp1, exact1, weight1, Bool.false_eq_true, if_false, mul_one]
    have le : 5 * R.u / (1 - 5 * R.u) ≤ 7 * R.u / (1 - 7 * R.u) :=
      div_le_div₀ (by linarith) (by linarith) (by linarith) (by linarith)
    have le2 : 3 * (N * (N - 1 : ℕ)) * (5 * R.u / (1 - 5 * R.u)) ≤ E := by
      rw [hE]; exact mul_le_mul_of_nonneg_left le (by positivity)
    obtain ⟨h1, h2⟩ := eval_close (R := R) (by linarith) hb (le2.trans hE1) hx hn
    refine ⟨h1.trans (le2.trans ?_), h2⟩
    have a : 0 ≤ 3 * R.u / (1 - 3 * R.u) := div_nonneg (by linarith) (by linarith)
    have b : 0 ≤ 2 * ε / (1 - ε) := div_nonneg (by linarith) (by linarith)
    have e : 0 ≤ E := le_trans (mul_nonneg (by positivity) (div_nonneg (by linarith) (by linarith))) le2
    have ab := mul_nonneg a b
    have := mul_le_mul_of_nonneg_left (show 1 ≤ (1 + 3 * R.u / (1 - 3 * R.u)) * (1 + 2 * ε / (1 - ε)) by linarith)
      (show 0 ≤ 1 + E by linarith)
    rw [hF]; linarith
  · simp only [comp1, exact1, weight1, if_true]
    obtain ⟨h1, h2⟩ := der_close hu hb le_rfl hE hE1 he0 he1 (fun j hj => hg j (by omega)) hx hn
    rw [derAtOne_one] at h1 h2
    simp only [iteratedDeriv_one] at h1 h2
    rw [hF]; exact ⟨h2, h1⟩

theorem F_nonneg (hu : 7 * R.u < 1) {N : ℕ} {E F ε : ℝ} (hE : E = 3 * (N * (N - 1 : ℕ)) * (7 * R.u / (1 - 7 * R.u)))
    (he0 : 0 ≤ ε) (he1 : ε < 1) (hF : F = (1 + E) * ((1 + 3 * R.u / (1 - 3 * R.u)) * (1 + 2 * ε / (1 - ε))) - 1) : 0 ≤ F := by
  have u0 := R.u_nonneg
  have a : 0 ≤ 3 * R.u / (1 - 3 * R.u) := div_nonneg (by linarith) (by linarith)
  have b : 0 ≤ 2 * ε / (1 - ε) := div_nonneg (by linarith) (by linarith)
  have e : 0 ≤ E := by rw [hE]; exact mul_nonneg (by positivity) (div_nonneg (by linarith) (by linarith))
  have h1 : 1 ≤ (1 + 3 * R.u / (1 - 3 * R.u)) * (1 + 2 * ε / (1 - ε)) := by nlinarith
  rw [hF]; nlinarith

/-- The components of the result of `eval_grad_basis`. -/
def comp3 (v : ℝ × ℝ × ℝ) (l : ℕ) : ℝ := if l = 0 then v.1 else if l = 1 then v.2.1 else v.2.2

/-- Component `l` of the exact gradient of function `I` of an element with `N` functions per direction. -/
noncomputable def gradExact (N I l : ℕ) (X : ℕ → ℝ) : ℝ :=
  exact1 (l == 0) (I % N) (X 0) * exact1 (l == 1) (I / N % N) (X 1) * exact1 (l == 2) (I / N / N) (X 2)

/-- Its value at the corner (1, 1, 1): `m (m + 1) / 2`, where `m` is the order of the function in direction `l`. -/
noncomputable def gradWeight (N I l : ℕ) : ℝ :=
  weight1 (l == 0) (I % N) * weight1 (l == 1) (I / N % N) * weight1 (l == 2) (I / N / N)

theorem grad_close (hu : 7 * R.u < 1) {N : ℕ} (h0 : 0 < N) (hb : 2 * N ≤ 2 ^ R.bits) {E F : ℝ}
    (hE : E = 3 * (N * (N - 1 : ℕ)) * (7 * R.u / (1 - 7 * R.u))) (hE1 : E ≤ 1)
    {tg : ℝ → ℝ} {ε : ℝ} (he0 : 0 ≤ ε) (he1 : ε < 1) (hg : GammaOk tg ε N)
    (hF : F = (1 + E) * ((1 + 3 * R.u / (1 - 3 * R.u)) * (1 + 2 * ε / (1 - ε))) - 1)
    {X : ℕ → ℝ} (hX : ∀ d < 3, |X d| ≤ 1) {I : ℕ} (hI : I < N * N * N) (l : ℕ) :
    |comp1 R tg (l == 0) (I % N) (X 0) * comp1 R tg (l == 1) (I / N % N) (X 1) * comp1 R tg (l == 2) (I / N / N) (X 2) -
        gradExact N I l X| ≤ ((1 + F) ^ 3 - 1) * gradWeight N I l ∧ |gradExact N I l X| ≤ gradWeight N I l := by
  have h1 : I % N < N := Nat.mod_lt _ h0
  have h2 : I / N % N < N := Nat.mod_lt _ h0
  have h3 : I / N / N < N := LegendreElement.idx2_lt hI
  obtain ⟨a1, a2⟩ := close1 hu hb hE hE1 he0 he1 hg hF (hX 0 (by omega)) h1 (l == 0)
  obtain ⟨b1, b2⟩ := close1 hu hb hE hE1 he0 he1 hg hF (hX 1 (by omega)) h2 (l == 1)
  obtain ⟨c1, c2⟩ := close1 hu hb hE hE1 he0 he1 hg hF (hX 2 (by omega)) h3 (l == 2)
  exact prod3_weight (F_nonneg hu hE he0 he1 hF) a1 b1 c1 a2 b2 c2

/-- **C100 (basis gradients).**  Component `l` of `LegendreElement::eval_grad_basis` at a point of the reference cube: the exact component
is at most its value at the corner (1, 1, 1), and the error is at most `(1 + F)³ (1 + γ) - 1` times that value, `γ = 2 u / (1 - 2 u)`. -/
theorem C100_basis (hu : 7 * R.u < 1) (N : ℕ) (hb : 2 * N ≤ 2 ^ R.bits) (hfit : N * N * N < 2 ^ 64) (E F : ℝ)
    (hE : E = 3 * (N * (N - 1 : ℕ)) * (7 * R.u / (1 - 7 * R.u))) (hE1 : E ≤ 1)
    (tg : ℝ → ℝ) (ε : ℝ) (he0 : 0 ≤ ε) (he1 : ε < 1) (hg : GammaOk tg ε N)
    (hF : F = (1 + E) * ((1 + 3 * R.u / (1 - 3 * R.u)) * (1 + 2 * ε / (1 - ε))) - 1)
    (X : ℕ → ℝ) (hX : ∀ d < 3, |X d| ≤ 1) (I : ℕ) (hI : I < N * N * N) :
    ∃ v, elemGradBasis R tg N I X = some v ∧ ∀ l < 3, |gradExact N I l X| ≤ gradWeight N I l ∧
      |comp3 v l - gradExact N I l X| ≤ ((1 + F) ^ 3 * (1 + 2 * R.u / (1 - 2 * R.u)) - 1) * gradWeight N I l := by
  have hu1 : R.u < 1 := by linarith [R.u_nonneg]
  have h0 : 0 < N := by rcases Nat.eq_zero_or_pos N with h | h; · subst h; simp at hI
                        · exact h
  unfold elemGradBasis
  rw [LagrangeElement.digits_eq h0 hfit hI]
  refine ⟨_, rfl, fun l hl => ?_⟩
  obtain ⟨k1, k2⟩ := grad_close hu h0 hb hE hE1 he0 he1 hg hF hX hI l
  refine ⟨k2, ?_⟩
  have e : comp3 (R.fl (R.fl (evalDer R tg (I % N) 1 (X 0) * eval R (I / N % N) (X 1)) * eval R (I / N / N) (X 2)),
      R.fl (R.fl (eval R (I % N) (X 0) * evalDer R tg (I / N % N) 1 (X 1)) * eval R (I / N / N) (X 2)),
      R.fl (R.fl (eval R (I % N) (X 0) * eval R (I / N % N) (X 1)) * evalDer R tg (I / N / N) 1 (X 2))) l =
      R.fl (R.fl (comp1 R tg (l == 0) (I % N) (X 0) * comp1 R tg (l == 1) (I / N % N) (X 1)) * comp1 R tg (l == 2) (I / N / N) (X 2)) := by
    rcases (by omega : l = 0 ∨ l = 1 ∨ l = 2) with rfl | rfl | rfl <;> simp [comp3, comp1]
  rw [e]
  set a := comp1 R tg (l == 0) (I % N) (X 0)
  set b := comp1 R tg (l == 1) (I / N % N) (X 1)
  set c := comp1 R tg (l == 2) (I / N / N) (X 2)
  have r' := (((Rel.refl hu1 0 a).flmul hu1 (Rel.refl hu1 0 b)).flmul hu1 (Rel.refl hu1 0 c)).err hu1
    (by push_cast; linarith [R.u_nonneg])
  norm_num at r'
  have g0 : 0 ≤ 2 * R.u / (1 - 2 * R.u) := div_nonneg (by linarith [R.u_nonneg]) (by linarith [R.u_nonneg])
  rw [← abs_mul, ← abs_mul] at r'
  have bd : |a * b * c| ≤ (1 + F) ^ 3 * gradWeight N I l := by
    have := abs_add_le (a * b * c - gradExact N I l X) (gradExact N I l X)
    rw [sub_add_cancel] at this
    linarith
  have := mul_le_mul_of_nonneg_left bd g0
  refine (abs_sub_le _ _ _).trans ((add_le_add r' k1).trans ?_)
  linarith

/-- **C100 (gradients of expansions).**  Component `l` of `LegendreElement::eval_grad_approx` at a point of the reference cube, with any
contents of the work and output arrays: the error is at most `(1 + F)³ (1 + γ) - 1` times the sum of the moduli of the coefficients
weighted by the values at the corner (1, 1, 1), `γ = 3 (N + 1) u / (1 - 3 (N + 1) u)`; the rest of the output array is unchanged. -/
theorem C100_element (hu : 7 * R.u < 1) (N : ℕ) (h0 : 0 < N) (hb : 2 * N ≤ 2 ^ R.bits) (huN : 3 * (N + 1) * R.u < 1) (E F : ℝ)
    (hE : E = 3 * (N * (N - 1 : ℕ)) * (7 * R.u / (1 - 7 * R.u))) (hE1 : E ≤ 1)
    (tg : ℝ → ℝ) (ε : ℝ) (he0 : 0 ≤ ε) (he1 : ε < 1) (hg : GammaOk tg ε N)
    (hF : F = (1 + E) * ((1 + 3 * R.u / (1 - 3 * R.u)) * (1 + 2 * ε / (1 - ε))) - 1)
    (C c X grad : ℕ → ℝ) (hX : ∀ d < 3, |X d| ≤ 1) :
    (∀ l < 3, |(elemGradApprox R tg N C c X grad).2 l - ∑ I ∈ range (N * N * N), c I * gradExact N I l X| ≤
      ((1 + F) ^ 3 * (1 + 3 * (N + 1) * R.u / (1 - 3 * (N + 1) * R.u)) - 1) * ∑ I ∈ range (N * N * N), |c I| * gradWeight N I l) ∧
    ∀ l ≥ 3, (elemGradApprox R tg N C c X grad).2 l = grad l := by
  have hu1 : R.u < 1 := by linarith [R.u_nonneg]
  have eqn : ∀ d c x, lineEval R tg d N c x = line R N c fun n => comp1 R tg d n x := by
    intro d c x
    cases d <;> simp [lineEval, comp1, evalDerApprox, evalApprox, line]
  have key : ∀ l C, |lineEval R tg (l == 2) N (fun m => (loop N (fun k C =>
      let C := loop N (fun j C => store C j (lineEval R tg (l == 0) N (fun m => c (j * N + k * N * N + m)) (X 0))) C
      store C (N + k) (lineEval R tg (l == 1) N C (X 1))) C) (N + m)) (X 2) - ∑ I ∈ range (N * N * N), c I * gradExact N I l X| ≤
      ((1 + F) ^ 3 * (1 + 3 * (N + 1) * R.u / (1 - 3 * (N + 1) * R.u)) - 1) * ∑ I ∈ range (N * N * N), |c I| * gradWeight N I l := by
    intro l C
    obtain ⟨t, ht, e⟩ := nest_pert hu1 h0 C c (fun n => comp1 R tg (l == 0) n (X 0)) (fun n => comp1 R tg (l == 1) n (X 1))
      (fun n => comp1 R tg (l == 2) n (X 2))
    simp only [eqn]
    unfold nest at e
    simp only [] at e
    rw [e]
    have := sum_close (M := N * N * N) (F := (1 + F) ^ 3 - 1) c t
      (fun I => comp1 R tg (l == 0) (I % N) (X 0) * comp1 R tg (l == 1) (I / N % N) (X 1) * comp1 R tg (l == 2) (I / N / N) (X 2))
      (fun I => gradExact N I l X) (fun I => gradWeight N I l) (g := 3 * (N + 1) * R.u / (1 - 3 * (N + 1) * R.u))
      (fun I hI => by
        have q := (ht I hI).err hu1 (by push_cast; exact huN)
        push_cast at q; exact q)
      (fun I hI => (grad_close hu h0 hb hE hE1 he0 he1 hg hF hX hI l).1)
      (fun I hI => (grad_close hu h0 hb hE hE1 he0 he1 hg hF hX hI l).2)
    rwa [show (1 : ℝ) + ((1 + F) ^ 3 - 1) = (1 + F) ^ 3 by ring] at this
  have inv := loop_inv (n := 3) (s := (C, grad)) (body := fun l (s : (ℕ → ℝ) × (ℕ → ℝ)) =>
    let C := loop N (fun k C =>
      let C := loop N (fun j C =>
        store C j (lineEval R tg (l == 0) N (fun m => c (j * N + k * N * N + m)) (X 0))) C
      store C (N + k) (lineEval R tg (l == 1) N C (X 1))) s.1
    (C, store s.2 l (lineEval R tg (l == 2) N (fun m => C (N + m)) (X 2))))
    (I := fun m s => (∀ l < m, |s.2 l - ∑ I ∈ range (N * N * N), c I * gradExact N I l X| ≤
      ((1 + F) ^ 3 * (1 + 3 * (N + 1) * R.u / (1 - 3 * (N + 1) * R.u)) - 1) * ∑ I ∈ range (N * N * N), |c I| * gradWeight N I l) ∧
      ∀ l ≥ 3, s.2 l = grad l) ⟨by simp, by simp⟩ (by
    intro m s hm hs
    refine ⟨fun l hl => ?_, fun l hl => ?_⟩
    · by_cases hlm : l = m
      · subst hlm
        simp only [store_same]
        exact key l s.1
      · simp only []
        rw [store_ne _ _ (by omega)]
        exact hs.1 l (by omega)
    · simp only []
      rw [store_ne _ _ (by omega)]
      exact hs.2 l hl)
  exact inv

/-- The hypotheses hold in double precision for an element of order nine and a gamma function with relative error `10^{-15}`, and the
bound is `10^{-12}` times the weighted sum of the moduli of the 1000 coefficients. -/
example (tg : ℝ → ℝ) (hg : GammaOk tg (1 / 10 ^ 15) 10) (C c X grad : ℕ → ℝ) (hX : ∀ d < 3, |X d| ≤ 1) (l : ℕ) (hl : l < 3) :
    |(elemGradApprox Rounding.binary64 tg 10 C c X grad).2 l - ∑ I ∈ range 1000, c I * gradExact 10 I l X| ≤
      1 / 10 ^ 12 * ∑ I ∈ range 1000, |c I| * gradWeight 10 I l := by
  have := (C100_element (R := Rounding.binary64) (by rw [Rounding.binary64_u]; norm_num) 10 (by norm_num)
    (by rw [Rounding.binary64_bits]; norm_num) (by rw [Rounding.binary64_u]; norm_num) _ _ rfl
    (by rw [Rounding.binary64_u]; norm_num) tg (1 / 10 ^ 15) (by norm_num) (by norm_num) hg rfl C c X grad hX).1 l hl
  refine this.trans (mul_le_mul_of_nonneg_right ?_ (sum_nonneg fun I _ => ?_))
  · rw [Rounding.binary64_u]; norm_num
  · refine mul_nonneg (abs_nonneg _) ?_
    have : ∀ d n, 0 ≤ weight1 d n := by intro d n; unfold weight1; split <;> positivity
    exact mul_nonneg (mul_nonneg (this _ _) (this _ _)) (this _ _)

/-- The exact gamma function satisfies the assumption. -/
example (m : ℕ) : GammaOk Real.Gamma (1 / 10 ^ 15) m := by
  intro j _
  rw [Real.Gamma_nat_eq_factorial, sub_self, abs_zero]; positivity

/-- Component 0 of the exact gradient is the derivative in direction 0. -/
example (X : ℕ → ℝ) : gradExact 3 5 0 X = deriv (fun y => Verif.Legendre.eval 2 y) (X 0) * Verif.Legendre.eval 1 (X 1) *
    Verif.Legendre.eval 0 (X 2) := by simp [gradExact, exact1]

end Verif.Fp.Legendre
