import Verif.Fp.ComplexLemmas

/-!
# C111: the complex step through Legendre polynomials and expansions in rounded arithmetic
-/

namespace Verif.Fp.Cx
open Verif.Fp Finset Polynomial

variable {R : Rounding}

theorem fl_zero : R.fl 0 = 0 := by
  have := R.exact 0 0 (by simp)
  simpa using this

theorem deriv_eval (n : ℕ) (x : ℝ) : deriv (fun y => Verif.Legendre.eval n y) x = D x (n + 1) := by
  unfold D
  rw [← Polynomial.deriv]
  congr 1
  funext y
  exact Verif.Legendre.evalShift_eq y (n + 1)

/-- **C111.**  `legendre::eval<Complex>(n, x + i h)` in rounded arithmetic, `|x| ≤ 1`, for every order and every step: with `M = n (n + 1)` and
`γ = 6 u / (1 - 6 u)`, if `2 M² h² + 8 M γ ≤ 1`, the real part is within `2 M² h² + 4 M γ` of the Legendre polynomial, and the
imaginary part divided by the step within `2 M³ h² + 8 M² γ + 2 M u` of its derivative.  There is no division by `h` in these bounds: the step
can be taken as small as one likes. -/
theorem C111_eval (hu : 6 * R.u < 1) (n : ℕ) (hn : 1 ≤ n) (hb : 2 * n ≤ 2 ^ R.bits) (x h : ℝ) (hx : |x| ≤ 1) (h0 : h ≠ 0) (M g : ℝ)
    (hM : M = n * (n + 1)) (hg : g = 6 * R.u / (1 - 6 * R.u)) (H : 2 * M ^ 2 * h ^ 2 + 8 * M * g ≤ 1) :
    |(eval R n (x, h)).1 - Verif.Legendre.eval n x| ≤ 2 * M ^ 2 * h ^ 2 + 4 * M * g ∧
    |step R (eval R n (x, h)) h - deriv (fun y => Verif.Legendre.eval n y) x| ≤ 2 * M ^ 3 * h ^ 2 + 8 * M ^ 2 * g + 2 * M * R.u := by
  obtain ⟨r1, r2, r3⟩ := recur_err hx hu hn hb h0 hM hg H n (le_refl _) (n + 1) (le_refl _)
  refine ⟨r1, ?_⟩
  rw [deriv_eval]
  have M0 : 0 ≤ M := by rw [hM]; positivity
  set t := (evalShift R (x, h) (n + 1)).2 / h with ht
  have e : step R (eval R n (x, h)) h = R.fl t := rfl
  have f := R.err t
  have tl : |t| ≤ 2 * M := by
    have h1 := abs_add_le (t - D x (n + 1)) (D x (n + 1))
    rw [sub_add_cancel] at h1
    have : M * (2 * M ^ 2 * h ^ 2 + 8 * M * g) ≤ M * 1 := mul_le_mul_of_nonneg_left H M0
    nlinarith
  have f2 := mul_le_mul_of_nonneg_left tl R.u_nonneg
  rw [e, show R.fl t - D x (n + 1) = (R.fl t - t) + (t - D x (n + 1)) by ring]
  refine (abs_add_le _ _).trans ?_
  linarith

/-- Bounds in double precision. -/
theorem double_bounds {M h : ℝ} (M2 : 2 ≤ M) (M3 : M ≤ 2 ^ 20) (hh : |h| ≤ 1 / 2 ^ 60) :
    2 * M ^ 2 * h ^ 2 + 8 * M * (6 * (1 / 2 ^ 53) / (1 - 6 * (1 / 2 ^ 53))) ≤ (1 : ℝ) ∧
    2 * M ^ 3 * h ^ 2 + 8 * M ^ 2 * (6 * (1 / 2 ^ 53) / (1 - 6 * (1 / 2 ^ 53))) ≤ 49 / 2 ^ 53 * M ^ 2 := by
  have q : h ^ 2 ≤ (1 / 2 ^ 60) ^ 2 := by rw [← sq_abs h]; exact pow_le_pow_left₀ (abs_nonneg h) hh 2
  have c : (6 * (1 / 2 ^ 53) / (1 - 6 * (1 / 2 ^ 53)) : ℝ) ≤ 7 / 2 ^ 53 := by norm_num
  have c' : 8 * (6 * (1 / 2 ^ 53) / (1 - 6 * (1 / 2 ^ 53))) ≤ (48.5 / 2 ^ 53 : ℝ) := by norm_num
  generalize (6 * (1 / 2 ^ 53) / (1 - 6 * (1 / 2 ^ 53)) : ℝ) = g at *
  norm_num at M3 q c c' ⊢
  have q0 := sq_nonneg h
  have M0 : 0 ≤ M := by linarith
  have a1 : M * h ^ 2 ≤ 1048576 * (1 / 1329227995784915872903807060280344576) := mul_le_mul M3 q q0 (by norm_num)
  have a0 : 0 ≤ M * h ^ 2 := by positivity
  have a2 : M * (M * h ^ 2) ≤ 1048576 * (1048576 * (1 / 1329227995784915872903807060280344576)) := mul_le_mul M3 a1 a0 (by norm_num)
  have a3 : M * g ≤ M * (7 / 9007199254740992) := mul_le_mul_of_nonneg_left c M0
  have b1 := mul_le_mul_of_nonneg_left a1 (show (0 : ℝ) ≤ M ^ 2 by positivity)
  have b2 := mul_le_mul_of_nonneg_left c' (show (0 : ℝ) ≤ M ^ 2 by positivity)
  have b3 : 0 ≤ M ^ 2 := by positivity
  constructor
  · nlinarith
  · nlinarith

/-- **C111 (double precision).**  Up to order 1000, for every step `h ≠ 0` of at most `2^-60` (the tests use `1e-30`), the derivative computed by
the complex step is within `n² (n + 1)² / 2^47` of the derivative of the Legendre polynomial (which is as large as `n (n + 1) / 2`). -/
theorem C111_double (n : ℕ) (hn : n ≤ 1000) (x h : ℝ) (hx : |x| ≤ 1) (h0 : h ≠ 0) (hh : |h| ≤ 1 / 2 ^ 60) :
    |step Rounding.binary64 (eval Rounding.binary64 n (x, h)) h - deriv (fun y => Verif.Legendre.eval n y) x| ≤
      (n * (n + 1)) ^ 2 / 2 ^ 47 := by
  rcases Nat.eq_zero_or_pos n with z | hn1
  · subst z
    rw [deriv_eval, (D_zero x).2]
    simp [step, eval, evalShift, fl_zero]
  · have n1 : (1 : ℝ) ≤ n := by exact_mod_cast hn1
    have n2 : (n : ℝ) ≤ 1000 := by exact_mod_cast hn
    have M2 : (2 : ℝ) ≤ n * (n + 1) := by nlinarith
    have M3 : (n : ℝ) * (n + 1) ≤ 2 ^ 20 := by nlinarith
    obtain ⟨d1, d2⟩ := double_bounds M2 M3 hh
    have := (C111_eval (R := Rounding.binary64) (by rw [Rounding.binary64_u]; norm_num) n hn1 (by rw [Rounding.binary64_bits]; omega) x h
      hx h0 (n * (n + 1)) _ rfl rfl (by rw [Rounding.binary64_u]; exact d1)).2
    rw [Rounding.binary64_u] at this
    refine this.trans ?_
    generalize (n : ℝ) * (n + 1) = M at *
    norm_num at d2 ⊢
    nlinarith

/-- The hypotheses are met: order 8 at the point 1/3 with the step `2^-100`. -/
example : |step Rounding.binary64 (eval Rounding.binary64 8 (1 / 3, 1 / 2 ^ 100)) (1 / 2 ^ 100) -
    deriv (fun y => Verif.Legendre.eval 8 y) (1 / 3)| ≤ 72 ^ 2 / 2 ^ 47 := by
  have := C111_double 8 (by norm_num) (1 / 3) (1 / 2 ^ 100) (by norm_num [abs_le]) (by norm_num) (by
    rw [abs_of_pos (by positivity)]; exact one_div_le_one_div_of_le (by positivity) (by norm_num))
  norm_num at this ⊢
  exact this

/-! ### Expansions -/

/-- The imaginary part of an expansion with real coefficients. -/
theorem approx_im (hu : R.u < 1) (N : ℕ) (c : ℕ → ℝ) (X : ℝ × ℝ) :
    ∃ t : ℕ → ℝ, (∀ j < N, Pert R (N + 2) (t j)) ∧
      (evalApprox R N (fun j => (c j, 0)) X).2 = ∑ j ∈ range N, c j * (eval R j X).2 * t j := by
  have e : ∀ m, (evalApprox R m (fun j => (c j, 0)) X).2 =
      loop m (fun j s => R.fl (s + R.fl (R.fl (c j * (eval R j X).2) + R.fl (0 * (eval R j X).1)))) 0 := by
    intro m
    unfold evalApprox
    induction m with
    | zero => rfl
    | succ m ih => rw [loop_succ, loop_succ, ← ih]; rfl
  obtain ⟨t, ht, s⟩ := Rel.loop_sum hu (k := 2) N
    (fun j => R.fl (R.fl (c j * (eval R j X).2) + R.fl (0 * (eval R j X).1))) (fun j => c j * (eval R j X).2) (fun j _ => by
      rw [zero_mul, fl_zero, add_zero]
      exact (Rel.fl hu _).trans hu (Rel.fl hu _))
  exact ⟨t, fun j hj => by rw [add_comm]; exact ht j hj, by rw [e, s]⟩

theorem deriv_sum (N : ℕ) (c : ℕ → ℝ) (x : ℝ) :
    deriv (fun y => ∑ j ∈ range N, c j * Verif.Legendre.eval j y) x = ∑ j ∈ range N, c j * D x (j + 1) := by
  have e : (fun y => ∑ j ∈ range N, c j * Verif.Legendre.eval j y) =
      fun y => (∑ j ∈ range N, C (c j) * (Verif.Legendre.Q (j + 1) : ℝ[X])).eval y := by
    funext y
    rw [eval_finsetSum]
    refine sum_congr rfl fun j _ => ?_
    rw [eval_C_mul, ← Verif.Legendre.evalShift_eq]; rfl
  rw [e, Polynomial.deriv, derivative_sum, eval_finsetSum]
  exact sum_congr rfl fun j _ => by rw [derivative_C_mul, eval_C_mul]; rfl

/-- **C111 (expansions).**  The derivative of an expansion with `N ≥ 2` real coefficients, by the complex step through
`legendre::eval_approx<Complex>`: with `M = N (N - 1)`, `E = 2 M³ h² + 8 M² γ` and `γ' = (N + 3) u / (1 - (N + 3) u)`, the error is at most
`γ' (M + E) + E` times the sum of the moduli of the coefficients. -/
theorem C111_approx (hu : 6 * R.u < 1) (N : ℕ) (hN : 2 ≤ N) (hb : 2 * N ≤ 2 ^ R.bits) (huN : (N + 3) * R.u < 1) (x h : ℝ) (hx : |x| ≤ 1)
    (h0 : h ≠ 0) (M g E : ℝ) (hM : M = N * (N - 1)) (hg : g = 6 * R.u / (1 - 6 * R.u)) (hE : E = 2 * M ^ 3 * h ^ 2 + 8 * M ^ 2 * g)
    (H : 2 * M ^ 2 * h ^ 2 + 8 * M * g ≤ 1) (c : ℕ → ℝ) :
    |step R (evalApprox R N (fun j => (c j, 0)) (x, h)) h - deriv (fun y => ∑ j ∈ range N, c j * Verif.Legendre.eval j y) x| ≤
      ((N + 3) * R.u / (1 - (N + 3) * R.u) * (M + E) + E) * ∑ j ∈ range N, |c j| := by
  have hu1 : R.u < 1 := by linarith [R.u_nonneg]
  obtain ⟨t, ht, s⟩ := approx_im hu1 N c (x, h)
  obtain ⟨t', ht', s'⟩ := Pert.fl hu1 ((evalApprox R N (fun j => (c j, 0)) (x, h)).2 / h)
  have e : step R (evalApprox R N (fun j => (c j, 0)) (x, h)) h =
      ∑ j ∈ range N, c j * ((eval R j (x, h)).2 / h) * (t j * t') := by
    unfold step
    rw [s', s, sum_div, sum_mul]
    exact sum_congr rfl fun j _ => by ring
  rw [e, deriv_sum, ← sum_sub_distrib, mul_sum]
  refine (abs_sum_le_sum_abs _ _).trans (sum_le_sum fun j hj => ?_)
  have hj := mem_range.1 hj
  obtain ⟨-, r2, r3⟩ := recur_err hx hu (n := N - 1) (by omega) (by omega) h0 (by rw [hM]; push_cast [Nat.cast_sub (show 1 ≤ N by omega)]; ring)
    hg H (N - 1) (le_refl _) (j + 1) (by omega)
  rw [← hE] at r2
  have q := ((ht j hj).mul hu1 ht').err hu1 (by push_cast; linarith)
  push_cast at q
  rw [show (N : ℝ) + 2 + 1 = N + 3 by ring] at q
  set T := (evalShift R (x, h) (j + 1)).2 / h
  have e2 : (eval R j (x, h)).2 / h = T := rfl
  rw [e2, show c j * T * (t j * t') - c j * D x (j + 1) = ((t j * t' - 1) * T + (T - D x (j + 1))) * c j by ring, abs_mul]
  refine mul_le_mul_of_nonneg_right ?_ (abs_nonneg _)
  have tl : |T| ≤ M + E := by
    have h1 := abs_add_le (T - D x (j + 1)) (D x (j + 1))
    rw [sub_add_cancel] at h1
    linarith
  refine (abs_add_le _ _).trans ?_
  rw [abs_mul]
  have := mul_le_mul q tl (abs_nonneg _) ((abs_nonneg _).trans q)
  linarith

/-- **C111 (expansions, double precision).**  Up to 1000 terms, for every step of at most `2^-60`, the error is at most
`N² (N - 1)² / 2^47` times the sum of the moduli of the coefficients. -/
theorem C111_approx_double (N : ℕ) (hN : 2 ≤ N) (hN' : N ≤ 1000) (x h : ℝ) (hx : |x| ≤ 1) (h0 : h ≠ 0) (hh : |h| ≤ 1 / 2 ^ 60)
    (c : ℕ → ℝ) :
    |step Rounding.binary64 (evalApprox Rounding.binary64 N (fun j => (c j, 0)) (x, h)) h -
      deriv (fun y => ∑ j ∈ range N, c j * Verif.Legendre.eval j y) x| ≤ (N * (N - 1)) ^ 2 / 2 ^ 47 * ∑ j ∈ range N, |c j| := by
  have n1 : (2 : ℝ) ≤ N := by exact_mod_cast hN
  have n2 : (N : ℝ) ≤ 1000 := by exact_mod_cast hN'
  have M2 : (2 : ℝ) ≤ N * (N - 1) := by nlinarith
  have M3 : (N : ℝ) * (N - 1) ≤ 2 ^ 20 := by nlinarith
  have MN : (N : ℝ) + 3 ≤ 5 / 2 * (N * (N - 1)) := by nlinarith
  obtain ⟨d1, d2⟩ := double_bounds M2 M3 hh
  refine (C111_approx (R := Rounding.binary64) (by rw [Rounding.binary64_u]; norm_num) N hN (by rw [Rounding.binary64_bits]; omega)
    (by rw [Rounding.binary64_u]; norm_num; linarith) x h hx h0 (N * (N - 1)) _ _ rfl rfl rfl (by rw [Rounding.binary64_u]; exact d1) c).trans ?_
  refine mul_le_mul_of_nonneg_right ?_ (sum_nonneg fun j _ => abs_nonneg _)
  rw [Rounding.binary64_u]
  generalize (N : ℝ) * (N - 1) = M at *
  have E0 : 2 * M ^ 3 * h ^ 2 + 8 * M ^ 2 * (6 * (1 / 2 ^ 53) / (1 - 6 * (1 / 2 ^ 53))) ≥ 0 := by
    have : (0 : ℝ) ≤ 6 * (1 / 2 ^ 53) / (1 - 6 * (1 / 2 ^ 53)) := by norm_num
    have := sq_nonneg h
    positivity
  generalize 2 * M ^ 3 * h ^ 2 + 8 * M ^ 2 * (6 * (1 / 2 ^ 53) / (1 - 6 * (1 / 2 ^ 53))) = E at *
  have p : ((N : ℝ) + 3) * (1 / 2 ^ 53) / (1 - (N + 3) * (1 / 2 ^ 53)) ≤ 1001 / 1000 * (5 / 2 * M) / 2 ^ 53 := by
    rw [div_le_iff₀ (by norm_num; linarith)]
    norm_num
    nlinarith
  have EM : E ≤ M := by
    refine d2.trans ?_
    norm_num at M3 ⊢
    nlinarith
  have := mul_le_mul p (show M + E ≤ 101 / 100 * M by
    have : 49 / 2 ^ 53 * M ^ 2 ≤ 1 / 100 * M := by norm_num at M3 ⊢; nlinarith
    linarith) (by linarith) (by positivity)
  norm_num at this d2 ⊢
  nlinarith

/-! ### Hexahedral elements -/

/-- At a real point the imaginary part is zero. -/
theorem evalShift_real (x : ℝ) (k : ℕ) : (evalShift R (x, 0) k).2 = 0 := by
  induction k using Nat.twoStepInduction with
  | zero => rfl
  | one => rfl
  | more m ih1 ih2 =>
    rw [evalShift]
    simp only [rmul, csub, cmul, ih1, ih2, mul_zero, zero_mul, fl_zero, add_zero, sub_zero]

/-- At a real point the real part is close to the polynomial. -/
theorem real_err {x : ℝ} (hx : |x| ≤ 1) (hu : 6 * R.u < 1) {n : ℕ} (hb : 2 * n ≤ 2 ^ R.bits) {M g : ℝ}
    (hM : M = n * (n + 1)) (hg : g = 6 * R.u / (1 - 6 * R.u)) (H : 4 * M * g ≤ 1) :
    ∀ m ≤ n, ∀ k ≤ m + 1, |(evalShift R (x, 0) k).1 - Verif.Legendre.evalShift x k| ≤ 4 * M * g := by
  have g0 : 0 ≤ g := by rw [hg]; exact div_nonneg (by linarith [R.u_nonneg]) (by linarith)
  have M0 : 0 ≤ M := by rw [hM]; positivity
  have Mg : 0 ≤ 4 * M * g := by positivity
  have Pl : ∀ k, |Verif.Legendre.evalShift x k| ≤ 1 := by
    intro k
    rcases k with _ | k
    · simp [Verif.Legendre.evalShift]
    · exact Verif.Fp.Legendre.legendre_le hx k
  intro m
  induction m with
  | zero =>
    intro _ k hk
    interval_cases k <;> simpa [evalShift, Verif.Legendre.evalShift] using Mg
  | succ m ih =>
    intro hm k hk
    have ih := ih (by omega)
    rcases Nat.lt_or_ge k (m + 2) with hk' | hk'
    · exact ih k (by omega)
    · have : k = m + 2 := by omega
      subst this
      have al : ∀ k ≤ m + 1, |(evalShift R (x, 0) k).1| ≤ 2 := by
        intro k hk
        have h1 := abs_add_le ((evalShift R (x, 0) k).1 - Verif.Legendre.evalShift x k) (Verif.Legendre.evalShift x k)
        rw [sub_add_cancel] at h1
        linarith [ih k hk, Pl k]
      have f := (drive hx (E := fun k => (evalShift R (x, 0) k).1 - Verif.Legendre.evalShift x k) (ε := 8 * g) (by linarith)
        (Verif.Fp.Legendre.ratio_mem 0) (by simp [evalShift, Verif.Legendre.evalShift]) (by simp [evalShift, Verif.Legendre.evalShift])
        (m + 1) (fun j hj => by
          have loc := (step_err hu (j := j) (by omega) x 0).1
          rw [evalShift_real, zero_mul, sub_zero, abs_zero, zero_mul, add_zero, ← hg] at loc
          have A := al (j + 1) (by omega)
          have A0 := al j (by omega)
          obtain ⟨r0, r1⟩ := Verif.Fp.Legendre.ratio_mem 0 j
          rw [Verif.Fp.Legendre.legendre_rec (x := x) j]
          have xa : |x| * |(evalShift R (x, 0) (j + 1)).1| ≤ 2 := by
            have := mul_le_mul hx A (abs_nonneg _) zero_le_one
            linarith
          have t2 : (1 + Verif.Fp.Legendre.ratio 0 j) * (|x| * |(evalShift R (x, 0) (j + 1)).1|) ≤ 2 * 3 :=
            mul_le_mul (by linarith) (by linarith) (by positivity) (by norm_num)
          have t3 : Verif.Fp.Legendre.ratio 0 j * |(evalShift R (x, 0) j).1| ≤ 1 * 2 := mul_le_mul r1 A0 (abs_nonneg _) zero_le_one
          have t4 := mul_le_mul_of_nonneg_left (add_le_add t2 t3) g0
          refine le_trans (le_of_eq (congrArg _ ?_)) (loc.trans (t4.trans (by linarith)))
          ring)).2.2
      refine f.trans ?_
      have : ((m + 1 : ℕ) : ℝ) ≤ n := by exact_mod_cast hm
      have m0 : (0 : ℝ) ≤ ((m + 1 : ℕ) : ℝ) := Nat.cast_nonneg _
      have mM : ((m + 1 : ℕ) : ℝ) * (((m + 1 : ℕ) : ℝ) + 1) / 2 ≤ M / 2 := by
        rw [hM]
        nlinarith
      have := mul_le_mul_of_nonneg_right mM (show 0 ≤ 8 * g by linarith)
      linarith

/-- Function `I` of a hexahedral element with `N` functions per direction. -/
noncomputable def phi (N I : ℕ) (X : ℕ → ℝ) : ℝ :=
  Verif.Legendre.eval (I % N) (X 0) * Verif.Legendre.eval (I / N % N) (X 1) * Verif.Legendre.eval (I / N / N) (X 2)

/-- The imaginary part of a product of which one factor is complex. -/
theorem prod_im (hu : R.u < 1) (a b p q : ℝ) :
    Rel R 4 (cmul R (cmul R (a, b) (p, 0)) (q, 0)).2 (b * (p * q)) ∧
    Rel R 4 (cmul R (cmul R (p, 0) (a, b)) (q, 0)).2 (b * (p * q)) ∧
    Rel R 4 (cmul R (cmul R (p, 0) (q, 0)) (a, b)).2 (b * (p * q)) := by
  have two : ∀ {k l : ℕ} {x x' y y' : ℝ}, Rel R k x x' → Rel R l y y' → Rel R (k + l + 2) (R.fl (R.fl (x * y))) (x' * y') := by
    intro k l x x' y y' h h'
    exact ((Rel.fl hu _).trans hu (h.flmul hu h')).mono hu (by omega)
  have r0 : ∀ z, Rel R 0 z z := Rel.refl hu 0
  simp only [cmul, mul_zero, zero_mul, fl_zero, add_zero, sub_zero, zero_add]
  refine ⟨?_, ?_, ?_⟩
  · have := two (two (r0 b) (r0 p)) (r0 q)
    rw [mul_assoc] at this
    exact this
  · have := two (two (r0 p) (r0 b)) (r0 q)
    rw [show p * b * q = b * (p * q) by ring] at this
    exact this
  · have := two (two (r0 p) (r0 q)) (r0 b)
    rw [show p * q * b = b * (p * q) by ring] at this
    exact this

theorem prod_err {M E e γ t p q s D P Q : ℝ} (e0 : 0 ≤ e) (hD : |D| ≤ M) (ht : |t - D| ≤ E) (hp : |p - P| ≤ e) (hq : |q - Q| ≤ e) (hP : |P| ≤ 1)
    (hQ : |Q| ≤ 1) (hs : |s - 1| ≤ γ) : |t * (p * q) * s - D * (P * Q)| ≤ (M + E) * (1 + e) ^ 2 * (1 + γ) - M := by
  have E0 : 0 ≤ E := (abs_nonneg _).trans ht
  have M0 : 0 ≤ M := (abs_nonneg _).trans hD
  have g0 : 0 ≤ γ := (abs_nonneg _).trans hs
  have bd : ∀ {x x' a b : ℝ}, |x - x'| ≤ a → |x'| ≤ b → |x| ≤ b + a := by
    intro x x' a b h h'
    have := abs_add_le (x - x') x'
    rw [sub_add_cancel] at this
    linarith
  have tl := bd ht hD
  have pl := bd hp hP
  have ql := bd hq hQ
  have pq : |p * q| ≤ (1 + e) * (1 + e) := by rw [abs_mul]; exact mul_le_mul pl ql (abs_nonneg _) (by linarith)
  rw [show t * (p * q) * s - D * (P * Q) = t * (p * q) * (s - 1) + (t - D) * (p * q) + (D * ((p - P) * q) + D * (P * (q - Q))) by ring]
  have h1 : |t * (p * q) * (s - 1)| ≤ (M + E) * ((1 + e) * (1 + e)) * γ := by
    rw [abs_mul, abs_mul]
    exact mul_le_mul (mul_le_mul tl pq (abs_nonneg _) (by linarith)) hs (abs_nonneg _) (by positivity)
  have h2 : |(t - D) * (p * q)| ≤ E * ((1 + e) * (1 + e)) := by
    rw [abs_mul]; exact mul_le_mul ht pq (abs_nonneg _) E0
  have h3 : |D * ((p - P) * q)| ≤ M * (e * (1 + e)) := by
    rw [abs_mul, abs_mul]
    exact mul_le_mul hD (mul_le_mul hp ql (abs_nonneg _) e0) (by positivity) M0
  have h4 : |D * (P * (q - Q))| ≤ M * (1 * e) := by
    rw [abs_mul, abs_mul]
    exact mul_le_mul hD (mul_le_mul hP hq (abs_nonneg _) zero_le_one) (by positivity) M0
  refine (abs_add_le _ _).trans ((add_le_add (abs_add_le _ _) (abs_add_le _ _)).trans ?_)
  calc _ ≤ (M + E) * ((1 + e) * (1 + e)) * γ + E * ((1 + e) * (1 + e)) + (M * (e * (1 + e)) + M * (1 * e)) := by linarith
    _ = _ := by ring

/-- **C111 (hexahedral elements).**  The derivative in direction `d` of basis function `I` of an element with `N` functions per direction, by the
complex step through `LegendreElement<Complex>::eval_basis`, at every point of the reference cube: with `M`, `γ`, `E` as for expansions,
`e = 4 M γ` and `γ' = 5 u / (1 - 5 u)`, the error is at most `(M + E) (1 + e)² (1 + γ') - M`. -/
theorem C111_basis (hu : 6 * R.u < 1) (N : ℕ) (hN : 2 ≤ N) (hb : 2 * N ≤ 2 ^ R.bits) (hfit : N * N * N < 2 ^ 64) (h : ℝ) (h0 : h ≠ 0)
    (M g E : ℝ) (hM : M = N * (N - 1)) (hg : g = 6 * R.u / (1 - 6 * R.u)) (hE : E = 2 * M ^ 3 * h ^ 2 + 8 * M ^ 2 * g)
    (H : 2 * M ^ 2 * h ^ 2 + 8 * M * g ≤ 1) (X : ℕ → ℝ) (hX : ∀ d < 3, |X d| ≤ 1) (d : ℕ) (hd : d < 3) (I : ℕ) (hI : I < N * N * N) :
    ∃ f, elemBasis R N I (fun i => (X i, if i = d then h else 0)) = some f ∧
      |step R f h - deriv (fun y => phi N I (Function.update X d y)) (X d)| ≤
        (M + E) * (1 + 4 * M * g) ^ 2 * (1 + 5 * R.u / (1 - 5 * R.u)) - M := by
  have hu1 : R.u < 1 := by linarith [R.u_nonneg]
  have N0 : 0 < N := by omega
  have h1 : I % N < N := Nat.mod_lt _ N0
  have h2 : I / N % N < N := Nat.mod_lt _ N0
  have h3 : I / N / N < N := LegendreElement.idx2_lt hI
  have hM' : M = (N - 1 : ℕ) * ((N - 1 : ℕ) + 1) := by rw [hM]; push_cast [Nat.cast_sub (show 1 ≤ N by omega)]; ring
  have g0 : 0 ≤ g := by rw [hg]; exact div_nonneg (by linarith [R.u_nonneg]) (by linarith)
  have M0 : 0 ≤ M := by rw [hM']; positivity
  have H4 : 4 * M * g ≤ 1 := by
    have : 0 ≤ M * g := by positivity
    have : 0 ≤ M ^ 2 * h ^ 2 := by positivity
    nlinarith
  have rl : ∀ i < N, ∀ x, |x| ≤ 1 → |(eval R i (x, 0)).1 - Verif.Legendre.eval i x| ≤ 4 * M * g := fun i hi x hx =>
    real_err hx hu (n := N - 1) (by omega) hM' hg H4 (N - 1) (le_refl _) (i + 1) (by omega)
  have cl : ∀ i < N, ∀ x, |x| ≤ 1 → |(eval R i (x, h)).2 / h - D x (i + 1)| ≤ E ∧ |D x (i + 1)| ≤ M := fun i hi x hx => by
    rw [hE]
    exact (recur_err hx hu (n := N - 1) (by omega) (by omega) h0 hM' hg H (N - 1) (le_refl _) (i + 1) (by omega)).2
  have re : ∀ i x, eval R i (x, 0) = ((eval R i (x, 0)).1, 0) := fun i x => Prod.ext rfl (evalShift_real x (i + 1))
  have fin : ∀ {b p q Dv P Q : ℝ} {f : ℝ × ℝ}, Rel R 4 f.2 (b * (p * q)) → |b / h - Dv| ≤ E → |Dv| ≤ M → |p - P| ≤ 4 * M * g →
      |q - Q| ≤ 4 * M * g → |P| ≤ 1 → |Q| ≤ 1 →
      |step R f h - Dv * (P * Q)| ≤ (M + E) * (1 + 4 * M * g) ^ 2 * (1 + 5 * R.u / (1 - 5 * R.u)) - M := by
    intro b p q Dv P Q f hf k1 k2 k3 k4 k5 k6
    obtain ⟨s, hs, es⟩ := hf.fldiv hu1 (Rel.refl hu1 0 h)
    have hs' := hs.err hu1 (by push_cast; linarith [R.u_nonneg])
    norm_num at hs'
    unfold step
    rw [es, show b * (p * q) / h * s = b / h * (p * q) * s by ring]
    exact prod_err (by positivity) k2 k1 k3 k4 k5 k6 hs'
  have dc : ∀ (i : ℕ) (x c : ℝ), deriv (fun y => Verif.Legendre.eval i y * c) x = D x (i + 1) * c := by
    intro i x c
    have e : (fun y => Verif.Legendre.eval i y * c) = fun y => (Verif.Legendre.Q (i + 1) * C c : ℝ[X]).eval y := by
      funext y
      rw [eval_mul, eval_C, ← Verif.Legendre.evalShift_eq]; rfl
    rw [e, Polynomial.deriv, derivative_mul, derivative_C, mul_zero, add_zero, eval_mul, eval_C]; rfl
  unfold elemBasis
  rw [LagrangeElement.digits_eq N0 hfit hI]
  refine ⟨_, rfl, ?_⟩
  have x0 := hX 0 (by omega)
  have x1 := hX 1 (by omega)
  have x2 := hX 2 (by omega)
  have l0 := Verif.Fp.Legendre.legendre_le x0 (I % N)
  have l1 := Verif.Fp.Legendre.legendre_le x1 (I / N % N)
  have l2 := Verif.Fp.Legendre.legendre_le x2 (I / N / N)
  interval_cases d
  · have e : (fun y => phi N I (Function.update X 0 y)) = fun y => Verif.Legendre.eval (I % N) y *
        (Verif.Legendre.eval (I / N % N) (X 1) * Verif.Legendre.eval (I / N / N) (X 2)) := by
      funext y; simp [phi, Function.update]; ring
    rw [e, dc]
    simp only [if_pos, if_neg (show ¬ (1 : ℕ) = 0 by omega), if_neg (show ¬ (2 : ℕ) = 0 by omega)]
    rw [re (I / N % N), re (I / N / N)]
    exact fin (prod_im hu1 _ _ _ _).1 (cl _ h1 _ x0).1 (cl _ h1 _ x0).2 (rl _ h2 _ x1) (rl _ h3 _ x2) l1 l2
  · have e : (fun y => phi N I (Function.update X 1 y)) = fun y => Verif.Legendre.eval (I / N % N) y *
        (Verif.Legendre.eval (I % N) (X 0) * Verif.Legendre.eval (I / N / N) (X 2)) := by
      funext y; simp [phi, Function.update]; ring
    rw [e, dc]
    simp only [if_pos, if_neg (show ¬ (0 : ℕ) = 1 by omega), if_neg (show ¬ (2 : ℕ) = 1 by omega)]
    rw [re (I % N), re (I / N / N)]
    exact fin (prod_im hu1 _ _ _ _).2.1 (cl _ h2 _ x1).1 (cl _ h2 _ x1).2 (rl _ h1 _ x0) (rl _ h3 _ x2) l0 l2
  · have e : (fun y => phi N I (Function.update X 2 y)) = fun y => Verif.Legendre.eval (I / N / N) y *
        (Verif.Legendre.eval (I % N) (X 0) * Verif.Legendre.eval (I / N % N) (X 1)) := by
      funext y; simp [phi, Function.update]; ring
    rw [e, dc]
    simp only [if_pos, if_neg (show ¬ (0 : ℕ) = 2 by omega), if_neg (show ¬ (1 : ℕ) = 2 by omega)]
    rw [re (I % N), re (I / N % N)]
    exact fin (prod_im hu1 _ _ _ _).2.2 (cl _ h3 _ x2).1 (cl _ h3 _ x2).2 (rl _ h1 _ x0) (rl _ h2 _ x1) l0 l1

/-- **C111 (hexahedral elements, double precision).**  Up to 1000 functions per direction, for every step of at most `2^-60`, the error is at
most `N² (N - 1)² / 2^46`. -/
theorem C111_basis_double (N : ℕ) (hN : 2 ≤ N) (hN' : N ≤ 1000) (h : ℝ) (h0 : h ≠ 0) (hh : |h| ≤ 1 / 2 ^ 60) (X : ℕ → ℝ)
    (hX : ∀ d < 3, |X d| ≤ 1) (d : ℕ) (hd : d < 3) (I : ℕ) (hI : I < N * N * N) :
    ∃ f, elemBasis Rounding.binary64 N I (fun i => (X i, if i = d then h else 0)) = some f ∧
      |step Rounding.binary64 f h - deriv (fun y => phi N I (Function.update X d y)) (X d)| ≤ (N * (N - 1)) ^ 2 / 2 ^ 46 := by
  have n1 : (2 : ℝ) ≤ N := by exact_mod_cast hN
  have n2 : (N : ℝ) ≤ 1000 := by exact_mod_cast hN'
  have M2 : (2 : ℝ) ≤ N * (N - 1) := by nlinarith
  have M3 : (N : ℝ) * (N - 1) ≤ 2 ^ 20 := by nlinarith
  obtain ⟨d1, d2⟩ := double_bounds M2 M3 hh
  have fit : N * N * N < 2 ^ 64 := by
    have : N * N * N ≤ 1000 * 1000 * 1000 := Nat.mul_le_mul (Nat.mul_le_mul hN' hN') hN'
    omega
  obtain ⟨f, f1, f2⟩ := C111_basis (R := Rounding.binary64) (by rw [Rounding.binary64_u]; norm_num) N hN
    (by rw [Rounding.binary64_bits]; omega) fit h h0 (N * (N - 1)) _ _ rfl rfl rfl (by rw [Rounding.binary64_u]; exact d1) X hX d hd I hI
  refine ⟨f, f1, f2.trans ?_⟩
  rw [Rounding.binary64_u]
  generalize (N : ℝ) * (N - 1) = M at *
  have hh2 := sq_nonneg h
  have c : (6 * (1 / 2 ^ 53) / (1 - 6 * (1 / 2 ^ 53)) : ℝ) ≤ 6.001 / 2 ^ 53 := by norm_num
  have c0 : (0 : ℝ) ≤ 6 * (1 / 2 ^ 53) / (1 - 6 * (1 / 2 ^ 53)) := by norm_num
  have c2 : 5 * (1 / 2 ^ 53) / (1 - 5 * (1 / 2 ^ 53)) ≤ (5.001 / 2 ^ 53 : ℝ) := by norm_num
  have c3 : (0 : ℝ) ≤ 5 * (1 / 2 ^ 53) / (1 - 5 * (1 / 2 ^ 53)) := by norm_num
  have E0 : 0 ≤ 2 * M ^ 3 * h ^ 2 + 8 * M ^ 2 * (6 * (1 / 2 ^ 53) / (1 - 6 * (1 / 2 ^ 53))) := by positivity
  generalize 2 * M ^ 3 * h ^ 2 + 8 * M ^ 2 * (6 * (1 / 2 ^ 53) / (1 - 6 * (1 / 2 ^ 53))) = E at *
  generalize (6 * (1 / 2 ^ 53) / (1 - 6 * (1 / 2 ^ 53)) : ℝ) = g at *
  generalize (5 * (1 / 2 ^ 53) / (1 - 5 * (1 / 2 ^ 53)) : ℝ) = k at *
  norm_num at M3 c c2 d2 ⊢
  have e0 : 0 ≤ M * g := by positivity
  have e1 : M * g ≤ M * (6001 / 9007199254740992000) := mul_le_mul_of_nonneg_left c (by linarith)
  have e2 : (1 + 4 * M * g) ^ 2 ≤ 1 + 8.001 * (M * g) := by
    norm_num
    nlinarith
  have e3 : (1 + 4 * M * g) ^ 2 * (1 + k) ≤ 1 + 8.002 * (M * g) + 1.001 * k := by
    refine (mul_le_mul_of_nonneg_right e2 (by linarith)).trans ?_
    norm_num
    nlinarith [mul_nonneg e0 c3]
  have e4 : (M + E) * ((1 + 4 * M * g) ^ 2 * (1 + k)) ≤ (M + E) * (1 + 8.002 * (M * g) + 1.001 * k) :=
    mul_le_mul_of_nonneg_left e3 (by linarith)
  have e5 : E ≤ 0.001 * M := by norm_num; nlinarith
  have e6 : 8.002 * (M * g) + 1.001 * k ≤ M * (6001 / 9007199254740992000 * 8.002) + 1.001 * (5001 / 9007199254740992000) := by linarith
  have e7 : (M + E) * (8.002 * (M * g) + 1.001 * k) ≤
      (1.001 * M) * (M * (6001 / 9007199254740992000 * 8.002) + 1.001 * (5001 / 9007199254740992000)) :=
    mul_le_mul (by linarith) e6 (by positivity) (by positivity)
  rw [mul_assoc]
  norm_num at e4 e5 e7 ⊢
  nlinarith

/-- The hypotheses are met: function 25 of an element with three functions per direction. -/
example : ∃ f, elemBasis Rounding.binary64 3 25 (fun i => (1 / (i + 2), if i = 2 then 1 / 2 ^ 100 else 0)) = some f ∧
    |step Rounding.binary64 f (1 / 2 ^ 100) - deriv (fun y => phi 3 25 (Function.update (fun i : ℕ => 1 / ((i : ℝ) + 2)) 2 y)) (1 / 4)| ≤
      36 / 2 ^ 46 := by
  obtain ⟨f, f1, f2⟩ := C111_basis_double 3 (by norm_num) (by norm_num) (1 / 2 ^ 100) (by positivity)
    (by rw [abs_of_pos (by positivity)]; exact one_div_le_one_div_of_le (by positivity) (by norm_num))
    (fun i => 1 / ((i : ℝ) + 2)) (fun d _ => by
      rw [abs_of_pos (by positivity)]
      exact div_le_one_of_le₀ (by linarith [(Nat.cast_nonneg d : (0 : ℝ) ≤ d)]) (by positivity)) 2 (by norm_num) 25 (by norm_num)
  refine ⟨f, f1, ?_⟩
  norm_num at f2 ⊢
  exact f2

end Verif.Fp.Cx
