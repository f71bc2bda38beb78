import Verif.Fp.LegendreLemmas
import Verif.Legendre.ElementTheorems
import Verif.Fp.Eval64

/-!
# C99: Legendre polynomials and expansions in rounded arithmetic
-/

namespace Verif.Fp.Legendre
open Verif.Fp Finset

variable {R : Rounding}

/-- **C99.**  `legendre::eval` in rounded arithmetic at a point of [-1, 1]: the error for order `n` is at most
`3 n (n + 1) γ`, `γ = 5 u / (1 - 5 u)` (as long as this is at most one): it grows with the square of the order only. `Legendre.eval n x` is the
value of the Legendre polynomial (C12), which is at most one in modulus. -/
theorem C99_eval (hu : 5 * R.u < 1) (n : ℕ) (hb : 2 * n ≤ 2 ^ R.bits) (hn : 3 * n * (n + 1) * (5 * R.u / (1 - 5 * R.u)) ≤ 1)
    (x : ℝ) (hx : |x| ≤ 1) :
    |Verif.Legendre.eval n x| ≤ 1 ∧ |eval R n x - Verif.Legendre.eval n x| ≤ 3 * n * (n + 1) * (5 * R.u / (1 - 5 * R.u)) :=
  ⟨legendre_le hx n, recur_err hx hu n hb hn⟩

/-- **C99 (double precision).**  Up to order one million the error is at most `n (n + 1) / 2^49`. -/
theorem C99_double (n : ℕ) (hn : n ≤ 1000000) (x : ℝ) (hx : |x| ≤ 1) :
    |eval Rounding.binary64 n x - Verif.Legendre.eval n x| ≤ n * (n + 1) / 2 ^ 49 := by
  have h : (n : ℝ) ≤ 1000000 := by exact_mod_cast hn
  have h0 : (0 : ℝ) ≤ n := Nat.cast_nonneg n
  have h2 : (n : ℝ) * (n + 1) ≤ 1000000 * 1000001 := by nlinarith
  have c : 3 * (5 * (1 / 2 ^ 53) / (1 - 5 * (1 / 2 ^ 53))) ≤ (1 / 2 ^ 49 : ℝ) := by norm_num
  have c0 : (0 : ℝ) ≤ 5 * (1 / 2 ^ 53) / (1 - 5 * (1 / 2 ^ 53)) := by norm_num
  have le : 3 * n * (n + 1) * (5 * Rounding.binary64.u / (1 - 5 * Rounding.binary64.u)) ≤ n * (n + 1) / 2 ^ 49 := by
    rw [Rounding.binary64_u]
    have := mul_le_mul_of_nonneg_left c (show (0 : ℝ) ≤ n * (n + 1) by positivity)
    calc _ = (n : ℝ) * (n + 1) * (3 * (5 * (1 / 2 ^ 53) / (1 - 5 * (1 / 2 ^ 53)))) := by ring
      _ ≤ _ := this
      _ = _ := by ring
  refine ((C99_eval (R := Rounding.binary64) (by rw [Rounding.binary64_u]; norm_num) n ?_ (le.trans ?_) x hx).2).trans le
  · rw [Rounding.binary64_bits]; omega
  · rw [div_le_one (by norm_num)]; linarith

/-- Error of one value of order below `N`. -/
theorem eval_close (hu : 5 * R.u < 1) {N : ℕ} (hb : 2 * N ≤ 2 ^ R.bits)
    (hN : 3 * (N * (N - 1 : ℕ)) * (5 * R.u / (1 - 5 * R.u)) ≤ 1) {x : ℝ} (hx : |x| ≤ 1) {n : ℕ} (hn : n < N) :
    |eval R n x - Verif.Legendre.eval n x| ≤ 3 * (N * (N - 1 : ℕ)) * (5 * R.u / (1 - 5 * R.u)) ∧ |Verif.Legendre.eval n x| ≤ 1 := by
  have g0 : 0 ≤ 5 * R.u / (1 - 5 * R.u) := div_nonneg (by linarith [R.u_nonneg]) (by linarith)
  have le : 3 * n * (n + 1) * (5 * R.u / (1 - 5 * R.u)) ≤ 3 * (N * (N - 1 : ℕ)) * (5 * R.u / (1 - 5 * R.u)) := by
    refine mul_le_mul_of_nonneg_right ?_ g0
    have : n * (n + 1) ≤ N * (N - 1) := by rw [mul_comm]; exact Nat.mul_le_mul (by omega) (by omega)
    have : ((n * (n + 1) : ℕ) : ℝ) ≤ ((N * (N - 1) : ℕ) : ℝ) := by exact_mod_cast this
    push_cast at this
    linarith
  obtain ⟨h1, h2⟩ := C99_eval hu n (by omega) (le.trans hN) x hx
  exact ⟨h2.trans le, h1⟩

/-- The loop of `eval_approx` and `eval_der_approx` for any values of the functions. -/
noncomputable def line (R : Rounding) (N : ℕ) (c f : ℕ → ℝ) : ℝ := loop N (fun j sum => R.fl (sum + R.fl (c j * f j))) 0

theorem line_congr (N : ℕ) {c c' : ℕ → ℝ} (h : ∀ j < N, c j = c' j) (f : ℕ → ℝ) : line R N c f = line R N c' f := by
  unfold line
  exact loop_congr fun j s hj => by rw [h j hj]

theorem line_pert (hu : R.u < 1) (N : ℕ) (c f : ℕ → ℝ) :
    ∃ t : ℕ → ℝ, (∀ j < N, Pert R (N + 1) (t j)) ∧ line R N c f = ∑ j ∈ range N, c j * t j * f j := by
  obtain ⟨t, ht, e⟩ := Rel.loop_sum hu (k := 1) N (fun j => R.fl (c j * f j)) (fun j => c j * f j) (fun j _ => Rel.fl hu _)
  refine ⟨t, fun j hj => by rw [add_comm]; exact ht j hj, ?_⟩
  unfold line
  rw [e]
  exact sum_congr rfl fun j _ => by ring

/-- The rounded expansion is the expansion with perturbed coefficients in the rounded polynomials. -/
theorem approx_pert (hu : R.u < 1) (N : ℕ) (c : ℕ → ℝ) (x : ℝ) :
    ∃ t : ℕ → ℝ, (∀ j < N, Pert R (N + 1) (t j)) ∧ evalApprox R N c x = ∑ j ∈ range N, c j * t j * eval R j x :=
  line_pert hu N c fun j => eval R j x

/-- **C99 (expansions).**  `legendre::eval_approx` with `N` terms: the error is at most `(1 + E) (1 + γ) - 1` times the sum of the moduli of
the coefficients, where `E = 15 N (N - 1) u / (1 - 5 u)` and `γ = (N + 1) u / (1 - (N + 1) u)`. -/
theorem C99_approx (hu : 5 * R.u < 1) (N : ℕ) (hb : 2 * N ≤ 2 ^ R.bits) (huN : (N + 1) * R.u < 1) (E : ℝ)
    (hE : E = 3 * (N * (N - 1 : ℕ)) * (5 * R.u / (1 - 5 * R.u))) (hE1 : E ≤ 1) (c : ℕ → ℝ) (x : ℝ) (hx : |x| ≤ 1) :
    |evalApprox R N c x - ∑ j ∈ range N, c j * Verif.Legendre.eval j x| ≤
      ((1 + E) * (1 + (N + 1) * R.u / (1 - (N + 1) * R.u)) - 1) * ∑ j ∈ range N, |c j| := by
  subst hE
  set E := 3 * (N * (N - 1 : ℕ)) * (5 * R.u / (1 - 5 * R.u))
  set g := (N + 1) * R.u / (1 - (N + 1) * R.u)
  have hu1 : R.u < 1 := by linarith [R.u_nonneg]
  obtain ⟨t, ht, e⟩ := approx_pert hu1 N c x
  rw [e, ← sum_sub_distrib, mul_sum]
  refine (abs_sum_le_sum_abs _ _).trans (sum_le_sum fun j hj => ?_)
  have hj := mem_range.1 hj
  obtain ⟨p1, p2⟩ := eval_close hu hb hE1 hx hj
  have q := (ht j hj).err hu1 (by push_cast; exact huN)
  push_cast at q
  rw [show c j * t j * eval R j x - c j * Verif.Legendre.eval j x =
    ((t j - 1) * eval R j x + (eval R j x - Verif.Legendre.eval j x)) * c j by ring, abs_mul]
  refine mul_le_mul_of_nonneg_right ?_ (abs_nonneg _)
  have p3 : |eval R j x| ≤ 1 + E := by
    have := abs_add_le (eval R j x - Verif.Legendre.eval j x) (Verif.Legendre.eval j x)
    rw [sub_add_cancel] at this
    linarith
  refine (abs_add_le _ _).trans ?_
  rw [abs_mul]
  have := mul_le_mul q p3 (abs_nonneg _) ((abs_nonneg _).trans q)
  change _ ≤ g * _ at this
  linarith

/-- Products of three perturbed numbers. -/
theorem prod3_close {E a b c a' b' c' : ℝ} (ha : |a - a'| ≤ E) (hb : |b - b'| ≤ E) (hc : |c - c'| ≤ E) (ha' : |a'| ≤ 1)
    (hb' : |b'| ≤ 1) (hc' : |c'| ≤ 1) :
    |a * b * c - a' * b' * c'| ≤ (1 + E) ^ 3 - 1 ∧ |a * b * c| ≤ (1 + E) ^ 3 := by
  have E0 : 0 ≤ E := (abs_nonneg _).trans ha
  have bd : ∀ {x x' : ℝ}, |x - x'| ≤ E → |x'| ≤ 1 → |x| ≤ 1 + E := by
    intro x x' h h'
    have := abs_add_le (x - x') x'
    rw [sub_add_cancel] at this
    linarith
  have B := bd hb hb'
  have C := bd hc hc'
  have k : |a * b * c - a' * b' * c'| ≤ (1 + E) ^ 3 - 1 := by
    rw [show a * b * c - a' * b' * c' = (a - a') * (b * c) + a' * ((b - b') * c) + a' * (b' * (c - c')) by ring]
    have h1 : |(a - a') * (b * c)| ≤ E * ((1 + E) * (1 + E)) := by
      rw [abs_mul, abs_mul]
      exact mul_le_mul ha (mul_le_mul B C (abs_nonneg _) (by linarith)) (by positivity) E0
    have h2 : |a' * ((b - b') * c)| ≤ 1 * (E * (1 + E)) := by
      rw [abs_mul, abs_mul]
      exact mul_le_mul ha' (mul_le_mul hb C (abs_nonneg _) E0) (by positivity) zero_le_one
    have h3 : |a' * (b' * (c - c'))| ≤ 1 * (1 * E) := by
      rw [abs_mul, abs_mul]
      exact mul_le_mul ha' (mul_le_mul hb' hc (abs_nonneg _) zero_le_one) (by positivity) zero_le_one
    refine (abs_add_three _ _ _).trans ?_
    calc _ ≤ E * ((1 + E) * (1 + E)) + 1 * (E * (1 + E)) + 1 * (1 * E) := by linarith
      _ = _ := by ring
  refine ⟨k, ?_⟩
  have k' : |a' * b' * c'| ≤ 1 := by
    rw [abs_mul, abs_mul]
    exact mul_le_one₀ (mul_le_one₀ ha' (abs_nonneg _) hb') (abs_nonneg _) hc'
  have := abs_add_le (a * b * c - a' * b' * c') (a' * b' * c')
  rw [sub_add_cancel] at this
  linarith

/-- **C99 (basis functions).**  `LegendreElement::eval_basis` of function `I` of an element with `N` functions per direction, at a point of
the reference cube: the error is at most `(1 + E)³ (1 + γ) - 1`, `γ = 2 u / (1 - 2 u)`. -/
theorem C99_basis (hu : 5 * R.u < 1) (N : ℕ) (hb : 2 * N ≤ 2 ^ R.bits) (hfit : N * N * N < 2 ^ 64) (E : ℝ)
    (hE : E = 3 * (N * (N - 1 : ℕ)) * (5 * R.u / (1 - 5 * R.u))) (hE1 : E ≤ 1) (X : ℕ → ℝ) (hX : ∀ d < 3, |X d| ≤ 1)
    (I : ℕ) (hI : I < N * N * N) :
    ∃ v, elemBasis R N I X = some v ∧
      |v - Verif.Legendre.eval (I % N) (X 0) * Verif.Legendre.eval (I / N % N) (X 1) * Verif.Legendre.eval (I / N / N) (X 2)| ≤
        (1 + E) ^ 3 * (1 + 2 * R.u / (1 - 2 * R.u)) - 1 := by
  subst hE
  have hu1 : R.u < 1 := by linarith [R.u_nonneg]
  have h0 : 0 < N := by rcases Nat.eq_zero_or_pos N with h | h; · subst h; simp at hI
                        · exact h
  have h1 : I % N < N := Nat.mod_lt _ h0
  have h2 : I / N % N < N := Nat.mod_lt _ h0
  have h3 : I / N / N < N := LegendreElement.idx2_lt hI
  unfold elemBasis
  rw [LagrangeElement.digits_eq h0 hfit hI]
  refine ⟨_, rfl, ?_⟩
  obtain ⟨a1, a2⟩ := eval_close hu hb hE1 (hX 0 (by omega)) h1
  obtain ⟨b1, b2⟩ := eval_close hu hb hE1 (hX 1 (by omega)) h2
  obtain ⟨c1, c2⟩ := eval_close hu hb hE1 (hX 2 (by omega)) h3
  obtain ⟨k1, k2⟩ := prod3_close a1 b1 c1 a2 b2 c2
  have r := ((Rel.refl hu1 0 (eval R (I % N) (X 0))).flmul hu1 (Rel.refl hu1 0 (eval R (I / N % N) (X 1)))).flmul hu1
    (Rel.refl hu1 0 (eval R (I / N / N) (X 2)))
  have r' := r.err hu1 (by push_cast; linarith [R.u_nonneg])
  norm_num at r'
  have g0 : 0 ≤ 2 * R.u / (1 - 2 * R.u) := div_nonneg (by linarith [R.u_nonneg]) (by linarith [R.u_nonneg])
  rw [← abs_mul, ← abs_mul] at r'
  have := mul_le_mul_of_nonneg_left k2 g0
  refine (abs_sub_le _ _ _).trans ((add_le_add r' k1).trans ?_)
  linarith

/-- The nested loops of `eval_approx` and `eval_grad_approx`, for any values of the functions. -/
noncomputable def nest (R : Rounding) (N : ℕ) (C c f0 f1 f2 : ℕ → ℝ) : ℝ :=
  let C := loop N (fun k C =>
    let C := loop N (fun j C => store C j (line R N (fun m => c (j * N + k * N * N + m)) f0)) C
    store C (N + k) (line R N C f1)) C
  line R N (fun m => C (N + m)) f2

/-- The rounded expansion in three dimensions. -/
theorem nest_pert (hu1 : R.u < 1) {N : ℕ} (h0 : 0 < N) (C c f0 f1 f2 : ℕ → ℝ) :
    ∃ t : ℕ → ℝ, (∀ I < N * N * N, Pert R (3 * (N + 1)) (t I)) ∧
      nest R N C c f0 f1 f2 = ∑ I ∈ range (N * N * N), c I * t I * (f0 (I % N) * f1 (I / N % N) * f2 (I / N / N)) := by
  choose t ht et using fun (f c : ℕ → ℝ) => line_pert hu1 N c f
  let A : ℕ → ℕ → ℝ := fun k j => line R N (fun m => c (j * N + k * N * N + m)) f0
  let B : ℕ → ℝ := fun k => line R N (A k) f1
  let a : ℕ → ℕ → ℕ → ℝ := fun k j => t f0 (fun m => c (j * N + k * N * N + m))
  let b : ℕ → ℕ → ℝ := fun k => t f1 (A k)
  let d : ℕ → ℝ := t f2 B
  have eA : ∀ k j, A k j = ∑ i ∈ range N, c (j * N + k * N * N + i) * a k j i * f0 i := fun k j => et f0 _
  have eB : ∀ k, B k = ∑ j ∈ range N, A k j * b k j * f1 j := fun k => et f1 _
  have work : ∀ k < N, (loop N (fun k C =>
      let C := loop N (fun j C => store C j (line R N (fun m => c (j * N + k * N * N + m)) f0)) C
      store C (N + k) (line R N C f1)) C) (N + k) = B k := by
    refine loop_inv (n := N) (s := C) (body := fun k C =>
      let C := loop N (fun j C => store C j (line R N (fun m => c (j * N + k * N * N + m)) f0)) C
      store C (N + k) (line R N C f1))
      (I := fun n (D : ℕ → ℝ) => ∀ k < n, D (N + k) = B k) (by simp) ?_
    intro k D hk hD k' hk'
    simp only []
    by_cases hkk : k' = k
    · subst hkk
      rw [store_same]
      refine line_congr N (fun m hm => ?_) _
      rw [loop_store]; exact if_pos hm
    · rw [store_ne _ _ (by omega), loop_store]
      refine (if_neg (by omega)).trans ?_
      exact hD k' (by omega)
  refine ⟨fun I => a (I / N / N) (I / N % N) (I % N) * b (I / N / N) (I / N % N) * d (I / N / N), fun I hI => ?_, ?_⟩
  · have h1 : I % N < N := Nat.mod_lt _ h0
    have h2 : I / N % N < N := Nat.mod_lt _ h0
    have h3 : I / N / N < N := LegendreElement.idx2_lt hI
    exact (((ht f0 _ _ h1).mul hu1 (ht f1 _ _ h2)).mul hu1 (ht f2 _ _ h3)).mono hu1 (by omega)
  · have e1 : nest R N C c f0 f1 f2 = ∑ k ∈ range N, B k * d k * f2 k := by
      unfold nest
      simp only []
      rw [line_congr N (c' := B) (fun m hm => work m hm)]
      exact et f2 B
    rw [e1]
    rw [← tensor_sum N (fun I => c I *
      (a (I / N / N) (I / N % N) (I % N) * b (I / N / N) (I / N % N) * d (I / N / N))) f0 f1 f2]
    refine sum_congr rfl fun k _ => ?_
    rw [eB, sum_mul, sum_mul, sum_mul]
    refine sum_congr rfl fun j hj => ?_
    rw [eA, sum_mul, sum_mul, sum_mul, sum_mul, sum_mul, sum_mul]
    refine sum_congr rfl fun i hi => ?_
    obtain ⟨m1, m2, m3⟩ := lex3_mod (k := k) (mem_range.1 hi) (mem_range.1 hj)
    rw [m1, m2, m3, show j * N + k * N * N + i = i + j * N + k * N * N by ring]
    ring

theorem elem_pert (hu1 : R.u < 1) {N : ℕ} (h0 : 0 < N) (C c X : ℕ → ℝ) :
    ∃ t : ℕ → ℝ, (∀ I < N * N * N, Pert R (3 * (N + 1)) (t I)) ∧
      elemApprox R N C c X = ∑ I ∈ range (N * N * N), c I * t I *
        (eval R (I % N) (X 0) * eval R (I / N % N) (X 1) * eval R (I / N / N) (X 2)) :=
  nest_pert hu1 h0 C c (fun i => eval R i (X 0)) (fun i => eval R i (X 1)) (fun i => eval R i (X 2))

/-- **C99 (element expansions).**  `LegendreElement::eval_approx` of an element with `N` functions per direction, at a point of the reference
cube and with any contents of the work array: the error is at most `(1 + E)³ (1 + γ) - 1` times the sum of the moduli of the coefficients,
`γ = 3 (N + 1) u / (1 - 3 (N + 1) u)`. -/
theorem C99_element (hu : 5 * R.u < 1) (N : ℕ) (h0 : 0 < N) (hb : 2 * N ≤ 2 ^ R.bits) (huN : 3 * (N + 1) * R.u < 1) (E : ℝ)
    (hE : E = 3 * (N * (N - 1 : ℕ)) * (5 * R.u / (1 - 5 * R.u))) (hE1 : E ≤ 1) (C c X : ℕ → ℝ) (hX : ∀ d < 3, |X d| ≤ 1) :
    |elemApprox R N C c X - ∑ I ∈ range (N * N * N), c I *
        (Verif.Legendre.eval (I % N) (X 0) * Verif.Legendre.eval (I / N % N) (X 1) * Verif.Legendre.eval (I / N / N) (X 2))| ≤
      ((1 + E) ^ 3 * (1 + 3 * (N + 1) * R.u / (1 - 3 * (N + 1) * R.u)) - 1) * ∑ I ∈ range (N * N * N), |c I| := by
  subst hE
  have hu1 : R.u < 1 := by linarith [R.u_nonneg]
  obtain ⟨t, ht, e⟩ := elem_pert hu1 h0 C c X
  rw [e, ← sum_sub_distrib, mul_sum]
  refine (abs_sum_le_sum_abs _ _).trans (sum_le_sum fun I hI => ?_)
  have hI := mem_range.1 hI
  have h1 : I % N < N := Nat.mod_lt _ h0
  have h2 : I / N % N < N := Nat.mod_lt _ h0
  have h3 : I / N / N < N := LegendreElement.idx2_lt hI
  obtain ⟨a1, a2⟩ := eval_close hu hb hE1 (hX 0 (by omega)) h1
  obtain ⟨b1, b2⟩ := eval_close hu hb hE1 (hX 1 (by omega)) h2
  obtain ⟨c1, c2⟩ := eval_close hu hb hE1 (hX 2 (by omega)) h3
  obtain ⟨k1, k2⟩ := prod3_close a1 b1 c1 a2 b2 c2
  have q := (ht I hI).err hu1 (by push_cast; exact huN)
  push_cast at q
  rw [show ∀ p p' : ℝ, c I * t I * p - c I * p' = ((t I - 1) * p + (p - p')) * c I by intros; ring, abs_mul]
  refine mul_le_mul_of_nonneg_right ?_ (abs_nonneg _)
  refine (abs_add_le _ _).trans ?_
  rw [abs_mul]
  have := mul_le_mul q k2 (abs_nonneg _) ((abs_nonneg _).trans q)
  linarith

/-- The hypotheses hold in double precision for an element of order nine, and the bound is `10^{-12}` times the sum of the moduli of the 1000
coefficients. -/
example (C c X : ℕ → ℝ) (hX : ∀ d < 3, |X d| ≤ 1) :
    |elemApprox Rounding.binary64 10 C c X - ∑ I ∈ range 1000, c I *
        (Verif.Legendre.eval (I % 10) (X 0) * Verif.Legendre.eval (I / 10 % 10) (X 1) * Verif.Legendre.eval (I / 10 / 10) (X 2))| ≤
      1 / 10 ^ 12 * ∑ I ∈ range 1000, |c I| := by
  have := C99_element (R := Rounding.binary64) (by rw [Rounding.binary64_u]; norm_num) 10 (by norm_num)
    (by rw [Rounding.binary64_bits]; norm_num) (by rw [Rounding.binary64_u]; norm_num) _ rfl
    (by rw [Rounding.binary64_u]; norm_num) C c X hX
  refine this.trans (mul_le_mul_of_nonneg_right ?_ (sum_nonneg fun _ _ => abs_nonneg _))
  rw [Rounding.binary64_u]; norm_num

end Verif.Fp.Legendre
