import Verif.Legendre.RecModel
import Mathlib.Data.Nat.Fib.Basic
import Mathlib.Tactic.Linarith
import Mathlib.Tactic.Push
import Mathlib.Tactic.NormNum

/-!
# C103: which orders the recursive evaluators come back for, and at what cost
-/

namespace Verif.Legendre.Rec
variable {K : Type*} [Field K]

/-- With fewer frames than orders, or an order below `-1`, the recursion does not come back. -/
theorem run_none (step : ℤ → K → K → K) : ∀ (S : ℕ) (n : ℤ), n < -1 ∨ (S : ℤ) ≤ max n 0 → run step S n = none
  | 0, _, _ => rfl
  | S + 1, n, h => by
    have h1 : n ≠ -1 := by omega
    have h0 : n ≠ 0 := by omega
    unfold run
    rw [if_neg h1, if_neg h0]
    split
    · rfl
    · rw [run_none step S (n - 1) (by omega)]; rfl

/-- With enough frames it comes back with the value of the recursion on naturals. -/
theorem run_some (step : ℤ → K → K → K) (val : ℕ → K) (hv0 : val 0 = 0) (hv1 : val 1 = 1)
    (hv : ∀ m : ℕ, val (m + 2) = step (m + 1 : ℕ) (val (m + 1)) (val m)) :
    ∀ (m S : ℕ), m ≤ S → 1 ≤ S → run step S ((m : ℤ) - 1) = some (val m, 2 * Nat.fib (m + 1) - 1) := by
  intro m
  induction m using Nat.strong_induction_on with
  | _ m ih =>
    intro S hS h1
    obtain ⟨S, rfl⟩ : ∃ t, S = t + 1 := ⟨S - 1, by omega⟩
    match m, ih, hS with
    | 0, _, _ => simp [run, hv0]
    | 1, _, _ => simp [run, hv1]
    | m + 2, ih, hS =>
      have e1 : ((m + 2 : ℕ) : ℤ) - 1 - 1 = ((m + 1 : ℕ) : ℤ) - 1 := by push_cast; ring
      have e2 : ((m + 2 : ℕ) : ℤ) - 1 - 2 = (m : ℤ) - 1 := by push_cast; ring
      unfold run
      rw [if_neg (by omega), if_neg (by omega), if_neg (by omega), e1, e2, ih (m + 1) (by omega) S (by omega) (by omega),
        ih m (by omega) S (by omega) (by omega)]
      have hf : Nat.fib (m + 2 + 1) = Nat.fib (m + 1) + Nat.fib (m + 1 + 1) := Nat.fib_add_two (n := m + 1)
      have p1 := Nat.fib_pos.2 (Nat.succ_pos m)
      have p2 := Nat.fib_pos.2 (Nat.succ_pos (m + 1))
      have e3 : ((m + 2 : ℕ) : ℤ) - 1 = (m + 1 : ℕ) := by push_cast; ring
      show some _ = some _
      rw [e3, ← hv]
      congr 2
      simp only [Nat.succ_eq_add_one] at p1 p2
      omega

/-- The exact range of orders. -/
theorem run_iff (step : ℤ → K → K → K) (val : ℕ → K) (hv0 : val 0 = 0) (hv1 : val 1 = 1)
    (hv : ∀ m : ℕ, val (m + 2) = step (m + 1 : ℕ) (val (m + 1)) (val m)) (S : ℕ) (n : ℤ) (r : K × ℕ) :
    run step S n = some r ↔ (-1 ≤ n ∧ max n 0 < S) ∧ r = (val (n + 1).toNat, 2 * Nat.fib (n + 2).toNat - 1) := by
  by_cases h : -1 ≤ n ∧ max n 0 < (S : ℤ)
  · obtain ⟨m, hm⟩ : ∃ m : ℕ, n = (m : ℤ) - 1 := ⟨(n + 1).toNat, by omega⟩
    subst hm
    rw [run_some step val hv0 hv1 hv m S (by omega) (by omega)]
    have e1 : ((m : ℤ) - 1 + 1).toNat = m := by omega
    have e2 : ((m : ℤ) - 1 + 2).toNat = m + 1 := by omega
    rw [e1, e2]
    have h' := h
    constructor
    · intro e; exact ⟨h', (Option.some.inj e).symm⟩
    · rintro ⟨-, e⟩; rw [e]
  · rw [run_none step S n (by omega)]
    constructor
    · intro e; cases e
    · exact fun e => absurd e.1 h

/-- **C103**: `legendre::eval(n, X)` comes back within `S` stack frames exactly for `-1 <= n < S` (`S > 0`); the value is the
Legendre polynomial, and the number of calls made is `2 F(n + 2) - 1` with the Fibonacci numbers `F`. -/
theorem C103_legendre (X : K) (S : ℕ) (n : ℤ) (v : K) (calls : ℕ) :
    eval X S n = some (v, calls) ↔
      (-1 ≤ n ∧ max n 0 < S) ∧ v = evalShift X (n + 1).toNat ∧ calls = 2 * Nat.fib (n + 2).toNat - 1 := by
  unfold eval
  rw [run_iff _ (evalShift X) rfl rfl (fun m => by simp only [evalShift, Int.cast_natCast])]
  simp only [Prod.mk.injEq]

/-- Order 3 in four frames: the value and nine calls. -/
example : eval (1 / 2 : ℚ) 4 3 = some (-7 / 16, 9) := by
  rw [C103_legendre]
  refine ⟨by norm_num, ?_, by decide⟩
  show _ = evalShift (1 / 2 : ℚ) 4
  simp only [evalShift]; norm_num
/-- Three frames are not enough, and order -2 needs a stack without end. -/
example : eval (1 / 2 : ℚ) 3 3 = none ∧ ∀ S, eval (1 / 2 : ℚ) S (-2) = none :=
  ⟨run_none _ _ _ (by omega), fun S => run_none _ _ _ (by omega)⟩

/-- The coefficients for a natural order are those of the model used for C14. -/
theorem a_nat (α β : K) (n : ℕ) : a α β n = ja α β n := by simp [a, ja]
theorem b_nat (α β : K) (n : ℕ) : b α β n = jb α β n := by simp [b, jb]
theorem c_nat (α β : K) (n : ℕ) : c α β n = jc α β n := by simp [c, jc]

/-- **C103**: the same for `jacobi::eval(n, alpha, beta, X)`. -/
theorem C103_jacobi (α β X : K) (S : ℕ) (n : ℤ) (v : K) (calls : ℕ) :
    jacobiEval α β X S n = some (v, calls) ↔
      (-1 ≤ n ∧ max n 0 < S) ∧ v = jacobiShift α β X (n + 1).toNat ∧ calls = 2 * Nat.fib (n + 2).toNat - 1 := by
  unfold jacobiEval
  rw [run_iff _ (jacobiShift α β X) rfl rfl (fun m => by simp only [jacobiShift, a_nat, b_nat, c_nat])]
  simp only [Prod.mk.injEq]

example : jacobiEval (1 : ℚ) 1 2 3 2 = some (jacobiShift 1 1 2 3, 5) := by
  rw [C103_jacobi]; exact ⟨by norm_num, rfl, by decide⟩

/-- **C103**: for `n, k >= 0` the derivative routine comes back exactly if it has a frame for every order from `n - k` down, or
if the derivative vanishes (`n = 0` or `k > n`); the value is that of C13 and C14. -/
theorem C103_derivative (α β X : ℝ) (S n k : ℕ) (hn : n < 2 ^ 31) (v : ℝ) (calls : ℕ) :
    jacobiEvalDer α β X S n k = some (v, calls) ↔
      (n = 0 ∨ n < k ∨ n - k < S) ∧ v = Legendre.jacobiEvalDer n k α β X ∧
        calls = if n = 0 ∨ n < k then 0 else 2 * Nat.fib (n - k + 2) - 1 := by
  unfold jacobiEvalDer Legendre.jacobiEvalDer
  by_cases h : n = 0 ∨ n < k
  · have h' : (n : ℤ) = 0 ∨ (k : ℤ) > n := by omega
    have h2 : n = 0 ∨ k > n := h
    have h3 : n = 0 ∨ n < k ∨ n - k < S := by omega
    rw [if_pos h', if_pos h2, if_pos h]
    simp only [Option.some.injEq, Prod.mk.injEq, h3, true_and]
    constructor <;> (rintro ⟨rfl, rfl⟩; exact ⟨rfl, rfl⟩)
  · have h' : ¬((n : ℤ) = 0 ∨ (k : ℤ) > n) := by omega
    have h2 : ¬(n = 0 ∨ k > n) := h
    have e : (n : ℤ) - k = (n - k : ℕ) := by omega
    rw [if_neg h', if_neg h2, if_neg h, if_neg (by omega), e]
    cases hr : jacobiEval (α + ((k : ℤ) : ℝ)) (β + ((k : ℤ) : ℝ)) X S ((n - k : ℕ) : ℤ) with
    | none =>
      have : ¬n - k < S := by
        intro hlt
        have := (C103_jacobi (α + ((k : ℤ) : ℝ)) (β + ((k : ℤ) : ℝ)) X S ((n - k : ℕ) : ℤ) _ _).2
          ⟨⟨by omega, by omega⟩, rfl, rfl⟩
        rw [hr] at this; cases this
      constructor
      · intro e; cases e
      · rintro ⟨h1, -⟩; omega
    | some r =>
      obtain ⟨h1, h3, h4⟩ := (C103_jacobi _ _ _ _ _ r.1 r.2).1 hr
      have e1 : ((n - k : ℕ) + 1 : ℤ).toNat = n - k + 1 := by omega
      have e2 : ((n - k : ℕ) + 2 : ℤ).toNat = n - k + 2 := by omega
      rw [e1] at h3
      rw [e2] at h4
      have h5 : n = 0 ∨ n < k ∨ n - k < S := by omega
      simp only [Option.bind_eq_bind, Option.bind_some, Option.pure_def, Option.some.injEq, Prod.mk.injEq, h5, true_and, h3, h4,
        Legendre.jacobiEval, Int.cast_natCast, zpow_natCast]
      constructor <;> (rintro ⟨rfl, rfl⟩; exact ⟨rfl, rfl⟩)

/-- The third derivative at order 5 needs three frames and five calls. -/
example : ∃ v, jacobiEvalDer 0 0 1 3 (5 : ℕ) (3 : ℕ) = some (v, 5) :=
  ⟨_, (C103_derivative 0 0 1 3 5 3 (by norm_num) _ _).2 ⟨by norm_num, rfl, by norm_num [Nat.fib_add_two]⟩⟩

/-- The loop index survives the conversion to `int` below 2^31. -/
theorem toInt_of_lt {j : ℕ} (h : j < 2 ^ 31) : toInt j = j := by unfold toInt; rw [Int.bmod_def]; omega

/-- **C103**: `legendre::eval_approx` with `N` coefficients comes back within `S` frames exactly for `N <= S`, `N <= 2^31`; the value
is the expansion of C12, and `2 F(N + 3) - N - 4` calls of `legendre::eval` are made. -/
theorem C103_approx (N : ℕ) (co : ℕ → K) (X : K) (S : ℕ) (v : K) (calls : ℕ) :
    evalApprox N co X S = some (v, calls) ↔
      (N ≤ S ∧ N ≤ 2 ^ 31) ∧ v = Legendre.evalApprox N co X ∧ calls = 2 * Nat.fib (N + 3) - N - 4 := by
  have pos : ∀ N, N ≤ S → N ≤ 2 ^ 31 →
      evalApprox N co X S = some (Legendre.evalApprox N co X, 2 * Nat.fib (N + 3) - N - 4) := by
    intro N
    induction N with
    | zero => intro _ _; simp [evalApprox, Legendre.evalApprox, Nat.fib_add_two]
    | succ N ih =>
      intro h1 h2
      have ih := ih (by omega) (by omega)
      have he := (C103_legendre X S (N : ℤ) _ _).2 ⟨⟨by omega, by omega⟩, rfl, rfl⟩
      have e1 : ((N : ℤ) + 1).toNat = N + 1 := by omega
      have e2 : ((N : ℤ) + 2).toNat = N + 2 := by omega
      rw [e1, e2] at he
      unfold evalApprox at ih ⊢
      rw [loopM_succ, ih]
      simp only [Option.bind_eq_bind, Option.bind_some, toInt_of_lt (show N < 2 ^ 31 by omega), he, Option.pure_def]
      have hf : Nat.fib (N + 1 + 3) = Nat.fib (N + 2) + Nat.fib (N + 3) := Nat.fib_add_two (n := N + 2)
      have hg : N + 4 ≤ 2 * Nat.fib (N + 3) := by
        clear * -
        induction N with
        | zero => simp [Nat.fib_add_two]
        | succ N ih =>
          have := Nat.fib_add_two (n := N + 2)
          have p := Nat.fib_pos.2 (show 0 < N + 2 by omega)
          have e : N + 1 + 3 = N + 2 + 2 := by omega
          rw [e, this]; have : N + 2 + 1 = N + 3 := by omega
          rw [this]; omega
      have p := Nat.fib_pos.2 (show 0 < N + 2 by omega)
      congr 2
      omega
  have neg : ∀ N, ¬(N ≤ S ∧ N ≤ 2 ^ 31) → evalApprox N co X S = none := by
    intro N
    induction N with
    | zero => intro h; omega
    | succ N ih =>
      intro h
      unfold evalApprox at ih ⊢
      rw [loopM_succ]
      by_cases h' : N ≤ S ∧ N ≤ 2 ^ 31
      · have hb : eval X S (toInt N) = none := by
          apply run_none
          by_cases h3 : N < 2 ^ 31
          · rw [toInt_of_lt h3]; omega
          · left; unfold toInt; rw [Int.bmod_def]; omega
        cases hl : loopM N (fun j s => do
          let v ← eval X S (toInt j)
          pure (s.1 + co j * v.1, s.2 + v.2)) ((0, 0) : K × ℕ) with
        | none => rfl
        | some r => simp [hb]
      · rw [ih h']; rfl
  by_cases h : N ≤ S ∧ N ≤ 2 ^ 31
  · rw [pos N h.1 h.2]
    simp only [Option.some.injEq, Prod.mk.injEq, h, true_and]
    constructor <;> (rintro ⟨rfl, rfl⟩; exact ⟨rfl, rfl⟩)
  · rw [neg N h]
    constructor
    · intro e; cases e
    · exact fun e => absurd e.1 h

example : evalApprox 3 (fun _ => 1) (1 : ℚ) 3 = some (3, 9) := by
  rw [C103_approx]; simp [Legendre.evalApprox, Legendre.eval, evalShift, Nat.fib_add_two, loop]; norm_num

/-- **C103**: `legendre::eval_der_approx` with `N` coefficients and a derivative of order `k >= 1` comes back within `S` frames
exactly for `N <= k + S`; the value is the derivative of the expansion (C13), and the terms below order `k` cost no call of
`jacobi::eval`. -/
theorem C103_der_approx (N k : ℕ) (hk : 1 ≤ k) (hk' : k < 2 ^ 31) (hN : N ≤ 2 ^ 31) (co : ℕ → ℝ) (X : ℝ) (S : ℕ) (v : ℝ) (calls : ℕ) :
    evalDerApprox N k co X S = some (v, calls) ↔
      N ≤ k + S ∧ v = Legendre.evalDerApprox N k co X ∧ calls = 2 * Nat.fib (N - k + 3) - (N - k) - 4 := by
  have hf : ∀ N, N + 4 ≤ 2 * Nat.fib (N + 3) := by
    intro N
    induction N with
    | zero => simp [Nat.fib_add_two]
    | succ N ih =>
      have := Nat.fib_add_two (n := N + 2)
      have p := Nat.fib_pos.2 (show 0 < N + 2 by omega)
      have e : N + 1 + 3 = N + 2 + 2 := by omega
      rw [e, this]; have : N + 2 + 1 = N + 3 := by omega
      rw [this]; omega
  have pos : ∀ N, N ≤ 2 ^ 31 → N ≤ k + S →
      evalDerApprox N k co X S = some (Legendre.evalDerApprox N k co X, 2 * Nat.fib (N - k + 3) - (N - k) - 4) := by
    intro N
    induction N with
    | zero => intro _ _; simp [evalDerApprox, Legendre.evalDerApprox, Legendre.evalDerApproxAt, Nat.fib_add_two]
    | succ N ih =>
      intro h1 h2
      have ih := ih (by omega) (by omega)
      have he := (C103_derivative 0 0 X S N k (by omega) _ _).2 ⟨by omega, rfl, rfl⟩
      unfold evalDerApprox at ih ⊢
      rw [loopM_succ, ih]
      simp only [Option.bind_eq_bind, Option.bind_some, toInt_of_lt (show N < 2 ^ 31 by omega), toInt_of_lt hk', he, Option.pure_def]
      congr 2
      by_cases h : N < k
      · rw [if_pos (Or.inr h), show N - k = 0 by omega, show N + 1 - k = 0 by omega]; rfl
      · rw [if_neg (by omega), show N + 1 - k = N - k + 1 by omega]
        have h3 : Nat.fib (N - k + 1 + 3) = Nat.fib (N - k + 2) + Nat.fib (N - k + 3) := Nat.fib_add_two (n := N - k + 2)
        have := hf (N - k)
        have p := Nat.fib_pos.2 (show 0 < N - k + 2 by omega)
        omega
  have neg : ∀ N, N ≤ 2 ^ 31 → ¬N ≤ k + S → evalDerApprox N k co X S = none := by
    intro N
    induction N with
    | zero => intro _ h; omega
    | succ N ih =>
      intro h1 h
      unfold evalDerApprox at ih ⊢
      rw [loopM_succ]
      by_cases h' : N ≤ k + S
      · have hb : jacobiEvalDer 0 0 X S (toInt N) (toInt k) = none := by
          rw [toInt_of_lt (show N < 2 ^ 31 by omega), toInt_of_lt hk']
          cases hr : jacobiEvalDer 0 0 X S N k with
          | none => rfl
          | some r =>
            have := ((C103_derivative 0 0 X S N k (by omega) r.1 r.2).1 hr).1
            omega
        cases hl : loopM N (fun j s => do
          let v ← jacobiEvalDer 0 0 X S (toInt j) (toInt k)
          pure (s.1 + co j * v.1, s.2 + v.2)) ((0, 0) : ℝ × ℕ) with
        | none => rfl
        | some r => simp [hb]
      · rw [ih (by omega) h']; rfl
  by_cases h : N ≤ k + S
  · rw [pos N hN h]
    simp only [Option.some.injEq, Prod.mk.injEq, h, true_and]
    constructor <;> (rintro ⟨rfl, rfl⟩; exact ⟨rfl, rfl⟩)
  · rw [neg N hN h]
    constructor
    · intro e; cases e
    · exact fun e => absurd e.1 h

/-- The slope of an expansion in five polynomials: four frames, `1 + 3 + 5 + 9` calls. -/
example (co : ℕ → ℝ) (X : ℝ) : ∃ v, evalDerApprox 5 1 co X 4 = some (v, 18) ∧ evalDerApprox 5 1 co X 3 = none := by
  refine ⟨_, (C103_der_approx 5 1 (by norm_num) (by norm_num) (by norm_num) co X 4 _ _).2 ⟨by norm_num, rfl, by norm_num [Nat.fib_add_two]⟩, ?_⟩
  cases h : evalDerApprox 5 1 co X 3 with
  | none => rfl
  | some r => have := ((C103_der_approx 5 1 (by norm_num) (by norm_num) (by norm_num) co X 3 r.1 r.2).1 h).1; omega

/-- **C103**: the cost is exponential in the order: at least `(3/2)^n` calls. -/
theorem C103_exponential (X : K) (S : ℕ) (n : ℕ) (v : K) (calls : ℕ) (h : eval X S n = some (v, calls)) :
    (3 / 2 : ℚ) ^ n ≤ calls := by
  obtain ⟨-, -, hc⟩ := (C103_legendre X S n v calls).1 h
  have e : ((n : ℤ) + 2).toNat = n + 2 := by omega
  rw [e] at hc
  have key : ∀ n : ℕ, (3 / 2 : ℚ) ^ n ≤ 2 * (Nat.fib (n + 2) : ℚ) - 1 ∧
      (3 / 2 : ℚ) ^ (n + 1) ≤ 2 * (Nat.fib (n + 3) : ℚ) - 1 := by
    intro n
    induction n with
    | zero => norm_num [Nat.fib_add_two]
    | succ n ih =>
      refine ⟨ih.2, ?_⟩
      have hf : Nat.fib (n + 1 + 3) = Nat.fib (n + 2) + Nat.fib (n + 3) := Nat.fib_add_two (n := n + 2)
      rw [hf]; push_cast
      have := ih.1; have := ih.2
      have p : (0 : ℚ) ≤ (3 / 2) ^ n := by positivity
      rw [pow_succ] at *
      rw [pow_succ] at *
      linarith
  have p := Nat.fib_pos.2 (show 0 < n + 2 by omega)
  have : (calls : ℚ) = 2 * (Nat.fib (n + 2) : ℚ) - 1 := by
    rw [hc, Nat.cast_sub (by omega)]; push_cast; ring
  rw [this]; exact (key n).1

/-- Order 60 takes more than eight million million calls. -/
example (X : ℚ) : ∃ v, eval X 61 60 = some (v, 8105479075761) := by
  refine ⟨_, (C103_legendre X 61 60 _ _).2 ⟨by norm_num, rfl, ?_⟩⟩
  show 8105479075761 = 2 * Nat.fib 62 - 1
  rw [Nat.fib_eq_fastFib]; decide +kernel

end Verif.Legendre.Rec
