import Verif.Legendre.Element
import Verif.Legendre.Theorems
import Verif.LagrangeElement.Lemmas

/-!
# C15: `LegendreElement`

The specification uses the analytic derivative `deriv` of the Legendre functions of C12.
-/

namespace Verif.LegendreElement
open Verif.Legendre Verif.LagrangeElement Finset

theorem idx2_lt {N I : ℕ} (hI : I < N * N * N) : I / N / N < N := by
  rw [Nat.div_div_eq_div_mul]
  exact Nat.div_lt_of_lt_mul (by linarith [hI, Nat.mul_comm (N * N) N])

section Any
variable {K : Type*} [Field K]

/-- The basis functions over any field. -/
theorem basis_eq {N : ℕ} (hN : 0 < N) (hfit : N * N * N < 2 ^ 64) (X : ℕ → K) {I : ℕ} (hI : I < N * N * N) :
    evalBasis N I X = some (eval (I % N) (X 0) * eval (I / N % N) (X 1) * eval (I / N / N) (X 2)) := by
  unfold evalBasis
  rw [digits_eq hN hfit hI]

/-- Their gradients. -/
theorem gradBasis_eq (der : ℕ → K → K) {N : ℕ} (hN : 0 < N) (hfit : N * N * N < 2 ^ 64) (X : ℕ → K) {I : ℕ}
    (hI : I < N * N * N) :
    evalGradBasisAt der N I X = some
      (der (I % N) (X 0) * eval (I / N % N) (X 1) * eval (I / N / N) (X 2),
       eval (I % N) (X 0) * der (I / N % N) (X 1) * eval (I / N / N) (X 2),
       eval (I % N) (X 0) * eval (I / N % N) (X 1) * der (I / N / N) (X 2)) := by
  unfold evalGradBasisAt
  rw [digits_eq hN hfit hI]

theorem approx_sum (N : ℕ) (c : ℕ → K) (x : K) :
    Legendre.evalApprox N c x = ∑ j ∈ range N, c j * eval j x := by
  unfold Legendre.evalApprox
  rw [loop_add, zero_add]

/-- Value or derivative. -/
def bas (der : ℕ → K → K) (d : Bool) (n : ℕ) (x : K) : K := if d then der n x else eval n x

theorem line_sum (der : ℕ → K → K) (d : Bool) (N : ℕ) (c : ℕ → K) (x : K) :
    lineEvalAt der d N c x = ∑ j ∈ range N, c j * bas der d j x := by
  cases d
  · exact approx_sum N c x
  · show evalDerApproxAt der N c x = _
    unfold evalDerApproxAt
    rw [loop_add, zero_add]
    rfl

/-- The two nested loops with the shared work array compute the tensor contraction. -/
theorem nest (der : ℕ → K → K) (b0 b1 b2 : Bool) (N : ℕ) (C c X : ℕ → K) :
    lineEvalAt der b2 N (fun m => (loop N (fun k C =>
      let C := loop N (fun j C =>
        store C j (lineEvalAt der b0 N (fun m => c (j * N + k * N * N + m)) (X 0))) C
      store C (N + k) (lineEvalAt der b1 N C (X 1))) C) (N + m)) (X 2) =
    ∑ I ∈ range (N * N * N),
      c I * (bas der b0 (I % N) (X 0) * bas der b1 (I / N % N) (X 1) * bas der b2 (I / N / N) (X 2)) := by
  rw [← tensor_sum N c (fun i => bas der b0 i (X 0)) (fun i => bas der b1 i (X 1))
    (fun i => bas der b2 i (X 2)), line_sum]
  refine sum_congr rfl fun k hk => ?_
  congr 1
  have key := loop_inv (n := N) (s := C) (body := fun k C =>
      let C := loop N (fun j C =>
        store C j (lineEvalAt der b0 N (fun m => c (j * N + k * N * N + m)) (X 0))) C
      store C (N + k) (lineEvalAt der b1 N C (X 1)))
    (I := fun n (D : ℕ → K) => ∀ k < n, D (N + k) = ∑ j ∈ range N, (∑ i ∈ range N,
      c (i + j * N + k * N * N) * bas der b0 i (X 0)) * bas der b1 j (X 1)) (by simp) ?_
  · exact key k (mem_range.1 hk)
  · intro k D hk hD k' hk'
    simp only []
    rw [loop_store, line_sum der b1]
    by_cases hkk : k' = k
    · subst hkk
      rw [store_same]
      refine sum_congr rfl fun j hj => ?_
      rw [if_pos (mem_range.1 hj), line_sum]
      congr 1
      refine sum_congr rfl fun i _ => ?_
      congr 2; ring
    · rw [store_ne _ _ (by omega), if_neg (by omega)]
      exact hD k' (by omega)

/-- The approximation over any field. -/
theorem approx_eq (N : ℕ) (C c X : ℕ → K) :
    evalApprox N C c X =
      ∑ I ∈ range (N * N * N), c I * (eval (I % N) (X 0) * eval (I / N % N) (X 1) * eval (I / N / N) (X 2)) :=
  nest (fun _ _ => 0) false false false N C c X

/-- The gradient over any field. -/
theorem gradApprox_eq (der : ℕ → K → K) (N : ℕ) (C c X g : ℕ → K) :
    ∀ l < 3, (evalGradApproxAt der N C c X g).2 l = ∑ I ∈ range (N * N * N), c I * (bas der (l == 0) (I % N) (X 0) *
      bas der (l == 1) (I / N % N) (X 1) * bas der (l == 2) (I / N / N) (X 2)) := by
  refine loop_inv (n := 3) (I := fun n (s : (ℕ → K) × (ℕ → K)) => ∀ l < n, s.2 l =
    ∑ I ∈ range (N * N * N), c I * (bas der (l == 0) (I % N) (X 0) *
    bas der (l == 1) (I / N % N) (X 1) * bas der (l == 2) (I / N / N) (X 2))) (by simp) ?_
  intro l s hl hs l' hl'
  by_cases hll : l' = l
  · subst hll
    simp only [store_same]
    exact nest der (l' == 0) (l' == 1) (l' == 2) N s.1 c X
  · simp only []
    rw [store_ne _ _ hll]
    exact hs l' (by omega)

end Any

/-- Derivative factor of the specification. -/
noncomputable def dLeg (n : ℕ) (x : ℝ) : ℝ := deriv (fun y => eval n y) x

theorem evalDer_one (n : ℕ) (x : ℝ) : evalDer n 1 x = dLeg n x := by
  rw [(C13_legendre_der n 1 le_rfl x).1, iteratedDeriv_one, dLeg]

/-- **C15** (basis). `eval_basis(I, X)` and `eval_grad_basis(I, X)` are the tensor-product Legendre
function selected by the digits of `I` and its gradient. -/
theorem C15_basis {N : ℕ} (hN : 0 < N) (hfit : N * N * N < 2 ^ 64) (X : ℕ → ℝ) {I : ℕ}
    (hI : I < N * N * N) :
    evalBasis N I X = some (eval (I % N) (X 0) * eval (I / N % N) (X 1) * eval (I / N / N) (X 2)) ∧
    evalGradBasis N I X = some
      (dLeg (I % N) (X 0) * eval (I / N % N) (X 1) * eval (I / N / N) (X 2),
       eval (I % N) (X 0) * dLeg (I / N % N) (X 1) * eval (I / N / N) (X 2),
       eval (I % N) (X 0) * eval (I / N % N) (X 1) * dLeg (I / N / N) (X 2)) := by
  refine ⟨basis_eq hN hfit X hI, ?_⟩
  unfold evalGradBasis
  rw [gradBasis_eq derReal hN hfit X hI]
  simp only [derReal, evalDer_one]

/-- **C15** (approximation). For every coefficient array, point and initial work array, the
sum-factorised evaluation is the expansion in the values of `eval_basis`. -/
theorem C15_approx {N : ℕ} (hN : 0 < N) (hfit : N * N * N < 2 ^ 64) (C c X : ℕ → ℝ) :
    evalApprox N C c X = ∑ I ∈ range (N * N * N), c I * (evalBasis N I X).getD 0 := by
  rw [approx_eq]
  refine sum_congr rfl fun I hI => ?_
  rw [(C15_basis hN hfit X (mem_range.1 hI)).1]; rfl

/-- **C15** (gradient). Likewise for the gradient. -/
theorem C15_grad_approx {N : ℕ} (hN : 0 < N) (hfit : N * N * N < 2 ^ 64) (C c X g : ℕ → ℝ) :
    let r := (evalGradApprox N C c X g).2
    let b := fun I => (evalGradBasis N I X).getD (0, 0, 0)
    r 0 = ∑ I ∈ range (N * N * N), c I * (b I).1 ∧
    r 1 = ∑ I ∈ range (N * N * N), c I * (b I).2.1 ∧
    r 2 = ∑ I ∈ range (N * N * N), c I * (b I).2.2 := by
  intro r b
  have hr := gradApprox_eq derReal N C c X g
  have hb : ∀ I ∈ range (N * N * N), b I = _ := fun I hI =>
    congrArg (fun o => Option.getD o (0, 0, 0)) (gradBasis_eq derReal hN hfit X (mem_range.1 hI))
  refine ⟨?_, ?_, ?_⟩
  · rw [show r 0 = _ from hr 0 (by omega)]; exact sum_congr rfl fun I hI => by rw [hb I hI]; rfl
  · rw [show r 1 = _ from hr 1 (by omega)]; exact sum_congr rfl fun I hI => by rw [hb I hI]; rfl
  · rw [show r 2 = _ from hr 2 (by omega)]; exact sum_congr rfl fun I hI => by rw [hb I hI]; rfl

/-- **C15** (one-dimensional approximations).  `legendre::eval_approx` and `legendre::eval_der_approx` are the sums of
the coefficients times the polynomials and their `k`-th derivatives. -/
theorem C15_line (N k : ℕ) (hk : 1 ≤ k) (c : ℕ → ℝ) (x : ℝ) :
    Legendre.evalApprox N c x = ∑ j ∈ range N, c j * eval j x ∧
    evalDerApprox N k c x = ∑ j ∈ range N, c j * iteratedDeriv k (fun y => eval j y) x := by
  refine ⟨approx_sum N c x, ?_⟩
  unfold evalDerApprox evalDerApproxAt
  rw [loop_add, zero_add]
  exact sum_congr rfl fun j _ => by simp only [(C13_legendre_der j k hk x).1]

example : (0 : ℕ) < 4 ∧ 4 * 4 * 4 < 2 ^ 64 := by norm_num

end Verif.LegendreElement
