import Verif.Lagrange.Lemmas
import Mathlib.Tactic.NormNum
import Mathlib.Tactic.IntervalCases
import Mathlib.Data.Rat.Defs
import Mathlib.Algebra.Order.Ring.Rat

/-!
# C05 - C08: one-dimensional Lagrange interpolation (`elements/lagrange_polynomials.cpp`)

Independent specification: Mathlib's `Lagrange.basis`, `Lagrange.interpolate` (the unique
polynomials of degree below `N` with given values) and `Polynomial.derivative`.
-/

namespace Verif.Lagrange
open Polynomial Finset
variable {K : Type*} [Field K]

/-! ## C05 -/

/-- **C05** (unique match). If `z j` is the only vertex within tolerance of `x`, the search returns
`j`. -/
theorem C05_unique [LinearOrder K] (tol : K) (N : ℕ) (hN : N < 2 ^ 64) (z : ℕ → K) (x : K)
    (j : ℕ) (hj : j < N) (h : |z j - x| < tol) (hu : ∀ k < N, k ≠ j → tol ≤ |z k - x|) :
    (findCoincidentVertex tol N z x).toNat = j :=
  find_unique tol N hN z x j hj h fun k hk hkj => not_lt.2 (hu k hk hkj)

/-- **C05** (no match). If no vertex is within tolerance the result is `SizeType(-1)`, which is not
a valid vertex. -/
theorem C05_none [LinearOrder K] (tol : K) (N : ℕ) (hN : N < 2 ^ 64) (z : ℕ → K) (x : K)
    (h : ∀ k < N, tol ≤ |z k - x|) :
    (findCoincidentVertex tol N z x).toNat = 2 ^ 64 - 1 ∧
      ¬ (findCoincidentVertex tol N z x).toNat < N := by
  have := find_none tol N z x fun k hk => not_lt.2 (h k hk)
  exact ⟨this, by omega⟩

/-- **C05** (several matches). With two vertices within tolerance the returned index need not be
one of them: here vertices 0 and 1 match `x` and vertex 2 is returned. -/
theorem C05_two_matches :
    ∃ (z : ℕ → ℚ) (x tol : ℚ), |z 0 - x| < tol ∧ |z 1 - x| < tol ∧ ¬ |z 2 - x| < tol ∧
      (findCoincidentVertex tol 3 z x).toNat = 2 := by
  refine ⟨fun j => if j = 2 then 10 else 0, 0, 1, by norm_num, by norm_num, by norm_num, ?_⟩
  rw [find_toNat]
  simp [sum_range_succ]

example : (findCoincidentVertex (1/100 : ℚ) 3 (fun j => (j : ℚ)) (1 + 1/1000)).toNat = 1 :=
  C05_unique _ 3 (by norm_num) _ _ 1 (by norm_num) (by norm_num [abs_lt]) (by
    intro k hk hk1
    interval_cases k
    · rw [le_abs]; right; norm_num
    · exact absurd rfl hk1
    · rw [le_abs]; left; norm_num)

/-! ## C06 -/

section
variable [LinearOrder K] [IsStrictOrderedRing K]

theorem injOn_of_sep {tol : K} (htol : 0 < tol) {N : ℕ} {Z : ℕ → K}
    (hsep : ∀ j < N, ∀ k < N, j ≠ k → 2 * tol ≤ |Z j - Z k|) : Set.InjOn Z (range N) := by
  intro a ha b hb hab
  by_contra hne
  have := hsep a (by simpa using ha) b (by simpa using hb) hne
  rw [hab, sub_self, abs_zero] at this
  linarith

theorem find_of_near {tol : K} {N : ℕ} (hN : N < 2 ^ 64) {Z : ℕ → K}
    (hsep : ∀ j < N, ∀ k < N, j ≠ k → 2 * tol ≤ |Z j - Z k|) {X : K} {j : ℕ} (hj : j < N)
    (h : |Z j - X| < tol) : (findCoincidentVertex tol N Z X).toNat = j := by
  refine C05_unique tol N hN Z X j hj h fun k hk hkj => ?_
  have h1 := hsep k hk j hj hkj
  have h2 : |Z k - Z j| ≤ |Z k - X| + |Z j - X| := by
    have : Z k - Z j = (Z k - X) - (Z j - X) := by ring
    rw [this]; exact abs_sub _ _
  linarith

/-- **C06**. For vertices separated by at least twice the coincidence tolerance and every `X` that
is a vertex or at least `tol` away from all of them, the full evaluation pipeline (weights, vertex
search, barycentric formula) returns the `i`-th Lagrange basis polynomial at `X`. -/
theorem C06_eval (tol : K) (htol : 0 < tol) (N : ℕ) (hN : N < 2 ^ 64) (Z w0 : ℕ → K)
    (hsep : ∀ j < N, ∀ k < N, j ≠ k → 2 * tol ≤ |Z j - Z k|) (i : ℕ) (hi : i < N) (X : K)
    (hX : ∀ j < N, X = Z j ∨ tol ≤ |Z j - X|) :
    eval N i (findCoincidentVertex tol N Z X).toNat Z (computeBarycentricWeights N Z w0) X =
      (Lagrange.basis (range N) Z i).eval X := by
  have hinj := injOn_of_sep htol hsep
  by_cases hex : ∃ j < N, X = Z j
  · obtain ⟨j, hj, rfl⟩ := hex
    rw [find_of_near hN hsep hj (by simpa using htol), eval, if_pos hj]
    by_cases hij : i = j
    · subst hij; rw [if_pos rfl, Lagrange.eval_basis_self hinj (mem_range.2 hi)]
    · rw [if_neg hij, Lagrange.eval_basis_of_ne hij (mem_range.2 hj)]
  · have hne : ∀ j < N, X ≠ Z j := fun j hj h => hex ⟨j, hj, h⟩
    have hfar : ∀ j < N, tol ≤ |Z j - X| := fun j hj => (hX j hj).resolve_left (hne j hj)
    rw [eval, if_neg (C05_none tol N hN Z X hfar).2, nodal_loop, weights_eq N Z w0 i hi,
      Lagrange.eval_basis_not_at_node (mem_range.2 hi) (hne i hi)]
    rw [div_eq_mul_inv]; ring

/-- **C06** (within tolerance). When `X` is within tolerance of vertex `j` the value returned is
the basis polynomial at that vertex: the Kronecker delta. -/
theorem C06_eval_near (tol : K) (htol : 0 < tol) (N : ℕ) (hN : N < 2 ^ 64) (Z w0 : ℕ → K)
    (hsep : ∀ j < N, ∀ k < N, j ≠ k → 2 * tol ≤ |Z j - Z k|) (i : ℕ) (hi : i < N) (X : K)
    (j : ℕ) (hj : j < N) (hX : |Z j - X| < tol) :
    eval N i (findCoincidentVertex tol N Z X).toNat Z (computeBarycentricWeights N Z w0) X =
      (Lagrange.basis (range N) Z i).eval (Z j) ∧
    eval N i (findCoincidentVertex tol N Z X).toNat Z (computeBarycentricWeights N Z w0) X =
      if i = j then 1 else 0 := by
  have hinj := injOn_of_sep htol hsep
  rw [find_of_near hN hsep hj hX, eval, if_pos hj]
  refine ⟨?_, rfl⟩
  by_cases hij : i = j
  · subst hij; rw [if_pos rfl, Lagrange.eval_basis_self hinj (mem_range.2 hi)]
  · rw [if_neg hij, Lagrange.eval_basis_of_ne hij (mem_range.2 hj)]

/-- **C06** (uniqueness). Any polynomial of degree below `N` that is 1 at vertex `i` and 0 at the
other vertices agrees with the code. -/
theorem C06_unique (tol : K) (htol : 0 < tol) (N : ℕ) (hN : N < 2 ^ 64) (Z w0 : ℕ → K)
    (hsep : ∀ j < N, ∀ k < N, j ≠ k → 2 * tol ≤ |Z j - Z k|) (i : ℕ) (hi : i < N)
    (p : K[X]) (hp : p.degree < (N : WithBot ℕ))
    (hval : ∀ j < N, p.eval (Z j) = if i = j then 1 else 0) (X : K)
    (hX : ∀ j < N, X = Z j ∨ tol ≤ |Z j - X|) :
    eval N i (findCoincidentVertex tol N Z X).toNat Z (computeBarycentricWeights N Z w0) X =
      p.eval X := by
  have hinj := injOn_of_sep htol hsep
  rw [C06_eval tol htol N hN Z w0 hsep i hi X hX]
  congr 1
  symm
  refine eq_of_degrees_lt_of_eval_index_eq (s := range N) (v := Z) hinj
    (by rw [card_range]; exact hp) ?_ ?_
  · rw [card_range, Lagrange.degree_basis hinj (mem_range.2 hi), card_range]
    exact_mod_cast (by omega : N - 1 < N)
  · intro j hj
    rw [hval j (mem_range.1 hj)]
    by_cases hij : i = j
    · subst hij; rw [if_pos rfl, Lagrange.eval_basis_self hinj hj]
    · rw [if_neg hij, Lagrange.eval_basis_of_ne hij hj]

end

/-- Hypotheses of C06 on a concrete case: vertices 0,1,2, point 1/2, tolerance 1/100. -/
example : eval 3 1 (findCoincidentVertex (1/100 : ℚ) 3 (fun j => (j : ℚ)) (1/2)).toNat
    (fun j => (j : ℚ)) (computeBarycentricWeights 3 (fun j => (j : ℚ)) 0) (1/2) =
      (Lagrange.basis (range 3) (fun j => (j : ℚ)) 1).eval (1/2) := by
  refine C06_eval (1/100) (by norm_num) 3 (by norm_num) _ 0 ?_ 1 (by norm_num) (1/2) ?_
  · intro j hj k hk hjk
    interval_cases j <;> interval_cases k <;> first | exact absurd rfl hjk | norm_num [le_abs]
  · intro j hj; right
    interval_cases j <;> norm_num [le_abs]

/-! ## C07 -/

section
variable [LinearOrder K] [IsStrictOrderedRing K]

/-- **C07**. `eval_interp` evaluates the interpolating polynomial of the data. -/
theorem C07_interp (tol : K) (htol : 0 < tol) (N : ℕ) (hN : N < 2 ^ 64) (Z w0 c : ℕ → K)
    (hsep : ∀ j < N, ∀ k < N, j ≠ k → 2 * tol ≤ |Z j - Z k|) (X : K)
    (hX : ∀ j < N, X = Z j ∨ tol ≤ |Z j - X|) :
    evalInterp N (findCoincidentVertex tol N Z X).toNat Z (computeBarycentricWeights N Z w0) X c =
      (Lagrange.interpolate (range N) Z c).eval X := by
  have hinj := injOn_of_sep htol hsep
  by_cases hex : ∃ j < N, X = Z j
  · obtain ⟨j, hj, rfl⟩ := hex
    rw [find_of_near hN hsep hj (by simpa using htol), evalInterp, if_pos hj,
      Lagrange.eval_interpolate_at_node c hinj (mem_range.2 hj)]
  · have hne : ∀ j < N, X ≠ Z j := fun j hj h => hex ⟨j, hj, h⟩
    have hfar : ∀ j < N, tol ≤ |Z j - X| := fun j hj => (hX j hj).resolve_left (hne j hj)
    rw [evalInterp, if_neg (C05_none tol N hN Z X hfar).2, pL_loop]
    exact interp_nonco N Z _ c X (fun j hj => weights_eq N Z w0 j hj) hne

/-- **C07** (reproduction). Every polynomial of degree below `N` is reproduced from its vertex
values. -/
theorem C07_reproduces (tol : K) (htol : 0 < tol) (N : ℕ) (hN : N < 2 ^ 64) (Z w0 : ℕ → K)
    (hsep : ∀ j < N, ∀ k < N, j ≠ k → 2 * tol ≤ |Z j - Z k|) (X : K)
    (hX : ∀ j < N, X = Z j ∨ tol ≤ |Z j - X|) (p : K[X]) (hp : p.degree < (N : WithBot ℕ)) :
    evalInterp N (findCoincidentVertex tol N Z X).toNat Z (computeBarycentricWeights N Z w0) X
      (fun j => p.eval (Z j)) = p.eval X := by
  rw [C07_interp tol htol N hN Z w0 _ hsep X hX,
    ← Lagrange.eq_interpolate (injOn_of_sep htol hsep) (by rw [card_range]; exact hp)]

/-- **C07** (expansion). The interpolant is the combination of the values returned by `eval`. -/
theorem C07_expansion (tol : K) (htol : 0 < tol) (N : ℕ) (hN : N < 2 ^ 64) (Z w0 c : ℕ → K)
    (hsep : ∀ j < N, ∀ k < N, j ≠ k → 2 * tol ≤ |Z j - Z k|) (X : K)
    (hX : ∀ j < N, X = Z j ∨ tol ≤ |Z j - X|) :
    let ic := (findCoincidentVertex tol N Z X).toNat
    let w := computeBarycentricWeights N Z w0
    evalInterp N ic Z w X c = ∑ j ∈ range N, c j * eval N j ic Z w X := by
  intro ic w
  rw [C07_interp tol htol N hN Z w0 c hsep X hX, Lagrange.interpolate_apply, eval_finsetSum]
  refine sum_congr rfl fun j hj => ?_
  rw [eval_mul, eval_C, C06_eval tol htol N hN Z w0 hsep j (mem_range.1 hj) X hX]

/-- **C07** (partition of unity). -/
theorem C07_partition (tol : K) (htol : 0 < tol) (N : ℕ) (hN : N < 2 ^ 64) (hpos : 0 < N)
    (Z w0 : ℕ → K) (hsep : ∀ j < N, ∀ k < N, j ≠ k → 2 * tol ≤ |Z j - Z k|) (X : K)
    (hX : ∀ j < N, X = Z j ∨ tol ≤ |Z j - X|) :
    ∑ j ∈ range N, eval N j (findCoincidentVertex tol N Z X).toNat Z
      (computeBarycentricWeights N Z w0) X = 1 := by
  have h1 := C07_expansion tol htol N hN Z w0 (fun _ => 1) hsep X hX
  have h2 := C07_reproduces tol htol N hN Z w0 hsep X hX 1
    (by rw [degree_one]; exact_mod_cast hpos)
  simp only [eval_one, one_mul] at h1 h2
  rw [← h1, h2]

end

/-- A concrete case of C07: the quadratic `X^2` through 0, 1, 2 evaluated at 3. -/
example : evalInterp 3 (findCoincidentVertex (1/100 : ℚ) 3 (fun j => (j : ℚ)) 3).toNat
    (fun j => (j : ℚ)) (computeBarycentricWeights 3 (fun j => (j : ℚ)) 0) 3
      (fun j => (X ^ 2 : ℚ[X]).eval (j : ℚ)) = (X ^ 2 : ℚ[X]).eval 3 := by
  refine C07_reproduces (1/100) (by norm_num) 3 (by norm_num) _ 0 ?_ 3 ?_ (X ^ 2) ?_
  · intro j hj k hk hjk
    interval_cases j <;> interval_cases k <;> first | exact absurd rfl hjk | norm_num [le_abs]
  · intro j hj; right
    interval_cases j <;> norm_num [le_abs]
  · rw [degree_X_pow]; exact_mod_cast (by norm_num : 2 < 3)

/-! ## C08 -/

section
variable {N : ℕ} {Z : ℕ → K}

/-- Value of the derivative routine for orders 1 and 2, in terms of the routine's `i` argument. -/
theorem der_core (hZ : Set.InjOn Z (range N)) (w0 c : ℕ → K) (ic : ℕ) (X : K)
    (hic : (ic < N ∧ X = Z ic) ∨ (¬ ic < N ∧ ∀ j < N, X ≠ Z j)) (n : ℕ) (hn : n = 1 ∨ n = 2) :
    evalDerInterp N n ic Z (computeBarycentricWeights N Z w0) X c =
      (derivative^[n] (Lagrange.interpolate (range N) Z c)).eval X := by
  set w := computeBarycentricWeights N Z w0 with hwdef
  set p := Lagrange.interpolate (range N) Z c with hp
  have hw : ∀ j < N, w j = Lagrange.nodalWeight (range N) Z j :=
    fun j hj => weights_eq N Z w0 j hj
  have hdeg : p.degree < (N : WithBot ℕ) := by
    have := Lagrange.degree_interpolate_lt (r := c) hZ
    rwa [card_range] at this
  have hpc : ∀ j < N, p.eval (Z j) = c j := fun j hj =>
    Lagrange.eval_interpolate_at_node c hZ (mem_range.2 hj)
  have hdeg2 := (dd_degree_lt p X hdeg).1
  rcases hic with ⟨hic, rfl⟩ | ⟨hic, hX⟩
  · rw [evalDerInterp, evalDerRun, if_pos hic]
    obtain ⟨m1, d1, e1, c1⟩ := costep_spec hZ hw hic p hdeg 1
      ⟨c, c ic, 0, 1⟩ (hpc ic hic).symm (fun j hj _ => (hpc j hj).symm)
    rcases hn with rfl | rfl
    · show (derStepCoincident N ic Z w (0 + 1) ⟨c, c ic, 0, 1⟩).dnp = _
      rw [Nat.zero_add, e1, d1, dd_eval_self]
      simp
    · show (derStepCoincident N ic Z w (1 + 1)
        (derStepCoincident N ic Z w (0 + 1) ⟨c, c ic, 0, 1⟩)).dnp = _
      obtain ⟨-, d2, e2, -⟩ := costep_spec hZ hw hic (dd p (Z ic)) hdeg2 2
        (derStepCoincident N ic Z w 1 ⟨c, c ic, 0, 1⟩) (by rw [d1]; simp) c1
      rw [Nat.zero_add, e2, d2, m1, dd_eval_self]
      simpa using dd_eval_deriv p (Z ic)
  · rw [evalDerInterp, evalDerRun, if_neg hic, pL_loop]
    simp only []
    rw [interp_nonco N Z w c X hw hX]
    obtain ⟨m1, d1, e1, c1⟩ := noncostep_spec hZ hw hX p hdeg 1
      ⟨c, p.eval X, 0, 1⟩ rfl (fun j hj => (hpc j hj).symm)
    rcases hn with rfl | rfl
    · show (derStepNonCoincident N Z w X _ (0 + 1) ⟨c, p.eval X, 0, 1⟩).dnp = _
      rw [Nat.zero_add, e1, d1, dd_eval_self]
      simp
    · show (derStepNonCoincident N Z w X _ (1 + 1)
        (derStepNonCoincident N Z w X _ (0 + 1) ⟨c, p.eval X, 0, 1⟩)).dnp = _
      obtain ⟨-, d2, e2, -⟩ := noncostep_spec hZ hw hX (dd p X) hdeg2 2
        (derStepNonCoincident N Z w X ((Lagrange.nodal (range N) Z).eval X) 1
          ⟨c, p.eval X, 0, 1⟩) (by rw [d1]; simp) c1
      rw [Nat.zero_add, e2, d2, m1, dd_eval_self]
      simpa using dd_eval_deriv p X

end

section
variable [LinearOrder K] [IsStrictOrderedRing K]

/-- **C08**, orders 1 and 2 (the full statement is for every order `n ≥ 1`; it is false from
order 3 on, see `C08_negation`). `eval_der_interp` returns the `n`-th derivative of the
interpolating polynomial, at vertices and elsewhere. -/
theorem C08_der_interp_partial (tol : K) (htol : 0 < tol) (N : ℕ) (hN : N < 2 ^ 64)
    (Z w0 c : ℕ → K) (hsep : ∀ j < N, ∀ k < N, j ≠ k → 2 * tol ≤ |Z j - Z k|) (X : K)
    (hX : ∀ j < N, X = Z j ∨ tol ≤ |Z j - X|) (n : ℕ) (hn : n = 1 ∨ n = 2) :
    evalDerInterp N n (findCoincidentVertex tol N Z X).toNat Z
      (computeBarycentricWeights N Z w0) X c =
      (derivative^[n] (Lagrange.interpolate (range N) Z c)).eval X := by
  refine der_core (injOn_of_sep htol hsep) w0 c _ X ?_ n hn
  by_cases hex : ∃ j < N, X = Z j
  · obtain ⟨j, hj, rfl⟩ := hex
    left
    rw [find_of_near hN hsep hj (by simpa using htol)]
    exact ⟨hj, rfl⟩
  · have hne : ∀ j < N, X ≠ Z j := fun j hj h => hex ⟨j, hj, h⟩
    exact Or.inr ⟨(C05_none tol N hN Z X
      fun j hj => (hX j hj).resolve_left (hne j hj)).2, hne⟩

/-- **C08** for basis functions, orders 1 and 2. `c` is the work array, any content. -/
theorem C08_der_basis_partial (tol : K) (htol : 0 < tol) (N : ℕ) (hN : N < 2 ^ 64)
    (Z w0 c : ℕ → K) (hsep : ∀ j < N, ∀ k < N, j ≠ k → 2 * tol ≤ |Z j - Z k|) (X : K)
    (hX : ∀ j < N, X = Z j ∨ tol ≤ |Z j - X|) (n : ℕ) (hn : n = 1 ∨ n = 2) (i : ℕ) (hi : i < N) :
    evalDer N n i (findCoincidentVertex tol N Z X).toNat Z
      (computeBarycentricWeights N Z w0) X c =
      (derivative^[n] (Lagrange.basis (range N) Z i)).eval X := by
  unfold evalDer
  rw [loop_store, C08_der_interp_partial tol htol N hN Z w0 _ hsep X hX n hn]
  congr 2
  rw [Lagrange.interpolate_apply, sum_eq_single i]
  · simp [hi]
  · intro j hj hji; simp [mem_range.1 hj, hji]
  · intro h; exact absurd (mem_range.2 hi) h

end

/-- **C08 negation**. At order 3 the routine does not return the third derivative: for `X^3`
sampled at 0, 1, 2, 3 it does not return 6 at the vertex 1. -/
theorem C08_negation :
    ∃ Z c : ℕ → ℚ, Set.InjOn Z (range 4) ∧
      evalDerInterp 4 3 1 Z (computeBarycentricWeights 4 Z 0) (Z 1) c ≠
        (derivative^[3] (Lagrange.interpolate (range 4) Z c)).eval (Z 1) := by
  refine ⟨fun j => (j : ℚ), fun j => (j : ℚ) ^ 3, fun a _ b _ h => by simpa using h, ?_⟩
  have hinj : Set.InjOn (fun j : ℕ => (j : ℚ)) (range 4) := fun a _ b _ h => by simpa using h
  have hp : (X ^ 3 : ℚ[X]) = Lagrange.interpolate (range 4) (fun j : ℕ => (j : ℚ))
      (fun j => (j : ℚ) ^ 3) := by
    refine Lagrange.eq_interpolate_of_eval_eq _ hinj ?_ (fun i _ => by simp)
    rw [degree_X_pow, card_range]; exact_mod_cast (by norm_num : 3 < 4)
  rw [← hp]
  have h6 : (derivative^[3] (X ^ 3 : ℚ[X])).eval ((1 : ℕ) : ℚ) = 6 := by
    simp [Function.iterate_succ]; norm_num
  rw [h6]
  norm_num [evalDerInterp, evalDerRun, loop_succ, derStepCoincident, computeBarycentricWeights, store]

end Verif.Lagrange
