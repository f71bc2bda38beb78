import Verif.Fp.LagrangeElement

/-!
# C94: Lagrange interpolation in rounded arithmetic

`tol` is the coincidence tolerance (`2.0*NUM_EPS`, that is `2^-51`); the vertices are at least `4 tol` apart.  The specification is
Mathlib's `Lagrange.basis` and `Lagrange.interpolate`, the `phi` of `LagrangeElement/Spec.lean` (products of basis polynomials) and
the constant `gam k = k u / (1 - k u)` of the rounding error literature.
-/

namespace Verif.Fp.Interp
open Verif.Fp Finset Verif.LagrangeElement.Spec

/-- `k u / (1 - k u)` -/
noncomputable def gam (R : Rounding) (k : ℕ) : ℝ := k * R.u / (1 - k * R.u)

/-- The point at which the code evaluates: `x` itself, or a vertex closer to `x` than twice the tolerance. -/
def Moved (tol : ℝ) (N : ℕ) (Z : ℕ → ℝ) (x x' : ℝ) : Prop := x' = x ∨ ∃ j < N, x' = Z j ∧ |Z j - x| < 2 * tol

variable {R : Rounding} (hu : R.u ≤ 1 / 2) {tol : ℝ} (htol : 0 < tol) {N : ℕ} {Z : ℕ → ℝ}
  (hsep : ∀ j < N, ∀ k < N, j ≠ k → 4 * tol ≤ |Z j - Z k|)

theorem Moved.eq_of_resolved {x x' : ℝ}
    (hx : ∀ j < N, x = Z j ∨ 2 * tol ≤ |Z j - x|) (h : Moved tol N Z x x') : x' = x := by
  rcases h with h | ⟨j, hj, e, hlt⟩
  · exact h
  · rcases hx j hj with h' | h'
    · rw [e, h']
    · exact absurd hlt (not_lt.2 h')

/-- **C94** (weights). Each weight has a small relative error. -/
theorem C94_weights (hu : R.u < 1) (N : ℕ) (Z w0 : ℕ → ℝ) {j : ℕ} (hj : j < N) (hk : (3 * (N - 1) : ℕ) * R.u < 1) :
    |weights R N Z w0 j - ∏ k ∈ (range N).erase j, (Z j - Z k)⁻¹| ≤
      gam R (3 * (N - 1)) * |∏ k ∈ (range N).erase j, (Z j - Z k)⁻¹| :=
  (weights_rel hu N Z w0 hj).err hu hk

include hu htol hsep

/-- **C94** (basis functions). Wherever it is evaluated, a basis function has a small relative error at the point itself or, for
points closer than twice the tolerance to a vertex, at that vertex. -/
theorem C94_basis (hN : N < 2 ^ 64) (w0 : ℕ → ℝ) {i : ℕ} (hi : i < N) (x : ℝ) (hk : (5 * N : ℕ) * R.u < 1) :
    ∃ x', Moved tol N Z x x' ∧
      |eval R N i (findVertex R tol N Z x) Z (weights R N Z w0) x - (Lagrange.basis (range N) Z i).eval x'| ≤
        gam R (5 * N) * |(Lagrange.basis (range N) Z i).eval x'| :=
  ⟨_, snap_spec hu htol hN hsep x, (eval_snap hu htol hN hsep w0 hi x).err (by linarith) hk⟩

/-- **C94** (interpolation is backward stable). The value returned is the exact value, at a point as in `C94_basis`, of the
interpolant of data that differ from the given ones by a small relative error. -/
theorem C94_interp (hN : N < 2 ^ 64) (w0 : ℕ → ℝ) (x : ℝ) (c : ℕ → ℝ) (hk : (6 * N + 1 : ℕ) * R.u < 1) :
    ∃ x' c', Moved tol N Z x x' ∧ (∀ j < N, |c' j - c j| ≤ gam R (6 * N + 1) * |c j|) ∧
      evalInterp R N (findVertex R tol N Z x) Z (weights R N Z w0) x c =
        (Lagrange.interpolate (range N) Z c').eval x' := by
  have hu1 : R.u < 1 := by linarith
  obtain ⟨t, ht, e⟩ := interp_snap hu htol hN hsep w0 x c
  refine ⟨_, fun j => c j * t j, snap_spec hu htol hN hsep x, fun j hj => ?_, ?_⟩
  · exact Rel.err hu1 ⟨t j, ht j hj, rfl⟩ hk
  · rw [e, Lagrange.interpolate_apply, Polynomial.eval_finsetSum]
    exact sum_congr rfl fun j _ => by rw [Polynomial.eval_mul, Polynomial.eval_C]

/-- **C94** (forward error). At a vertex, and at every point that is at least twice the tolerance away from all vertices, the error
is a small multiple of the sum of the moduli of the terms of the interpolant. -/
theorem C94_interp_error (hN : N < 2 ^ 64) (w0 : ℕ → ℝ) (x : ℝ) (hx : ∀ j < N, x = Z j ∨ 2 * tol ≤ |Z j - x|) (c : ℕ → ℝ)
    (hk : (6 * N + 1 : ℕ) * R.u < 1) :
    |evalInterp R N (findVertex R tol N Z x) Z (weights R N Z w0) x c - (Lagrange.interpolate (range N) Z c).eval x| ≤
      gam R (6 * N + 1) * ∑ j ∈ range N, |c j| * |(Lagrange.basis (range N) Z j).eval x| := by
  obtain ⟨x', c', hm, hc, e⟩ := C94_interp hu htol hsep hN w0 x c hk
  have hx' := hm.eq_of_resolved hx
  subst hx'
  rw [e, Lagrange.interpolate_apply, Lagrange.interpolate_apply, Polynomial.eval_finsetSum, Polynomial.eval_finsetSum,
    ← sum_sub_distrib, mul_sum]
  refine (abs_sum_le_sum_abs _ _).trans (sum_le_sum fun j hj => ?_)
  rw [Polynomial.eval_mul, Polynomial.eval_C, Polynomial.eval_mul, Polynomial.eval_C, ← sub_mul, abs_mul, ← mul_assoc]
  exact mul_le_mul_of_nonneg_right (hc j (mem_range.1 hj)) (abs_nonneg _)

/-- **C94** (vertices). At a vertex the basis functions are exactly 1 and 0 and the interpolant is exactly the datum. -/
theorem C94_vertex (hN : N < 2 ^ 64) (w0 : ℕ → ℝ) {j : ℕ} (hj : j < N) (c : ℕ → ℝ) :
    (∀ i < N, eval R N i (findVertex R tol N Z (Z j)) Z (weights R N Z w0) (Z j) = if i = j then 1 else 0) ∧
    evalInterp R N (findVertex R tol N Z (Z j)) Z (weights R N Z w0) (Z j) c = c j := by
  have hf : findVertex R tol N Z (Z j) = j := by
    rcases findVertex_cases hu htol hN hsep (Z j) with ⟨k, hk, e, hn⟩ | ⟨-, h⟩
    · by_contra hne
      have := hsep k hk j hj (by rw [← e]; exact hne)
      linarith
    · exact absurd rfl (h j hj)
  rw [hf]
  refine ⟨fun i _ => ?_, ?_⟩
  · unfold eval; rw [if_pos hj]
  · unfold evalInterp; rw [if_pos hj]

/-- **C94** (basis functions of the element). `LagrangeElement::eval_basis` is defined for every basis index and has a small
relative error at a point each of whose coordinates is as in `C94_basis`. -/
theorem C94_elem_basis (hN : N * N * N < 2 ^ 64) {I : ℕ} (hI : I < N * N * N) (X : ℕ → ℝ) (hk : (15 * N + 2 : ℕ) * R.u < 1) :
    ∃ (v : ℝ) (X' : ℕ → ℝ), evalBasis R tol N Z I X = some v ∧ (∀ d, Moved tol N Z (X d) (X' d)) ∧
      |v - phi N Z I X'| ≤ gam R (15 * N + 2) * |phi N Z I X'| := by
  have h0 : 0 < N := by
    rcases Nat.eq_zero_or_pos N with h | h
    · subst h; simp at hI
    · exact h
  obtain ⟨v, hv, hr⟩ := basis_rel hu htol hN hsep hI X
  exact ⟨v, _, hv, fun d => snap_spec hu htol (lt_of_cube hN h0) hsep (X d), hr.err (by linarith) hk⟩

/-- **C94** (`LagrangeElement::eval_approx` is backward stable). The value returned is the exact expansion, in the basis functions
at a point as in `C94_elem_basis`, of coefficients with a small relative error, whatever the work array held. -/
theorem C94_elem_approx (hN : N * N * N < 2 ^ 64) (h0 : 0 < N) (C c X : ℕ → ℝ) (hk : (18 * N + 3 : ℕ) * R.u < 1) :
    ∃ (X' c' : ℕ → ℝ), (∀ d, Moved tol N Z (X d) (X' d)) ∧
      (∀ I < N * N * N, |c' I - c I| ≤ gam R (18 * N + 3) * |c I|) ∧
      evalApprox R tol N Z C c X = ∑ I ∈ range (N * N * N), c' I * phi N Z I X' := by
  obtain ⟨t, ht, e⟩ := approx_rel hu htol hN hsep h0 C c X
  refine ⟨_, fun I => c I * t I, fun d => snap_spec hu htol (lt_of_cube hN h0) hsep (X d), fun I hI => ?_, e⟩
  exact Rel.err (by linarith) ⟨t I, ht I hI, rfl⟩ hk

/-- **C94** (forward error of `eval_approx`) -/
theorem C94_elem_error (hN : N * N * N < 2 ^ 64) (h0 : 0 < N) (C c X : ℕ → ℝ)
    (hX : ∀ d < 3, ∀ j < N, X d = Z j ∨ 2 * tol ≤ |Z j - X d|) (hk : (18 * N + 3 : ℕ) * R.u < 1) :
    |evalApprox R tol N Z C c X - ∑ I ∈ range (N * N * N), c I * phi N Z I X| ≤
      gam R (18 * N + 3) * ∑ I ∈ range (N * N * N), |c I| * |phi N Z I X| := by
  obtain ⟨X', c', hm, hc, e⟩ := C94_elem_approx hu htol hsep hN h0 C c X hk
  have hp : ∀ I, phi N Z I X' = phi N Z I X := fun I => by
    unfold phi
    rw [(hm 0).eq_of_resolved (hX 0 (by omega)), (hm 1).eq_of_resolved (hX 1 (by omega)),
      (hm 2).eq_of_resolved (hX 2 (by omega))]
  rw [e, ← sum_sub_distrib, mul_sum]
  refine (abs_sum_le_sum_abs _ _).trans (sum_le_sum fun I hI => ?_)
  rw [hp, ← sub_mul, abs_mul, ← mul_assoc]
  exact mul_le_mul_of_nonneg_right (hc I (mem_range.1 hI)) (abs_nonneg _)

end Verif.Fp.Interp

namespace Verif.Fp.Interp
open Verif.Fp Finset Verif.LagrangeElement.Spec

/-- The hypotheses on a concrete case: double precision, its tolerance, the vertices -1, 0, 1 and the coordinate 1/3. -/
theorem sep3 : ∀ j < 3, ∀ k < 3, j ≠ k →
    4 * ((1 : ℝ) / 2 ^ 51) ≤ |(fun i : ℕ => (i : ℝ) - 1) j - (fun i : ℕ => (i : ℝ) - 1) k| := by
  intro j hj k hk h
  interval_cases j <;> interval_cases k <;> first | exact absurd rfl h | (norm_num)

/-- With three vertices the error is below 5e-15 times the sum of the moduli. -/
example (c : ℕ → ℝ) : |evalInterp .binary64 3 (findVertex .binary64 (1 / 2 ^ 51) 3 (fun i => (i : ℝ) - 1) (1 / 3))
      (fun i => (i : ℝ) - 1) (weights .binary64 3 (fun i => (i : ℝ) - 1) 0) (1 / 3) c -
      (Lagrange.interpolate (range 3) (fun i : ℕ => (i : ℝ) - 1) c).eval (1 / 3)| ≤
    5 / 10 ^ 15 * ∑ j ∈ range 3, |c j| * |(Lagrange.basis (range 3) (fun i : ℕ => (i : ℝ) - 1) j).eval (1 / 3)| := by
  refine (C94_interp_error (R := .binary64) (by rw [Rounding.binary64_u]; norm_num) (tol := 1 / 2 ^ 51) (by norm_num) sep3
    (by norm_num) 0 (1 / 3) ?_ c (by rw [Rounding.binary64_u]; norm_num)).trans ?_
  · intro j hj
    right
    interval_cases j <;> norm_num [abs_of_neg, abs_of_pos]
  · refine mul_le_mul_of_nonneg_right ?_ (sum_nonneg fun j _ => by positivity)
    unfold gam
    rw [Rounding.binary64_u]; norm_num

example (c : ℕ → ℝ) : evalInterp .binary64 3 (findVertex .binary64 (1 / 2 ^ 51) 3 (fun i => (i : ℝ) - 1)
      ((fun i : ℕ => (i : ℝ) - 1) 2)) (fun i => (i : ℝ) - 1) (weights .binary64 3 (fun i => (i : ℝ) - 1) 0)
      ((fun i : ℕ => (i : ℝ) - 1) 2) c = c 2 :=
  (C94_vertex (R := .binary64) (by rw [Rounding.binary64_u]; norm_num) (tol := 1 / 2 ^ 51) (by norm_num) sep3
    (by norm_num) 0 (j := 2) (by norm_num) c).2

example (C c : ℕ → ℝ) (X : ℕ → ℝ) : ∃ (X' c' : ℕ → ℝ), (∀ d, Moved (1 / 2 ^ 51) 3 (fun i => (i : ℝ) - 1) (X d) (X' d)) ∧
      (∀ I < 3 * 3 * 3, |c' I - c I| ≤ gam .binary64 (18 * 3 + 3) * |c I|) ∧
      evalApprox .binary64 (1 / 2 ^ 51) 3 (fun i => (i : ℝ) - 1) C c X =
        ∑ I ∈ range (3 * 3 * 3), c' I * phi 3 (fun i => (i : ℝ) - 1) I X' :=
  C94_elem_approx (R := .binary64) (by rw [Rounding.binary64_u]; norm_num) (tol := 1 / 2 ^ 51) (by norm_num) sep3
    (by norm_num) (by norm_num) C c X (by rw [Rounding.binary64_u]; norm_num)

end Verif.Fp.Interp
