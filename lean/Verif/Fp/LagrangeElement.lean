import Verif.Fp.LagrangeLemmas
import Verif.LagrangeElement.Gen
import Verif.Fill

/-!
# Rounding errors of `LagrangeElement`
-/

namespace Verif.Fp.Interp
open Verif.Fp Finset Verif.LagrangeElement.Spec

variable {R : Rounding} (hu : R.u ≤ 1 / 2) {tol : ℝ} (htol : 0 < tol) {N : ℕ} (hN : N * N * N < 2 ^ 64) {Z : ℕ → ℝ}
  (hsep : ∀ j < N, ∀ k < N, j ≠ k → 4 * tol ≤ |Z j - Z k|)
include hu htol hN hsep

omit hu htol hsep in
theorem lt_of_cube (h0 : 0 < N) : N < 2 ^ 64 := by
  refine lt_of_le_of_lt ?_ hN
  calc N = 1 * 1 * N := by ring
    _ ≤ N * N * N := Nat.mul_le_mul_right N (Nat.mul_le_mul h0 h0)

theorem basis_rel {I : ℕ} (hI : I < N * N * N) (X : ℕ → ℝ) :
    ∃ v, evalBasis R tol N Z I X = some v ∧ Rel R (15 * N + 2) v (phi N Z I fun d => snap R tol N Z (X d)) := by
  have h0 : 0 < N := by rcases Nat.eq_zero_or_pos N with h | h; · subst h; simp at hI
                        · exact h
  have hu1 : R.u < 1 := by linarith
  have hN' := lt_of_cube hN h0
  have h1 : I % N < N := Nat.mod_lt _ h0
  have h2 : I / N % N < N := Nat.mod_lt _ h0
  have h3 : I / N / N < N := by
    rw [Nat.div_div_eq_div_mul, Nat.div_lt_iff_lt_mul (Nat.mul_pos h0 h0)]
    calc I < N * N * N := hI
      _ = N * (N * N) := by ring
  unfold evalBasis
  rw [LagrangeElement.digits_eq h0 hN hI]
  refine ⟨_, rfl, ?_⟩
  unfold phi ell
  exact (((eval_snap hu htol hN' hsep 0 h1 (X 0)).flmul hu1 (eval_snap hu htol hN' hsep 0 h2 (X 1))).flmul hu1
    (eval_snap hu htol hN' hsep 0 h3 (X 2))).mono hu1 (by omega)

theorem approx_rel (h0 : 0 < N) (C c X : ℕ → ℝ) :
    ∃ t : ℕ → ℝ, (∀ I < N * N * N, Pert R (18 * N + 3) (t I)) ∧
      evalApprox R tol N Z C c X =
        ∑ I ∈ range (N * N * N), c I * t I * phi N Z I fun d => snap R tol N Z (X d) := by
  have hu1 : R.u < 1 := by linarith
  have hN' := lt_of_cube hN h0
  choose t ht et using fun (x : ℝ) (c : ℕ → ℝ) => interp_snap hu htol hN' hsep 0 x c
  -- the lines of coefficients
  let A : ℕ → ℕ → ℝ := fun k j => evalInterp R N (findVertex R tol N Z (X 0)) Z (elemWeights R N Z) (X 0)
    (fun m => c (j * N + k * N * N + m))
  let B : ℕ → ℝ := fun k => evalInterp R N (findVertex R tol N Z (X 1)) Z (elemWeights R N Z) (X 1) (A k)
  let f0 : ℕ → ℝ := fun i => ell N Z i (snap R tol N Z (X 0))
  let f1 : ℕ → ℝ := fun i => ell N Z i (snap R tol N Z (X 1))
  let f2 : ℕ → ℝ := fun i => ell N Z i (snap R tol N Z (X 2))
  let a : ℕ → ℕ → ℕ → ℝ := fun k j => t (X 0) (fun m => c (j * N + k * N * N + m))
  let b : ℕ → ℕ → ℝ := fun k => t (X 1) (A k)
  let d : ℕ → ℝ := t (X 2) B
  have eA : ∀ k j, A k j = ∑ i ∈ range N, c (j * N + k * N * N + i) * a k j i * f0 i := fun k j => et (X 0) _
  have eB : ∀ k, B k = ∑ j ∈ range N, A k j * b k j * f1 j := fun k => et (X 1) _
  have congrI : ∀ (ic : ℕ) (x : ℝ) (g g' : ℕ → ℝ), (∀ m < N, g m = g' m) → ic < N ∨ ¬ ic < N →
      evalInterp R N ic Z (elemWeights R N Z) x g = evalInterp R N ic Z (elemWeights R N Z) x g' := by
    intro ic x g g' hg hic
    unfold evalInterp
    rcases hic with h | h
    · rw [if_pos h, if_pos h, hg ic h]
    · rw [if_neg h, if_neg h]
      have : sumLoop R N Z (elemWeights R N Z) x g = sumLoop R N Z (elemWeights R N Z) x g' := by
        unfold sumLoop
        refine loop_congr fun j s hj => ?_
        rw [hg j hj]
      rw [this]
  -- the work array
  have work : ∀ k < N, (loop N (fun k C =>
      let C := loop N (fun j C => store C j (evalInterp R N (findVertex R tol N Z (X 0)) Z (elemWeights R N Z) (X 0)
        (fun m => c (j * N + k * N * N + m)))) C
      store C (N + k) (evalInterp R N (findVertex R tol N Z (X 1)) Z (elemWeights R N Z) (X 1) C)) C) (N + k) = B k := by
    refine loop_inv (n := N) (s := C) (body := fun k C =>
      let C := loop N (fun j C => store C j (evalInterp R N (findVertex R tol N Z (X 0)) Z (elemWeights R N Z) (X 0)
        (fun m => c (j * N + k * N * N + m)))) C
      store C (N + k) (evalInterp R N (findVertex R tol N Z (X 1)) Z (elemWeights R N Z) (X 1) C))
      (I := fun n (D : ℕ → ℝ) => ∀ k < n, D (N + k) = B k) (by simp) ?_
    intro k D hk hD k' hk'
    simp only []
    by_cases hkk : k' = k
    · subst hkk
      rw [store_same]
      refine congrI _ _ _ _ (fun m hm => ?_) (em _)
      rw [loop_store]; exact if_pos hm
    · rw [store_ne _ _ (by omega), loop_store]
      refine (if_neg (by omega)).trans ?_
      exact hD k' (by omega)
  refine ⟨fun I => a (I / N / N) (I / N % N) (I % N) * b (I / N / N) (I / N % N) * d (I / N / N), fun I hI => ?_, ?_⟩
  · have h1 : I % N < N := Nat.mod_lt _ h0
    have h2 : I / N % N < N := Nat.mod_lt _ h0
    have h3 : I / N / N < N := by
      rw [Nat.div_div_eq_div_mul, Nat.div_lt_iff_lt_mul (Nat.mul_pos h0 h0)]
      calc I < N * N * N := hI
        _ = N * (N * N) := by ring
    exact (((ht (X 0) _ _ h1).mul hu1 (ht (X 1) _ _ h2)).mul hu1 (ht (X 2) _ _ h3)).mono hu1 (by omega)
  · have e1 : evalApprox R tol N Z C c X = ∑ k ∈ range N, B k * d k * f2 k := by
      unfold evalApprox
      simp only []
      rw [congrI _ _ _ B (fun m hm => work m hm) (em _)]
      exact et (X 2) B
    rw [e1]
    have e2 : ∀ I ∈ range (N * N * N), c I * (a (I / N / N) (I / N % N) (I % N) * b (I / N / N) (I / N % N) * d (I / N / N)) *
        phi N Z I (fun e => snap R tol N Z (X e)) =
        (c I * (a (I / N / N) (I / N % N) (I % N) * b (I / N / N) (I / N % N) * d (I / N / N))) *
          (f0 (I % N) * f1 (I / N % N) * f2 (I / N / N)) := fun I _ => rfl
    rw [sum_congr rfl e2, ← tensor_sum N (fun I => c I *
      (a (I / N / N) (I / N % N) (I % N) * b (I / N / N) (I / N % N) * d (I / N / N))) f0 f1 f2]
    refine sum_congr rfl fun k _ => ?_
    rw [eB, sum_mul, sum_mul, sum_mul]
    refine sum_congr rfl fun j hj => ?_
    rw [eA, sum_mul, sum_mul, sum_mul, sum_mul, sum_mul, sum_mul]
    refine sum_congr rfl fun i hi => ?_
    obtain ⟨m1, m2, m3⟩ := lex3_mod (k := k) (mem_range.1 hi) (mem_range.1 hj)
    rw [m1, m2, m3, show j * N + k * N * N + i = i + j * N + k * N * N by ring]
    ring

end Verif.Fp.Interp
