import Mathlib.Algebra.BigOperators.Ring.Finset
import Mathlib.Algebra.BigOperators.Intervals
import Mathlib.Tactic.Ring

/-! Reindexing of a flat sum over `N*M` entries and of a three-dimensional tensor sum. -/

namespace Verif
open Finset
variable {α : Type*} [AddCommMonoid α]

/-- `Σ_{I < n*m} f I = Σ_{j < m} Σ_{i < n} f (i + n*j)`. -/
theorem sum_range_mul (n m : ℕ) (f : ℕ → α) :
    ∑ I ∈ range (n * m), f I = ∑ j ∈ range m, ∑ i ∈ range n, f (i + n * j) := by
  induction m with
  | zero => simp
  | succ m ih =>
    rw [Nat.mul_succ, sum_range_add, ih, sum_range_succ]
    congr 1
    exact sum_congr rfl fun i _ => by rw [Nat.add_comm]

/-- Flat sum over `N^3` lexicographically numbered entries. -/
theorem sum_range_cube (N : ℕ) (f : ℕ → α) :
    ∑ I ∈ range (N * N * N), f I =
      ∑ k ∈ range N, ∑ j ∈ range N, ∑ i ∈ range N, f (i + j * N + k * N * N) := by
  rw [sum_range_mul (N * N) N]
  refine sum_congr rfl fun k _ => ?_
  rw [sum_range_mul N N]
  refine sum_congr rfl fun j _ => sum_congr rfl fun i _ => ?_
  congr 1; ring

theorem digit0 {N i j k : ℕ} (hi : i < N) : (i + j * N + k * N * N) % N = i := by
  have : i + j * N + k * N * N = i + (j + k * N) * N := by ring
  rw [this, Nat.add_mul_mod_self_right, Nat.mod_eq_of_lt hi]

theorem digit1 {N i j k : ℕ} (hi : i < N) (hj : j < N) : (i + j * N + k * N * N) / N % N = j := by
  have : i + j * N + k * N * N = i + (j + k * N) * N := by ring
  rw [this, Nat.add_mul_div_right _ _ (by omega), Nat.div_eq_of_lt hi, Nat.zero_add,
    Nat.add_mul_mod_self_right, Nat.mod_eq_of_lt hj]

theorem digit2 {N i j k : ℕ} (hi : i < N) (hj : j < N) : (i + j * N + k * N * N) / N / N = k := by
  have : i + j * N + k * N * N = i + (j + k * N) * N := by ring
  rw [this, Nat.add_mul_div_right _ _ (by omega), Nat.div_eq_of_lt hi, Nat.zero_add,
    Nat.add_mul_div_right _ _ (by omega), Nat.div_eq_of_lt hj, Nat.zero_add]

theorem flat_lt {N i j k : ℕ} (hi : i < N) (hj : j < N) (hk : k < N) :
    i + j * N + k * N * N < N * N * N := by
  have h1 : k * (N * N) + N * N ≤ N * (N * N) := by
    have := Nat.mul_le_mul_right (N * N) (Nat.succ_le_of_lt hk)
    rw [Nat.succ_mul] at this; exact this
  have h2 : j * N + N ≤ N * N := by
    have := Nat.mul_le_mul_right N (Nat.succ_le_of_lt hj)
    rw [Nat.succ_mul] at this; exact this
  have e1 : k * N * N = k * (N * N) := by ring
  have e2 : N * N * N = N * (N * N) := by ring
  omega

/-- Nested one-dimensional contractions equal the flat contraction with the product basis. -/
theorem tensor_sum {K : Type*} [CommSemiring K] (N : ℕ) (c a b d : ℕ → K) :
    ∑ k ∈ range N, (∑ j ∈ range N, (∑ i ∈ range N, c (i + j * N + k * N * N) * a i) * b j) * d k =
      ∑ I ∈ range (N * N * N), c I * (a (I % N) * b (I / N % N) * d (I / N / N)) := by
  rw [sum_range_cube]
  refine sum_congr rfl fun k _ => ?_
  rw [sum_mul]
  refine sum_congr rfl fun j hj => ?_
  rw [sum_mul, sum_mul]
  refine sum_congr rfl fun i hi => ?_
  rw [digit0 (mem_range.1 hi), digit1 (mem_range.1 hi) (mem_range.1 hj),
    digit2 (mem_range.1 hi) (mem_range.1 hj)]
  ring

/-- The tensor product of sums. -/
theorem prod_sum3 {K : Type*} [CommSemiring K] (N : ℕ) (a b d : ℕ → K) :
    ∑ I ∈ range (N * N * N), (a (I % N) * b (I / N % N) * d (I / N / N)) =
      (∑ i ∈ range N, a i) * (∑ j ∈ range N, b j) * (∑ k ∈ range N, d k) := by
  have := tensor_sum N (fun _ => (1 : K)) a b d
  simp only [one_mul] at this
  rw [← this, mul_sum]
  refine sum_congr rfl fun k _ => ?_
  rw [← mul_sum]

end Verif
