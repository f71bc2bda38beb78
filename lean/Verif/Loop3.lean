import Verif.Mem
import Verif.Fill

/-!
# Three nested loops with different bounds
-/

namespace Verif
open Finset

/-- Rule for three nested loops with a flat invariant. -/
theorem loopM3_spec {σ : Type} {nk nj ni : ℕ} {body : ℕ → ℕ → ℕ → σ → Option σ} {s : σ} (I : ℕ → σ → Prop) (h0 : I 0 s)
    (hs : ∀ k j i s, k < nk → j < nj → i < ni → I (i + j * ni + k * ni * nj) s →
      ∃ s', body k j i s = some s' ∧ I (i + j * ni + k * ni * nj + 1) s') :
    ∃ s', loopM nk (fun k => loopM nj fun j => loopM ni fun i => body k j i) s = some s' ∧ I (ni * nj * nk) s' := by
  have := loopM_spec (n := nk) (body := fun k => loopM nj fun j => loopM ni fun i => body k j i) (s := s)
    (fun k s => I (k * ni * nj) s) (by simpa using h0)
    (fun k s hk hI => by
      obtain ⟨s', h1, h2⟩ := loopM_spec (n := nj) (body := fun j => loopM ni fun i => body k j i) (s := s)
        (fun j s => I (j * ni + k * ni * nj) s) (by simpa using hI)
        (fun j s hj hI => by
          obtain ⟨s', h1, h2⟩ := loopM_spec (n := ni) (body := fun i => body k j i) (s := s)
            (fun i s => I (i + j * ni + k * ni * nj) s) (by simpa using hI)
            (fun i s hi hI => by
              obtain ⟨s', h1, h2⟩ := hs k j i s hk hj hi hI
              exact ⟨s', h1, by
                rw [show i + 1 + j * ni + k * ni * nj = i + j * ni + k * ni * nj + 1 by ring]
                exact h2⟩)
          exact ⟨s', h1, by rw [show (j + 1) * ni + k * ni * nj = ni + j * ni + k * ni * nj by ring]; exact h2⟩)
      exact ⟨s', h1, by rw [show (k + 1) * ni * nj = nj * ni + k * ni * nj by ring]; exact h2⟩)
  obtain ⟨s', h1, h2⟩ := this
  exact ⟨s', h1, by rw [show ni * nj * nk = nk * ni * nj by ring]; exact h2⟩

/-- Flat sum as a double sum. -/
theorem sum_lex2 {α : Type} [AddCommMonoid α] (n m : ℕ) (f : ℕ → ℕ → α) :
    ∑ t ∈ range (n * m), f (t % n) (t / n) = ∑ j ∈ range m, ∑ i ∈ range n, f i j := by
  induction m with
  | zero => simp
  | succ m ih =>
    rw [Nat.mul_succ, sum_range_add, ih, sum_range_succ]
    congr 1
    refine sum_congr rfl fun i hi => ?_
    have hi := mem_range.1 hi
    rw [Nat.mul_add_mod, Nat.mod_eq_of_lt hi, Nat.mul_add_div (by omega), Nat.div_eq_of_lt hi, add_zero]

/-- Flat sum as a triple sum. -/
theorem sum_lex3 {α : Type} [AddCommMonoid α] (n m l : ℕ) (f : ℕ → ℕ → ℕ → α) :
    ∑ t ∈ range (n * m * l), f (t % n) (t / n % m) (t / n / m) = ∑ k ∈ range l, ∑ j ∈ range m, ∑ i ∈ range n, f i j k := by
  rw [mul_assoc, sum_lex2 n (m * l) (fun i t => f i (t % m) (t / m)), sum_lex2 m l (fun j k => ∑ i ∈ range n, f i j k)]

theorem lex3_inj {i j k i' j' k' n m : ℕ} (hi : i < n) (hj : j < m) (hi' : i' < n) (hj' : j' < m)
    (h : i + j * n + k * n * m = i' + j' * n + k' * n * m) : i = i' ∧ j = j' ∧ k = k' := by
  obtain ⟨a, b, c⟩ := lex3_mod (k := k) hi hj
  obtain ⟨a', b', c'⟩ := lex3_mod (k := k') hi' hj'
  rw [h] at a b c
  exact ⟨by omega, by omega, by omega⟩

end Verif
