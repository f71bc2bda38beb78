import Verif.Swage.PatchKey
import Mathlib.Tactic.Linarith
import Mathlib.Tactic.NormNum
import Mathlib.Tactic.FieldSimp
import Mathlib.Tactic.IntervalCases

/-! Lemmas on the hash keys. -/

namespace Verif.Swage.Key
open Verif.Swage

/-- State of the counters before iteration `i` of the distance loop. -/
def pairs (i : ℕ) : ℕ × ℕ × ℕ := loop i (fun _ s => advance s) (0, 1, 0)

theorem distLoop_val (v : ℕ → ℕ → ℝ) (junk : ℕ → ℝ) (i : ℕ) (hi : i < 28) :
    (distLoop v junk).2 i = dist1 v (pairs i).1 (pairs i).2.1 := by
  unfold distLoop
  have := loop_inv (n := 28) (body := fun i (s : (ℕ × ℕ × ℕ) × (ℕ → ℝ)) =>
      (advance s.1, store s.2 i (dist1 v s.1.1 s.1.2.1))) (s := ((0, 1, 0), junk))
    (fun m s => s.1 = pairs m ∧ ∀ i < m, s.2 i = dist1 v (pairs i).1 (pairs i).2.1)
    ⟨rfl, fun i h => absurd h (Nat.not_lt_zero _)⟩
    (by
      rintro m ⟨s, f⟩ hm ⟨e1, e2⟩
      simp only [] at e1 e2
      subst e1
      refine ⟨rfl, fun j hj => ?_⟩
      simp only []
      by_cases h : j = m
      · subst h; rw [store_same]
      · rw [store_ne _ _ h]; exact e2 j (by omega))
  exact this.2 i hi

theorem pairs_lt : ∀ i < 28, (pairs i).1 < (pairs i).2.1 ∧ (pairs i).2.1 < 8 := by decide
theorem pairs_all : ∀ b < 8, ∀ a < b, ∃ i < 28, (pairs i).1 = a ∧ (pairs i).2.1 = b := by decide

theorem loop_min_le (n : ℕ) (f : ℕ → ℝ) (s : ℝ) :
    loop n (fun i m => min (f i) m) s ≤ s ∧ ∀ i < n, loop n (fun i m => min (f i) m) s ≤ f i := by
  induction n with
  | zero => exact ⟨le_rfl, fun i h => absurd h (Nat.not_lt_zero _)⟩
  | succ n ih =>
    rw [loop_succ]
    refine ⟨(min_le_right _ _).trans ih.1, fun i hi => ?_⟩
    rcases Nat.lt_succ_iff_lt_or_eq.1 hi with h | h
    · exact (min_le_right _ _).trans (ih.2 i h)
    · subst h; exact min_le_left _ _

theorem le_loop_min (n : ℕ) (f : ℕ → ℝ) (s L : ℝ) (hs : L ≤ s) (hf : ∀ i < n, L ≤ f i) :
    L ≤ loop n (fun i m => min (f i) m) s := by
  induction n with
  | zero => exact hs
  | succ n ih => rw [loop_succ]; exact le_min (hf n (by omega)) (ih fun i hi => hf i (by omega))

theorem cellDistMin_le (v : ℕ → ℕ → ℝ) (junk : ℕ → ℝ) (a b : ℕ) (hb : b < 8) (ha : a < b) :
    cellDistMin v junk ≤ dist1 v a b := by
  obtain ⟨i, hi, h1, h2⟩ := pairs_all b hb a ha
  have := (loop_min_le 28 (distLoop v junk).2 ((distLoop v junk).2 0)).2 i hi
  rw [distLoop_val v junk i hi, h1, h2] at this
  exact this

theorem le_cellDistMin (v : ℕ → ℕ → ℝ) (junk : ℕ → ℝ) (L : ℝ) (h : ∀ b < 8, ∀ a < b, L ≤ dist1 v a b) :
    L ≤ cellDistMin v junk := by
  have : ∀ i < 28, L ≤ (distLoop v junk).2 i := fun i hi => by
    rw [distLoop_val v junk i hi]
    exact h _ (pairs_lt i hi).2 _ (pairs_lt i hi).1
  exact le_loop_min _ _ _ _ (this 0 (by omega)) this

theorem distMin_last (C : ℕ) (nodes : ℕ → ℕ → ℕ) (x : ℕ → ℕ → ℝ) (junk : ℕ → ℝ) (j : ℝ) (hC : 0 < C) :
    distMin C nodes x junk j = cellDistMin (fun l d => x (nodes (C - 1) l) d) junk := by
  obtain ⟨m, rfl⟩ : ∃ m, C = m + 1 := ⟨C - 1, by omega⟩
  unfold distMin
  rw [loop_succ]; simp

theorem coordMin_le (N : ℕ) (x : ℕ → ℕ → ℝ) (d n : ℕ) (h : n < N) : coordMin N x d ≤ x n d := by
  unfold coordMin
  induction N with
  | zero => omega
  | succ N ih =>
    rw [loop_succ]
    rcases Nat.lt_succ_iff_lt_or_eq.1 h with h | h
    · exact (min_le_left _ _).trans (ih h)
    · subst h; exact min_le_right _ _

theorem le_coordMax (N : ℕ) (x : ℕ → ℕ → ℝ) (d n : ℕ) (h : n < N) : x n d ≤ coordMax N x d := by
  unfold coordMax
  induction N with
  | zero => omega
  | succ N ih =>
    rw [loop_succ]
    rcases Nat.lt_succ_iff_lt_or_eq.1 h with h | h
    · exact (ih h).trans (le_max_left _ _)
    · subst h; exact le_max_right _ _

theorem sideCoord_eq (nodes : ℕ → ℕ → ℕ) (x : ℕ → ℕ → ℝ) (c p d : ℕ) :
    sideCoord nodes x c p d = (x (nodeInPatchInCell nodes c p 0) d + x (nodeInPatchInCell nodes c p 1) d
      + x (nodeInPatchInCell nodes c p 2) d + x (nodeInPatchInCell nodes c p 3) d) / 4 := by
  unfold sideCoord
  simp only [loop_succ, loop_zero]; ring

theorem table_lt : ∀ p < 6, ∀ q < 4, patchNodeTable.getD (q + p * 4) 0 < 8 := by decide

/-- The real arithmetic behind the collision-freeness: two index triples inside the box whose coordinates
are equal or at least `1.45` apart, in boxes of width at least 3, get numbers at least `1.05` apart. -/
theorem lex_gap {a0 a1 a2 b0 b1 b2 n0 n1 : ℝ} (h0 : 3 ≤ n0) (h1 : 3 ≤ n1)
    (a0l : 0 ≤ a0) (a0u : a0 ≤ n0) (a1l : 0 ≤ a1) (a1u : a1 ≤ n1)
    (b0l : 0 ≤ b0) (b0u : b0 ≤ n0) (b1l : 0 ≤ b1) (b1u : b1 ≤ n1)
    (h : a2 + 1.45 ≤ b2 ∨ (a2 = b2 ∧ a1 + 1.45 ≤ b1) ∨ (a2 = b2 ∧ a1 = b1 ∧ a0 + 1.45 ≤ b0)) :
    a0 + a1 * n0 + a2 * n0 * n1 + 1.05 ≤ b0 + b1 * n0 + b2 * n0 * n1 := by
  rcases h with h | ⟨h, h'⟩ | ⟨h, h', h''⟩
  · have e1 : (a2 + 1.45) * (n0 * n1) ≤ b2 * (n0 * n1) := mul_le_mul_of_nonneg_right h (by positivity)
    have e2 : a1 * n0 ≤ n1 * n0 := mul_le_mul_of_nonneg_right a1u (by linarith)
    have e3 : 0 ≤ b1 * n0 := mul_nonneg b1l (by linarith)
    have e4 : 9 ≤ n0 * n1 := by nlinarith
    have e5 : 3 * n0 ≤ n0 * n1 := by nlinarith
    nlinarith
  · subst h
    have e1 : (a1 + 1.45) * n0 ≤ b1 * n0 := mul_le_mul_of_nonneg_right h' (by linarith)
    nlinarith
  · subst h h'
    nlinarith

theorem max_gap {η u w : ℝ} (hη : 0 < η) (hη' : η ≤ 1 / 1000) (hu : 0 ≤ u) (h : u + 1.456 ≤ w) :
    max η u + 1.45 ≤ max η w := by
  have : max η u ≤ u + η := by
    rcases max_cases η u with ⟨h1, h2⟩ | ⟨h1, h2⟩ <;> rw [h1] <;> linarith
  have := le_max_right η w
  linarith

end Verif.Swage.Key
