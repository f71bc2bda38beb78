import Verif.Average.Converge
import Verif.Average.SetupTheorems

/-!
# C86, C87: convergence on the grids of the Average example
-/

namespace Verif.Average
open Verif.Swage Verif.Swage.Refine

/-- The rows of cells in the first direction begin at plane `a`. -/
def RowsFrom (C : ℕ) (pos : ℕ → ℕ → ℤ) (a : ℤ) : Prop := ∀ c < C, a ≤ pos c 0 ∧
  (a < pos c 0 → ∃ c' < C, pos c' 0 = pos c 0 - 1 ∧ pos c' 1 = pos c 1 ∧ pos c' 2 = pos c 2)
/-- The rows of cells in the first direction end at plane `b`. -/
def RowsTo (C : ℕ) (pos : ℕ → ℕ → ℤ) (b : ℤ) : Prop := ∀ c < C, pos c 0 < b ∧
  (pos c 0 + 1 < b → ∃ c' < C, pos c' 0 = pos c 0 + 1 ∧ pos c' 1 = pos c 1 ∧ pos c' 2 = pos c 2)

theorem fine_cell {S E : ℕ} {pos : ℕ → ℕ → ℤ} {e k j i : ℕ} (he : e < E) (hk : k < S) (hj : j < S) (hi : i < S) :
    cellId S e k j i < E * S ^ 3 ∧ finePos S pos (cellId S e k j i) 0 = pos e 0 * S + i ∧
      finePos S pos (cellId S e k j i) 1 = pos e 1 * S + j ∧ finePos S pos (cellId S e k j i) 2 = pos e 2 * S + k := by
  refine ⟨?_, ?_, ?_, ?_⟩
  · rw [show E * S ^ 3 = S * S * S * E by ring]; exact cellId_lt he hk hj hi
  all_goals
    unfold finePos
    rw [cellElem_cellId hk hj hi, cellDig_cellId hk hj hi]
    rfl

theorem fine_cases {S E c : ℕ} (hc : c < E * S ^ 3) : ∃ e k j i, e < E ∧ k < S ∧ j < S ∧ i < S ∧ cellId S e k j i = c :=
  cellId_surj (by rw [show S * S * S * E = E * S ^ 3 by ring]; exact hc)

theorem rowsFrom_fine {S E : ℕ} {pos : ℕ → ℕ → ℤ} {a : ℤ} (h : RowsFrom E pos a) :
    RowsFrom (E * S ^ 3) (finePos S pos) (a * S) := by
  intro c hc
  obtain ⟨e, k, j, i, he, hk, hj, hi, rfl⟩ := fine_cases hc
  obtain ⟨-, p0, p1, p2⟩ := fine_cell (pos := pos) he hk hj hi
  obtain ⟨h1, h2⟩ := h e he
  have hm : a * (S : ℤ) ≤ pos e 0 * S := mul_le_mul_of_nonneg_right h1 (Int.natCast_nonneg S)
  refine ⟨by rw [p0]; omega, fun hlt => ?_⟩
  rw [p0] at hlt ⊢
  rw [p1, p2]
  rcases Nat.eq_zero_or_pos i with rfl | h0
  · have : a < pos e 0 := by
      rcases lt_or_eq_of_le h1 with h | h
      · exact h
      · rw [← h] at hlt; simp at hlt
    obtain ⟨e', he', q0, q1, q2⟩ := h2 this
    obtain ⟨r, r0, r1, r2⟩ := fine_cell (pos := pos) he' hk hj (show S - 1 < S by omega)
    refine ⟨_, r, ?_, by rw [r1, q1], by rw [r2, q2]⟩
    rw [r0, q0, Nat.cast_sub (by omega)]
    push_cast; ring
  · obtain ⟨r, r0, r1, r2⟩ := fine_cell (pos := pos) he hk hj (show i - 1 < S by omega)
    refine ⟨_, r, ?_, r1, r2⟩
    rw [r0, Nat.cast_sub (by omega)]
    push_cast; ring

theorem rowsTo_fine {S E : ℕ} {pos : ℕ → ℕ → ℤ} {b : ℤ} (h : RowsTo E pos b) :
    RowsTo (E * S ^ 3) (finePos S pos) (b * S) := by
  intro c hc
  obtain ⟨e, k, j, i, he, hk, hj, hi, rfl⟩ := fine_cases hc
  obtain ⟨-, p0, p1, p2⟩ := fine_cell (pos := pos) he hk hj hi
  obtain ⟨h1, h2⟩ := h e he
  have hm : (pos e 0 + 1) * (S : ℤ) ≤ b * S := mul_le_mul_of_nonneg_right (by omega) (Int.natCast_nonneg S)
  rw [add_mul, one_mul] at hm
  refine ⟨by rw [p0]; omega, fun hlt => ?_⟩
  rw [p0] at hlt ⊢
  rw [p1, p2]
  by_cases hl : i + 1 < S
  · obtain ⟨r, r0, r1, r2⟩ := fine_cell (pos := pos) he hk hj hl
    refine ⟨_, r, ?_, r1, r2⟩
    rw [r0]; push_cast; ring
  · have hS : S = i + 1 := by omega
    have : pos e 0 + 1 < b := by
      rcases lt_or_eq_of_le (show pos e 0 + 1 ≤ b by omega) with h | h
      · exact h
      · rw [← h, hS] at hlt; push_cast at hlt; nlinarith
    obtain ⟨e', he', q0, q1, q2⟩ := h2 this
    obtain ⟨r, r0, r1, r2⟩ := fine_cell (pos := pos) he' hk hj (show 0 < S by omega)
    refine ⟨_, r, ?_, by rw [r1, q1], by rw [r2, q2]⟩
    rw [r0, q0, hS]
    push_cast; ring

section
variable {m : Mesh} {X : ℕ → ℤ → ℝ} {pos : ℕ → ℕ → ℤ}

theorem grid_node_eq (hG : Key.Grid m.cells m.nodes m.node m.coords.val X pos) {c l c' l' : ℕ} (hc : c < m.cells) (hl : l < 8)
    (hc' : c' < m.cells) (hl' : l' < 8) : m.node c l = m.node c' l' ↔ ∀ d < 3, pos c d + Key.bit l d = pos c' d + Key.bit l' d := by
  constructor
  · intro h d hd
    have h1 := hG.coords c hc l hl d hd
    have h2 := hG.coords c' hc' l' hl' d hd
    rw [h, h2] at h1
    exact (hG.X_inj hd h1).symm
  · intro h
    refine hG.conform c hc l hl c' hc' l' hl' fun d hd => ?_
    rw [hG.coords c hc l hl d hd, hG.coords c' hc' l' hl' d hd, h d hd]

theorem bit_left : ∀ l < 8, Key.bit (l - l % 2) 0 = 0 ∧ Key.bit (l - l % 2) 1 = Key.bit l 1 ∧ Key.bit (l - l % 2) 2 = Key.bit l 2 ∧
    Key.bit (l - l % 2 + 1) 0 = 1 ∧ Key.bit (l - l % 2 + 1) 1 = Key.bit l 1 ∧ Key.bit (l - l % 2 + 1) 2 = Key.bit l 2 ∧ l - l % 2 + 1 < 8 := by decide

theorem forall_dim {P : ℕ → Prop} (h0 : P 0) (h1 : P 1) (h2 : P 2) : ∀ d < 3, P d := by
  intro d hd
  have : d = 0 ∨ d = 1 ∨ d = 2 := by omega
  rcases this with rfl | rfl | rfl <;> assumption

/-- On a grid whose rows begin at plane `a`, every node has a path to that plane. -/
theorem grid_path (hG : Key.Grid m.cells m.nodes m.node m.coords.val X pos) {a : ℤ} (hrow : RowsFrom m.cells pos a) :
    ∀ (k : ℕ) (c : ℕ), c < m.cells → pos c 0 = a + k → ∀ l < 8, ∃ f < m.nodes, m.coords.val f 0 = X 0 a ∧
      Relation.ReflTransGen m.Linked (m.node c l) f := by
  intro k
  induction k with
  | zero =>
    intro c hc hp l hl
    obtain ⟨b0, -, -, -, -, -, hl1⟩ := bit_left l hl
    refine ⟨m.node c (l - l % 2), hG.valid c hc _ (by omega), ?_, Relation.ReflTransGen.single ⟨c, hc, ⟨l, hl, rfl⟩, ⟨l - l % 2, by omega, rfl⟩⟩⟩
    rw [hG.coords c hc _ (by omega) 0 (by omega), b0, hp]
    simp
  | succ k ih =>
    intro c hc hp l hl
    obtain ⟨b0, b1, b2, b3, b4, b5, hl1⟩ := bit_left l hl
    obtain ⟨c', hc', q0, q1, q2⟩ := (hrow c hc).2 (by rw [hp]; push_cast; omega)
    obtain ⟨f, hf, e, path⟩ := ih c' hc' (by rw [q0, hp]; push_cast; ring) (l - l % 2 + 1) hl1
    refine ⟨f, hf, e, Relation.ReflTransGen.head ⟨c, hc, ⟨l, hl, rfl⟩, ⟨l - l % 2, by omega, ?_⟩⟩ path⟩
    refine (grid_node_eq hG hc (by omega) hc' hl1).2 (forall_dim ?_ ?_ ?_)
    · rw [b0, b3, q0]; push_cast; ring
    · rw [b1, b4, q1]
    · rw [b2, b5, q2]

theorem grid_anchored (hm : m.Ready) (hG : Key.Grid m.cells m.nodes m.node m.coords.val X pos) {a : ℤ} (hrow : RowsFrom m.cells pos a)
    (hset : ∀ n < m.nodes, m.coords.val n 0 = X 0 a → m.Fixed n) : m.Anchored := by
  intro n hn
  obtain ⟨c, hmem⟩ := List.exists_mem_of_ne_nil _ (hm.noIsolated n hn)
  obtain ⟨hc, l, hl, rfl⟩ := mem_cellsOf.1 hmem
  obtain ⟨f, hf, e, path⟩ := grid_path hG hrow (pos c 0 - a).toNat c hc (by have := (hrow c hc).1; omega) l hl
  exact ⟨f, hset f hf e, path⟩

end
end Verif.Average
