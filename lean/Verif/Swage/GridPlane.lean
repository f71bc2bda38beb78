import Verif.Swage.PatchGrid

/-!
# Bounding planes of a rectilinear grid
-/

namespace Verif.Swage.Key
open Verif.Swage

/-- Side `p` of cell `c` is a boundary side: no other side has the same nodes. -/
def BdySide (C : ℕ) (nodes : ℕ → ℕ → ℕ) (c p : ℕ) : Prop :=
  ∀ c' < C, ∀ p' < 6, (∀ n, (∃ q < 4, nodeInPatchInCell nodes c' p' q = n) ↔ ∃ q < 4, nodeInPatchInCell nodes c p q = n) →
    c' = c ∧ p' = p

/-- Plane `z` in direction `d` bounds the cells: they all lie above it or all below it. -/
def Bounds (C : ℕ) (pos : ℕ → ℕ → ℤ) (d : ℕ) (z : ℤ) : Prop := (∀ c < C, z ≤ pos c d) ∨ (∀ c < C, pos c d < z)

theorem face_node : ∀ d < 3, ∀ l < 8, ∃ q < 4, patchNodeTable.getD (q + (2 * d + bit l d) * 4) 0 = l := by decide

section
variable {C N : ℕ} {nodes : ℕ → ℕ → ℕ} {x : ℕ → ℕ → ℝ} {X : ℕ → ℤ → ℝ} {pos : ℕ → ℕ → ℤ}

/-- For a bounding plane, the nodes of the boundary sides whose mean position is within `ε` of the plane are exactly the nodes on
the plane; `ε` is less than the width of the last cell divided by 2.06. -/
theorem Grid.plane (hL : Grid C N nodes x X pos) {d : ℕ} (hd : d < 3) {z : ℤ} (hz : Bounds C pos d z) {ε : ℝ} (h0 : 0 ≤ ε)
    (hε : ε < (X d (pos (C - 1) d + 1) - X d (pos (C - 1) d)) / 2.06) (n : ℕ) :
    (∃ c < C, ∃ p < 6, BdySide C nodes c p ∧ |sideCoord nodes x c p d - X d z| ≤ ε ∧ ∃ q < 4, nodeInPatchInCell nodes c p q = n) ↔
      (∃ c < C, ∃ l < 8, nodes c l = n) ∧ x n d = X d z := by
  have hX : X d z = half X d (2 * z) := by
    unfold half
    rw [show 2 * z / 2 = z by omega, show (2 * z + 1) / 2 = z by omega]; ring
  constructor
  · rintro ⟨c, hc, p, hp, -, h1, q, hq, rfl⟩
    have hl := table_lt p hp q hq
    refine ⟨⟨c, hc, _, hl, rfl⟩, ?_⟩
    rw [hL.side hc hp hd, hX] at h1
    have hm : mid pos c p d = 2 * z := by
      rcases lt_trichotomy (mid pos c p d) (2 * z) with h | h | h
      · have := hL.half_gap hd h
        rw [abs_le] at h1
        linarith [h1.1]
      · exact h
      · have := hL.half_gap hd h
        rw [abs_le] at h1
        linarith [h1.2]
    unfold mid at hm
    unfold nodeInPatchInCell
    rw [hL.coords c hc _ hl d hd]
    by_cases hpd : p / 2 = d
    · rw [if_pos hpd] at hm
      have := bits_face p hp q hq
      rw [hpd] at this
      rw [this]
      congr 1
      push_cast at hm ⊢
      omega
    · rw [if_neg hpd] at hm
      push_cast at hm
      omega
  · rintro ⟨⟨c, hc, l, hl, rfl⟩, h1⟩
    rw [hL.coords c hc l hl d hd] at h1
    have h2 := hL.X_inj hd h1
    have hb := bit_le l hl d hd
    obtain ⟨q, hq, eq⟩ := face_node d hd l hl
    have hp : 2 * d + bit l d < 6 := by omega
    have hm : mid pos c (2 * d + bit l d) d = 2 * z := by
      unfold mid
      rw [if_pos (by omega), show (2 * d + bit l d) % 2 = bit l d by omega]
      push_cast
      omega
    refine ⟨c, hc, 2 * d + bit l d, hp, ?_, ?_, q, hq, ?_⟩
    · intro c' hc' p' hp' hn
      have hmm := hL.mid_of_nodes hc' hp' hc hp hn
      have hdir := (hL.nodes_of_mid hc' hp' hc hp hmm).1
      have h3 := hmm d hd
      rw [hm] at h3
      unfold mid at h3
      rw [if_pos (by omega)] at h3
      push_cast at h3
      refine hL.owner hc' hp' hc hp hmm ?_
      rcases hz with hz | hz
      · have a1 := hz c hc
        have a2 := hz c' hc'
        omega
      · have a1 := hz c hc
        have a2 := hz c' hc'
        omega
    · rw [hL.side hc hp hd, hX, hm]
      simpa using h0
    · unfold nodeInPatchInCell
      rw [eq]

end

end Verif.Swage.Key
