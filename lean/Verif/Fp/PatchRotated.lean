import Verif.Fp.PatchTheorems
import Verif.Fp.RefineRotated

/-!
# C93, what fails: a neighbour with another numbering

Two boxes; the local axes of the second one are turned by 90 degrees about the common normal (`Refine.rotNodes`).  The centroid of the common face is the mean of the
same four vertices in another order; the two results differ in the last bit and the truncation to a key separates them: the common face becomes two patches.
-/

namespace Verif.Swage.Key
open Verif.Swage Verif.Fp Verif.Fp.Rounding
open Verif.Swage.Refine (rotNodes)

/-- Height of the lowest nodes, about 0.2222. -/
noncomputable def base : ℝ := 8006399337680324 / 2 ^ 55

/-- Heights of the twelve nodes; the common face is `1 + 2^-52` except in one corner. -/
noncomputable def turnZ (n : ℕ) : ℝ := if n < 4 then base else if n < 7 then 1 + 1 / 2 ^ 52 else if n < 8 then 1 else 2

/-- Coordinates of the twelve nodes. -/
noncomputable def turnCoords (n d : ℕ) : ℝ :=
  if d = 0 then 3 / 4 * ((n % 2 : ℕ) : ℝ) else if d = 1 then 3 / 4 * ((n / 2 % 2 : ℕ) : ℝ) else turnZ n

theorem turn_inside (d : ℕ) (_ : d < 3) (n : ℕ) (_ : n < 12) : 0 ≤ turnCoords n d ∧ turnCoords n d ≤ 2 := by
  unfold turnCoords turnZ base
  have h1 : n % 2 = 0 ∨ n % 2 = 1 := by omega
  have h2 : n / 2 % 2 = 0 ∨ n / 2 % 2 = 1 := by omega
  split_ifs
  · rcases h1 with h | h <;> rw [h] <;> norm_num
  · rcases h2 with h | h <;> rw [h] <;> norm_num
  all_goals norm_num

theorem turn_abs (d : ℕ) (hd : d < 3) (n : ℕ) (hn : n < 12) : |turnCoords n d| ≤ 2 := by
  obtain ⟨h1, h2⟩ := turn_inside d hd n hn
  rw [abs_of_nonneg h1]; exact h2

/-! ### `node_hash_delta` is 1/4 -/

theorem fl34 : binary64.fl (3 / 4) = 3 / 4 := binary64_rep 3 (-2) (by norm_num) (by norm_num)
theorem fl916 : binary64.fl (9 / 16) = 9 / 16 := binary64_rep 9 (-4) (by norm_num) (by norm_num)
theorem sqrt916 : √(9 / 16 : ℝ) = 3 / 4 := by
  rw [show (9 / 16 : ℝ) = (3 / 4) ^ 2 by norm_num]; exact Real.sqrt_sq (by norm_num)

theorem fl_sq_ge {t : ℝ} (h : 3 / 4 ≤ |t|) : 9 / 16 ≤ binary64.fl (binary64.fl t * binary64.fl t) := by
  have h1 : 3 / 4 ≤ |binary64.fl t| := by
    rcases le_abs.1 h with h | h
    · exact le_trans (by rw [← fl34]; exact binary64.mono h) (le_abs_self _)
    · have h' : t ≤ -(3 / 4) := by linarith
      have e : binary64.fl (-(3 / 4)) = -(3 / 4) := binary64_rep (-3) (-2) (by norm_num) (by norm_num)
      have := binary64.mono h'
      rw [e] at this
      exact le_trans (by linarith) (neg_le_abs _)
  rw [← fl916]
  apply binary64.mono
  rw [← abs_mul_abs_self]
  nlinarith

theorem dist1R_ge {v : ℕ → ℕ → ℝ} {a b : ℕ} (h : ∃ d < 3, 3 / 4 ≤ |v b d - v a d|) : 3 / 4 ≤ Refine.dist1R binary64 v a b := by
  obtain ⟨d, hd, h⟩ := h
  have n0 := Refine.fl_sq_nonneg (v b 0 - v a 0)
  have n1 := Refine.fl_sq_nonneg (v b 1 - v a 1)
  have n2 := Refine.fl_sq_nonneg (v b 2 - v a 2)
  have hs := fl_sq_ge h
  have up : ∀ {s : ℝ}, 9 / 16 ≤ s → 9 / 16 ≤ binary64.fl s := fun hs => by rw [← fl916]; exact binary64.mono hs
  have h01 : 0 ≤ binary64.fl (binary64.fl (binary64.fl (v b 0 - v a 0) * binary64.fl (v b 0 - v a 0)) +
      binary64.fl (binary64.fl (v b 1 - v a 1) * binary64.fl (v b 1 - v a 1))) := binary64.fl_nonneg (by linarith)
  unfold Refine.dist1R
  refine le_trans ?_ (le_abs_self _)
  rw [← fl34]
  apply binary64.mono
  rw [← sqrt916]
  apply Real.sqrt_le_sqrt
  apply up
  interval_cases d
  · have := up (s := binary64.fl (binary64.fl (v b 0 - v a 0) * binary64.fl (v b 0 - v a 0)) +
      binary64.fl (binary64.fl (v b 1 - v a 1) * binary64.fl (v b 1 - v a 1))) (by linarith)
    linarith
  · have := up (s := binary64.fl (binary64.fl (v b 0 - v a 0) * binary64.fl (v b 0 - v a 0)) +
      binary64.fl (binary64.fl (v b 1 - v a 1) * binary64.fl (v b 1 - v a 1))) (by linarith)
    linarith
  · linarith

theorem turn_sep : ∀ b < 8, ∀ a < b, ∃ d < 3, 3 / 4 ≤ |turnCoords (rotNodes 1 b) d - turnCoords (rotNodes 1 a) d| := by
  have hdec : ∀ b < 8, ∀ a < b, rotNodes 1 a % 2 ≠ rotNodes 1 b % 2 ∨ rotNodes 1 a / 2 % 2 ≠ rotNodes 1 b / 2 % 2 ∨
      (4 ≤ rotNodes 1 a ∧ rotNodes 1 a < 8 ∧ 8 ≤ rotNodes 1 b) := by decide
  intro b hb a ha
  rcases hdec b hb a ha with h | h | ⟨h1, h2, h3⟩
  · refine ⟨0, by omega, ?_⟩
    simp only [turnCoords, if_true]
    have : (rotNodes 1 a % 2 = 0 ∧ rotNodes 1 b % 2 = 1) ∨ (rotNodes 1 a % 2 = 1 ∧ rotNodes 1 b % 2 = 0) := by omega
    rcases this with ⟨e1, e2⟩ | ⟨e1, e2⟩ <;> rw [e1, e2] <;> norm_num [abs_of_pos, abs_of_neg]
  · refine ⟨1, by omega, ?_⟩
    simp only [turnCoords, if_true, one_ne_zero, if_false]
    have : (rotNodes 1 a / 2 % 2 = 0 ∧ rotNodes 1 b / 2 % 2 = 1) ∨ (rotNodes 1 a / 2 % 2 = 1 ∧ rotNodes 1 b / 2 % 2 = 0) := by omega
    rcases this with ⟨e1, e2⟩ | ⟨e1, e2⟩ <;> rw [e1, e2] <;> norm_num [abs_of_pos, abs_of_neg]
  · refine ⟨2, by omega, ?_⟩
    simp only [turnCoords, OfNat.ofNat_ne_zero, OfNat.ofNat_ne_one, if_false]
    unfold turnZ
    rw [if_neg (by omega), if_neg (by omega), if_neg (by omega), if_neg (by omega)]
    refine le_trans ?_ (le_abs_self _)
    split_ifs <;> norm_num

theorem turn_dist (junk : ℕ → ℝ) (j : ℝ) : distMinR binary64 2 rotNodes turnCoords junk j = 3 / 4 := by
  have hl : distMinR binary64 2 rotNodes turnCoords junk j = cellDistMinR binary64 (fun l d => turnCoords (rotNodes 1 l) d) junk := by
    unfold distMinR; simp [loop_succ]
  rw [hl]
  have hd : ∀ i < 28, 3 / 4 ≤ (Refine.distLoopR binary64 (fun l d => turnCoords (rotNodes 1 l) d) junk).2 i := by
    intro i hi
    rw [Refine.distLoopR_val _ _ _ i hi]
    obtain ⟨h1, h2⟩ := pairs_lt i hi
    exact dist1R_ge (turn_sep _ h2 _ h1)
  apply le_antisymm
  · obtain ⟨i, hi, e1, e2⟩ := pairs_all 5 (by omega) 4 (by omega)
    have h := (loop_min_le 28 (Refine.distLoopR binary64 (fun l d => turnCoords (rotNodes 1 l) d) junk).2
      ((Refine.distLoopR binary64 (fun l d => turnCoords (rotNodes 1 l) d) junk).2 0)).2 i hi
    rw [Refine.distLoopR_val _ _ _ i hi, e1, e2] at h
    refine h.trans (le_of_eq ?_)
    unfold Refine.dist1R
    have c0 : turnCoords (rotNodes 1 5) 0 - turnCoords (rotNodes 1 4) 0 = 0 := by norm_num [turnCoords, rotNodes]
    have c1 : turnCoords (rotNodes 1 5) 1 - turnCoords (rotNodes 1 4) 1 = 3 / 4 := by norm_num [turnCoords, rotNodes]
    have c2 : turnCoords (rotNodes 1 5) 2 - turnCoords (rotNodes 1 4) 2 = 0 := by norm_num [turnCoords, rotNodes, turnZ]
    rw [c0, c1, c2, binary64.fl_zero, zero_mul, binary64.fl_zero, zero_add, add_zero, fl34,
      show (3 / 4 * (3 / 4) : ℝ) = 9 / 16 by norm_num, fl916, fl916, fl916, sqrt916, fl34]
    norm_num
  · exact le_loop_min _ _ _ _ (hd 0 (by omega)) hd

theorem turn_delta (junk : ℕ → ℝ) (j : ℝ) : deltaR binary64 2 rotNodes turnCoords junk j = 1 / 4 := by
  unfold deltaR
  rw [turn_dist, min_eq_right (by rw [← fl34]; exact binary64.mono (by norm_num)), show (3 / 4 / 3 : ℝ) = 1 / 4 by norm_num]
  exact binary64_rep 1 (-2) (by norm_num) (by norm_num)

/-! ### The centroid of the common face, computed from both sides -/

theorem fl_q1 : binary64.fl ((1 + 1 / 2 ^ 52) / 4) = 1 / 4 + 1 / 2 ^ 54 := by
  rw [binary64_rep (2 ^ 52 + 1) (-54) (by norm_num) (by norm_num)]; norm_num
theorem fl_q0 : binary64.fl (1 / 4) = 1 / 4 := binary64_rep 1 (-2) (by norm_num) (by norm_num)

theorem first_z : sideCoordR binary64 rotNodes turnCoords 0 5 2 = 1 + 1 / 2 ^ 52 := by
  rw [sideCoordR_eq]
  have n0 : turnCoords (nodeInPatchInCell rotNodes 0 5 0) 2 = 1 + 1 / 2 ^ 52 := by norm_num [nodeInPatchInCell, patchNodeTable, rotNodes, turnCoords, turnZ]
  have n1 : turnCoords (nodeInPatchInCell rotNodes 0 5 1) 2 = 1 + 1 / 2 ^ 52 := by norm_num [nodeInPatchInCell, patchNodeTable, rotNodes, turnCoords, turnZ]
  have n2 : turnCoords (nodeInPatchInCell rotNodes 0 5 2) 2 = 1 := by norm_num [nodeInPatchInCell, patchNodeTable, rotNodes, turnCoords, turnZ]
  have n3 : turnCoords (nodeInPatchInCell rotNodes 0 5 3) 2 = 1 + 1 / 2 ^ 52 := by norm_num [nodeInPatchInCell, patchNodeTable, rotNodes, turnCoords, turnZ]
  rw [n0, n1, n2, n3, fl_q1, fl_q0, zero_add]
  have s1 : binary64.fl (1 / 4 + 1 / 2 ^ 54) = 1 / 4 + 1 / 2 ^ 54 := binary64_rep (2 ^ 52 + 1) (-54) (by norm_num) (by norm_num)
  have s2 : binary64.fl (1 / 4 + 1 / 2 ^ 54 + (1 / 4 + 1 / 2 ^ 54)) = 1 / 2 + 1 / 2 ^ 53 := by
    rw [binary64_rep (2 ^ 52 + 1) (-53) (by norm_num) (by norm_num)]; norm_num
  have s3 : binary64.fl (1 / 2 + 1 / 2 ^ 53 + 1 / 4) = 3 / 4 + 1 / 2 ^ 53 := by
    rw [binary64_rep (3 * 2 ^ 51 + 1) (-53) (by norm_num) (by norm_num)]; norm_num
  have s4 : binary64.fl (3 / 4 + 1 / 2 ^ 53 + (1 / 4 + 1 / 2 ^ 54)) = 1 + 1 / 2 ^ 52 := by
    rw [binary64_round 0 (2 ^ 52 + 1) (1 / 2 ^ 52) (by norm_num) (by norm_num) (by norm_num)
      (Or.inl (by norm_num [abs_lt]))]
    norm_num
  rw [s1, s2, s3, s4]

theorem second_z : sideCoordR binary64 rotNodes turnCoords 1 4 2 = 1 := by
  rw [sideCoordR_eq]
  have n0 : turnCoords (nodeInPatchInCell rotNodes 1 4 0) 2 = 1 + 1 / 2 ^ 52 := by norm_num [nodeInPatchInCell, patchNodeTable, rotNodes, turnCoords, turnZ]
  have n1 : turnCoords (nodeInPatchInCell rotNodes 1 4 1) 2 = 1 := by norm_num [nodeInPatchInCell, patchNodeTable, rotNodes, turnCoords, turnZ]
  have n2 : turnCoords (nodeInPatchInCell rotNodes 1 4 2) 2 = 1 + 1 / 2 ^ 52 := by norm_num [nodeInPatchInCell, patchNodeTable, rotNodes, turnCoords, turnZ]
  have n3 : turnCoords (nodeInPatchInCell rotNodes 1 4 3) 2 = 1 + 1 / 2 ^ 52 := by norm_num [nodeInPatchInCell, patchNodeTable, rotNodes, turnCoords, turnZ]
  rw [n0, n1, n2, n3, fl_q1, fl_q0, zero_add]
  have s1 : binary64.fl (1 / 4 + 1 / 2 ^ 54) = 1 / 4 + 1 / 2 ^ 54 := binary64_rep (2 ^ 52 + 1) (-54) (by norm_num) (by norm_num)
  have s2 : binary64.fl (1 / 4 + 1 / 2 ^ 54 + 1 / 4) = 1 / 2 := by
    rw [binary64_round (-1) (2 ^ 52) (1 / 2 ^ 53) (by norm_num) (by norm_num) (by norm_num) (Or.inr ⟨by decide, by norm_num [abs_le]⟩)]
    norm_num
  have s3 : binary64.fl (1 / 2 + (1 / 4 + 1 / 2 ^ 54)) = 3 / 4 := by
    rw [binary64_round (-1) (3 * 2 ^ 51) (1 / 2 ^ 53) (by norm_num) (by norm_num) (by norm_num) (Or.inr ⟨by decide, by norm_num [abs_le]⟩)]
    norm_num
  have s4 : binary64.fl (3 / 4 + (1 / 4 + 1 / 2 ^ 54)) = 1 := by
    rw [binary64_round 0 (2 ^ 52) (1 / 2 ^ 52) (by norm_num) (by norm_num) (by norm_num) (Or.inl (by norm_num [abs_lt]))]
    norm_num
  rw [s1, s2, s3, s4]

theorem flat_xy (d : ℕ) (hd : d < 2) : sideCoordR binary64 rotNodes turnCoords 0 5 d = 3 / 8 ∧ sideCoordR binary64 rotNodes turnCoords 1 4 d = 3 / 8 := by
  have f0 : binary64.fl (0 / 4) = 0 := by norm_num [binary64.fl_zero]
  have f1 : binary64.fl (3 / 4 / 4) = 3 / 16 := by rw [binary64_rep 3 (-4) (by norm_num) (by norm_num)]; norm_num
  have f2 : binary64.fl (3 / 16) = 3 / 16 := binary64_rep 3 (-4) (by norm_num) (by norm_num)
  have f3 : binary64.fl (3 / 8) = 3 / 8 := binary64_rep 3 (-3) (by norm_num) (by norm_num)
  have e : (3 / 16 + 3 / 16 : ℝ) = 3 / 8 := by norm_num
  rw [sideCoordR_eq, sideCoordR_eq]
  interval_cases d <;>
    simp [nodeInPatchInCell, patchNodeTable, rotNodes, turnCoords, f1, f2, f3, binary64.fl_zero, e]

/-! ### The keys -/

theorem turn_min : coordMinR binary64 12 turnCoords 0 = 0 ∧ coordMinR binary64 12 turnCoords 1 = 0 ∧ coordMinR binary64 12 turnCoords 2 = base ∧
    coordMaxR binary64 12 turnCoords 0 = 3 / 4 ∧ coordMaxR binary64 12 turnCoords 1 = 3 / 4 := by
  have hF : (2 : ℝ) ≤ binary64.fl (10 ^ 64) := by
    rw [← Refine.fl_two binary64 Refine.rot_bits]; exact binary64.mono (by norm_num)
  have b0 : base ≤ 1 := by unfold base; norm_num
  have b1 : base ≤ 2 := by unfold base; norm_num
  have b2 : base ≤ 1 + 1 / 2 ^ 52 := by unfold base; norm_num
  unfold coordMinR coordMaxR
  generalize binary64.fl (10 ^ 64) = F at *
  simp only [loop_succ, loop_zero, turnCoords, turnZ]
  norm_num at b2 ⊢
  refine ⟨by linarith, ?_, by linarith⟩
  rw [min_eq_right (by linarith : base ≤ F), min_eq_left b2, min_eq_left b0]

theorem fl_tiny : binary64.fl (1 / 10 ^ 12) = 4951760157141521 / 2 ^ 92 := by
  rw [binary64_round (-40) 4951760157141521 (1 / 2 ^ 92) (by norm_num) (by norm_num) (by norm_num) (Or.inl (by norm_num [abs_lt]))]
  norm_num

theorem turn_eta : binary64.fl (1 / 10 ^ 16) ≤ 1 := by
  conv_rhs => rw [← Refine.fl_one binary64 Refine.rot_bits]
  exact binary64.mono (by norm_num)

theorem turn_bins (d : ℕ) (hd : d < 2) : numBinsR binary64 12 turnCoords (1 / 4) d = 6755399441064751 / 2 ^ 51 := by
  obtain ⟨m0, m1, -, M0, M1⟩ := turn_min
  have s1 : binary64.fl (3 / 4 + 4951760157141521 / 2 ^ 92) = 6755399441064751 / 2 ^ 53 := by
    rw [binary64_round (-1) 6755399441064751 (1 / 2 ^ 53) (by norm_num) (by norm_num) (by norm_num) (Or.inl (by norm_num [abs_lt]))]
    norm_num
  have s2 : binary64.fl (6755399441064751 / 2 ^ 53 / (1 / 4)) = 6755399441064751 / 2 ^ 51 := by
    rw [binary64_rep 6755399441064751 (-51) (by norm_num) (by norm_num)]; norm_num
  unfold numBinsR
  interval_cases d
  · rw [m0, M0, sub_zero, fl34, fl_tiny, s1, s2]
  · rw [m1, M1, sub_zero, fl34, fl_tiny, s1, s2]

theorem turn_idx {c p d : ℕ} (hd : d < 2) (h : sideCoordR binary64 rotNodes turnCoords c p d = 3 / 8) :
    hashIdxR binary64 12 rotNodes turnCoords (1 / 4) c p d = 6755399441073758 / 2 ^ 52 := by
  obtain ⟨m0, m1, -⟩ := turn_min
  have s0 : binary64.fl (3 / 8) = 3 / 8 := binary64_rep 3 (-3) (by norm_num) (by norm_num)
  have s1 : binary64.fl (3 / 8 + 4951760157141521 / 2 ^ 92) = 6755399441073758 / 2 ^ 54 := by
    rw [binary64_round (-2) 6755399441073758 (1 / 2 ^ 54) (by norm_num) (by norm_num) (by norm_num) (Or.inl (by norm_num [abs_lt]))]
    norm_num
  have s2 : binary64.fl (6755399441073758 / 2 ^ 54 / (1 / 4)) = 6755399441073758 / 2 ^ 52 := by
    rw [binary64_rep 6755399441073758 (-52) (by norm_num) (by norm_num)]; norm_num
  have hm : coordMinR binary64 12 turnCoords d = 0 := by interval_cases d <;> assumption
  unfold hashIdxR
  rw [h, hm, sub_zero, s0, fl_tiny, s1, s2, max_eq_right]
  exact turn_eta.trans (by norm_num)

theorem idx_first : hashIdxR binary64 12 rotNodes turnCoords (1 / 4) 0 5 2 = 7005599420329920 / 2 ^ 51 := by
  obtain ⟨-, -, m2, -⟩ := turn_min
  have s0 : binary64.fl (1 + 1 / 2 ^ 52 - base) = 7005599420320913 / 2 ^ 53 := by
    unfold base
    rw [binary64_rep 7005599420320913 (-53) (by norm_num) (by norm_num)]; norm_num
  have s1 : binary64.fl (7005599420320913 / 2 ^ 53 + 4951760157141521 / 2 ^ 92) = 7005599420329920 / 2 ^ 53 := by
    rw [binary64_round (-1) 7005599420329920 (1 / 2 ^ 53) (by norm_num) (by norm_num) (by norm_num) (Or.inl (by norm_num [abs_lt]))]
    norm_num
  have s2 : binary64.fl (7005599420329920 / 2 ^ 53 / (1 / 4)) = 7005599420329920 / 2 ^ 51 := by
    rw [binary64_rep 7005599420329920 (-51) (by norm_num) (by norm_num)]; norm_num
  unfold hashIdxR
  rw [first_z, m2, s0, fl_tiny, s1, s2, max_eq_right]
  exact turn_eta.trans (by norm_num)

theorem idx_second : hashIdxR binary64 12 rotNodes turnCoords (1 / 4) 1 4 2 = 7005599420329918 / 2 ^ 51 := by
  obtain ⟨-, -, m2, -⟩ := turn_min
  have s0 : binary64.fl (1 - base) = 7005599420320911 / 2 ^ 53 := by
    unfold base
    rw [binary64_rep 7005599420320911 (-53) (by norm_num) (by norm_num)]; norm_num
  have s1 : binary64.fl (7005599420320911 / 2 ^ 53 + 4951760157141521 / 2 ^ 92) = 7005599420329918 / 2 ^ 53 := by
    rw [binary64_round (-1) 7005599420329918 (1 / 2 ^ 53) (by norm_num) (by norm_num) (by norm_num) (Or.inl (by norm_num [abs_lt]))]
    norm_num
  have s2 : binary64.fl (7005599420329918 / 2 ^ 53 / (1 / 4)) = 7005599420329918 / 2 ^ 51 := by
    rw [binary64_rep 7005599420329918 (-51) (by norm_num) (by norm_num)]; norm_num
  unfold hashIdxR
  rw [second_z, m2, s0, fl_tiny, s1, s2, max_eq_right]
  exact turn_eta.trans (by norm_num)

theorem fl_a : binary64.fl (6755399441073758 / 2 ^ 52 * (6755399441064751 / 2 ^ 51)) = 5066549580812074 / 2 ^ 50 := by
  rw [binary64_round 2 5066549580812074 (1 / 2 ^ 50) (by norm_num) (by norm_num) (by norm_num) (Or.inl (by norm_num [abs_lt]))]
  norm_num

theorem fl_b : binary64.fl (6755399441073758 / 2 ^ 52 + 5066549580812074 / 2 ^ 50) = 6755399441080514 / 2 ^ 50 := by
  rw [binary64_round 2 6755399441080514 (1 / 2 ^ 50) (by norm_num) (by norm_num) (by norm_num) (Or.inr ⟨by decide, by norm_num [abs_le]⟩)]
  norm_num

theorem key_first (junk : ℕ → ℝ) (j : ℝ) : keyR binary64 2 12 rotNodes turnCoords junk j (6 * 0 + 5) = 34 := by
  unfold keyR
  rw [turn_delta, show (6 * 0 + 5) / 6 = 0 from rfl, show (6 * 0 + 5) % 6 = 5 from rfl]
  unfold hash1R
  rw [turn_idx (by omega) (flat_xy 0 (by omega)).1, turn_idx (by omega) (flat_xy 1 (by omega)).1, idx_first, turn_bins 0 (by omega), turn_bins 1 (by omega),
    fl_a, fl_b]
  have c : binary64.fl (7005599420329920 / 2 ^ 51 * (6755399441064751 / 2 ^ 51)) = 5254199565254445 / 2 ^ 49 := by
    rw [binary64_round 3 5254199565254445 (1 / 2 ^ 49) (by norm_num) (by norm_num) (by norm_num) (Or.inl (by norm_num [abs_lt]))]
    norm_num
  have d : binary64.fl (5254199565254445 / 2 ^ 49 * (6755399441064751 / 2 ^ 51)) = 7881299347892176 / 2 ^ 48 := by
    rw [binary64_round 4 7881299347892176 (1 / 2 ^ 48) (by norm_num) (by norm_num) (by norm_num) (Or.inl (by norm_num [abs_lt]))]
    norm_num
  have h : binary64.fl (6755399441080514 / 2 ^ 50 + 7881299347892176 / 2 ^ 48) = 34 := by
    rw [binary64_round 5 4785074604081152 (1 / 2 ^ 47) (by norm_num) (by norm_num) (by norm_num) (Or.inl (by norm_num [abs_lt]))]
    norm_num
  rw [c, d, h]
  norm_num

theorem key_second (junk : ℕ → ℝ) (j : ℝ) : keyR binary64 2 12 rotNodes turnCoords junk j (6 * 1 + 4) = 33 := by
  unfold keyR
  rw [turn_delta, show (6 * 1 + 4) / 6 = 1 from rfl, show (6 * 1 + 4) % 6 = 4 from rfl]
  unfold hash1R
  rw [turn_idx (by omega) (flat_xy 0 (by omega)).2, turn_idx (by omega) (flat_xy 1 (by omega)).2, idx_second, turn_bins 0 (by omega), turn_bins 1 (by omega),
    fl_a, fl_b]
  have c : binary64.fl (7005599420329918 / 2 ^ 51 * (6755399441064751 / 2 ^ 51)) = 5254199565254444 / 2 ^ 49 := by
    rw [binary64_round 3 5254199565254444 (1 / 2 ^ 49) (by norm_num) (by norm_num) (by norm_num) (Or.inl (by norm_num [abs_lt]))]
    norm_num
  have d : binary64.fl (5254199565254444 / 2 ^ 49 * (6755399441064751 / 2 ^ 51)) = 7881299347892174 / 2 ^ 48 := by
    rw [binary64_round 4 7881299347892174 (1 / 2 ^ 48) (by norm_num) (by norm_num) (by norm_num) (Or.inl (by norm_num [abs_lt]))]
    norm_num
  have h : binary64.fl (6755399441080514 / 2 ^ 50 + 7881299347892174 / 2 ^ 48) = 34 - 1 / 2 ^ 47 := by
    rw [binary64_round 5 4785074604081151 (1 / 2 ^ 47) (by norm_num) (by norm_num) (by norm_num) (Or.inl (by norm_num [abs_lt]))]
    norm_num
  rw [c, d, h, Nat.floor_eq_iff (by norm_num)]
  norm_num

/-! ### The failure -/

theorem turn_rep (n d : ℕ) : binary64.fl (turnCoords n d) = turnCoords n d := by
  unfold turnCoords turnZ base
  have h1 : n % 2 = 0 ∨ n % 2 = 1 := by omega
  have h2 : n / 2 % 2 = 0 ∨ n / 2 % 2 = 1 := by omega
  split_ifs
  · rcases h1 with h | h <;> rw [h]
    · simp [binary64.fl_zero]
    · rw [Nat.cast_one, mul_one, fl34]
  · rcases h2 with h | h <;> rw [h]
    · simp [binary64.fl_zero]
    · rw [Nat.cast_one, mul_one, fl34]
  · exact binary64_rep 8006399337680324 (-55) (by norm_num) (by norm_num)
  · exact binary64_rep (2 ^ 52 + 1) (-52) (by norm_num) (by norm_num)
  · exact Refine.fl_one _ Refine.rot_bits
  · exact Refine.fl_two _ Refine.rot_bits

theorem turn_perm : ((List.range 4).map (nodeInPatchInCell rotNodes 0 5)).Perm ((List.range 4).map (nodeInPatchInCell rotNodes 1 4)) := by decide

/-- **C93 fails (neighbour turned by 90 degrees).**  There is a mesh of two convex hexahedra with double precision coordinates between 0 and 2 in which the top side of the first
has the same four nodes as the bottom side of the second: in exact arithmetic the two sides get the same patch id, in double precision they get
different ids, so no patch has both sides. -/
theorem C93_negation : ∃ (nodes : ℕ → ℕ → ℕ) (x : ℕ → ℕ → ℝ), (∀ c < 2, ∀ l < 8, nodes c l < 12) ∧
    (∀ n < 12, ∀ d < 3, binary64.fl (x n d) = x n d ∧ 0 ≤ x n d ∧ x n d ≤ 2) ∧
    ((List.range 4).map (nodeInPatchInCell nodes 0 5)).Perm ((List.range 4).map (nodeInPatchInCell nodes 1 4)) ∧
    ∀ junk j jt jc js jn ji jk, ∃ k k', buildPatches 2 nodes (key 2 12 nodes x junk j) jt jc js jn ji jk = some k ∧
      buildPatches 2 nodes (keyR binary64 2 12 nodes x junk j) jt jc js jn ji jk = some k' ∧
      k.inCell 0 5 = k.inCell 1 4 ∧ k'.inCell 0 5 ≠ k'.inCell 1 4 := by
  refine ⟨rotNodes, turnCoords, by decide, fun n hn d hd => ⟨turn_rep n d, turn_inside d hd n hn⟩, turn_perm, ?_⟩
  intro junk j jt jc js jn ji jk
  obtain ⟨k, h1, h2, _⟩ := C38_patches_partial 2 rotNodes (key 2 12 rotNodes turnCoords junk j) jt jc js jn ji jk
  obtain ⟨k', h1', h2', _⟩ := C38_patches_partial 2 rotNodes (keyR binary64 2 12 rotNodes turnCoords junk j) jt jc js jn ji jk
  refine ⟨k, k', h1, h1', ?_, ?_⟩
  · rw [h2 0 (by omega) 5 (by omega) 1 (by omega) 4 (by omega)]
    have hs : ∀ d, sideCoord rotNodes turnCoords 0 5 d = sideCoord rotNodes turnCoords 1 4 d := by
      intro d
      rw [sideCoord_eq, sideCoord_eq]
      have := (turn_perm.map (fun n => turnCoords n d)).sum_eq
      simp only [List.range_succ, List.range_zero, List.nil_append, List.map_append, List.map_cons, List.map_nil, List.sum_append, List.sum_cons,
        List.sum_nil, add_zero] at this
      rw [this]
    unfold key
    rw [show (6 * 0 + 5) / 6 = 0 from rfl, show (6 * 0 + 5) % 6 = 5 from rfl, show (6 * 1 + 4) / 6 = 1 from rfl, show (6 * 1 + 4) % 6 = 4 from rfl]
    unfold hash1 hashIdx
    simp only [hs]
  · rw [Ne, h2' 0 (by omega) 5 (by omega) 1 (by omega) 4 (by omega), key_first, key_second]
    decide

/-- Non-vacuity of `C93_dyadic`: the same two cells, turned against each other, with coordinates `0`, `3`, `6`. -/
example (junk : ℕ → ℝ) (j : ℝ) (jt jc js jn : ℕ → ℤ) (ji : ℕ → ℕ → ℤ) (jk : ℕ → ℕ → ℕ) :
    ∃ k, buildPatches 2 rotNodes (keyR binary64 2 12 rotNodes
        (fun n d => (((if d = 0 then 3 * (n % 2) else if d = 1 then 3 * (n / 2 % 2) else 3 * (n / 4) : ℕ) : ℤ) : ℝ) * 2 ^ (0 : ℤ)) junk j)
      jt jc js jn ji jk = some k ∧ k.inCell 0 5 = k.inCell 1 4 := by
  obtain ⟨k, h1, h2⟩ := C93_dyadic binary64 2 12 rotNodes (by decide) _
    (fun n d => ((if d = 0 then 3 * (n % 2) else if d = 1 then 3 * (n / 2 % 2) else 3 * (n / 4) : ℕ) : ℤ)) (fun _ => 0) (fun n _ d _ => rfl)
    (fun n hn d _ => by
      rw [binary64_bits, abs_of_nonneg (by positivity)]
      have : (if d = 0 then 3 * (n % 2) else if d = 1 then 3 * (n / 2 % 2) else 3 * (n / 4) : ℕ) ≤ 36 := by split_ifs <;> omega
      generalize (if d = 0 then 3 * (n % 2) else if d = 1 then 3 * (n / 2 % 2) else 3 * (n / 4) : ℕ) = t at this ⊢
      norm_num
      omega) junk j jt jc js jn ji jk
  exact ⟨k, h1, h2 0 (by omega) 5 (by omega) 1 (by omega) 4 (by omega) turn_perm⟩

end Verif.Swage.Key
