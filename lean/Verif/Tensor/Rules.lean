import Verif.Tensor.Model
import Verif.Quad.Theorems

/-!
# The one-dimensional rules of `line_gauss_info` and `line_lobatto_info`
-/

namespace Verif.Tensor
open Verif.Quad Polynomial

/-- Point `i` (from 0) of the Gauss-Legendre rule with `q` points. -/
noncomputable def gx (q i : ℕ) : ℝ := if q = 1 then 0 else (gaussPts q).getD i 0
/-- Weight `i` of the Gauss-Legendre rule with `q` points. -/
noncomputable def gw (q i : ℕ) : ℝ := if q = 1 then 2 else (gaussWts q).getD i 0
/-- Point `i` of the Lobatto rule. -/
noncomputable def lx (q i : ℕ) : ℝ := if q = 1 then 0 else ((lobPts q).getD i 0 : ℚ)
/-- Weight `i` of the Lobatto rule. -/
noncomputable def lw (q i : ℕ) : ℝ := if q = 1 then 2 else ((lobWts q).getD i 0 : ℚ)

theorem gauss_lengths {q : ℕ} (h2 : 2 ≤ q) (h8 : q ≤ 8) : (gaussPts q).length = q ∧ (gaussWts q).length = q := by
  interval_cases q <;> exact ⟨rfl, rfl⟩

theorem lob_lengths {q : ℕ} (h2 : 2 ≤ q) (h8 : q ≤ 8) : (lobPts q).length = q ∧ (lobWts q).length = q := by
  interval_cases q <;> exact ⟨rfl, rfl⟩

theorem at'_lt {l : List ℝ} {i : ℕ} (h : i < l.length) : at' l ((i : ℤ) + 1 - 1) = some (l.getD i 0) := by
  unfold at'
  rw [if_pos (by omega), show ((i : ℤ) + 1 - 1).toNat = i by omega, List.getElem?_eq_getElem h, List.getD_eq_getElem?_getD, List.getElem?_eq_getElem h]
  rfl

theorem lineGauss_eq {q i : ℕ} (h1 : 1 ≤ q) (h8 : q ≤ 8) (hi : i < q) : lineGauss (i + 1) q = some (gx q i, gw q i) := by
  unfold lineGauss lineInfo gx gw
  by_cases h : q = 1
  · simp only [h, if_true]
  · have h2 : 2 ≤ q := by omega
    obtain ⟨a, b⟩ := gauss_lengths h2 h8
    simp only [h, if_false]
    rw [if_pos ⟨h2, h8⟩, at'_lt (by omega), at'_lt (by omega)]
    rfl

theorem lineLobatto_eq {q i : ℕ} (h1 : 1 ≤ q) (h8 : q ≤ 8) (hi : i < q) : lineLobatto (i + 1) q = some (lx q i, lw q i) := by
  unfold lineLobatto lineInfo lx lw
  by_cases h : q = 1
  · simp only [h, if_true]
  · have h2 : 2 ≤ q := by omega
    obtain ⟨a, b⟩ := lob_lengths h2 h8
    simp only [h, if_false]
    rw [if_pos ⟨h2, h8⟩, at'_lt (by rw [List.length_map]; omega), at'_lt (by rw [List.length_map]; omega)]
    rw [getD_map_cast, getD_map_cast]
    rfl

/-- Error constant of the Gauss-Legendre rules: exact up to five points, sixteen printed digits above. -/
noncomputable def epsG (q : ℕ) : ℝ := if q ≤ 5 then 0 else 3 / 10 ^ 16
/-- Error constant of the Lobatto rules. -/
noncomputable def epsL (q : ℕ) : ℝ := if q ≤ 3 then 0 else 2 / 10 ^ 21

theorem gauss_good1 : GoodRule 1 2 0 (gx 1) (gw 1) := by
  apply good_of _ _ _ _ _ _ _ le_rfl
  · intro k hk
    interval_cases k <;> simp [quad, gx, gw, mom]
  · intro i hi; omega
  · intro i hi; have : i = 0 := by omega
    subst this; simp [gx, gw]
  · intro i hi; simp [gx]
  · intro i hi; simp [gw]

theorem gauss_good2 : GoodRule 2 4 0 (gx 2) (gw 2) := by
  have hs : √3 ^ 2 = (3 : ℝ) := Real.sq_sqrt (by norm_num)
  have h0 : 0 < √3 := Real.sqrt_pos.2 (by norm_num)
  have hx : (gx 2) = fun i => [-(√3 / 3), √3 / 3].getD i 0 := by
    funext i
    have : 1 / √3 = √3 / 3 := by field_simp; exact hs.symm
    simp only [gx, gaussPts]
    rw [if_neg (by decide), neg_div, this]; simp
  have hw : (gw 2) = fun i => [1, (1:ℝ)].getD i 0 := by funext i; simp [gw, gaussWts]
  rw [hx, hw]
  generalize √3 = s at *
  have h3 : s < 3 := by nlinarith
  apply good_of _ _ _ _ _ _ _ le_rfl
  · intro k hk
    interval_cases k <;> simp [quad, Finset.sum_range_succ, mom]
    · norm_num
    · linear_combination (2 / 9) * hs
    · ring
  · intro i hi
    interval_cases i; simp; linarith
  · intro i hi
    interval_cases i <;> simp
  · intro i hi
    interval_cases i <;> simp <;> (try constructor) <;> linarith
  · intro i hi
    interval_cases i <;> simp

theorem gauss_good3 : GoodRule 3 6 0 (gx 3) (gw 3) := by
  have hs : √(3 / 5) ^ 2 = (3 / 5 : ℝ) := Real.sq_sqrt (by norm_num)
  have h0 : 0 < √(3 / 5) := Real.sqrt_pos.2 (by norm_num)
  have hx : (gx 3) = fun i => [-√(3 / 5), 0, √(3 / 5)].getD i 0 := by
    funext i
    simp only [gx, gaussPts]
    rw [if_neg (by decide)]; simp
  have hw : (gw 3) = fun i => [5 / 9, 8 / 9, (5 / 9:ℝ)].getD i 0 := by funext i; simp [gw, gaussWts]
  rw [hx, hw]
  generalize √(3 / 5) = s at *
  have h3 : s < 1 := by nlinarith
  apply good_of _ _ _ _ _ _ _ le_rfl
  · intro k hk
    interval_cases k <;> simp [quad, Finset.sum_range_succ, mom]
    · norm_num
    · linear_combination (10 / 9) * hs
    · ring
    · linear_combination (10 / 9) * (s ^ 2 + 3 / 5) * hs
    · ring
  · intro i hi
    interval_cases i <;> simp <;> linarith
  · intro i hi
    interval_cases i <;> simp
  · intro i hi
    interval_cases i <;> simp <;> (try constructor) <;> linarith
  · intro i hi
    interval_cases i <;> simp

theorem gauss_good4 : GoodRule 4 8 0 (gx 4) (gw 4) := by
  have hs : √(6 / 5) ^ 2 = (6 / 5 : ℝ) := Real.sq_sqrt (by norm_num)
  have h0 : 0 < √(6 / 5) := Real.sqrt_pos.2 (by norm_num)
  have hr : √(5 / 6) = 5 / 6 * √(6 / 5) := by
    rw [Real.sqrt_eq_iff_mul_self_eq (by norm_num) (by positivity)]
    linear_combination (-25 / 36) * hs
  have hw : (gw 4) = fun i => [1 / 2 - 5 / 36 * √(6 / 5), 1 / 2 + 5 / 36 * √(6 / 5), 1 / 2 + 5 / 36 * √(6 / 5), 1 / 2 - 5 / 36 * √(6 / 5)].getD i 0 := by
    funext i
    simp only [gw, gaussWts]
    rw [if_neg (by decide), hr]
    ring_nf
  have hx : (gx 4) = fun i => [-√((3 + 2 * √(6 / 5)) / 7), -√((3 - 2 * √(6 / 5)) / 7), √((3 - 2 * √(6 / 5)) / 7), √((3 + 2 * √(6 / 5)) / 7)].getD i 0 := by
    funext i
    simp only [gx, gaussPts]
    rw [if_neg (by decide)]; simp
  rw [hx, hw]
  generalize √(6 / 5) = s at *
  have s1 : s < 11 / 10 := by nlinarith
  have s2 : 1 < s := by nlinarith
  have ha : √((3 + 2 * s) / 7) ^ 2 = (3 + 2 * s) / 7 := Real.sq_sqrt (by linarith)
  have hb : √((3 - 2 * s) / 7) ^ 2 = (3 - 2 * s) / 7 := Real.sq_sqrt (by linarith)
  have a0 : 0 < √((3 + 2 * s) / 7) := Real.sqrt_pos.2 (by linarith)
  have b0 : 0 < √((3 - 2 * s) / 7) := Real.sqrt_pos.2 (by linarith)
  have hab : √((3 - 2 * s) / 7) < √((3 + 2 * s) / 7) := Real.sqrt_lt_sqrt (by linarith) (by linarith)
  generalize √((3 + 2 * s) / 7) = a at *
  generalize √((3 - 2 * s) / 7) = b at *
  have a1 : a < 1 := by nlinarith
  have ha4 : a ^ 4 = ((3 + 2 * s) / 7) ^ 2 := by rw [← ha]; ring
  have hb4 : b ^ 4 = ((3 - 2 * s) / 7) ^ 2 := by rw [← hb]; ring
  have ha6 : a ^ 6 = ((3 + 2 * s) / 7) ^ 3 := by rw [← ha]; ring
  have hb6 : b ^ 6 = ((3 - 2 * s) / 7) ^ 3 := by rw [← hb]; ring
  have s4 : s ^ 4 = (6 / 5) ^ 2 := by rw [← hs]; ring
  apply good_of _ _ _ _ _ _ _ le_rfl
  · intro k hk
    interval_cases k <;> simp [quad, Finset.sum_range_succ, mom]
    all_goals ring_nf
    all_goals simp only [ha, hb, ha4, hb4, ha6, hb6]
    all_goals ring_nf
    all_goals simp only [hs, s4]
    all_goals norm_num
  · intro i hi
    interval_cases i <;> simp <;> linarith
  · intro i hi
    interval_cases i <;> simp
  · intro i hi
    interval_cases i <;> simp <;> (try constructor) <;> linarith
  · intro i hi
    interval_cases i <;> simp <;> linarith

theorem gauss_good5 : GoodRule 5 10 0 (gx 5) (gw 5) := by
  have hs : √(10 / 7) ^ 2 = (10 / 7 : ℝ) := Real.sq_sqrt (by norm_num)
  have h0 : 0 < √(10 / 7) := Real.sqrt_pos.2 (by norm_num)
  have hr : √70 = 7 * √(10 / 7) := by
    rw [Real.sqrt_eq_iff_mul_self_eq (by norm_num) (by positivity)]
    linear_combination (-49) * hs
  have hw : (gw 5) = fun i => [(322 - 13 * (7 * √(10 / 7))) / 900, (322 + 13 * (7 * √(10 / 7))) / 900, 512 / 900, (322 + 13 * (7 * √(10 / 7))) / 900, (322 - 13 * (7 * √(10 / 7))) / 900].getD i 0 := by
    funext i
    simp only [gw, gaussWts]
    rw [if_neg (by decide), hr]
  have hx : (gx 5) = fun i => [-(√(5 + 2 * √(10 / 7)) / 3), -(√(5 - 2 * √(10 / 7)) / 3), 0, √(5 - 2 * √(10 / 7)) / 3, √(5 + 2 * √(10 / 7)) / 3].getD i 0 := by
    funext i
    simp only [gx, gaussPts]
    rw [if_neg (by decide)]; simp [neg_div]
  rw [hx, hw]
  generalize √(10 / 7) = s at *
  have s1 : s < 6 / 5 := by nlinarith
  have s2 : 1 < s := by nlinarith
  have ha : √(5 + 2 * s) ^ 2 = 5 + 2 * s := Real.sq_sqrt (by linarith)
  have hb : √(5 - 2 * s) ^ 2 = 5 - 2 * s := Real.sq_sqrt (by linarith)
  have a0 : 0 < √(5 + 2 * s) := Real.sqrt_pos.2 (by linarith)
  have b0 : 0 < √(5 - 2 * s) := Real.sqrt_pos.2 (by linarith)
  have hab : √(5 - 2 * s) < √(5 + 2 * s) := Real.sqrt_lt_sqrt (by linarith) (by linarith)
  generalize √(5 + 2 * s) = a at *
  generalize √(5 - 2 * s) = b at *
  have a1 : a < 3 := by nlinarith
  have ha4 : a ^ 4 = (5 + 2 * s) ^ 2 := by rw [← ha]; ring
  have hb4 : b ^ 4 = (5 - 2 * s) ^ 2 := by rw [← hb]; ring
  have ha6 : a ^ 6 = (5 + 2 * s) ^ 3 := by rw [← ha]; ring
  have hb6 : b ^ 6 = (5 - 2 * s) ^ 3 := by rw [← hb]; ring
  have ha8 : a ^ 8 = (5 + 2 * s) ^ 4 := by rw [← ha]; ring
  have hb8 : b ^ 8 = (5 - 2 * s) ^ 4 := by rw [← hb]; ring
  have s4 : s ^ 4 = (10 / 7) ^ 2 := by rw [← hs]; ring
  apply good_of _ _ _ _ _ _ _ le_rfl
  · intro k hk
    interval_cases k <;> simp [quad, Finset.sum_range_succ, mom]
    all_goals ring_nf
    all_goals simp only [ha, hb, ha4, hb4, ha6, hb6, ha8, hb8]
    all_goals ring_nf
    all_goals simp only [hs, s4]
    all_goals norm_num
  · intro i hi
    interval_cases i <;> simp <;> linarith
  · intro i hi
    interval_cases i <;> simp
  · intro i hi
    interval_cases i <;> simp <;> (try constructor) <;> linarith
  · intro i hi
    interval_cases i <;> simp <;> linarith

theorem gauss_checkQ : ∀ q < 9, 6 ≤ q → CheckQ q (2 * q) (3 / 10 ^ 16) (gaussPts.gaussPtsQ q) (gaussWts.gaussWtsQ q) := by
  decide +kernel

/-- The Gauss-Legendre rules integrate all polynomials of degree below `2q`, exactly up to five points. -/
theorem gauss_good {q : ℕ} (h1 : 1 ≤ q) (h8 : q ≤ 8) : GoodRule q (2 * q) (epsG q) (gx q) (gw q) := by
  by_cases h5 : q ≤ 5
  · rw [show epsG q = 0 from if_pos h5]
    interval_cases q
    · exact gauss_good1
    · exact gauss_good2
    · exact gauss_good3
    · exact gauss_good4
    · exact gauss_good5
  · have c := good_of_check (gauss_checkQ q (by omega) (by omega))
    rw [show epsG q = ((3 / 10 ^ 16 : ℚ) : ℝ) by unfold epsG; rw [if_neg h5]; norm_num]
    refine c.congr ?_ ?_
    · intro i hi
      unfold gx
      rw [if_neg (by omega), show gaussPts q = (gaussPts.gaussPtsQ q).map (fun q : ℚ => (q : ℝ)) by
        interval_cases q <;> rfl, getD_map_cast]
    · intro i hi
      unfold gw
      rw [if_neg (by omega), show gaussWts q = (gaussWts.gaussWtsQ q).map (fun q : ℚ => (q : ℝ)) by
        interval_cases q <;> rfl, getD_map_cast]

theorem lob_checkQ : ∀ q < 9, 2 ≤ q → q ≠ 3 → CheckQ q (2 * q - 2) (if q ≤ 3 then 0 else 2 / 10 ^ 21) (lobPts q) (lobWts q) := by
  decide +kernel

/-- The Lobatto rules, listed in increasing order except for three points. -/
theorem lob_good {q : ℕ} (h2 : 2 ≤ q) (h8 : q ≤ 8) (h3 : q ≠ 3) : GoodRule q (2 * q - 2) (epsL q) (lx q) (lw q) := by
  have c := good_of_check (lob_checkQ q (by omega) h2 h3)
  rw [show epsL q = ((if q ≤ 3 then 0 else 2 / 10 ^ 21 : ℚ) : ℝ) by unfold epsL; split_ifs <;> norm_num]
  exact c.congr (fun i hi => by unfold lx; rw [if_neg (by omega)]) (fun i hi => by unfold lw; rw [if_neg (by omega)])

/-- The three-point Lobatto rule, listed in decreasing order. -/
theorem lob_good3 : GoodRule 3 4 0 (fun i => lx 3 (2 - i)) (lw 3) := by
  have c : CheckQ 3 4 0 [-1, 0, 1] (lobWts 3) := by decide +kernel
  have c := good_of_check c
  rw [show (((0 : ℚ) : ℝ)) = 0 by norm_num] at c
  refine c.congr ?_ ?_
  · intro i hi
    unfold lx
    rw [if_neg (by decide)]
    interval_cases i <;> simp [lobPts]
  · intro i hi
    unfold lw
    rw [if_neg (by decide)]

end Verif.Tensor
