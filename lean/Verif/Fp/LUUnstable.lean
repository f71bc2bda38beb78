import Verif.Fp.LU

/-!
# C89, what fails: the pivot choice makes the solver unstable

slam.cpp:46 stores the largest magnitude of each row as its scale factor and line 77 multiplies by it, where implicit pivoting
divides.  In double precision the result can be wrong in every digit although the matrix is harmless.
-/

namespace Verif.Fp.Rounding

/-- Doubles just below `2^60` are 128 apart (their neighbours are multiples of 128): everything closer than 64 is rounded up. -/
theorem binary64_big {x : ℝ} (h1 : 2 ^ 60 - 64 < x) (h2 : x < 2 ^ 60) : binary64.fl x = 2 ^ 60 := by
  show flBits 52 x = _
  have hx : 0 < x := lt_trans (by norm_num) h1
  unfold flBits
  rw [if_pos hx]
  unfold flPos
  have l1 : (2 : ℝ) ^ Int.log 2 x ≤ x := by exact_mod_cast Int.zpow_log_le_self (b := 2) (by norm_num) hx
  have l2 : x < (2 : ℝ) ^ (Int.log 2 x + 1) := by exact_mod_cast Int.lt_zpow_succ_log_self (b := 2) (by norm_num) x
  set e := Int.log 2 x
  have he : e = 59 := by
    have a1 : e < 60 := by
      by_contra q
      have : (2 : ℝ) ^ (60 : ℤ) ≤ 2 ^ e := zpow_le_zpow_right₀ (by norm_num) (by omega)
      norm_num at this h2; linarith
    have a2 : 59 ≤ e := by
      by_contra q
      have : (2 : ℝ) ^ (e + 1) ≤ 2 ^ (59 : ℤ) := zpow_le_zpow_right₀ (by norm_num) (by omega)
      norm_num at this h1; linarith
    omega
  have hulp : ulp 52 e = 128 := by rw [he]; unfold ulp; norm_num
  rw [hulp]
  have z1 : (2 : ℝ) ^ 53 - 1 / 2 < x / 128 := by rw [lt_div_iff₀ (by norm_num)]; norm_num at h1 ⊢; linarith
  have z2 : x / 128 < 2 ^ 53 := by rw [div_lt_iff₀ (by norm_num)]; norm_num at h2 ⊢; linarith
  have f1 : ⌊x / 128⌋ = 2 ^ 53 - 1 := by
    rw [Int.floor_eq_iff]; push_cast; constructor <;> linarith
  have f2 : ⌊x / 128 + 1 / 2⌋ = 2 ^ 53 := by
    rw [Int.floor_eq_iff]; push_cast; constructor <;> linarith
  have : nearest (x / 128) = 2 ^ 53 := by
    unfold nearest
    rw [if_neg, f2]
    rintro ⟨h, -⟩
    rw [f1] at h; push_cast at h; linarith
  rw [this]; push_cast; norm_num

theorem binary64_neg (x : ℝ) : binary64.fl (-x) = -binary64.fl x := by
  show flBits 52 (-x) = -flBits 52 x
  unfold flBits
  rcases lt_trichotomy x 0 with h | h | h
  · rw [if_pos (by linarith), if_neg (by linarith), if_pos h, neg_neg]
  · subst h; simp
  · rw [if_neg (by linarith), if_pos (by linarith), if_pos h, neg_neg]

theorem binary64_one : binary64.fl 1 = 1 := by
  have := binary64.fl_int 1 (by rw [abs_one]; exact one_le_pow₀ (by norm_num)); simpa using this

theorem binary64_pow (k : ℕ) : binary64.fl (2 ^ k) = 2 ^ k := by
  have := binary64.exact 1 k (by rw [abs_one]; exact one_le_pow₀ (by norm_num)); simpa using this

end Verif.Fp.Rounding

namespace Verif.LU
open Finset Verif.Fp Verif.Fp.Rounding

/-- `[[1, 2^60], [1, 1]]` -/
def badA (i j : ℕ) : ℝ := if i = 0 ∧ j = 1 then 2 ^ 60 else 1
/-- `(2^60, 2)` -/
def badB (i : ℕ) : ℝ := if i = 0 then 2 ^ 60 else 2

theorem badA_scaling : ∃ vv : ℕ → ℝ, scaling 2 badA = some vv ∧ vv 0 = 2 ^ 60 ∧ vv 1 = 1 := by
  have r0 : rowMax 2 badA 0 = 2 ^ 60 := by
    simp only [rowMax, loop, badA]; norm_num
  have r1 : rowMax 2 badA 1 = 1 := by
    simp only [rowMax, loop, badA]; norm_num
  refine ⟨store (store (fun _ => 0) 0 (2 ^ 60)) 1 1, ?_, ?_, ?_⟩
  · simp only [scaling, loop, r0, r1]
    norm_num
  · rw [store_ne _ _ (by norm_num), store_same]
  · rw [store_same]

theorem fl_one_sub : binary64.fl (1 - 2 ^ 60) = -2 ^ 60 := by
  rw [show (1 : ℝ) - 2 ^ 60 = -(2 ^ 60 - 1) by ring, binary64_neg, binary64_big (by linarith) (by linarith)]

theorem fl_two_sub : binary64.fl (2 - 2 ^ 60) = -2 ^ 60 := by
  rw [show (2 : ℝ) - 2 ^ 60 = -(2 ^ 60 - 2) by ring, binary64_neg, binary64_big (by linarith) (by linarith)]

/-- The factors computed. -/
theorem bad_factor : let r := decomposR binary64 2 badA (fun _ => 0)
    r.ret = 1 ∧ r.a 0 0 = 1 ∧ r.a 0 1 = 2 ^ 60 ∧ r.a 1 0 = 1 ∧ r.a 1 1 = -2 ^ 60 ∧ r.indx 0 = 0 ∧ r.indx 1 = 1 := by
  obtain ⟨vv, e, v0, v1⟩ := badA_scaling
  intro r
  have hr : r = let s := loop 2 (columnR binary64 2) { a := badA, indx := fun _ => 0, parity := 1, vv := vv }
      { ret := 1, a := s.a, indx := s.indx, parity := s.parity } := by
    show decomposR binary64 2 badA _ = _
    unfold decomposR; rw [e]
  -- first column
  have same : ∀ i, store2 badA i 0 1 = badA := by
    intro i; funext i' j'
    unfold store2 badA
    split_ifs with h1 h2 <;> first | rfl | omega
  have b0 : ∀ i, badA i 0 = 1 := by intro i; unfold badA; rw [if_neg (by omega)]
  have b1 : badA 1 1 = 1 := by unfold badA; rw [if_neg (by omega)]
  have b2 : badA 0 1 = 2 ^ 60 := by unfold badA; rw [if_pos ⟨rfl, rfl⟩]
  have l0 : lowerR binary64 2 0 vv (upperR binary64 0 badA) = (badA, 2 ^ 60, 0) := by
    simp only [lowerR, upperR, loop, Nat.sub_zero, Nat.zero_add, add_zero, b0, same, v0, v1, abs_one, mul_one, binary64_one,
      binary64_pow]
    norm_num
    rw [b0, same, abs_one, binary64_one, if_neg (by norm_num)]
  have c0 : columnR binary64 2 0 { a := badA, indx := fun _ => 0, parity := 1, vv := vv } =
      { a := badA, indx := store (fun _ => 0) 0 0, parity := 1, vv := vv } := by
    unfold columnR
    simp only [l0, ne_eq, not_true_eq_false, if_false]
    have : fixPivotR binary64 0 badA = badA := by unfold fixPivotR; rw [if_neg]; rw [b0]; norm_num
    rw [this]
    have : scaleColR binary64 2 0 badA = badA := by
      unfold scaleColR
      rw [if_pos (by norm_num)]
      simp only [b0, loop, div_one, binary64_one, mul_one, same, Nat.zero_add, add_zero]
    rw [this]
  -- second column
  set A' := store2 (store2 badA 0 1 (2 ^ 60)) 1 1 (-2 ^ 60) with hA'
  have u1 : upperR binary64 1 badA = store2 badA 0 1 (2 ^ 60) := by
    simp only [upperR, loop, b2]
  have l1 : lowerR binary64 2 1 vv (upperR binary64 1 badA) = (A', 2 ^ 60, 1) := by
    rw [u1]
    have q1 : store2 badA 0 1 (2 ^ 60) 1 1 = 1 := by rw [store2_ne _ _ (by omega), b1]
    have q2 : store2 badA 0 1 (2 ^ 60) 1 0 = 1 := by rw [store2_ne _ _ (by omega), b0]
    have q3 : store2 badA 0 1 (2 ^ 60) 0 1 = 2 ^ 60 := store2_eq _ _ _ _
    simp only [lowerR, loop, Nat.add_zero, q1, q2, q3, one_mul, binary64_pow, fl_one_sub, v1, abs_neg]
    rw [abs_of_pos (by positivity), binary64_pow, if_pos (by positivity)]
  have c1 : columnR binary64 2 1 { a := badA, indx := store (fun _ => 0) 0 0, parity := 1, vv := vv } =
      { a := A', indx := store (store (fun _ => 0) 0 0) 1 1, parity := 1, vv := vv } := by
    unfold columnR
    simp only [l1, ne_eq, not_true_eq_false, if_false]
    have : fixPivotR binary64 1 A' = A' := by
      unfold fixPivotR; rw [if_neg]; rw [hA', store2_eq]
      exact neg_ne_zero.2 (by positivity)
    rw [this]
    have : scaleColR binary64 2 1 A' = A' := by
      unfold scaleColR
      rw [if_neg (by norm_num)]
    rw [this]
  have hl : loop 2 (columnR binary64 2) { a := badA, indx := fun _ => 0, parity := 1, vv := vv } =
      { a := A', indx := store (store (fun _ => 0) 0 0) 1 1, parity := 1, vv := vv } := by
    rw [loop_succ, loop_succ, loop_zero, c0, c1]
  rw [hl] at hr
  rw [hr]
  refine ⟨rfl, ?_, ?_, ?_, ?_, ?_, ?_⟩
  · show A' 0 0 = 1
    rw [hA', store2_ne _ _ (by omega), store2_ne _ _ (by omega), b0]
  · show A' 0 1 = _
    rw [hA', store2_ne _ _ (by omega), store2_eq]
  · show A' 1 0 = 1
    rw [hA', store2_ne _ _ (by omega), store2_ne _ _ (by omega), b0]
  · show A' 1 1 = _
    rw [hA', store2_eq]
  · rfl
  · rfl

/-- The solution computed: `(0, 1)`. -/
theorem bad_solve : let r := decomposR binary64 2 badA (fun _ => 0)
    let x := backsubR binary64 2 r.a r.indx badB
    x 0 = 0 ∧ x 1 = 1 := by
  intro r x
  obtain ⟨-, a00, a01, a10, a11, i0, i1⟩ := bad_factor
  have e0 : r.a 0 0 = 1 := a00
  have e1 : r.a 0 1 = 2 ^ 60 := a01
  have e2 : r.a 1 0 = 1 := a10
  have e3 : r.a 1 1 = -2 ^ 60 := a11
  have e4 : r.indx 0 = 0 := i0
  have e5 : r.indx 1 = 1 := i1
  have k0 : badB 0 = 2 ^ 60 := if_pos rfl
  have k1 : badB 1 = 2 := if_neg (by norm_num)
  have hf : (forwardR binary64 2 r.a r.indx badB).1 = store badB 1 (-2 ^ 60) := by
    have s0 : store badB 0 (2 ^ 60) = badB := by
      funext i; unfold store badB; split_ifs <;> rfl
    have s1 : store badB 1 2 = badB := by
      funext i; unfold store
      split_ifs with h
      · rw [h, k1]
      · rfl
    have hne : (2 : ℝ) ^ 60 ≠ 0 := by positivity
    simp only [forwardR, loop, e4, e5, k0, s0, k1, Nat.sub_zero, Nat.add_zero, e2, one_mul, ne_eq, hne,
      not_false_eq_true, if_true, s1, binary64_pow, fl_two_sub]
  have hx : x = backwardR binary64 2 r.a (store badB 1 (-2 ^ 60)) := by
    show backwardR binary64 2 r.a (forwardR binary64 2 r.a r.indx badB).1 = _
    rw [hf]
  have hdiv : (-2 ^ 60 : ℝ) / -2 ^ 60 = 1 := div_self (neg_ne_zero.2 (by positivity))
  have y1 : x = store (store (store badB 1 (-2 ^ 60)) 1 1) 0 0 := by
    rw [hx]
    have q1 : store badB 1 (-2 ^ 60) 1 = (-2 ^ 60 : ℝ) := store_same _ _ _
    have q2 : store (store badB 1 (-2 ^ 60)) 1 1 0 = (2 ^ 60 : ℝ) := by
      rw [store_ne _ _ (by norm_num), store_ne _ _ (by norm_num), k0]
    have q3 : store (store badB 1 (-2 ^ 60)) 1 1 1 = (1 : ℝ) := store_same _ _ _
    simp only [backwardR, loop, Nat.add_zero, Nat.zero_add, show 2 - 1 = 1 by norm_num,
      show 2 - (1 + 1) = 0 by norm_num, e3, q1, hdiv, binary64_one, q2, e0, e1, q3, mul_one, binary64_pow, sub_self,
      binary64.fl_zero, div_one]
  rw [y1]
  exact ⟨store_same _ _ _, by rw [store_ne _ _ (by norm_num), store_same]⟩

/-- **C89** (stability fails).  For the system `x + 2^60 y = 2^60`, `x + y = 2` the solver, in double precision, returns `(0, 1)`;
the true solution has `x ≥ 1`.  The result solves no system whose coefficients are within 99 % of the given ones.  (Dividing by the
scale factors, the code would have taken the other row as pivot row.) -/
theorem C89_stability_negation :
    let r := decomposR binary64 2 badA (fun _ => 0)
    let x := backsubR binary64 2 r.a r.indx badB
    r.ret = 1 ∧ x 0 = 0 ∧ x 1 = 1 ∧
      (∀ z : Fin 2 → ℝ, (toMat 2 badA).mulVec z = (fun i : Fin 2 => badB i) → 1 ≤ z 0 ∧ z 0 ≤ 2 ∧ 0 ≤ z 1 ∧ z 1 ≤ 1) ∧
      ¬ ∃ E : Matrix (Fin 2) (Fin 2) ℝ, (∀ i k, |E i k| ≤ 99 / 100 * |toMat 2 badA i k|) ∧
        (toMat 2 badA + E).mulVec (fun i => x i) = fun i : Fin 2 => badB i := by
  intro r x
  obtain ⟨x0, x1⟩ := bad_solve
  have m00 : toMat 2 badA 0 0 = 1 := by simp [toMat, badA]
  have m01 : toMat 2 badA 0 1 = 2 ^ 60 := by simp [toMat, badA]
  have m10 : toMat 2 badA 1 0 = 1 := by simp [toMat, badA]
  have m11 : toMat 2 badA 1 1 = 1 := by simp [toMat, badA]
  refine ⟨bad_factor.1, x0, x1, ?_, ?_⟩
  · intro z hz
    have h0 : toMat 2 badA 0 0 * z 0 + toMat 2 badA 0 1 * z 1 = 2 ^ 60 := by
      have := congrFun hz 0
      simpa [Matrix.mulVec, dotProduct, Fin.sum_univ_two, badB] using this
    have h1 : toMat 2 badA 1 0 * z 0 + toMat 2 badA 1 1 * z 1 = 2 := by
      have := congrFun hz 1
      simpa [Matrix.mulVec, dotProduct, Fin.sum_univ_two, badB] using this
    rw [m00, m01] at h0
    rw [m10, m11] at h1
    norm_num at h0 h1
    refine ⟨?_, ?_, ?_, ?_⟩ <;> linarith
  · rintro ⟨E, h1, h2⟩
    have h3 : (toMat 2 badA 1 0 + E 1 0) * x 0 + (toMat 2 badA 1 1 + E 1 1) * x 1 = 2 := by
      have := congrFun h2 1
      simpa [Matrix.mulVec, dotProduct, Fin.sum_univ_two, badB] using this
    have h4 := (abs_le.1 (h1 1 1)).2
    rw [show x 0 = 0 from x0, show x 1 = 1 from x1, m11] at h3
    rw [m11, abs_one] at h4
    linarith

/-- The theorems of `Verif/Fp/LU.lean` apply to this system: their bound holds because the factors are large. -/
example : ∃ E : Matrix (Fin 2) (Fin 2) ℝ,
    (∀ i k, |E (rowPerm 2 (decomposR binary64 2 badA (fun _ => 0)).indx 2 i) k| ≤
      pertBound binary64 2 (decomposR binary64 2 badA (fun _ => 0)).a (1 / (1 - binary64.u) ^ (3 * 2) - 1) i k) ∧
    (toMat 2 badA + E).mulVec (fun i => backsubR binary64 2 (decomposR binary64 2 badA (fun _ => 0)).a
      (decomposR binary64 2 badA (fun _ => 0)).indx badB i) = fun i : Fin 2 => badB i :=
  C89_solve binary64 (by rw [binary64_u]; norm_num) 2 badA _ bad_factor.1 badB

end Verif.LU
