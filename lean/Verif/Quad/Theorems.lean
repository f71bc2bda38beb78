import Verif.Quad.Tables
import Mathlib.Analysis.SpecialFunctions.Integrals.Basic
import Mathlib.Algebra.Polynomial.Eval.Degree
import Mathlib.Tactic.NormNum
import Mathlib.Tactic.IntervalCases
import Mathlib.Tactic.LinearCombination
import Mathlib.Tactic.FieldSimp

/-!
# C30: the tabulated quadrature rules

`C30_legendre`, `C30_lobatto`: accuracy for every polynomial of the exactness degree, symmetry, ordering and
positivity.  `C30_lobatto12`: the 12-point Lobatto rule is only good to `4.8e-15`.
-/

namespace Verif.Quad
open Polynomial

/-- Value of the quadrature rule on `f`. -/
noncomputable def quad (n : ℕ) (x w : ℕ → ℝ) (f : ℝ → ℝ) : ℝ := ∑ i ∈ Finset.range n, w i * f (x i)

/-- Specification: a rule on `[-1, 1]` with `n` points that integrates every polynomial of degree less than
`D` with an error of at most `ε` times the sum of the absolute values of the coefficients, and whose nodes are
increasing and symmetric with positive symmetric weights. -/
structure GoodRule (n D : ℕ) (ε : ℝ) (x w : ℕ → ℝ) : Prop where
  accurate : ∀ P : ℝ[X], P.natDegree < D →
    |quad n x w P.eval - ∫ t in (-1 : ℝ)..1, P.eval t| ≤ ε * ∑ k ∈ Finset.range D, |P.coeff k|
  increasing : ∀ i, i + 1 < n → x i < x (i + 1)
  symm : ∀ i < n, x (n - 1 - i) = - x i ∧ w (n - 1 - i) = w i
  inside : ∀ i < n, -1 ≤ x i ∧ x i ≤ 1
  positive : ∀ i < n, 0 < w i

/-! ### Lemmas -/

/-- Moments of `[-1, 1]`. -/
def mom (k : ℕ) : ℚ := if k % 2 = 0 then 2 / (k + 1) else 0

theorem integral_mom (k : ℕ) : ∫ t in (-1 : ℝ)..1, t ^ k = (mom k : ℝ) := by
  rw [integral_pow]
  unfold mom
  split
  · next h =>
    have : Odd (k + 1) := by rw [Nat.odd_iff]; omega
    rw [this.neg_one_pow]; push_cast; norm_num
  · next h =>
    have : Even (k + 1) := by rw [Nat.even_iff]; omega
    rw [this.neg_one_pow]; push_cast; norm_num

theorem quad_error (n D : ℕ) (x w : ℕ → ℝ) (ε : ℝ)
    (h : ∀ k < D, |quad n x w (fun t => t ^ k) - (mom k : ℝ)| ≤ ε) (P : ℝ[X]) (hP : P.natDegree < D) :
    |quad n x w P.eval - ∫ t in (-1 : ℝ)..1, P.eval t| ≤ ε * ∑ k ∈ Finset.range D, |P.coeff k| := by
  have e1 : quad n x w P.eval = ∑ k ∈ Finset.range D, P.coeff k * quad n x w (fun t => t ^ k) := by
    unfold quad
    simp only [Finset.mul_sum]
    rw [Finset.sum_comm]
    apply Finset.sum_congr rfl
    intro i _
    rw [eval_eq_sum_range' hP, Finset.mul_sum]
    apply Finset.sum_congr rfl
    intro k _; ring
  have e2 : ∫ t in (-1 : ℝ)..1, P.eval t = ∑ k ∈ Finset.range D, P.coeff k * (mom k : ℝ) := by
    have : ∀ t, P.eval t = ∑ k ∈ Finset.range D, P.coeff k * t ^ k := fun t => eval_eq_sum_range' hP t
    simp only [this]
    rw [intervalIntegral.integral_finsetSum]
    · apply Finset.sum_congr rfl
      intro k _
      rw [intervalIntegral.integral_const_mul, integral_mom]
    · intro k _
      exact ((continuous_const.mul (continuous_id.pow k))).intervalIntegrable _ _
  rw [e1, e2, ← Finset.sum_sub_distrib, Finset.mul_sum]
  refine (Finset.abs_sum_le_sum_abs _ _).trans (Finset.sum_le_sum ?_)
  intro k hk
  rw [← mul_sub, abs_mul, mul_comm]
  exact mul_le_mul_of_nonneg_right (h k (Finset.mem_range.1 hk)) (abs_nonneg _)

theorem assign_spec (l : List ℝ) (a : Arr ℝ) (h : l.length ≤ a.size) :
    ∃ b, assign l a = some b ∧ b.size = a.size ∧ ∀ i, b.val i = if i < l.length then l.getD i 0 else a.val i := by
  unfold assign
  obtain ⟨b, h1, h2, h3⟩ := loopM_spec (n := l.length) (body := fun i (a : Arr ℝ) => a.set i (l.getD i 0)) (s := a)
    (fun m b => b.size = a.size ∧ ∀ i, b.val i = if i < m then l.getD i 0 else a.val i)
    ⟨rfl, by simp⟩
    (by
      rintro i ⟨z, v⟩ hi ⟨e1, e2⟩
      simp only [] at e1 e2
      refine ⟨⟨z, store v i (l.getD i 0)⟩, Arr.set_lt _ (by show i < z; omega), e1, ?_⟩
      intro j
      simp only []
      by_cases hj : j = i
      · subst hj; rw [store_same, if_pos (by omega)]
      · rw [store_ne _ _ hj, e2 j]
        by_cases hlt : j < i
        · rw [if_pos hlt, if_pos (by omega)]
        · rw [if_neg hlt, if_neg (by omega)])
  exact ⟨b, h1, h2, h3⟩

/-- Moment of a rational rule. -/
def qmom (x w : List ℚ) (n k : ℕ) : ℚ := ((List.range n).map fun i => w.getD i 0 * x.getD i 0 ^ k).sum

theorem qmom_cast (x w : List ℚ) (n k : ℕ) :
    quad n (fun i => ((x.getD i 0 : ℚ) : ℝ)) (fun i => ((w.getD i 0 : ℚ) : ℝ)) (fun t => t ^ k) = (qmom x w n k : ℝ) := by
  unfold quad qmom
  induction n with
  | zero => simp
  | succ n ih =>
    rw [Finset.sum_range_succ, ih, List.range_succ, List.map_append, List.sum_append]
    push_cast
    simp

/-- What has to be checked of a rational rule. -/
def CheckQ (n D : ℕ) (ε : ℚ) (x w : List ℚ) : Prop :=
  (∀ k < D, |qmom x w n k - mom k| ≤ ε) ∧ (∀ i < n - 1, x.getD i 0 < x.getD (i + 1) 0) ∧
    (∀ i < n, x.getD (n - 1 - i) 0 = - x.getD i 0 ∧ w.getD (n - 1 - i) 0 = w.getD i 0) ∧
    (∀ i < n, -1 ≤ x.getD i 0 ∧ x.getD i 0 ≤ 1) ∧ (∀ i < n, 0 < w.getD i 0)

instance (n D : ℕ) (ε : ℚ) (x w : List ℚ) : Decidable (CheckQ n D ε x w) := by unfold CheckQ; infer_instance

theorem good_of_check {n D : ℕ} {ε : ℚ} {x w : List ℚ} (h : CheckQ n D ε x w) :
    GoodRule n D ε (fun i => ((x.getD i 0 : ℚ) : ℝ)) (fun i => ((w.getD i 0 : ℚ) : ℝ)) := by
  obtain ⟨h1, h2, h3, h4, h5⟩ := h
  constructor
  · apply quad_error
    intro k hk
    rw [qmom_cast]
    exact_mod_cast h1 k hk
  · intro i hi
    exact_mod_cast h2 i (by omega)
  · intro i hi
    refine ⟨?_, ?_⟩
    · have := (h3 i hi).1
      simp only [this]; push_cast; rfl
    · exact congrArg _ (h3 i hi).2
  · intro i hi
    exact ⟨by exact_mod_cast (h4 i hi).1, by exact_mod_cast (h4 i hi).2⟩
  · intro i hi
    exact_mod_cast h5 i hi

theorem GoodRule.congr {n D : ℕ} {ε : ℝ} {x w x' w' : ℕ → ℝ} (h : GoodRule n D ε x w) (hx : ∀ i < n, x' i = x i)
    (hw : ∀ i < n, w' i = w i) : GoodRule n D ε x' w' := by
  constructor
  · intro P hP
    have : quad n x' w' P.eval = quad n x w P.eval := by
      unfold quad
      exact Finset.sum_congr rfl (fun i hi => by rw [hx i (Finset.mem_range.1 hi), hw i (Finset.mem_range.1 hi)])
    rw [this]; exact h.accurate P hP
  · intro i hi; rw [hx i (by omega), hx _ hi]; exact h.increasing i hi
  · intro i hi; rw [hx i hi, hx _ (by omega), hw i hi, hw _ (by omega)]; exact h.symm i hi
  · intro i hi; rw [hx i hi]; exact h.inside i hi
  · intro i hi; rw [hw i hi]; exact h.positive i hi

theorem getD_map_cast (l : List ℚ) (i : ℕ) : (l.map (fun q : ℚ => (q : ℝ))).getD i 0 = ((l.getD i 0 : ℚ) : ℝ) := by
  rw [List.getD_eq_getElem?_getD, List.getD_eq_getElem?_getD, List.getElem?_map]
  cases l[i]? <;> simp

/-- Tolerance of the Lobatto tables. -/
def epsLob (n : ℕ) : ℚ := if n = 12 then 1 / 2 / 10 ^ 14 else 1 / 10 ^ 23

set_option maxRecDepth 100000 in
theorem leg_check : ∀ n < 20, 1 ≤ n → (legNodesQ n).length = n ∧ (legWeightsQ n).length = n ∧
    CheckQ n (2 * n) (1 / 10 ^ 29) (legNodesQ n) (legWeightsQ n) := by decide +kernel
set_option maxRecDepth 100000 in
theorem lob_check : ∀ n < 21, 2 ≤ n → n ≠ 4 ∧ n ≠ 5 ∧ n ≠ 6 → (lobNodesQ n).length = n ∧ (lobWeightsQ n).length = n ∧
    CheckQ n (2 * n - 2) (epsLob n) (lobNodesQ n) (lobWeightsQ n) := by decide +kernel

theorem legNodes_eq (n : ℕ) : legNodes n = (legNodesQ n).map (fun q : ℚ => (q : ℝ)) := by unfold legNodes; rfl
theorem legWeights_eq (n : ℕ) : legWeights n = (legWeightsQ n).map (fun q : ℚ => (q : ℝ)) := by unfold legWeights; rfl
theorem lobNodes_eq {n : ℕ} (h : n ≠ 4 ∧ n ≠ 5 ∧ n ≠ 6) : lobNodes n = (lobNodesQ n).map (fun q : ℚ => (q : ℝ)) := by
  unfold lobNodes; split <;> simp_all
theorem lobWeights_eq {n : ℕ} (h : n ≠ 6) : lobWeights n = (lobWeightsQ n).map (fun q : ℚ => (q : ℝ)) := by
  unfold lobWeights; split <;> simp_all

/-! ### The Lobatto rules with square roots -/

theorem good_of {n D : ℕ} (x w : ℕ → ℝ) (hm : ∀ k < D, quad n x w (fun t => t ^ k) = (mom k : ℝ))
    (h2 : ∀ i < n - 1, x i < x (i + 1)) (h3 : ∀ i < n, x (n - 1 - i) = - x i ∧ w (n - 1 - i) = w i)
    (h4 : ∀ i < n, -1 ≤ x i ∧ x i ≤ 1) (h5 : ∀ i < n, 0 < w i) {ε : ℝ} (hε : 0 ≤ ε) : GoodRule n D ε x w := by
  constructor
  · apply quad_error
    intro k hk
    rw [hm k hk, sub_self, abs_zero]; exact hε
  · intro i hi; exact h2 i (by omega)
  · exact h3
  · exact h4
  · exact h5

theorem good4 {ε : ℝ} (hε : 0 ≤ ε) :
    GoodRule 4 6 ε (fun i => (lobNodes 4).getD i 0) (fun i => (lobWeights 4).getD i 0) := by
  have hs : √5 ^ 2 = (5 : ℝ) := Real.sq_sqrt (by norm_num)
  have h0 : 0 < √5 := Real.sqrt_pos.2 (by norm_num)
  have h1 : √5 < 5 := by nlinarith
  have hx : lobNodes 4 = [-1, -1/5*√5, 1/5*√5, (1:ℝ)] := rfl
  have hw : lobWeights 4 = [1/6, 5/6, 5/6, (1/6:ℝ)] := by
    rw [lobWeights_eq (by decide)]; simp [lobWeightsQ]
  rw [hx, hw]
  generalize √5 = s at *
  apply good_of _ _ _ _ _ _ _ hε
  · intro k hk
    interval_cases k <;> simp [quad, Finset.sum_range_succ, mom]
    · norm_num
    · ring
    · linear_combination (1 / 15) * hs
    · ring
    · linear_combination (1 / 375) * (s ^ 2 + 5) * hs
    · ring
  · intro i hi
    interval_cases i <;> simp <;> linarith
  · intro i hi
    interval_cases i <;> simp <;> ring
  · intro i hi
    interval_cases i <;> simp <;> (try constructor) <;> linarith
  · intro i hi
    interval_cases i <;> simp

theorem good5 {ε : ℝ} (hε : 0 ≤ ε) :
    GoodRule 5 8 ε (fun i => (lobNodes 5).getD i 0) (fun i => (lobWeights 5).getD i 0) := by
  have hs : √21 ^ 2 = (21 : ℝ) := Real.sq_sqrt (by norm_num)
  have h0 : 0 < √21 := Real.sqrt_pos.2 (by norm_num)
  have h1 : √21 < 7 := by nlinarith
  have hx : lobNodes 5 = [-1, -1/7*√21, 0, 1/7*√21, (1:ℝ)] := rfl
  have hw : lobWeights 5 = [1/10, 49/90, 32/45, 49/90, (1/10:ℝ)] := by
    rw [lobWeights_eq (by decide)]; simp [lobWeightsQ]
  rw [hx, hw]
  generalize √21 = s at *
  apply good_of _ _ _ _ _ _ _ hε
  · intro k hk
    interval_cases k <;> simp [quad, Finset.sum_range_succ, mom]
    · norm_num
    · ring
    · linear_combination (1 / 45) * hs
    · ring
    · linear_combination (1 / 45 / 49) * (s ^ 2 + 21) * hs
    · ring
    · linear_combination (1 / 45 / 49 / 49) * (s ^ 4 + 21 * s ^ 2 + 441) * hs
    · ring
  · intro i hi
    interval_cases i <;> simp <;> linarith
  · intro i hi
    interval_cases i <;> simp <;> ring
  · intro i hi
    interval_cases i <;> simp <;> (try constructor) <;> linarith
  · intro i hi
    interval_cases i <;> simp

theorem good6 {ε : ℝ} (hε : 0 ≤ ε) :
    GoodRule 6 10 ε (fun i => (lobNodes 6).getD i 0) (fun i => (lobWeights 6).getD i 0) := by
  have hs : √7 ^ 2 = (7 : ℝ) := Real.sq_sqrt (by norm_num)
  have h0 : 2 < √7 := by
    have := Real.sqrt_nonneg 7
    nlinarith
  have h1 : √7 < 3 := by nlinarith
  have ha : √(1/21*(7+2*√7)) ^ 2 = 1/21*(7+2*√7) := Real.sq_sqrt (by nlinarith)
  have hb : √(1/21*(7-2*√7)) ^ 2 = 1/21*(7-2*√7) := Real.sq_sqrt (by nlinarith)
  have a0 : 0 < √(1/21*(7+2*√7)) := Real.sqrt_pos.2 (by nlinarith)
  have b0 : 0 < √(1/21*(7-2*√7)) := Real.sqrt_pos.2 (by nlinarith)
  have hx : lobNodes 6 = [-1, -√(1/21*(7+2*√7)), -√(1/21*(7-2*√7)), √(1/21*(7-2*√7)), √(1/21*(7+2*√7)), (1:ℝ)] := rfl
  have hw : lobWeights 6 = [1/15, 1/30*(14-√7), 1/30*(14+√7), 1/30*(14+√7), 1/30*(14-√7), (1/15:ℝ)] := rfl
  rw [hx, hw]
  generalize √(1/21*(7+2*√7)) = a at *
  generalize √(1/21*(7-2*√7)) = b at *
  generalize √7 = s at *
  have hab : b < a := by nlinarith
  have ha1 : a < 1 := by nlinarith
  have e2 : (14 - s) * a ^ 2 + (14 + s) * b ^ 2 = 8 := by rw [ha, hb]; linear_combination (-4/21) * hs
  have e4 : (14 - s) * a ^ 4 + (14 + s) * b ^ 4 = 4 := by
    rw [show a ^ 4 = (a ^ 2) ^ 2 by ring, show b ^ 4 = (b ^ 2) ^ 2 by ring, ha, hb]; nlinarith
  have e6 : (14 - s) * a ^ 6 + (14 + s) * b ^ 6 = 16 / 7 := by
    rw [show a ^ 6 = (a ^ 2) ^ 3 by ring, show b ^ 6 = (b ^ 2) ^ 3 by ring, ha, hb]; nlinarith
  have e8 : (14 - s) * a ^ 8 + (14 + s) * b ^ 8 = 4 / 3 := by
    rw [show a ^ 8 = (a ^ 2) ^ 4 by ring, show b ^ 8 = (b ^ 2) ^ 4 by ring, ha, hb]; nlinarith
  apply good_of _ _ _ _ _ _ _ hε
  · intro k hk
    interval_cases k <;> simp [quad, Finset.sum_range_succ, mom] <;>
      first
      | ring1
      | linear_combination (1 / 15) * e2
      | linear_combination (1 / 15) * e4
      | linear_combination (1 / 15) * e6
      | linear_combination (1 / 15) * e8
  · intro i hi
    interval_cases i <;> simp <;> linarith
  · intro i hi
    interval_cases i <;> simp
  · intro i hi
    interval_cases i <;> simp <;> (try constructor) <;> linarith
  · intro i hi
    interval_cases i <;> simp <;> linarith

/-! ### C30 -/

/-- **C30 (Gauss-Legendre tables).**  For `1 ≤ num ≤ 19` the two functions write `num` entries of an array of
that size, in bounds, and the rule is exact up to `1e-29` for every polynomial of degree at most
`2 num - 1`. -/
theorem C30_legendre (num : ℕ) (h1 : 1 ≤ num) (h2 : num ≤ 19) (a b : ℕ → ℝ) :
    ∃ x w, legendre_nodes_1D num ⟨num, a⟩ = some x ∧ legendre_weights_1D num ⟨num, b⟩ = some w ∧
      GoodRule num (2 * num) (1 / 10 ^ 29) x.val w.val := by
  obtain ⟨l1, l2, hc⟩ := leg_check num (by omega) h1
  obtain ⟨x, e1, -, e3⟩ := assign_spec (legNodes num) ⟨num, a⟩ (by rw [legNodes_eq, List.length_map, l1])
  obtain ⟨w, f1, -, f3⟩ := assign_spec (legWeights num) ⟨num, b⟩ (by rw [legWeights_eq, List.length_map, l2])
  refine ⟨x, w, e1, f1, ?_⟩
  have := good_of_check hc
  push_cast at this
  refine this.congr ?_ ?_
  · intro i hi
    rw [e3, if_pos (by rw [legNodes_eq, List.length_map, l1]; exact hi), legNodes_eq, getD_map_cast]
  · intro i hi
    rw [f3, if_pos (by rw [legWeights_eq, List.length_map, l2]; exact hi), legWeights_eq, getD_map_cast]

/-- **C30 (Gauss-Lobatto tables).**  For `2 ≤ num ≤ 20` the two functions write `num` entries of an array of
that size, in bounds, the end points are `±1`, and the rule is exact up to `1e-23` (`5e-15` for `num = 12`)
for every polynomial of degree at most `2 num - 3`. -/
theorem C30_lobatto (num : ℕ) (h1 : 2 ≤ num) (h2 : num ≤ 20) (a b : ℕ → ℝ) :
    ∃ x w, lobatto_nodes_1D num ⟨num, a⟩ = some x ∧ lobatto_weights_1D num ⟨num, b⟩ = some w ∧
      GoodRule num (2 * num - 2) (if num = 12 then 5 / 10 ^ 15 else 1 / 10 ^ 23) x.val w.val ∧
      x.val 0 = -1 ∧ x.val (num - 1) = 1 := by
  have good : GoodRule num (2 * num - 2) (if num = 12 then 5 / 10 ^ 15 else 1 / 10 ^ 23)
      (fun i => (lobNodes num).getD i 0) (fun i => (lobWeights num).getD i 0) ∧
      (lobNodes num).length = num ∧ (lobWeights num).length = num := by
    by_cases h4 : num = 4
    · subst h4
      exact ⟨good4 (by norm_num), rfl, by rw [lobWeights_eq (by decide)]; rfl⟩
    by_cases h5 : num = 5
    · subst h5
      exact ⟨good5 (by norm_num), rfl, by rw [lobWeights_eq (by decide)]; rfl⟩
    by_cases h6 : num = 6
    · subst h6
      exact ⟨good6 (by norm_num), rfl, rfl⟩
    obtain ⟨l1, l2, hc⟩ := lob_check num (by omega) h1 ⟨h4, h5, h6⟩
    rw [lobNodes_eq ⟨h4, h5, h6⟩, lobWeights_eq h6]
    refine ⟨?_, by rw [List.length_map, l1], by rw [List.length_map, l2]⟩
    have := good_of_check hc
    simp only [getD_map_cast]
    convert this using 1
    unfold epsLob
    split <;> push_cast <;> norm_num
  obtain ⟨hg, l1, l2⟩ := good
  obtain ⟨x, e1, -, e3⟩ := assign_spec (lobNodes num) ⟨num, a⟩ l1.le
  obtain ⟨w, f1, -, f3⟩ := assign_spec (lobWeights num) ⟨num, b⟩ l2.le
  have hx : ∀ i < num, x.val i = (lobNodes num).getD i 0 := fun i hi => by rw [e3, if_pos (by omega)]
  have hg' : GoodRule num (2 * num - 2) (if num = 12 then 5 / 10 ^ 15 else 1 / 10 ^ 23) x.val w.val :=
    hg.congr hx (fun i hi => by rw [f3, if_pos (by omega)])
  have h0 : x.val 0 = -1 := by
    rw [hx 0 (by omega)]
    interval_cases num <;> simp [lobNodes, lobNodesQ]
  refine ⟨x, w, e1, f1, hg', h0, ?_⟩
  have := (hg'.symm 0 (by omega)).1
  rw [Nat.sub_zero, h0] at this
  rw [this]; norm_num

/-- **C30, limits of the Lobatto table.**  The 12-point rule integrates `t ^ 2` with an error above `4.8e-15`,
about twenty times the rounding of a double (one digit of the table is wrong); all other Lobatto rules
are good to `1e-23`. -/
theorem C30_lobatto12 (a b : ℕ → ℝ) :
    ∃ x w, lobatto_nodes_1D 12 ⟨12, a⟩ = some x ∧ lobatto_weights_1D 12 ⟨12, b⟩ = some w ∧
      48 / 10 ^ 16 < |quad 12 x.val w.val (fun t => t ^ 2) - ∫ t in (-1 : ℝ)..1, t ^ 2| := by
  obtain ⟨x, e1, -, e3⟩ := assign_spec (lobNodes 12) ⟨12, a⟩ (by rw [lobNodes_eq (by decide), List.length_map]; exact le_refl 12)
  obtain ⟨w, f1, -, f3⟩ := assign_spec (lobWeights 12) ⟨12, b⟩ (by rw [lobWeights_eq (by decide), List.length_map]; exact le_refl 12)
  refine ⟨x, w, e1, f1, ?_⟩
  have hx : ∀ i < 12, x.val i = ((lobNodesQ 12).getD i 0 : ℝ) := fun i hi => by
    rw [e3, if_pos (by rw [lobNodes_eq (by decide), List.length_map]; exact hi), lobNodes_eq (by decide), getD_map_cast]
  have hw : ∀ i < 12, w.val i = ((lobWeightsQ 12).getD i 0 : ℝ) := fun i hi => by
    rw [f3, if_pos (by rw [lobWeights_eq (by decide), List.length_map]; exact hi), lobWeights_eq (by decide), getD_map_cast]
  have : quad 12 x.val w.val (fun t => t ^ 2) = (qmom (lobNodesQ 12) (lobWeightsQ 12) 12 2 : ℝ) := by
    rw [← qmom_cast]
    unfold quad
    exact Finset.sum_congr rfl (fun i hi => by rw [hx i (Finset.mem_range.1 hi), hw i (Finset.mem_range.1 hi)])
  rw [this, integral_mom]
  have hq : 48 / 10 ^ 16 < |qmom (lobNodesQ 12) (lobWeightsQ 12) 12 2 - mom 2| := by decide +kernel
  have := (Rat.cast_lt (K := ℝ)).2 hq
  push_cast at this
  exact this

/-- **C30, outside the tables.**  For a number of points without a table nothing is written: the caller's
arrays keep their contents. -/
theorem C30_untabulated (num : ℕ) (a : Arr ℝ) :
    ((num = 0 ∨ 20 < num) → lobatto_nodes_1D num a = some a ∧ lobatto_weights_1D num a = some a) ∧
    ((num = 0 ∨ 19 < num) → legendre_nodes_1D num a = some a ∧ legendre_weights_1D num a = some a) := by
  have q1 : ∀ n, (n = 0 ∨ 20 < n) → lobNodesQ n = [] ∧ lobWeightsQ n = [] := by
    intro n hn
    constructor
    · unfold lobNodesQ; split <;> first | omega | rfl
    · unfold lobWeightsQ; split <;> first | omega | rfl
  have q2 : ∀ n, (n = 0 ∨ 19 < n) → legNodesQ n = [] ∧ legWeightsQ n = [] := by
    intro n hn
    constructor
    · unfold legNodesQ; split <;> first | omega | rfl
    · unfold legWeightsQ; split <;> first | omega | rfl
  constructor
  · intro h
    unfold lobatto_nodes_1D lobatto_weights_1D
    rw [lobNodes_eq (by omega), lobWeights_eq (by omega), (q1 num h).1, (q1 num h).2]
    exact ⟨rfl, rfl⟩
  · intro h
    unfold legendre_nodes_1D legendre_weights_1D
    rw [legNodes_eq, legWeights_eq, (q2 num h).1, (q2 num h).2]
    exact ⟨rfl, rfl⟩

/-- Non-vacuity: the 6-point Lobatto rule is exact up to degree 9. -/
example : ∃ x w, lobatto_nodes_1D 6 ⟨6, fun _ => 0⟩ = some x ∧ lobatto_weights_1D 6 ⟨6, fun _ => 0⟩ = some w ∧
    GoodRule 6 10 (1 / 10 ^ 23) x.val w.val := by
  obtain ⟨x, w, h1, h2, h3, -⟩ := C30_lobatto 6 (by norm_num) (by norm_num) (fun _ => 0) (fun _ => 0)
  exact ⟨x, w, h1, h2, by simpa using h3⟩
/-- Non-vacuity: the hypotheses of the Legendre theorem are met by `num = 19`. -/
example : ∃ x w, legendre_nodes_1D 19 ⟨19, fun _ => 0⟩ = some x ∧ legendre_weights_1D 19 ⟨19, fun _ => 0⟩ = some w ∧
    GoodRule 19 38 (1 / 10 ^ 29) x.val w.val := C30_legendre 19 (by norm_num) (by norm_num) _ _

end Verif.Quad
