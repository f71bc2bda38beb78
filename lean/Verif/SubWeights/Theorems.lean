import Verif.SubWeights.Model
import Verif.Quad.Theorems

/-!
# C56: sub-cell and length weights; C68: corner normals
-/

namespace Verif.SubWeights
open Finset Verif.Quad

/-- The length and corner weights of order `p` split the quadrature weights `w` at the nodes `x`, up to `ε`: the length weights are the
distances of neighbouring nodes, every length is split into two corner weights, and every quadrature weight is split into the two corner
weights on either side of its node (exactly).  The corner weights are symmetric, and the first of the two at an inner node of the left
half ends where the node lies. -/
structure Splits (p : ℕ) (ε : ℝ) (x w len sub : ℕ → ℝ) : Prop where
  spacing : ∀ k < 2 * p, |len k - (x (k + 1) - x k)| ≤ ε
  edge : ∀ k < 2 * p, |sub (2 * k) + sub (2 * k + 1) - len k| ≤ ε
  first : sub 0 = w 0
  last : sub (4 * p - 1) = w (2 * p)
  node : ∀ k, 0 < k → k < 2 * p → sub (2 * k - 1) + sub (2 * k) = w k
  symm : ∀ k < 4 * p, sub (4 * p - 1 - k) = sub k
  cut : ∀ k, 0 < k → k < p → sub (2 * k - 1) = x k - x 0 - ∑ i ∈ range k, w i
  mid : sub (2 * p - 1) = w p / 2

/-- For arbitrary nodes and weights, what order 2 stores. -/
theorem run2 (len sub w x : ℕ → ℝ) :
    ∃ l u : Arr ℝ, lengthWeights ⟨4, len⟩ ⟨5, w⟩ ⟨5, x⟩ 2 = some l ∧ subWeights ⟨8, sub⟩ ⟨5, w⟩ ⟨5, x⟩ 2 = some u ∧
      l.size = 4 ∧ u.size = 8 ∧
      (∀ k < 4, l.val k = [w 0 + (x 1 - x 0 - w 0) / w 1 * w 1, (1 - (x 1 - x 0 - w 0) / w 1) * w 1 + 1 / 2 * w 2,
        (1 - (x 1 - x 0 - w 0) / w 1) * w 1 + 1 / 2 * w 2, w 0 + (x 1 - x 0 - w 0) / w 1 * w 1].getD k 0) ∧
      ∀ k < 8, u.val k = [w 0, (x 1 - x 0 - w 0) / w 1 * w 1, (1 - (x 1 - x 0 - w 0) / w 1) * w 1, 1 / 2 * w 2, 1 / 2 * w 2,
        (1 - (x 1 - x 0 - w 0) / w 1) * w 1, (x 1 - x 0 - w 0) / w 1 * w 1, w 0].getD k 0 := by
  refine ⟨_, _, by simp [lengthWeights, alphas, Arr.get, Arr.set]; rfl, by simp [subWeights, alphas, Arr.get, Arr.set]; rfl, rfl, rfl, ?_, ?_⟩
  · intro k hk
    interval_cases k <;> simp [store]
  · intro k hk
    interval_cases k <;> simp [store]

/-- For arbitrary nodes and weights, what order 1 stores. -/
theorem run1 (len sub w x : ℕ → ℝ) :
    ∃ l u : Arr ℝ, lengthWeights ⟨2, len⟩ ⟨3, w⟩ ⟨3, x⟩ 1 = some l ∧ subWeights ⟨4, sub⟩ ⟨3, w⟩ ⟨3, x⟩ 1 = some u ∧
      l.size = 2 ∧ u.size = 4 ∧
      (∀ k < 2, l.val k = [1, 1].getD k 0) ∧
      ∀ k < 4, u.val k = [w 0, 1 / 2 * w 1, 1 / 2 * w 1, w 0].getD k 0 := by
  refine ⟨_, _, by simp [lengthWeights, alphas, Arr.get, Arr.set]; rfl, by simp [subWeights, alphas, Arr.get, Arr.set]; rfl, rfl, rfl, ?_, ?_⟩
  · intro k hk
    interval_cases k <;> simp [store]
  · intro k hk
    interval_cases k <;> simp [store]

/-- For arbitrary nodes and weights, what order 3 stores. -/
theorem run3 (len sub w x : ℕ → ℝ) :
    ∃ l u : Arr ℝ, lengthWeights ⟨6, len⟩ ⟨7, w⟩ ⟨7, x⟩ 3 = some l ∧ subWeights ⟨12, sub⟩ ⟨7, w⟩ ⟨7, x⟩ 3 = some u ∧
      l.size = 6 ∧ u.size = 12 ∧
      (∀ k < 6, l.val k = [w 0 + (x 1 - x 0 - w 0) / w 1 * w 1,
        (1 - (x 1 - x 0 - w 0) / w 1) * w 1 + (x 2 - x 0 - (w 0 + w 1)) / w 2 * w 2,
        (1 - (x 2 - x 0 - (w 0 + w 1)) / w 2) * w 2 + 1 / 2 * w 3,
        (1 - (x 2 - x 0 - (w 0 + w 1)) / w 2) * w 2 + 1 / 2 * w 3,
        (1 - (x 1 - x 0 - w 0) / w 1) * w 1 + (x 2 - x 0 - (w 0 + w 1)) / w 2 * w 2,
        w 0 + (x 1 - x 0 - w 0) / w 1 * w 1].getD k 0) ∧
      ∀ k < 12, u.val k = [w 0,
        (x 1 - x 0 - w 0) / w 1 * w 1,
        (1 - (x 1 - x 0 - w 0) / w 1) * w 1,
        (x 2 - x 0 - (w 0 + w 1)) / w 2 * w 2,
        (1 - (x 2 - x 0 - (w 0 + w 1)) / w 2) * w 2,
        1 / 2 * w 3,
        1 / 2 * w 3,
        (1 - (x 2 - x 0 - (w 0 + w 1)) / w 2) * w 2,
        (x 2 - x 0 - (w 0 + w 1)) / w 2 * w 2,
        (1 - (x 1 - x 0 - w 0) / w 1) * w 1,
        (x 1 - x 0 - w 0) / w 1 * w 1,
        w 0].getD k 0 := by
  refine ⟨_, _, by simp [lengthWeights, alphas, Arr.get, Arr.set]; rfl, by simp [subWeights, alphas, Arr.get, Arr.set]; rfl, rfl, rfl, ?_, ?_⟩
  · intro k hk
    interval_cases k <;> simp [store]
  · intro k hk
    interval_cases k <;> simp [store]

/-- **C56 (any rule).**  For every symmetric rule on `[-1, 1]` with `2 p + 1` points, `p` from 1 to 3, whose first point is `-1`, whose
inner weights are not zero and whose weights add up to 2 with an error of at most `ε`, the two routines stay in bounds and split the
weights. -/
theorem C56_split (p : ℕ) (h1 : 1 ≤ p) (h3 : p ≤ 3) (ε : ℝ) (x w len sub : ℕ → ℝ) (hx0 : x 0 = -1)
    (hs : ∀ i < 2 * p + 1, x (2 * p - i) = -x i ∧ w (2 * p - i) = w i) (hw : ∀ i < 2 * p + 1, w i ≠ 0)
    (hsum : |∑ i ∈ range (2 * p + 1), w i - 2| ≤ ε) :
    ∃ l u : Arr ℝ, lengthWeights ⟨2 * p, len⟩ ⟨2 * p + 1, w⟩ ⟨2 * p + 1, x⟩ p = some l ∧
      subWeights ⟨4 * p, sub⟩ ⟨2 * p + 1, w⟩ ⟨2 * p + 1, x⟩ p = some u ∧ l.size = 2 * p ∧ u.size = 4 * p ∧
      Splits p ε x w l.val u.val := by
  have hε : 0 ≤ ε := (abs_nonneg _).trans hsum
  have z : ∀ t : ℝ, t = 0 → |t| ≤ ε := fun t ht => by rw [ht, abs_zero]; exact hε
  have half : ∀ t : ℝ, t = 1 / 2 * (∑ i ∈ range (2 * p + 1), w i - 2) → |t| ≤ ε := fun t ht => by
    rw [ht, abs_mul, abs_of_pos (by norm_num)]
    have := abs_nonneg (∑ i ∈ range (2 * p + 1), w i - 2)
    linarith
  rcases (by omega : p = 1 ∨ p = 2 ∨ p = 3) with rfl | rfl | rfl
  · obtain ⟨l, u, e1, e2, s1, s2, hl, hu⟩ := run1 len sub w x
    have a1 := hs 1 (by norm_num)
    have a0 := hs 0 (by norm_num)
    norm_num at a0 a1
    have hx1 : x 1 = 0 := by linarith
    have hx2 : x 2 = 1 := by linarith [a0.1]
    simp only [sum_range_succ, sum_range_zero] at half
    refine ⟨l, u, e1, e2, s1, s2, ⟨?_, ?_, ?_, ?_, ?_, ?_, ?_, ?_⟩⟩
    · intro k hk
      rw [hl k hk]
      apply z
      interval_cases k <;> simp <;> linarith
    · intro k hk
      rw [hl k hk, hu _ (by omega), hu _ (by omega)]
      apply half
      interval_cases k <;> simp <;> linarith [a0.2]
    · rw [hu 0 (by norm_num)]; rfl
    · rw [hu _ (by norm_num)]; simpa using a0.2.symm
    · intro k hk0 hk
      rw [hu _ (by omega), hu _ (by omega)]
      have : k = 1 := by omega
      subst this
      simp
      linarith
    · intro k hk
      rw [hu _ (by omega), hu _ (by omega)]
      interval_cases k <;> simp
    · intro k h1 h2; omega
    · rw [hu _ (by norm_num)]; simp; ring
  · obtain ⟨l, u, e1, e2, s1, s2, hl, hu⟩ := run2 len sub w x
    have a2 := hs 2 (by norm_num)
    have a1 := hs 1 (by norm_num)
    have a0 := hs 0 (by norm_num)
    norm_num at a0 a1 a2
    have w1 := hw 1 (by norm_num)
    have d1 : (x 1 - x 0 - w 0) / w 1 * w 1 = x 1 - x 0 - w 0 := div_mul_cancel₀ _ w1
    have hx2 : x 2 = 0 := by linarith
    simp only [sum_range_succ, sum_range_zero] at half
    refine ⟨l, u, e1, e2, s1, s2, ⟨?_, ?_, ?_, ?_, ?_, ?_, ?_, ?_⟩⟩
    · intro k hk
      rw [hl k hk]
      interval_cases k
      · apply z; simp; linarith
      · apply half; simp; linarith [a0.2, a1.2]
      · apply half; simp; linarith [a0.2, a1.2, a1.1]
      · apply z; simp; linarith [a0.1, a1.1]
    · intro k hk
      rw [hl k hk, hu _ (by omega), hu _ (by omega)]
      apply z
      interval_cases k <;> simp <;> ring
    · rw [hu 0 (by norm_num)]; rfl
    · rw [hu _ (by norm_num)]; simpa using a0.2.symm
    · intro k hk0 hk
      rw [hu _ (by omega), hu _ (by omega)]
      interval_cases k <;> simp <;> linarith [a1.2]
    · intro k hk
      rw [hu _ (by omega), hu _ (by omega)]
      interval_cases k <;> simp
    · intro k h1 h2
      rw [hu _ (by omega)]
      interval_cases k
      simpa [sum_range_succ] using d1
    · rw [hu _ (by norm_num)]; simp; ring
  · obtain ⟨l, u, e1, e2, s1, s2, hl, hu⟩ := run3 len sub w x
    have a3 := hs 3 (by norm_num)
    have a2 := hs 2 (by norm_num)
    have a1 := hs 1 (by norm_num)
    have a0 := hs 0 (by norm_num)
    norm_num at a0 a1 a2 a3
    have w1 := hw 1 (by norm_num)
    have w2 := hw 2 (by norm_num)
    have d1 : (x 1 - x 0 - w 0) / w 1 * w 1 = x 1 - x 0 - w 0 := div_mul_cancel₀ _ w1
    have d2 : (x 2 - x 0 - (w 0 + w 1)) / w 2 * w 2 = x 2 - x 0 - (w 0 + w 1) := div_mul_cancel₀ _ w2
    have hx3 : x 3 = 0 := by linarith
    simp only [sum_range_succ, sum_range_zero] at half
    refine ⟨l, u, e1, e2, s1, s2, ⟨?_, ?_, ?_, ?_, ?_, ?_, ?_, ?_⟩⟩
    · intro k hk
      rw [hl k hk]
      interval_cases k
      · apply z; simp; linarith
      · apply z; simp; linarith
      · apply half; simp; linarith [a0.2, a1.2, a2.2]
      · apply half; simp; linarith [a0.2, a1.2, a2.2, a2.1]
      · apply z; simp; linarith [a1.1, a2.1]
      · apply z; simp; linarith [a0.1, a1.1]
    · intro k hk
      rw [hl k hk, hu _ (by omega), hu _ (by omega)]
      apply z
      interval_cases k <;> simp <;> ring
    · rw [hu 0 (by norm_num)]; rfl
    · rw [hu _ (by norm_num)]; simpa using a0.2.symm
    · intro k hk0 hk
      rw [hu _ (by omega), hu _ (by omega)]
      interval_cases k <;> simp <;> linarith [a1.2, a2.2]
    · intro k hk
      rw [hu _ (by omega), hu _ (by omega)]
      interval_cases k <;> simp
    · intro k h1 h2
      rw [hu _ (by omega)]
      interval_cases k
      · simpa [sum_range_succ] using d1
      · simpa [sum_range_succ] using d2
    · rw [hu _ (by norm_num)]; simp; ring

/-- **C56 (the routine).**  For orders 1 to 3 `set_nodes_wgts` on arrays of the documented sizes stays in bounds, and its length and corner
weights split the Gauss-Lobatto weights (up to `1e-23`). -/
theorem C56_set_partial (p : ℕ) (h1 : 1 ≤ p) (h3 : p ≤ 3) (x w len sub : ℕ → ℝ) :
    ∃ r : Wts, setNodesWgts ⟨⟨2 * p + 1, x⟩, ⟨2 * p + 1, w⟩, ⟨2 * p, len⟩, ⟨4 * p, sub⟩⟩ p = some r ∧
      GoodRule (2 * p + 1) (2 * (2 * p + 1) - 2) (1 / 10 ^ 23) r.nodes.val r.weights.val ∧
      Splits p (1 / 10 ^ 23) r.nodes.val r.weights.val r.len.val r.sub.val ∧
      |∑ k ∈ range (4 * p), r.sub.val k - 2| ≤ 1 / 10 ^ 23 ∧ ∀ k < 4 * p, 0 < r.sub.val k := by
  obtain ⟨X, W, e1, e2, hg, hx0, -⟩ := C30_lobatto (2 * p + 1) (by omega) (by omega) x w
  rw [if_neg (by omega)] at hg
  obtain ⟨xz, X⟩ := X
  obtain ⟨wz, W⟩ := W
  have sx : xz = 2 * p + 1 ∧ ∀ i < 2 * p + 1, X i = (lobNodes (2 * p + 1)).getD i 0 := by
    have : (lobNodes (2 * p + 1)).length = 2 * p + 1 := by
      rcases (by omega : p = 1 ∨ p = 2 ∨ p = 3) with rfl | rfl | rfl
      all_goals simp [lobNodes, lobNodesQ]
    obtain ⟨b, eb, sb, vb⟩ := assign_spec (lobNodes (2 * p + 1)) ⟨2 * p + 1, x⟩ this.le
    unfold lobatto_nodes_1D at e1
    rw [eb] at e1
    injection e1 with e1
    rw [e1] at sb vb
    exact ⟨sb, fun i hi => by have := vb i; rwa [if_pos (by omega)] at this⟩
  have sw : wz = 2 * p + 1 ∧ ∀ i < 2 * p + 1, W i = (lobWeights (2 * p + 1)).getD i 0 := by
    have : (lobWeights (2 * p + 1)).length = 2 * p + 1 := by
      rcases (by omega : p = 1 ∨ p = 2 ∨ p = 3) with rfl | rfl | rfl
      all_goals simp [lobWeights, lobWeightsQ]
    obtain ⟨b, eb, sb, vb⟩ := assign_spec (lobWeights (2 * p + 1)) ⟨2 * p + 1, w⟩ this.le
    unfold lobatto_weights_1D at e2
    rw [eb] at e2
    injection e2 with e2
    rw [e2] at sb vb
    exact ⟨sb, fun i hi => by have := vb i; rwa [if_pos (by omega)] at this⟩
  obtain ⟨sx, vx⟩ := sx
  obtain ⟨sw, vw⟩ := sw
  subst sx sw
  have hsum : |∑ i ∈ range (2 * p + 1), W i - 2| ≤ 1 / 10 ^ 23 := by
    have := hg.accurate 1 (by rw [Polynomial.natDegree_one]; omega)
    unfold quad at this
    simp only [Polynomial.eval_one, mul_one, intervalIntegral.integral_const, smul_eq_mul] at this
    have hc : ∑ k ∈ range (2 * (2 * p + 1) - 2), |(1 : Polynomial ℝ).coeff k| = 1 := by
      rw [sum_eq_single 0]
      · simp
      · intro k _ hk; simp [Polynomial.coeff_one, hk]
      · intro h; exact absurd (mem_range.2 (by omega)) h
    rw [hc, mul_one] at this
    norm_num at this ⊢
    exact this
  obtain ⟨l, u, f1, f2, -, su, hsp⟩ := C56_split p h1 h3 _ X W len sub hx0 (fun i hi => by
    have := hg.symm i hi
    rwa [Nat.add_sub_cancel] at this) (fun i hi => (hg.positive i hi).ne') hsum
  refine ⟨⟨⟨2 * p + 1, X⟩, ⟨2 * p + 1, W⟩, l, u⟩, ?_, hg, hsp, ?_, ?_⟩
  · unfold setNodesWgts
    simp only [Option.bind_eq_bind]
    rw [e2, Option.bind_some, e1, Option.bind_some, f1, Option.bind_some, f2, Option.bind_some]
    rfl
  · have : ∑ k ∈ range (4 * p), u.val k = ∑ i ∈ range (2 * p + 1), W i := by
      have n1 := hsp.node
      have n2 := hsp.first
      have n3 := hsp.last
      rcases (by omega : p = 1 ∨ p = 2 ∨ p = 3) with rfl | rfl | rfl
      · have k1 := n1 1 (by norm_num) (by norm_num)
        norm_num [sum_range_succ] at *
        linarith
      · have k1 := n1 1 (by norm_num) (by norm_num)
        have k2 := n1 2 (by norm_num) (by norm_num)
        have k3 := n1 3 (by norm_num) (by norm_num)
        norm_num [sum_range_succ] at *
        linarith
      · have k1 := n1 1 (by norm_num) (by norm_num)
        have k2 := n1 2 (by norm_num) (by norm_num)
        have k3 := n1 3 (by norm_num) (by norm_num)
        have k4 := n1 4 (by norm_num) (by norm_num)
        have k5 := n1 5 (by norm_num) (by norm_num)
        norm_num [sum_range_succ] at *
        linarith
    rw [this]; exact hsum
  · have n1 := hsp.node
    have n2 := hsp.first
    have ct := hsp.cut
    have md := hsp.mid
    simp only [] at hx0
    have half : ∀ k < 2 * p, 0 < u.val k := by
      rcases (by omega : p = 1 ∨ p = 2 ∨ p = 3) with rfl | rfl | rfl
      · clear hg hsp vx hsum
        have w0 := vw 0 (by norm_num)
        have w1 := vw 1 (by norm_num)
        norm_num [lobNodes, lobWeights, lobNodesQ, lobWeightsQ] at w0 w1 md
        intro k hk
        interval_cases k <;> linarith
      · have x1 := vx 1 (by norm_num)
        have w0 := vw 0 (by norm_num)
        have w1 := vw 1 (by norm_num)
        have w2 := vw 2 (by norm_num)
        clear hg hsp vx hsum vw
        have hs1 : (4.5 : ℝ) < √21 := Real.lt_sqrt_of_sq_lt (by norm_num)
        have hs2 : √21 < 4.6 := by rw [Real.sqrt_lt' (by norm_num)]; norm_num
        norm_num [lobNodes, lobWeights, lobNodesQ, lobWeightsQ] at x1 w0 w1 w2
        have k1 := n1 1 (by norm_num) (by norm_num)
        have c1 := ct 1 (by norm_num) (by norm_num)
        norm_num at k1 c1 md
        rw [hx0, x1, w0] at c1
        rw [w1, c1] at k1
        rw [w2] at md
        rw [w0] at n2
        clear n1 ct hx0 x1 w0 w1 w2
        intro k hk
        interval_cases k
        · linarith
        · rw [c1]; linarith
        · linarith
        · rw [md]; norm_num
      · have x1 := vx 1 (by norm_num)
        have x2 := vx 2 (by norm_num)
        have w0 := vw 0 (by norm_num)
        have w1 := vw 1 (by norm_num)
        have w2 := vw 2 (by norm_num)
        have w3 := vw 3 (by norm_num)
        clear hg hsp vx hsum vw
        norm_num [lobNodes, lobWeights, lobNodesQ, lobWeightsQ, dec] at x1 x2 w0 w1 w2 w3
        have k1 := n1 1 (by norm_num) (by norm_num)
        have k2 := n1 2 (by norm_num) (by norm_num)
        have c1 := ct 1 (by norm_num) (by norm_num)
        have c2 := ct 2 (by norm_num) (by norm_num)
        norm_num [sum_range_succ] at k1 k2 c1 c2 md
        rw [hx0, x1, w0] at c1
        rw [hx0, x2, w0, w1] at c2
        rw [w1, c1] at k1
        rw [w2, c2] at k2
        rw [w3] at md
        rw [w0] at n2
        clear n1 ct hx0 x1 x2 w0 w1 w2 w3
        norm_num at c1 c2
        intro k hk
        interval_cases k
        · rw [n2]; norm_num
        · rw [c1]; norm_num
        · rw [eq_sub_of_add_eq' k1]; norm_num
        · rw [c2]; norm_num
        · rw [eq_sub_of_add_eq' k2]; norm_num
        · rw [md]; norm_num
    intro k hk
    show 0 < u.val k
    rcases lt_or_ge k (2 * p) with h | h
    · exact half k h
    · rw [← hsp.symm k hk]; exact half _ (by omega)

/-- **C56 (other orders: the claim fails).**  Order 0 reads past the end of the one-point rule; from order 4 on the length and corner
weights are left as they were. -/
theorem C56_orders_negation (x w len sub : ℕ → ℝ) (nl ns : ℕ) :
    setNodesWgts ⟨⟨1, x⟩, ⟨1, w⟩, ⟨nl, len⟩, ⟨ns, sub⟩⟩ 0 = none ∧
    ∀ p, 4 ≤ p → ∃ r : Wts, setNodesWgts ⟨⟨2 * p + 1, x⟩, ⟨2 * p + 1, w⟩, ⟨nl, len⟩, ⟨ns, sub⟩⟩ p = some r ∧
      r.len = ⟨nl, len⟩ ∧ r.sub = ⟨ns, sub⟩ := by
  constructor
  · obtain ⟨W, e2, s2, -⟩ := assign_spec (lobWeights 1) ⟨1, w⟩ (by simp [lobWeights, lobWeightsQ])
    obtain ⟨X, e1, s1, -⟩ := assign_spec (lobNodes 1) ⟨1, x⟩ (by simp [lobNodes, lobNodesQ])
    unfold setNodesWgts lobatto_nodes_1D lobatto_weights_1D
    simp only [Option.bind_eq_bind]
    rw [e2, Option.bind_some, e1, Option.bind_some]
    have : lengthWeights ⟨nl, len⟩ W X 0 = none := by
      unfold lengthWeights alphas
      simp only [Option.bind_eq_bind]
      rw [Arr.get_ge (by rw [s1])]; rfl
    rw [this]; rfl
  · intro p hp
    have any : ∀ (x : ℕ → ℝ) (f : ℕ → Arr ℝ → Option (Arr ℝ)), (∀ n a, 9 ≤ n → n ≤ 20 → ∃ b, f n ⟨n, a⟩ = some b ∧ b.size = n) →
        (∀ n a, 20 < n → f n a = some a) → ∃ b, f (2 * p + 1) ⟨2 * p + 1, x⟩ = some b ∧ b.size = 2 * p + 1 := by
      intro x f h1 h2
      rcases le_or_gt (2 * p + 1) 20 with h | h
      · exact h1 _ _ (by omega) h
      · exact ⟨_, h2 _ _ h, rfl⟩
    obtain ⟨X, e1, s1⟩ := any x lobatto_nodes_1D (by
        intro n a h1 h2
        have : (lobNodes n).length = n := by
          rw [lobNodes_eq (by omega), List.length_map]
          exact (lob_check n (by omega) (by omega) (by omega)).1
        obtain ⟨b, eb, sb, -⟩ := assign_spec (lobNodes n) ⟨n, a⟩ this.le
        exact ⟨b, eb, sb⟩) (fun n a h => ((C30_untabulated n a).1 (Or.inr h)).1)
    obtain ⟨W, e2, s2⟩ := any w lobatto_weights_1D (by
        intro n a h1 h2
        have : (lobWeights n).length = n := by
          rw [lobWeights_eq (by omega), List.length_map]
          exact (lob_check n (by omega) (by omega) (by omega)).2.1
        obtain ⟨b, eb, sb, -⟩ := assign_spec (lobWeights n) ⟨n, a⟩ this.le
        exact ⟨b, eb, sb⟩) (fun n a h => ((C30_untabulated n a).1 (Or.inr h)).2)
    obtain ⟨al, ea⟩ : ∃ al, alphas W X = some al := by
      unfold alphas
      simp only [Option.bind_eq_bind]
      rw [Arr.get_lt (by omega), Option.bind_some, Arr.get_lt (by omega), Option.bind_some, Arr.get_lt (by omega), Option.bind_some,
        Arr.get_lt (by omega), Option.bind_some, Arr.get_lt (by omega), Option.bind_some, Arr.get_lt (by omega), Option.bind_some]
      exact ⟨_, rfl⟩
    refine ⟨⟨X, W, ⟨nl, len⟩, ⟨ns, sub⟩⟩, ?_, rfl, rfl⟩
    have l1 : lengthWeights ⟨nl, len⟩ W X p = some ⟨nl, len⟩ := by
      unfold lengthWeights
      simp only [Option.bind_eq_bind]
      rw [ea, Option.bind_some, if_neg (by omega), if_neg (by omega), if_neg (by omega)]
      rfl
    have l2 : subWeights ⟨ns, sub⟩ W X p = some ⟨ns, sub⟩ := by
      unfold subWeights
      show (alphas W X).bind _ = _
      rw [ea, Option.bind_some, if_neg (by omega), if_neg (by omega), if_neg (by omega), if_neg (by omega)]
      rfl
    unfold setNodesWgts
    simp only [Option.bind_eq_bind]
    rw [e2, Option.bind_some, e1, Option.bind_some, l1, Option.bind_some, l2, Option.bind_some]
    rfl

/-- A list of assignments which agree with `f` leaves `f` at every index assigned. -/
theorem assigns_spec (f : ℕ → ℝ) : ∀ (l : List (ℕ × ℕ × ℝ)) (a : Arr ℝ) (S : ℕ → Prop),
    (∀ t ∈ l, t.1 * 3 + t.2.1 < a.size ∧ t.2.2 = f (t.1 * 3 + t.2.1)) → (∀ i, S i → a.val i = f i) →
    ∃ b : Arr ℝ, l.foldlM (fun a t => a.set (t.1 * 3 + t.2.1) t.2.2) a = some b ∧ b.size = a.size ∧
      ∀ i, (S i ∨ ∃ t ∈ l, t.1 * 3 + t.2.1 = i) → b.val i = f i
  | [], a, S, _, h => ⟨a, rfl, rfl, fun i hi => h i (by simpa using hi)⟩
  | t :: l, a, S, hl, h => by
    obtain ⟨h1, h2⟩ := hl t (by simp)
    obtain ⟨b, e, sz, v⟩ := assigns_spec f l ⟨a.size, store a.val (t.1 * 3 + t.2.1) t.2.2⟩ (fun i => S i ∨ i = t.1 * 3 + t.2.1)
      (fun u hu => hl u (by simp [hu])) (by
        intro i hi
        show store _ _ _ i = _
        by_cases he : i = t.1 * 3 + t.2.1
        · rw [he, store_same, h2]
        · rw [store_ne _ _ he]
          exact h i (hi.resolve_right he))
    refine ⟨b, ?_, sz, ?_⟩
    · rw [List.foldlM_cons]
      simp only [Option.bind_eq_bind]
      rw [Arr.set_lt _ h1, Option.bind_some]
      exact e
    · rintro i (hi | ⟨u, hu, rfl⟩)
      · exact v i (Or.inl (Or.inl hi))
      · rcases List.mem_cons.1 hu with rfl | hu
        · exact v _ (Or.inl (Or.inr rfl))
        · exact v _ (Or.inr ⟨u, hu, rfl⟩)

/-- **C68 (corner normals).**  `set_unit_normals` stays inside an 8 by 3 array and stores in row `c` the outward direction of corner `c`
of the reference cube: component `d` is `1` if bit `d` of `c` is set and `-1` otherwise.  The rows are not of unit length, as the name
suggests: every one has length `√3`. -/
theorem C68_normals (a : ℕ → ℝ) :
    ∃ b : Arr ℝ, setUnitNormals ⟨24, a⟩ = some b ∧ b.size = 24 ∧
      (∀ c < 8, ∀ d < 3, b.val (c * 3 + d) = if c.testBit d then 1 else -1) ∧
      (∀ d < 3, ∑ c ∈ range 8, b.val (c * 3 + d) = 0) ∧ ∀ c < 8, √(∑ d ∈ range 3, b.val (c * 3 + d) ^ 2) = √3 := by
  have key : ∃ b : Arr ℝ, setUnitNormals ⟨24, a⟩ = some b ∧ b.size = 24 ∧
      (∀ c < 8, ∀ d < 3, b.val (c * 3 + d) = if c.testBit d then 1 else -1) := by
    obtain ⟨b, e, sz, v⟩ := assigns_spec (fun i => if (i / 3).testBit (i % 3) then 1 else -1) normalsTable ⟨24, a⟩ (fun _ => False)
      (by
        intro t ht
        simp only [normalsTable, List.mem_cons, List.not_mem_nil, or_false] at ht
        rcases ht with rfl | rfl | rfl | rfl | rfl | rfl | rfl | rfl | rfl | rfl | rfl | rfl | rfl | rfl | rfl | rfl | rfl | rfl | rfl | rfl
          | rfl | rfl | rfl | rfl <;> simp [Nat.testBit])
      (fun _ h => h.elim)
    refine ⟨b, e, sz, fun c hc d hd => ?_⟩
    rw [v (c * 3 + d) (Or.inr ?_)]
    · rw [show (c * 3 + d) / 3 = c by omega, show (c * 3 + d) % 3 = d by omega]
    · have : ∃ x : ℝ, (c, d, x) ∈ normalsTable := by
        interval_cases c <;> interval_cases d <;> simp [normalsTable]
      obtain ⟨x, hx⟩ := this
      exact ⟨_, hx, rfl⟩
  obtain ⟨b, e, s, h⟩ := key
  refine ⟨b, e, s, h, ?_, ?_⟩
  · intro d hd
    rw [sum_congr rfl fun c hc => h c (mem_range.1 hc) d hd]
    have : ∀ d < 3, ∑ c ∈ range 8, (if c.testBit d then (1 : ℤ) else -1) = 0 := by decide
    exact_mod_cast this d hd
  · intro c hc
    congr 1
    rw [sum_congr rfl fun d hd => by rw [h c hc d (mem_range.1 hd)]]
    have : ∀ d, (if c.testBit d then (1 : ℝ) else -1) ^ 2 = 1 := by intro d; split <;> norm_num
    simp [this]

/-- Non-vacuity of `C56_split`: the three-point Simpson rule. -/
example : ∃ l u : Arr ℝ, lengthWeights ⟨2, fun _ => 5⟩ ⟨3, fun i => if i = 1 then 4 / 3 else 1 / 3⟩ ⟨3, fun i => (i : ℝ) - 1⟩ 1 = some l ∧
    subWeights ⟨4, fun _ => 5⟩ ⟨3, fun i => if i = 1 then 4 / 3 else 1 / 3⟩ ⟨3, fun i => (i : ℝ) - 1⟩ 1 = some u ∧
    Splits 1 0 (fun i => (i : ℝ) - 1) (fun i => if i = 1 then 4 / 3 else 1 / 3) l.val u.val := by
  obtain ⟨l, u, e1, e2, -, -, h⟩ := C56_split 1 (by norm_num) (by norm_num) 0 (fun i => (i : ℝ) - 1)
    (fun i => if i = 1 then 4 / 3 else 1 / 3) (fun _ => 5) (fun _ => 5) (by norm_num)
    (by intro i hi; interval_cases i <;> norm_num) (by intro i hi; interval_cases i <;> norm_num) (by norm_num [sum_range_succ])
  exact ⟨l, u, e1, e2, h⟩

end Verif.SubWeights
