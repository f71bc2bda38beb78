import Verif.LU.Model
import Mathlib.Algebra.BigOperators.Intervals
import Mathlib.LinearAlgebra.Matrix.Rank
import Mathlib.LinearAlgebra.Matrix.Block
import Mathlib.GroupTheory.Perm.Sign
import Mathlib.Tactic.Ring
import Mathlib.Tactic.FieldSimp
import Mathlib.Tactic.Linarith

set_option linter.unusedSectionVars false
namespace Verif.LU

open Finset

variable {K : Type*} [Field K] [LinearOrder K]

theorem loop_sub (n : ℕ) (f : ℕ → K) (s : K) :
    loop n (fun i s => s - f i) s = s - ∑ i ∈ range n, f i := by
  induction n with
  | zero => simp
  | succ n ih => rw [loop_succ, ih, sum_range_succ]; ring

/-! ### Scaling -/

section
variable [IsStrictOrderedRing K]

theorem rowMax_spec (n : ℕ) (a : ℕ → ℕ → K) (i : ℕ) :
    0 ≤ rowMax n a i ∧ (∀ j < n, |a i j| ≤ rowMax n a i) ∧
      (rowMax n a i = 0 ∨ ∃ j < n, rowMax n a i = |a i j|) := by
  unfold rowMax
  refine loop_inv (n := n) (I := fun m (b : K) => 0 ≤ b ∧ (∀ j < m, |a i j| ≤ b) ∧
    (b = 0 ∨ ∃ j < m, b = |a i j|)) (by simp) ?_
  rintro m b hm ⟨h0, h1, h2⟩
  split_ifs with h
  · refine ⟨abs_nonneg _, fun j hj => ?_, Or.inr ⟨m, by omega, rfl⟩⟩
    rcases Nat.lt_succ_iff_lt_or_eq.1 hj with hj | rfl
    · exact (h1 j hj).trans h.le
    · exact le_rfl
  · refine ⟨h0, fun j hj => ?_, h2.imp id fun ⟨j, hj, e⟩ => ⟨j, by omega, e⟩⟩
    rcases Nat.lt_succ_iff_lt_or_eq.1 hj with hj | rfl
    · exact h1 j hj
    · exact le_of_not_gt h

theorem rowMax_eq_zero (n : ℕ) (a : ℕ → ℕ → K) (i : ℕ) :
    rowMax n a i = 0 ↔ ∀ j < n, a i j = 0 := by
  obtain ⟨h0, h1, h2⟩ := rowMax_spec n a i
  constructor
  · intro h j hj
    have := h1 j hj
    rw [h] at this
    exact abs_nonpos_iff.1 this
  · intro h
    rcases h2 with h2 | ⟨j, hj, e⟩
    · exact h2
    · rw [e, h j hj, abs_zero]

theorem scaling_spec (n : ℕ) (a : ℕ → ℕ → K) :
    (scaling n a = none ↔ ∃ i < n, ∀ j < n, a i j = 0) ∧
    ∀ vv, scaling n a = some vv → ∀ i < n, 0 < vv i := by
  unfold scaling
  refine loop_inv (n := n) (I := fun m (o : Option (ℕ → K)) =>
    (o = none ↔ ∃ i < m, ∀ j < n, a i j = 0) ∧ ∀ vv, o = some vv → ∀ i < m, 0 < vv i)
    (by simp) ?_
  rintro m o hm ⟨h1, h2⟩
  cases o with
  | none =>
    obtain ⟨i, hi, h⟩ := h1.1 rfl
    exact ⟨⟨fun _ => ⟨i, by omega, h⟩, fun _ => rfl⟩, by simp⟩
  | some vv =>
    have hno : ¬ ∃ i < m, ∀ j < n, a i j = 0 := fun h => by simpa using h1.2 h
    simp only []
    split_ifs with h
    · exact ⟨⟨fun _ => ⟨m, by omega, (rowMax_eq_zero n a m).1 h⟩, fun _ => rfl⟩, by simp⟩
    · refine ⟨⟨by simp, ?_⟩, ?_⟩
      · rintro ⟨i, hi, hz⟩
        rcases Nat.lt_succ_iff_lt_or_eq.1 hi with hi | rfl
        · exact absurd ⟨i, hi, hz⟩ hno
        · exact absurd ((rowMax_eq_zero n a i).2 hz) h
      · rintro vv' hv i hi
        cases hv
        rcases Nat.lt_succ_iff_lt_or_eq.1 hi with hi | rfl
        · rw [store_ne _ _ (by omega)]; exact h2 vv rfl i hi
        · rw [store_same]
          exact lt_of_le_of_ne (rowMax_spec n a i).1 (Ne.symm h)

end

/-! ### One column -/

theorem upper_spec (j : ℕ) (a : ℕ → ℕ → K) :
    (∀ i k, ¬ (k = j ∧ i < j) → upper j a i k = a i k) ∧
    ∀ i < j, upper j a i j = a i j - ∑ k ∈ range i, a i k * upper j a k j := by
  unfold upper
  refine loop_inv (n := j) (I := fun m (b : ℕ → ℕ → K) =>
    (∀ i k, ¬ (k = j ∧ i < m) → b i k = a i k) ∧
    ∀ i < m, b i j = a i j - ∑ k ∈ range i, a i k * b k j) (by simp) ?_
  rintro m b hm ⟨h1, h2⟩
  simp only [loop_sub]
  have hb : ∀ i k, ¬ (i = m ∧ k = j) →
      store2 b m j (b m j - ∑ k ∈ range m, b m k * b k j) i k = b i k := fun i k h => store2_ne _ _ h
  refine ⟨fun i k h => ?_, fun i hi => ?_⟩
  · rw [hb i k (by rintro ⟨rfl, rfl⟩; exact h ⟨rfl, by omega⟩)]
    exact h1 i k (by rintro ⟨rfl, hi⟩; exact h ⟨rfl, by omega⟩)
  · rcases Nat.lt_succ_iff_lt_or_eq.1 hi with hi | rfl
    · rw [hb i j (by omega), h2 i hi]
      congr 1
      refine sum_congr rfl fun k hk => ?_
      rw [mem_range] at hk
      rw [hb k j (by omega)]
    · rw [store2_eq, h1 i j (by omega)]
      congr 1
      refine sum_congr rfl fun k hk => ?_
      rw [mem_range] at hk
      rw [store2_ne _ _ (by omega), h1 i k (by omega)]

theorem lower_spec (n j : ℕ) (hj : j < n) (vv : ℕ → K) (a : ℕ → ℕ → K) :
    let r := lower n j vv a
    (∀ i k, ¬ (k = j ∧ j ≤ i ∧ i < n) → r.1 i k = a i k) ∧
    (∀ i, j ≤ i → i < n → r.1 i j = a i j - ∑ k ∈ range j, a i k * a k j) ∧
    j ≤ r.2.2 ∧ r.2.2 < n ∧
    ∀ i, j ≤ i → i < n → vv i * |r.1 i j| ≤ max 0 (vv r.2.2 * |r.1 r.2.2 j|) := by
  have key := loop_inv (n := n - j) (s := ((a, 0, j) : (ℕ → ℕ → K) × K × ℕ))
    (body := fun t s =>
      let i := j + t
      let sum := loop j (fun k sum => sum - s.1 i k * s.1 k j) (s.1 i j)
      let a := store2 s.1 i j sum
      if vv i * |sum| ≥ s.2.1 then (a, vv i * |sum|, i) else (a, s.2.1, s.2.2))
    (I := fun m (r : (ℕ → ℕ → K) × K × ℕ) =>
      (∀ i k, ¬ (k = j ∧ j ≤ i ∧ i < j + m) → r.1 i k = a i k) ∧
      (∀ i, j ≤ i → i < j + m → r.1 i j = a i j - ∑ k ∈ range j, a i k * a k j) ∧
      (j ≤ r.2.2 ∧ r.2.2 < max (j + 1) (j + m)) ∧
      (r.2.1 = 0 ∨ (r.2.2 < j + m ∧ r.2.1 = vv r.2.2 * |r.1 r.2.2 j|)) ∧
      ∀ i, j ≤ i → i < j + m → vv i * |r.1 i j| ≤ r.2.1)
    ⟨by simp, by intro i; omega, ⟨le_rfl, by simp⟩, Or.inl rfl, by intro i; omega⟩ ?_
  · intro r
    obtain ⟨h1, h2, ⟨h3, h3'⟩, h4, h5⟩ := key
    have e : j + (n - j) = n := by omega
    simp only [e] at h1 h2 h3' h4 h5
    refine ⟨h1, h2, h3, ?_, ?_⟩
    · have : max (j + 1) n = n := by omega
      rw [this] at h3'; exact h3'
    · intro i hi hi'
      refine (h5 i hi hi').trans ?_
      rcases h4 with h4 | ⟨_, h4⟩
      · rw [h4]; exact le_max_left _ _
      · rw [h4]; exact le_max_right _ _
  · rintro m r hm ⟨h1, h2, ⟨h3, h3'⟩, h4, h5⟩
    simp only [loop_sub]
    have hv : r.1 (j + m) j - ∑ k ∈ range j, r.1 (j + m) k * r.1 k j =
        a (j + m) j - ∑ k ∈ range j, a (j + m) k * a k j := by
      rw [h1 _ _ (by omega)]
      congr 1
      refine sum_congr rfl fun k hk => ?_
      rw [mem_range] at hk
      rw [h1 _ _ (by omega), h1 _ _ (by omega)]
    rw [hv]
    set v := a (j + m) j - ∑ k ∈ range j, a (j + m) k * a k j with hvdef
    have f1 : ∀ i k, ¬ (k = j ∧ j ≤ i ∧ i < j + (m + 1)) → store2 r.1 (j + m) j v i k = a i k := by
      intro i k h
      rw [store2_ne _ _ (by rintro ⟨rfl, rfl⟩; exact h ⟨rfl, by omega, by omega⟩)]
      exact h1 i k (by rintro ⟨rfl, h', h''⟩; exact h ⟨rfl, h', by omega⟩)
    have f2 : ∀ i, j ≤ i → i < j + (m + 1) →
        store2 r.1 (j + m) j v i j = a i j - ∑ k ∈ range j, a i k * a k j := by
      intro i hi hi'
      by_cases e : i = j + m
      · subst e; rw [store2_eq]
      · rw [store2_ne _ _ (by omega)]; exact h2 i hi (by omega)
    by_cases hc : vv (j + m) * |v| ≥ r.2.1
    · rw [if_pos hc]
      refine ⟨f1, f2, ⟨by simp, by simp⟩, Or.inr ⟨by simp, by simp [store2_eq]⟩, ?_⟩
      intro i hi hi'
      by_cases e : i = j + m
      · subst e; simp [store2_eq]
      · simp only []
        rw [store2_ne _ _ (by omega)]
        exact (h5 i hi (by omega)).trans hc
    · rw [if_neg hc]
      refine ⟨f1, f2, ⟨h3, by simp only []; omega⟩, ?_, ?_⟩
      · rcases h4 with h4 | ⟨h4, h4'⟩
        · exact Or.inl h4
        · refine Or.inr ⟨by simp only []; omega, ?_⟩
          simp only []
          rw [store2_ne _ _ (by omega)]; exact h4'
      · intro i hi hi'
        by_cases e : i = j + m
        · subst e; simp only [store2_eq]; exact le_of_not_ge hc
        · simp only []
          rw [store2_ne _ _ (by omega)]
          exact h5 i hi (by omega)

theorem swapRows_spec (n p j : ℕ) (a : ℕ → ℕ → K) (i k : ℕ) :
    swapRows n p j a i k = if k < n then a (Equiv.swap p j i) k else a i k := by
  unfold swapRows
  refine loop_inv (n := n) (I := fun m (b : ℕ → ℕ → K) => ∀ i k,
    b i k = if k < m then a (Equiv.swap p j i) k else a i k) (by simp) ?_ i k
  intro m b hm ih i k
  simp only [store2]
  by_cases hk : k = m
  · subst hk
    simp only [and_true, Nat.lt_succ_self, if_true]
    have hb : ∀ i, b i k = a i k := fun i => by rw [ih]; simp
    simp only [hb]
    by_cases h1 : i = j
    · subst h1; simp
    · by_cases h2 : i = p
      · subst h2; simp [h1]
      · simp [h1, h2, Equiv.swap_apply_of_ne_of_ne h2 h1]
  · simp only [hk, and_false, if_false]
    rw [ih]
    by_cases h : k < m
    · simp [h, Nat.lt_succ_of_lt h]
    · simp [h, show ¬ k < m + 1 by omega]

theorem scaleCol_spec (n j : ℕ) (a : ℕ → ℕ → K) (i k : ℕ) :
    scaleCol n j a i k = if k = j ∧ j < i ∧ i < n then a i j * (1 / a j j) else a i k := by
  unfold scaleCol
  split_ifs with h h2 h2
  · obtain ⟨rfl, h3, h4⟩ := h2
    have := loop_inv (n := n - (k + 1)) (s := a)
      (body := fun t b => store2 b (k + 1 + t) k (b (k + 1 + t) k * (1 / a k k)))
      (I := fun m (b : ℕ → ℕ → K) => ∀ i l, b i l =
        if l = k ∧ k < i ∧ i < k + 1 + m then a i k * (1 / a k k) else a i l) ?_ ?_
    · rw [this i k, if_pos ⟨rfl, h3, by omega⟩]
    · intro i l; rw [if_neg (by omega)]
    · intro m b hm ih i l
      simp only [store2]
      by_cases e : i = k + 1 + m ∧ l = k
      · obtain ⟨rfl, rfl⟩ := e
        rw [if_pos ⟨rfl, rfl⟩, ih, if_neg (by omega), if_pos ⟨rfl, by omega, by omega⟩]
      · rw [if_neg e, ih]
        by_cases e2 : l = k ∧ k < i ∧ i < k + 1 + m
        · rw [if_pos e2, if_pos ⟨e2.1, e2.2.1, by omega⟩]
        · rw [if_neg e2, if_neg]
          rintro ⟨e3, e4, e5⟩
          exact e2 ⟨e3, e4, by omega⟩
  · have := loop_inv (n := n - (j + 1)) (s := a)
      (body := fun t b => store2 b (j + 1 + t) j (b (j + 1 + t) j * (1 / a j j)))
      (I := fun m (b : ℕ → ℕ → K) => ∀ i l, ¬ (l = j ∧ j < i ∧ i < n) → b i l = a i l) ?_ ?_
    · exact this i k h2
    · intro i l _; rfl
    · intro m b hm ih i l hl
      rw [store2_ne _ _ (by omega)]
      exact ih i l hl
  · omega
  · rfl

/-- The pivot replaced when zero. -/
def fixed (v : K) : K := if v = 0 then tiny else v

theorem fixPivot_spec (j : ℕ) (a : ℕ → ℕ → K) (i k : ℕ) :
    fixPivot j a i k = if i = j ∧ k = j then fixed (a j j) else a i k := by
  unfold fixPivot fixed
  split_ifs with h1 h2 h2 h2 <;> simp_all [store2]

/-- Everything one iteration of the main loop does. -/
theorem column_spec [IsStrictOrderedRing K] (n j : ℕ) (hj : j < n) (s : St K)
    (hvv : ∀ i < n, 0 < s.vv i) :
    ∃ p, j ≤ p ∧ p < n ∧ (column n j s).indx = store s.indx j p ∧
      (column n j s).parity = (if p ≠ j then -s.parity else s.parity) ∧
      (∀ i < n, 0 < (column n j s).vv i) ∧
      ∃ u w : ℕ → K,
        (∀ i < j, u i = s.a i j - ∑ k ∈ range i, s.a i k * u k) ∧
        (∀ i, j ≤ i → i < n → w i = s.a i j - ∑ k ∈ range j, s.a i k * u k) ∧
        (w p = 0 → ∀ i, j ≤ i → i < n → w i = 0) ∧
        (∀ i, j ≤ i → i < n → s.vv i * |w i| ≤ s.vv p * |w p|) ∧
        ∀ i k, (column n j s).a i k =
          if n ≤ i ∨ n ≤ k then s.a i k
          else if k ≠ j then s.a (Equiv.swap p j i) k
          else if i < j then u i
          else if i = j then fixed (w p)
          else w (Equiv.swap p j i) * (1 / fixed (w p)) := by
  obtain ⟨u1, u2⟩ := upper_spec j s.a
  obtain ⟨l1, l2, l3, l4, l5⟩ := lower_spec n j hj s.vv (upper j s.a)
  set r := lower n j s.vv (upper j s.a) with hr
  have hlow : ∀ i, j ≤ i → i < n → r.1 i j = s.a i j - ∑ k ∈ range j, s.a i k * upper j s.a k j := by
    intro i hi hi'
    rw [l2 i hi hi', u1 i j (by omega)]
    congr 1
    refine sum_congr rfl fun k hk => ?_
    rw [mem_range] at hk
    rw [u1 i k (by omega)]
  have hmax : ∀ i, j ≤ i → i < n → s.vv i * |r.1 i j| ≤ s.vv r.2.2 * |r.1 r.2.2 j| := by
    intro i hi hi'
    have := l5 i hi hi'
    rwa [max_eq_right (mul_nonneg (hvv _ l4).le (abs_nonneg _))] at this
  refine ⟨r.2.2, l3, l4, rfl, rfl, ?_, fun i => upper j s.a i j, fun i => r.1 i j, u2, hlow, ?_, hmax, ?_⟩
  · intro i hi
    show 0 < (if r.2.2 ≠ j then store s.vv r.2.2 (s.vv j) else s.vv) i
    split_ifs with h
    · by_cases e : i = r.2.2
      · rw [e, store_same]; exact hvv j hj
      · rw [store_ne _ _ e]; exact hvv i hi
    · exact hvv i hi
  · intro hz i hi hi'
    have := hmax i hi hi'
    simp only [] at hz
    rw [hz, abs_zero, mul_zero] at this
    have h2 := mul_nonneg (hvv i hi').le (abs_nonneg (r.1 i j))
    have h3 : s.vv i * |r.1 i j| = 0 := le_antisymm this h2
    rcases mul_eq_zero.1 h3 with h | h
    · exact absurd h (hvv i hi').ne'
    · exact abs_eq_zero.1 h
  · intro i k
    show scaleCol n j (fixPivot j (if r.2.2 ≠ j then swapRows n r.2.2 j r.1 else r.1)) i k = _
    have hsw : ∀ i k, (if r.2.2 ≠ j then swapRows n r.2.2 j r.1 else r.1) i k =
        if k < n then r.1 (Equiv.swap r.2.2 j i) k else r.1 i k := by
      intro i k
      split_ifs with h h' h'
      · rw [swapRows_spec, if_pos h']
      · rw [swapRows_spec, if_neg h']
      · rw [not_not.1 h, Equiv.swap_self]; rfl
      · rfl
    rw [scaleCol_spec]
    have hlt : ∀ i, i < n → Equiv.swap r.2.2 j i < n := by
      intro i hi
      rcases eq_or_ne i r.2.2 with rfl | h1
      · rw [Equiv.swap_apply_left]; exact hj
      · rcases eq_or_ne i j with rfl | h2
        · rw [Equiv.swap_apply_right]; exact l4
        · rwa [Equiv.swap_apply_of_ne_of_ne h1 h2]
    have hbase : ∀ i k, ¬ (k = j) → r.1 i k = s.a i k := fun i k h => by
      rw [l1 i k (by tauto), u1 i k (by tauto)]
    by_cases hk : k = j
    · subst hk
      simp only [true_and, ne_eq, not_true_eq_false, if_false]
      by_cases hi : n ≤ i
      · rw [if_neg (by omega), if_pos (Or.inl hi), fixPivot_spec, if_neg (by omega), hsw, if_pos hj,
          Equiv.swap_apply_of_ne_of_ne (by omega) (by omega), l1 _ _ (by omega), u1 _ _ (by omega)]
      · have hnn : ¬ (n ≤ i ∨ n ≤ k) := by omega
        rw [if_neg hnn]
        by_cases h1 : i < k
        · rw [if_neg (by omega), if_pos h1, fixPivot_spec, if_neg (by omega), hsw, if_pos hj,
            Equiv.swap_apply_of_ne_of_ne (by omega) (by omega), l1 _ _ (by omega)]
        · rw [if_neg h1]
          by_cases h2 : i = k
          · subst h2
            rw [if_neg (by omega), if_pos rfl, fixPivot_spec, if_pos ⟨rfl, rfl⟩, hsw, if_pos hj,
              Equiv.swap_apply_right]
          · rw [if_pos ⟨by omega, by omega⟩, if_neg h2, fixPivot_spec, if_neg (by omega), hsw,
              if_pos hj, fixPivot_spec, if_pos ⟨rfl, rfl⟩, hsw, if_pos hj, Equiv.swap_apply_right]
    · rw [if_neg (by tauto), fixPivot_spec, if_neg (by tauto), hsw]
      by_cases h : n ≤ i ∨ n ≤ k
      · rw [if_pos h]
        rcases h with h | h
        · rw [Equiv.swap_apply_of_ne_of_ne (by omega) (by omega), hbase _ _ hk]; simp
        · rw [if_neg (by omega), hbase _ _ hk]
      · rw [if_neg h, if_pos hk, if_pos (by omega), hbase _ _ hk]

end Verif.LU
