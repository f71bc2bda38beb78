import Verif.Fp.LUModel
import Verif.LU.Invariant

/-! # Rounded LU: one inner product, one column -/

namespace Verif.Fp.Rounding

variable (R : Rounding)

/-- `u / (1 - u)`: the relative error with respect to the rounded value. -/
noncomputable def v : ℝ := R.u / (1 - R.u)

theorem v_nonneg (hu : R.u < 1) : 0 ≤ R.v := div_nonneg R.u_nonneg (by linarith)

theorem one_add_v (hu : R.u < 1) : 1 + R.v = 1 / (1 - R.u) := by
  have : (1 - R.u) ≠ 0 := by linarith
  unfold v; field_simp; ring

theorem u_one_add_v (hu : R.u < 1) : R.u * (1 + R.v) = R.v := by
  rw [R.one_add_v hu]; unfold v; ring

theorem u_le_v (hu : R.u < 1) : R.u ≤ R.v := by
  have := R.u_one_add_v hu
  nlinarith [R.u_nonneg, R.v_nonneg hu]

/-- the error measured by the rounded value -/
theorem err_v (hu : R.u < 1) (x : ℝ) : |R.fl x - x| ≤ R.v * |R.fl x| := by
  have h1 := R.err x
  have h2 : |x| - |R.fl x| ≤ |R.fl x - x| := by
    rw [abs_sub_comm]; exact abs_sub_abs_le_abs_sub x (R.fl x)
  have h3 : |x| ≤ (1 + R.v) * |R.fl x| := by
    rw [R.one_add_v hu, div_mul_eq_mul_div, one_mul, le_div_iff₀ (by linarith)]
    nlinarith
  calc |R.fl x - x| ≤ R.u * |x| := h1
    _ ≤ R.u * ((1 + R.v) * |R.fl x|) := mul_le_mul_of_nonneg_left h3 R.u_nonneg
    _ = R.v * |R.fl x| := by rw [← mul_assoc, R.u_one_add_v hu]

theorem abs_le_v (hu : R.u < 1) (x : ℝ) : |x| ≤ (1 + R.v) * |R.fl x| := by
  have h1 := R.err_v hu x
  have h2 : |x| - |R.fl x| ≤ |R.fl x - x| := by
    rw [abs_sub_comm]; exact abs_sub_abs_le_abs_sub x (R.fl x)
  linarith

theorem fl_eq_zero (hu : R.u < 1) {x : ℝ} : R.fl x = 0 ↔ x = 0 := by
  constructor
  · intro h
    have := R.abs_le_v hu x
    rw [h, abs_zero, mul_zero] at this
    exact abs_nonpos_iff.1 this
  · rintro rfl; exact R.fl_zero

/-- `(1 + u/(1-u))^k - 1 = (1-u)^(-k) - 1`, the error of `k` successive roundings -/
noncomputable def g (k : ℕ) : ℝ := (1 + R.v) ^ k - 1

theorem g_zero : R.g 0 = 0 := by simp [g]

theorem g_mono (hu : R.u < 1) {k l : ℕ} (h : k ≤ l) : R.g k ≤ R.g l := by
  have := pow_le_pow_right₀ (show 1 ≤ 1 + R.v by linarith [R.v_nonneg hu]) h
  unfold g; linarith

theorem g_nonneg (hu : R.u < 1) (k : ℕ) : 0 ≤ R.g k := by
  rw [← R.g_zero]; exact R.g_mono hu (Nat.zero_le k)

theorem g_succ (k : ℕ) : R.g (k + 1) = R.g k * (1 + R.v) + R.v := by unfold g; ring

end Verif.Fp.Rounding

set_option linter.unusedSectionVars false
namespace Verif.LU
open Finset Verif.Fp

variable (R : Rounding)

/-- `sum = c; for (k < m) sum -= f(k)*h(k)` -/
noncomputable def innerR (m : ℕ) (f h : ℕ → ℝ) (c : ℝ) : ℝ := loop m (fun k sum => R.fl (sum - R.fl (f k * h k))) c

theorem innerR_congr {m : ℕ} {f h f' h' : ℕ → ℝ} {c c' : ℝ} (hc : c = c') (hf : ∀ k < m, f k = f' k) (hh : ∀ k < m, h k = h' k) :
    innerR R m f h c = innerR R m f' h' c' := by
  unfold innerR
  subst hc
  refine loop_congr fun k s hk => ?_
  rw [hf k hk, hh k hk]

/-- The error of the inner product, measured by the result and the products. -/
theorem innerR_err (hu : R.u < 1) (m : ℕ) (f h : ℕ → ℝ) (c : ℝ) :
    |c - ∑ k ∈ range m, f k * h k - innerR R m f h c| ≤ R.g m * (|innerR R m f h c| + ∑ k ∈ range m, |f k| * |h k|) := by
  induction m with
  | zero => simp [innerR, Rounding.g_zero]
  | succ m ih =>
    have e : innerR R (m + 1) f h c = R.fl (innerR R m f h c - R.fl (f m * h m)) := rfl
    set s := innerR R m f h c with hs
    set p := R.fl (f m * h m) with hp
    rw [e]
    have h1 := R.err_v hu (s - p)
    have h2 := R.err (f m * h m)
    have h3 := R.abs_le_v hu (s - p)
    have h4 := R.fl_abs_le (f m * h m)
    rw [← hp] at h2 h4
    rw [abs_mul] at h2 h4
    set s' := R.fl (s - p) with hs'
    have hg := R.g_nonneg hu m
    have hv := R.v_nonneg hu
    have huv := R.u_le_v hu
    have h5 : |s| ≤ (1 + R.v) * |s'| + (1 + R.v) * (|f m| * |h m|) := by
      have : |s| ≤ |s - p| + |p| := by have := abs_add_le (s - p) p; simpa using this
      have h0 : 0 ≤ |f m| * |h m| := by positivity
      nlinarith
    rw [sum_range_succ, sum_range_succ, R.g_succ]
    set S := ∑ k ∈ range m, f k * h k
    set T := ∑ k ∈ range m, |f k| * |h k| with hT
    have hTn : 0 ≤ T := sum_nonneg fun k _ => by positivity
    have h6 : c - (S + f m * h m) - s' = (c - S - s) + (p - f m * h m) - (s' - (s - p)) := by ring
    have h7 : |c - (S + f m * h m) - s'| ≤ |c - S - s| + |p - f m * h m| + |s' - (s - p)| := by
      rw [h6]
      exact (abs_sub _ _).trans (add_le_add_left (abs_add_le _ _) _)
    have h0 : 0 ≤ |f m| * |h m| := by positivity
    have h8 : R.g m * |s| ≤ R.g m * ((1 + R.v) * |s'| + (1 + R.v) * (|f m| * |h m|)) := mul_le_mul_of_nonneg_left h5 hg
    have h9 : R.g m * T ≤ (R.g m * (1 + R.v) + R.v) * T := mul_le_mul_of_nonneg_right (by nlinarith) hTn
    have h10 : R.u * (|f m| * |h m|) ≤ R.v * (|f m| * |h m|) := mul_le_mul_of_nonneg_right huv h0
    nlinarith

/-! ### One column -/

theorem upperR_spec (j : ℕ) (a : ℕ → ℕ → ℝ) :
    (∀ i k, ¬ (k = j ∧ i < j) → upperR R j a i k = a i k) ∧
    ∀ i < j, upperR R j a i j = innerR R i (fun k => a i k) (fun k => upperR R j a k j) (a i j) := by
  unfold upperR
  refine loop_inv (n := j) (I := fun m (b : ℕ → ℕ → ℝ) =>
    (∀ i k, ¬ (k = j ∧ i < m) → b i k = a i k) ∧
    ∀ i < m, b i j = innerR R i (fun k => a i k) (fun k => b k j) (a i j)) (by simp) ?_
  rintro m b hm ⟨h1, h2⟩
  refine ⟨fun i k h => ?_, fun i hi => ?_⟩
  · rw [store2_ne _ _ (by rintro ⟨rfl, rfl⟩; exact h ⟨rfl, by omega⟩)]
    exact h1 i k (by rintro ⟨rfl, hi⟩; exact h ⟨rfl, by omega⟩)
  · rcases Nat.lt_succ_iff_lt_or_eq.1 hi with hi | rfl
    · rw [store2_ne _ _ (by omega), h2 i hi]
      refine innerR_congr R rfl (fun _ _ => rfl) fun k hk => ?_
      rw [store2_ne _ _ (by omega)]
    · rw [store2_eq]
      refine innerR_congr R (h1 i j (by omega)) (fun k hk => h1 i k (by omega)) fun k hk => ?_
      rw [store2_ne _ _ (by omega)]

theorem lowerR_spec (n j : ℕ) (hj : j < n) (vv : ℕ → ℝ) (a : ℕ → ℕ → ℝ) :
    let r := lowerR R n j vv a
    (∀ i k, ¬ (k = j ∧ j ≤ i ∧ i < n) → r.1 i k = a i k) ∧
    (∀ i, j ≤ i → i < n → r.1 i j = innerR R j (fun k => a i k) (fun k => a k j) (a i j)) ∧
    j ≤ r.2.2 ∧ r.2.2 < n ∧
    ∀ i, j ≤ i → i < n → R.fl (vv i * |r.1 i j|) ≤ max 0 (R.fl (vv r.2.2 * |r.1 r.2.2 j|)) := by
  have key := loop_inv (n := n - j) (s := ((a, 0, j) : (ℕ → ℕ → ℝ) × ℝ × ℕ))
    (body := fun t s =>
      let i := j + t
      let sum := loop j (fun k sum => R.fl (sum - R.fl (s.1 i k * s.1 k j))) (s.1 i j)
      let a := store2 s.1 i j sum
      if R.fl (vv i * |sum|) ≥ s.2.1 then (a, R.fl (vv i * |sum|), i) else (a, s.2.1, s.2.2))
    (I := fun m (r : (ℕ → ℕ → ℝ) × ℝ × ℕ) =>
      (∀ i k, ¬ (k = j ∧ j ≤ i ∧ i < j + m) → r.1 i k = a i k) ∧
      (∀ i, j ≤ i → i < j + m → r.1 i j = innerR R j (fun k => a i k) (fun k => a k j) (a i j)) ∧
      (j ≤ r.2.2 ∧ r.2.2 < max (j + 1) (j + m)) ∧
      (r.2.1 = 0 ∨ (r.2.2 < j + m ∧ r.2.1 = R.fl (vv r.2.2 * |r.1 r.2.2 j|))) ∧
      ∀ i, j ≤ i → i < j + m → R.fl (vv i * |r.1 i j|) ≤ r.2.1)
    ⟨by simp, by intro i; omega, ⟨le_rfl, by simp⟩, Or.inl rfl, by intro i; omega⟩ ?_
  · intro r
    obtain ⟨h1, h2, ⟨h3, h3'⟩, h4, h5⟩ := key
    have e : j + (n - j) = n := by omega
    simp only [e] at h1 h2 h3' h4 h5
    refine ⟨h1, h2, h3, ?_, ?_⟩
    · have : max (j + 1) n = n := by omega
      rw [this] at h3'; exact h3'
    · intro i hi hi'
      refine (h5 i hi hi').trans ?_
      rcases h4 with h4 | ⟨_, h4⟩
      · rw [h4]; exact le_max_left _ _
      · rw [h4]; exact le_max_right _ _
  · rintro m r hm ⟨h1, h2, ⟨h3, h3'⟩, h4, h5⟩
    have hv : loop j (fun k sum => R.fl (sum - R.fl (r.1 (j + m) k * r.1 k j))) (r.1 (j + m) j) =
        innerR R j (fun k => a (j + m) k) (fun k => a k j) (a (j + m) j) :=
      innerR_congr R (h1 _ _ (by omega)) (fun k hk => h1 _ _ (by omega)) fun k hk => h1 _ _ (by omega)
    simp only [hv]
    set v := innerR R j (fun k => a (j + m) k) (fun k => a k j) (a (j + m) j) with hvdef
    have f1 : ∀ i k, ¬ (k = j ∧ j ≤ i ∧ i < j + (m + 1)) → store2 r.1 (j + m) j v i k = a i k := by
      intro i k h
      rw [store2_ne _ _ (by rintro ⟨rfl, rfl⟩; exact h ⟨rfl, by omega, by omega⟩)]
      exact h1 i k (by rintro ⟨rfl, h', h''⟩; exact h ⟨rfl, h', by omega⟩)
    have f2 : ∀ i, j ≤ i → i < j + (m + 1) →
        store2 r.1 (j + m) j v i j = innerR R j (fun k => a i k) (fun k => a k j) (a i j) := by
      intro i hi hi'
      by_cases e : i = j + m
      · subst e; rw [store2_eq]
      · rw [store2_ne _ _ (by omega)]; exact h2 i hi (by omega)
    by_cases hc : R.fl (vv (j + m) * |v|) ≥ r.2.1
    · rw [if_pos hc]
      refine ⟨f1, f2, ⟨by simp, by simp⟩, Or.inr ⟨by simp, by simp [store2_eq]⟩, ?_⟩
      intro i hi hi'
      by_cases e : i = j + m
      · subst e; simp [store2_eq]
      · simp only []
        rw [store2_ne _ _ (by omega)]
        exact (h5 i hi (by omega)).trans hc
    · rw [if_neg hc]
      refine ⟨f1, f2, ⟨h3, by simp only []; omega⟩, ?_, ?_⟩
      · rcases h4 with h4 | ⟨h4, h4'⟩
        · exact Or.inl h4
        · refine Or.inr ⟨by simp only []; omega, ?_⟩
          simp only []
          rw [store2_ne _ _ (by omega)]; exact h4'
      · intro i hi hi'
        by_cases e : i = j + m
        · subst e; simp only [store2_eq]; exact le_of_not_ge hc
        · simp only []
          rw [store2_ne _ _ (by omega)]
          exact h5 i hi (by omega)

theorem scaleColR_spec (n j : ℕ) (a : ℕ → ℕ → ℝ) (i k : ℕ) :
    scaleColR R n j a i k = if k = j ∧ j < i ∧ i < n then R.fl (a i j * R.fl (1 / a j j)) else a i k := by
  unfold scaleColR
  split_ifs with h h2 h2
  · obtain ⟨rfl, h3, h4⟩ := h2
    have := loop_inv (n := n - (k + 1)) (s := a)
      (body := fun t b => store2 b (k + 1 + t) k (R.fl (b (k + 1 + t) k * R.fl (1 / a k k))))
      (I := fun m (b : ℕ → ℕ → ℝ) => ∀ i l, b i l =
        if l = k ∧ k < i ∧ i < k + 1 + m then R.fl (a i k * R.fl (1 / a k k)) else a i l) ?_ ?_
    · rw [this i k, if_pos ⟨rfl, h3, by omega⟩]
    · intro i l; rw [if_neg (by omega)]
    · intro m b hm ih i l
      simp only [store2]
      by_cases e : i = k + 1 + m ∧ l = k
      · obtain ⟨rfl, rfl⟩ := e
        rw [if_pos ⟨rfl, rfl⟩, ih, if_neg (by omega), if_pos ⟨rfl, by omega, by omega⟩]
      · rw [if_neg e, ih]
        by_cases e2 : l = k ∧ k < i ∧ i < k + 1 + m
        · rw [if_pos e2, if_pos ⟨e2.1, e2.2.1, by omega⟩]
        · rw [if_neg e2, if_neg]
          rintro ⟨e3, e4, e5⟩
          exact e2 ⟨e3, e4, by omega⟩
  · have := loop_inv (n := n - (j + 1)) (s := a)
      (body := fun t b => store2 b (j + 1 + t) j (R.fl (b (j + 1 + t) j * R.fl (1 / a j j))))
      (I := fun m (b : ℕ → ℕ → ℝ) => ∀ i l, ¬ (l = j ∧ j < i ∧ i < n) → b i l = a i l) ?_ ?_
    · exact this i k h2
    · intro i l _; rfl
    · intro m b hm ih i l hl
      rw [store2_ne _ _ (by omega)]
      exact ih i l hl
  · omega
  · rfl

/-- The pivot replaced when zero. -/
noncomputable def fixedR (w : ℝ) : ℝ := if w = 0 then tinyR R else w

theorem fixPivotR_spec (j : ℕ) (a : ℕ → ℕ → ℝ) (i k : ℕ) :
    fixPivotR R j a i k = if i = j ∧ k = j then fixedR R (a j j) else a i k := by
  unfold fixPivotR fixedR
  split_ifs with h1 h2 h2 h2 <;> simp_all [store2]

theorem tinyR_ne (hu : R.u < 1) : tinyR R ≠ 0 := fun h => tiny_ne ((R.fl_eq_zero hu).1 h)

theorem fixedR_ne (hu : R.u < 1) (w : ℝ) : fixedR R w ≠ 0 := by
  unfold fixedR; split_ifs with h
  · exact tinyR_ne R hu
  · exact h

/-- Everything one iteration of the main loop does. -/
theorem columnR_spec (hu : R.u < 1) (n j : ℕ) (hj : j < n) (s : St ℝ) (hvv : ∀ i < n, 0 < s.vv i) :
    ∃ p, j ≤ p ∧ p < n ∧ (columnR R n j s).indx = store s.indx j p ∧
      (columnR R n j s).parity = (if p ≠ j then -s.parity else s.parity) ∧
      (∀ i < n, 0 < (columnR R n j s).vv i) ∧
      (columnR R n j s).vv = (if p ≠ j then store s.vv p (s.vv j) else s.vv) ∧
      ∃ u w : ℕ → ℝ,
        (∀ i < j, u i = innerR R i (fun k => s.a i k) u (s.a i j)) ∧
        (∀ i, j ≤ i → i < n → w i = innerR R j (fun k => s.a i k) u (s.a i j)) ∧
        (w p = 0 → ∀ i, j ≤ i → i < n → w i = 0) ∧
        (∀ i, j ≤ i → i < n → R.fl (s.vv i * |w i|) ≤ R.fl (s.vv p * |w p|)) ∧
        ∀ i k, (columnR R n j s).a i k =
          if n ≤ i ∨ n ≤ k then s.a i k
          else if k ≠ j then s.a (Equiv.swap p j i) k
          else if i < j then u i
          else if i = j then fixedR R (w p)
          else R.fl (w (Equiv.swap p j i) * R.fl (1 / fixedR R (w p))) := by
  obtain ⟨u1, u2⟩ := upperR_spec R j s.a
  obtain ⟨l1, l2, l3, l4, l5⟩ := lowerR_spec R n j hj s.vv (upperR R j s.a)
  set r := lowerR R n j s.vv (upperR R j s.a) with hr
  have hlow : ∀ i, j ≤ i → i < n → r.1 i j = innerR R j (fun k => s.a i k) (fun k => upperR R j s.a k j) (s.a i j) := by
    intro i hi hi'
    rw [l2 i hi hi']
    exact innerR_congr R (u1 i j (by omega)) (fun k hk => u1 i k (by omega)) fun _ _ => rfl
  have hmax : ∀ i, j ≤ i → i < n → R.fl (s.vv i * |r.1 i j|) ≤ R.fl (s.vv r.2.2 * |r.1 r.2.2 j|) := by
    intro i hi hi'
    have := l5 i hi hi'
    rwa [max_eq_right (R.fl_nonneg (mul_nonneg (hvv _ l4).le (abs_nonneg _)))] at this
  refine ⟨r.2.2, l3, l4, rfl, rfl, ?_, rfl, fun i => upperR R j s.a i j, fun i => r.1 i j, u2, hlow, ?_, hmax, ?_⟩
  · intro i hi
    show 0 < (if r.2.2 ≠ j then store s.vv r.2.2 (s.vv j) else s.vv) i
    split_ifs with h
    · by_cases e : i = r.2.2
      · rw [e, store_same]; exact hvv j hj
      · rw [store_ne _ _ e]; exact hvv i hi
    · exact hvv i hi
  · intro hz i hi hi'
    have := hmax i hi hi'
    simp only [] at hz
    rw [hz, abs_zero, mul_zero, R.fl_zero] at this
    have h2 := R.fl_nonneg (mul_nonneg (hvv i hi').le (abs_nonneg (r.1 i j)))
    have h3 : s.vv i * |r.1 i j| = 0 := (R.fl_eq_zero hu).1 (le_antisymm this h2)
    rcases mul_eq_zero.1 h3 with h | h
    · exact absurd h (hvv i hi').ne'
    · exact abs_eq_zero.1 h
  · intro i k
    show scaleColR R n j (fixPivotR R j (if r.2.2 ≠ j then swapRows n r.2.2 j r.1 else r.1)) i k = _
    have hsw : ∀ i k, (if r.2.2 ≠ j then swapRows n r.2.2 j r.1 else r.1) i k =
        if k < n then r.1 (Equiv.swap r.2.2 j i) k else r.1 i k := by
      intro i k
      split_ifs with h h' h'
      · rw [swapRows_spec, if_pos h']
      · rw [swapRows_spec, if_neg h']
      · rw [not_not.1 h, Equiv.swap_self]; rfl
      · rfl
    rw [scaleColR_spec]
    have hbase : ∀ i k, ¬ (k = j) → r.1 i k = s.a i k := fun i k h => by
      rw [l1 i k (by tauto), u1 i k (by tauto)]
    by_cases hk : k = j
    · subst hk
      simp only [true_and, ne_eq, not_true_eq_false, if_false]
      by_cases hi : n ≤ i
      · rw [if_neg (by omega), if_pos (Or.inl hi), fixPivotR_spec, if_neg (by omega), hsw, if_pos hj,
          Equiv.swap_apply_of_ne_of_ne (by omega) (by omega), l1 _ _ (by omega), u1 _ _ (by omega)]
      · have hnn : ¬ (n ≤ i ∨ n ≤ k) := by omega
        rw [if_neg hnn]
        by_cases h1 : i < k
        · rw [if_neg (by omega), if_pos h1, fixPivotR_spec, if_neg (by omega), hsw, if_pos hj,
            Equiv.swap_apply_of_ne_of_ne (by omega) (by omega), l1 _ _ (by omega)]
        · rw [if_neg h1]
          by_cases h2 : i = k
          · subst h2
            rw [if_neg (by omega), if_pos rfl, fixPivotR_spec, if_pos ⟨rfl, rfl⟩, hsw, if_pos hj,
              Equiv.swap_apply_right]
          · rw [if_pos ⟨by omega, by omega⟩, if_neg h2, fixPivotR_spec, if_neg (by omega), hsw,
              if_pos hj, fixPivotR_spec, if_pos ⟨rfl, rfl⟩, hsw, if_pos hj, Equiv.swap_apply_right]
    · rw [if_neg (by tauto), fixPivotR_spec, if_neg (by tauto), hsw]
      by_cases h : n ≤ i ∨ n ≤ k
      · rw [if_pos h]
        rcases h with h | h
        · rw [Equiv.swap_apply_of_ne_of_ne (by omega) (by omega), hbase _ _ hk]; simp
        · rw [if_neg (by omega), hbase _ _ hk]
      · rw [if_neg h, if_pos hk, if_pos (by omega), hbase _ _ hk]

end Verif.LU
