import Verif.Points.Model
import Mathlib.Tactic.FieldSimp
import Mathlib.Tactic.Linarith
import Mathlib.Tactic.Positivity
import Mathlib.Analysis.SpecialFunctions.Trigonometric.Chebyshev.Basic

/-!
# C16, C57, C58: point distributions
-/

namespace Verif.Points

/-! ## C16 -/

/-- **C16**. With `N ≥ 2` points and `Zl < Zr`, the points start at `Zl`, end at `Zr`, are strictly
increasing and equally spaced; entries beyond `N` are untouched. -/
theorem C16_equispaced {K : Type*} [Field K] [LinearOrder K] [IsStrictOrderedRing K] (N : ℕ)
    (hN : 2 ≤ N) (Zl Zr : K) (hlr : Zl < Zr) (Z0 : ℕ → K) :
    ∃ Z, equispacedPoints N Zl Zr Z0 = some Z ∧ Z 0 = Zl ∧ Z (N - 1) = Zr ∧
      (∀ i j, i < j → j < N → Z i < Z j) ∧
      (∀ i, i + 1 < N → Z (i + 1) - Z i = (Zr - Zl) / ((N - 1 : ℕ) : K)) ∧
      ∀ i, N ≤ i → Z i = Z0 i := by
  have hpos : (0 : K) < ((N - 1 : ℕ) : K) := by exact_mod_cast (by omega : 0 < N - 1)
  refine ⟨_, if_neg (by omega), ?_⟩
  rw [loop_store]
  refine ⟨?_, ?_, ?_, ?_, ?_⟩
  · simp [show 0 < N by omega]
  · simp only [show N - 1 < N by omega, if_true]
    rw [div_self hpos.ne']; ring
  · intro i j hij hj
    simp only [hj, show i < N by omega, if_true]
    have : (i : K) / ((N - 1 : ℕ) : K) < (j : K) / ((N - 1 : ℕ) : K) :=
      div_lt_div_of_pos_right (by exact_mod_cast hij) hpos
    have := mul_lt_mul_of_pos_right this (sub_pos.2 hlr)
    linarith
  · intro i hi
    simp only [hi, show i < N by omega, if_true]
    push_cast
    field_simp
    ring
  · intro i hi
    simp [show ¬ i < N by omega]

/-- **C16**, `N = 1`: the only point is 0/0. -/
theorem C16_single {K : Type*} [Field K] (Zl Zr : K) (Z0 : ℕ → K) :
    equispacedPoints 1 Zl Zr Z0 = none := if_pos rfl

example : (2 : ℕ) ≤ 5 ∧ (-1 : ℚ) < 1 := by norm_num

/-! ## C57 -/

theorem cheb_unfold (N : ℕ) (Zl Zr : ℝ) (Z0 : ℕ → ℝ) (i : ℕ) (hi : i < N) :
    chebyshevPoints N Zl Zr Z0 i =
      (Zl + Zr) / 2 + (Zr - Zl) / 2 * Real.sin (Real.pi / 2 * ((2 * i + 1 - N) / N)) := by
  unfold chebyshevPoints
  simp only [loop_store]
  have h := loop_inv (n := N) (s := fun j => if j < N then
      Real.sin ((1 / 2) * Real.pi / (N : ℝ) * (((-1 * (N : ℤ) + 1) + 2 * (j : ℤ) : ℤ) : ℝ)) else Z0 j)
    (body := fun i Z => store Z i ((1 / 2) * (1 - Z i) * Zl + (1 / 2) * (1 + Z i) * Zr))
    (I := fun n (Z : ℕ → ℝ) => ∀ j, Z j =
      let s := if j < N then
        Real.sin ((1 / 2) * Real.pi / (N : ℝ) * (((-1 * (N : ℤ) + 1) + 2 * (j : ℤ) : ℤ) : ℝ)) else Z0 j
      if j < n then (1 / 2) * (1 - s) * Zl + (1 / 2) * (1 + s) * Zr else s) (by simp) ?_
  · rw [h i]
    simp only [hi, if_true]
    have : (1 / 2) * Real.pi / (N : ℝ) * (((-1 * (N : ℤ) + 1) + 2 * (i : ℤ) : ℤ) : ℝ) =
        Real.pi / 2 * ((2 * i + 1 - N) / N) := by push_cast; ring
    rw [this]; ring
  · intro n Z hn hZ j
    by_cases hj : j = n
    · subst hj
      rw [store_same, hZ j]
      simp [hn]
    · rw [store_ne _ _ hj, hZ j]
      by_cases hjn : j < n
      · simp [hjn, Nat.lt_succ_of_lt hjn]
      · simp [hjn, show ¬ j < n + 1 by omega]

/-- **C57**. `chebyshev_points` with `N ≥ 1` and `Zl < Zr`: strictly inside the interval, strictly
increasing, symmetric about the midpoint, and (mapped back to [-1,1]) the zeros of the Chebyshev
polynomial `T_N`. -/
theorem C57_chebyshev (N : ℕ) (Zl Zr : ℝ) (hlr : Zl < Zr) (Z0 : ℕ → ℝ) :
    let Z := chebyshevPoints N Zl Zr Z0
    (∀ i < N, Zl < Z i ∧ Z i < Zr) ∧ (∀ i j, i < j → j < N → Z i < Z j) ∧
    (∀ i < N, Z i + Z (N - 1 - i) = Zl + Zr) ∧
    (∀ i < N, (Polynomial.Chebyshev.T ℝ N).eval ((Z i - (Zl + Zr) / 2) / ((Zr - Zl) / 2)) = 0) := by
  intro Z
  have hpi := Real.pi_pos
  have hd : 0 < (Zr - Zl) / 2 := by linarith
  have hrange : ∀ i < N, -1 < ((2 * i + 1 - N) / N : ℝ) ∧ ((2 * i + 1 - N) / N : ℝ) < 1 := by
    intro i hi
    have hN : (0 : ℝ) < N := by exact_mod_cast (by omega : 0 < N)
    have h1 : (i : ℝ) + 1 ≤ N := by exact_mod_cast hi
    have h0 : (0 : ℝ) ≤ i := Nat.cast_nonneg i
    constructor
    · rw [lt_div_iff₀ hN]; linarith
    · rw [div_lt_iff₀ hN]; linarith
  have hmem : ∀ i < N, Real.pi / 2 * ((2 * i + 1 - N) / N) ∈
      Set.Icc (-(Real.pi / 2)) (Real.pi / 2) := by
    intro i hi
    obtain ⟨h1, h2⟩ := hrange i hi
    constructor <;> nlinarith
  have hs1 : ∀ i < N, -1 < Real.sin (Real.pi / 2 * ((2 * i + 1 - N) / N)) ∧
      Real.sin (Real.pi / 2 * ((2 * i + 1 - N) / N)) < 1 := by
    intro i hi
    obtain ⟨h1, h2⟩ := hrange i hi
    constructor
    · have := Real.strictMonoOn_sin ⟨le_rfl, by linarith⟩ (hmem i hi)
        (by nlinarith : -(Real.pi / 2) < Real.pi / 2 * ((2 * i + 1 - N) / N))
      rwa [Real.sin_neg, Real.sin_pi_div_two] at this
    · have := Real.strictMonoOn_sin (hmem i hi) ⟨by linarith, le_rfl⟩
        (by nlinarith : Real.pi / 2 * ((2 * i + 1 - N) / N) < Real.pi / 2)
      rwa [Real.sin_pi_div_two] at this
  refine ⟨?_, ?_, ?_, ?_⟩
  · intro i hi
    obtain ⟨h1, h2⟩ := hs1 i hi
    show Zl < chebyshevPoints N Zl Zr Z0 i ∧ chebyshevPoints N Zl Zr Z0 i < Zr
    rw [cheb_unfold N Zl Zr Z0 i hi]
    constructor <;> nlinarith
  · intro i j hij hj
    show chebyshevPoints N Zl Zr Z0 i < chebyshevPoints N Zl Zr Z0 j
    rw [cheb_unfold N Zl Zr Z0 i (by omega), cheb_unfold N Zl Zr Z0 j hj]
    have hN : (0 : ℝ) < N := by exact_mod_cast (by omega : 0 < N)
    have : Real.sin (Real.pi / 2 * ((2 * i + 1 - N) / N)) <
        Real.sin (Real.pi / 2 * ((2 * j + 1 - N) / N)) := by
      refine Real.strictMonoOn_sin (hmem i (by omega)) (hmem j hj) ?_
      have hij' : (i : ℝ) < j := by exact_mod_cast hij
      refine mul_lt_mul_of_pos_left (div_lt_div_of_pos_right (by linarith) hN) (by linarith)
    nlinarith
  · intro i hi
    show chebyshevPoints N Zl Zr Z0 i + chebyshevPoints N Zl Zr Z0 (N - 1 - i) = _
    rw [cheb_unfold N Zl Zr Z0 i hi, cheb_unfold N Zl Zr Z0 (N - 1 - i) (by omega)]
    have hc : ((N - 1 - i : ℕ) : ℝ) = N - 1 - i := by
      rw [Nat.cast_sub (by omega), Nat.cast_sub (by omega)]; simp
    rw [hc, show Real.pi / 2 * ((2 * ((N : ℝ) - 1 - i) + 1 - N) / N) =
      -(Real.pi / 2 * ((2 * i + 1 - N) / N)) by ring, Real.sin_neg]
    ring
  · intro i hi
    show (Polynomial.Chebyshev.T ℝ N).eval
      ((chebyshevPoints N Zl Zr Z0 i - (Zl + Zr) / 2) / ((Zr - Zl) / 2)) = 0
    rw [cheb_unfold N Zl Zr Z0 i hi, add_sub_cancel_left, mul_div_cancel_left₀ _ hd.ne']
    rw [← Real.cos_pi_div_two_sub, Polynomial.Chebyshev.T_real_cos]
    have hN : (N : ℝ) ≠ 0 := by exact_mod_cast (by omega : N ≠ 0)
    rw [show ((N : ℤ) : ℝ) * (Real.pi / 2 - Real.pi / 2 * ((2 * i + 1 - N) / N)) =
      Real.pi / 2 + ((N : ℤ) - 1 - i : ℤ) * Real.pi by push_cast; field_simp; ring]
    rw [Real.cos_add_int_mul_pi, Real.cos_pi_div_two, mul_zero]

example : (-1 : ℝ) < 1 := by norm_num

/-! ## C58 -/

theorem chebN_unfold (order : ℕ) (a : ℕ → ℝ) (i : ℕ) :
    chebyshevNodes1D order a i =
      if i = order then 1 else if i = 0 then -1 else if i < order then
        -Real.cos (Real.pi * (2 * ((i : ℝ) + 1) - 1) / (2 * ((order : ℝ) + 1))) else a i := by
  unfold chebyshevNodes1D
  simp only [loop_store, store]

/-- **C58**. For `order ≥ 1` the nodes of `chebyshev_nodes_1D` run strictly increasing from -1 to 1
and are symmetric about 0. -/
theorem C58_nodes (order : ℕ) (ho : 1 ≤ order) (a : ℕ → ℝ) :
    let x := chebyshevNodes1D order a
    x 0 = -1 ∧ x order = 1 ∧ (∀ i j, i < j → j ≤ order → x i < x j) ∧
    (∀ i ≤ order, x i + x (order - i) = 0) := by
  intro x
  have hpi := Real.pi_pos
  have hO : (0 : ℝ) < 2 * ((order : ℝ) + 1) := by positivity
  -- interior angles
  have hang : ∀ i : ℕ, 0 < i → i < order →
      0 < Real.pi * (2 * ((i : ℝ) + 1) - 1) / (2 * ((order : ℝ) + 1)) ∧
      Real.pi * (2 * ((i : ℝ) + 1) - 1) / (2 * ((order : ℝ) + 1)) < Real.pi := by
    intro i h0 h1
    have h0' : (0 : ℝ) ≤ i := Nat.cast_nonneg i
    have h1' : (i : ℝ) + 1 ≤ order := by exact_mod_cast h1
    constructor
    · apply div_pos _ hO; nlinarith
    · rw [div_lt_iff₀ hO]; nlinarith
  have hx : ∀ i, x i = _ := fun i => chebN_unfold order a i
  have x0 : x 0 = -1 := by rw [hx]; simp [show 0 ≠ order by omega]
  have xo : x order = 1 := by rw [hx]; simp
  have xi : ∀ i, 0 < i → i < order →
      x i = -Real.cos (Real.pi * (2 * ((i : ℝ) + 1) - 1) / (2 * ((order : ℝ) + 1))) := by
    intro i h0 h1
    rw [hx]; simp [show i ≠ order by omega, show i ≠ 0 by omega, h1]
  have hlow : ∀ i, 0 < i → i < order → -1 < x i ∧ x i < 1 := by
    intro i h0 h1
    obtain ⟨a1, a2⟩ := hang i h0 h1
    rw [xi i h0 h1]
    have c1 := Real.strictAntiOn_cos (Set.left_mem_Icc.2 hpi.le) ⟨a1.le, a2.le⟩ a1
    have c2 := Real.strictAntiOn_cos ⟨a1.le, a2.le⟩ (Set.right_mem_Icc.2 hpi.le) a2
    rw [Real.cos_zero] at c1
    rw [Real.cos_pi] at c2
    constructor <;> linarith
  refine ⟨x0, xo, ?_, ?_⟩
  · intro i j hij hj
    rcases Nat.eq_zero_or_pos i with rfl | hi
    · rw [x0]
      rcases Nat.lt_or_ge j order with hjo | hjo
      · exact (hlow j hij hjo).1
      · rw [show j = order by omega, xo]; norm_num
    · rcases Nat.lt_or_ge j order with hjo | hjo
      · rw [xi i hi (by omega), xi j (by omega) hjo]
        obtain ⟨a1, a2⟩ := hang i hi (by omega)
        obtain ⟨b1, b2⟩ := hang j (by omega) hjo
        have hlt : Real.pi * (2 * ((i : ℝ) + 1) - 1) / (2 * ((order : ℝ) + 1)) <
            Real.pi * (2 * ((j : ℝ) + 1) - 1) / (2 * ((order : ℝ) + 1)) := by
          have : (i : ℝ) < j := by exact_mod_cast hij
          apply div_lt_div_of_pos_right _ hO; nlinarith
        have := Real.strictAntiOn_cos ⟨a1.le, a2.le⟩ ⟨b1.le, b2.le⟩ hlt
        linarith
      · rw [show j = order by omega, xo]; exact (hlow i hi (by omega)).2
  · intro i hi
    rcases Nat.eq_zero_or_pos i with rfl | hi0
    · rw [x0, Nat.sub_zero, xo]; ring
    · rcases Nat.lt_or_ge i order with hio | hio
      · rw [xi i hi0 hio, xi (order - i) (by omega) (by omega), Nat.cast_sub hi]
        rw [show Real.pi * (2 * ((order : ℝ) - i + 1) - 1) / (2 * ((order : ℝ) + 1)) =
          Real.pi - Real.pi * (2 * ((i : ℝ) + 1) - 1) / (2 * ((order : ℝ) + 1)) by
            field_simp; ring, Real.cos_pi_sub]
        ring
      · rw [show i = order by omega, Nat.sub_self, xo, x0]; ring

example : (1 : ℕ) ≤ 4 := by norm_num

end Verif.Points
