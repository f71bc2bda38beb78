import Verif.Lagrange.Theorems
import Verif.Lagrange.Rolle
import Verif.LagrangeElement.Theorems
import Mathlib.Analysis.Calculus.MeanValue
import Mathlib.Analysis.SpecialFunctions.Trigonometric.Deriv

/-!
# C72: accuracy of the interpolants of smooth functions

Specification: `f` is the sampled function, `iteratedDeriv N f` its `N`-th derivative (Mathlib), `[a, b]` an interval with the vertices and
the point.
-/

namespace Verif.Lagrange
open Finset Polynomial
open LagrangeElement LagrangeElement.Spec

section
variable {tol : ℝ} {N : ℕ} {Z : ℕ → ℝ} {f : ℝ → ℝ} {a b : ℝ}

/-- **C72** (exact error).  `eval_interp` of the vertex values of an `N` times continuously differentiable `f` differs from `f X` by
`f⁽ᴺ⁾(c) / N! · ∏ (X - Zⱼ)` for some `c` of the interval. -/
theorem C72_interp_error (htol : 0 < tol) (hN : N < 2 ^ 64) (w0 : ℕ → ℝ)
    (hsep : ∀ j < N, ∀ k < N, j ≠ k → 2 * tol ≤ |Z j - Z k|) (hf : ContDiff ℝ N f) (hab : ∀ j < N, a ≤ Z j ∧ Z j ≤ b)
    {X : ℝ} (ha : a ≤ X) (hb : X ≤ b) (hX : ∀ j < N, X = Z j ∨ tol ≤ |Z j - X|) :
    ∃ c, a ≤ c ∧ c ≤ b ∧
      f X - evalInterp N (findCoincidentVertex tol N Z X).toNat Z (computeBarycentricWeights N Z w0) X (fun j => f (Z j)) =
        iteratedDeriv N f c / N.factorial * ∏ j ∈ range N, (X - Z j) := by
  rw [C07_interp tol htol N hN Z w0 _ hsep X hX]
  exact interpolate_error hf (injOn_of_sep htol hsep) hab ha hb

theorem bound_of_error {E M W : ℝ} {n : ℕ} (h : ∃ c, a ≤ c ∧ c ≤ b ∧ E = iteratedDeriv N f c / n.factorial * W)
    (hM : ∀ c, a ≤ c → c ≤ b → |iteratedDeriv N f c| ≤ M) : |E| ≤ M / n.factorial * |W| := by
  obtain ⟨c, h1, h2, h3⟩ := h
  rw [h3, abs_mul, abs_div, Nat.abs_cast]
  have : (0 : ℝ) < n.factorial := by exact_mod_cast n.factorial_pos
  gcongr
  exact hM c h1 h2

/-- **C72** (error bound).  At every point of the interval, whether the search takes it for a vertex or not, the error is at most
`M / N! · ∏ |X - Zⱼ| + L · tol`, where `M` bounds the `N`-th and `L` the first derivative of `f`. -/
theorem C72_interp_bound (htol : 0 < tol) (hN : N < 2 ^ 64) (w0 : ℕ → ℝ)
    (hsep : ∀ j < N, ∀ k < N, j ≠ k → 2 * tol ≤ |Z j - Z k|) (hf : ContDiff ℝ N f) (hd : Differentiable ℝ f)
    (hab : ∀ j < N, a ≤ Z j ∧ Z j ≤ b) {M L : ℝ} (hM : ∀ c, a ≤ c → c ≤ b → |iteratedDeriv N f c| ≤ M)
    (hL : ∀ c, a ≤ c → c ≤ b → |deriv f c| ≤ L) {X : ℝ} (ha : a ≤ X) (hb : X ≤ b) :
    |f X - evalInterp N (findCoincidentVertex tol N Z X).toNat Z (computeBarycentricWeights N Z w0) X (fun j => f (Z j))| ≤
      M / N.factorial * ∏ j ∈ range N, |X - Z j| + L * tol := by
  have hM0 : 0 ≤ M := (abs_nonneg _).trans (hM X ha hb)
  have hL0 : 0 ≤ L := (abs_nonneg _).trans (hL X ha hb)
  by_cases hnear : ∃ j < N, |Z j - X| < tol
  · obtain ⟨j, hj, hjX⟩ := hnear
    rw [find_of_near hN hsep hj hjX, evalInterp, if_pos hj]
    have h1 : |f X - f (Z j)| ≤ L * |X - Z j| := by
      have := Convex.norm_image_sub_le_of_norm_deriv_le (f := f) (s := Set.Icc a b) (C := L) (x := Z j) (y := X)
        (fun x _ => hd x) (fun x hx => hL x hx.1 hx.2) (convex_Icc a b) ⟨(hab j hj).1, (hab j hj).2⟩ ⟨ha, hb⟩
      simpa [Real.norm_eq_abs] using this
    have h2 : |X - Z j| < tol := by rw [abs_sub_comm]; exact hjX
    have h3 : 0 ≤ M / N.factorial * ∏ j ∈ range N, |X - Z j| :=
      mul_nonneg (by positivity) (prod_nonneg fun _ _ => abs_nonneg _)
    nlinarith
  · have hX : ∀ j < N, X = Z j ∨ tol ≤ |Z j - X| := fun j hj => Or.inr (not_lt.1 fun h => hnear ⟨j, hj, h⟩)
    have := bound_of_error (C72_interp_error htol hN w0 hsep hf hab ha hb hX) hM
    rw [abs_prod] at this
    have : 0 ≤ L * tol := by positivity
    linarith

/-- **C72** (derivative at a vertex).  `eval_der_interp` of order one at vertex `i` differs from `f'(Zᵢ)` by
`f⁽ᴺ⁾(c) / N! · ∏_{j ≠ i} (Zᵢ - Zⱼ)`. -/
theorem C72_der_error (htol : 0 < tol) (hN : N < 2 ^ 64) (w0 : ℕ → ℝ)
    (hsep : ∀ j < N, ∀ k < N, j ≠ k → 2 * tol ≤ |Z j - Z k|) (hf : ContDiff ℝ N f) (hab : ∀ j < N, a ≤ Z j ∧ Z j ≤ b) {i : ℕ} (hi : i < N) :
    ∃ c, a ≤ c ∧ c ≤ b ∧
      deriv f (Z i) - evalDerInterp N 1 (findCoincidentVertex tol N Z (Z i)).toNat Z (computeBarycentricWeights N Z w0) (Z i)
          (fun j => f (Z j)) =
        iteratedDeriv N f c / N.factorial * ∏ j ∈ (range N).erase i, (Z i - Z j) := by
  have hX : ∀ j < N, Z i = Z j ∨ tol ≤ |Z j - Z i| := by
    intro j hj
    by_cases h : j = i
    · left; rw [h]
    · right
      have := hsep j hj i hi h
      linarith
  rw [C08_der_interp_partial tol htol N hN Z w0 _ hsep (Z i) hX 1 (Or.inl rfl)]
  exact interpolate_deriv_error hf (injOn_of_sep htol hsep) hab hi

/-! ### Three variables -/

/-- `∑ |ℓᵢ(x)|`: the factor by which interpolation can magnify its data at `x`. -/
noncomputable def lebesgue (N : ℕ) (Z : ℕ → ℝ) (x : ℝ) : ℝ := ∑ i ∈ range N, |ell N Z i x|

theorem line_error (hs : Separated tol N Z) (hf : ContDiff ℝ N f) (hab : ∀ j < N, a ≤ Z j ∧ Z j ≤ b)
    {M : ℝ} (hM : ∀ c, a ≤ c → c ≤ b → |iteratedDeriv N f c| ≤ M) {x : ℝ} (ha : a ≤ x) (hb : x ≤ b) :
    |f x - ∑ i ∈ range N, f (Z i) * ell N Z i x| ≤ M / N.factorial * ∏ j ∈ range N, |x - Z j| := by
  have h := bound_of_error (interpolate_error hf (injOn_of_sep hs.tol_pos hs.sep) hab ha hb) hM
  rw [abs_prod] at h
  rw [Lagrange.interpolate_apply, eval_finsetSum] at h
  simp only [eval_mul, eval_C] at h
  exact h

theorem sum_le_lebesgue (g : ℕ → ℝ) {E : ℝ} (hg : ∀ i < N, |g i| ≤ E) (x : ℝ) :
    |∑ i ∈ range N, g i * ell N Z i x| ≤ lebesgue N Z x * E := by
  unfold lebesgue
  rw [sum_mul]
  refine (abs_sum_le_sum_abs _ _).trans (sum_le_sum fun i hi => ?_)
  rw [abs_mul, mul_comm]
  exact mul_le_mul_of_nonneg_left (hg i (mem_range.1 hi)) (abs_nonneg _)

/-- **C72** (hexahedral elements).  `LagrangeElement::eval_approx` of the vertex values of `f`, a function of three variables that is `N`
times continuously differentiable in each of them with derivatives bounded by `M`: the error at `X` is at most
`E₀ + Λ₀ E₁ + Λ₀ Λ₁ E₂` with `E_d = M / N! · ∏ |X_d - Zⱼ|` and `Λ_d = ∑ |ℓᵢ(X_d)|`. -/
theorem C72_element (hs : Separated tol N Z) (F : ℝ → ℝ → ℝ → ℝ) (hab : ∀ j < N, a ≤ Z j ∧ Z j ≤ b) {M : ℝ}
    (h0 : ∀ y z, ContDiff ℝ N fun x => F x y z) (h1 : ∀ x z, ContDiff ℝ N fun y => F x y z) (h2 : ∀ x y, ContDiff ℝ N fun z => F x y z)
    (m0 : ∀ x y z, a ≤ x → x ≤ b → |iteratedDeriv N (fun x => F x y z) x| ≤ M)
    (m1 : ∀ x y z, a ≤ y → y ≤ b → |iteratedDeriv N (fun y => F x y z) y| ≤ M)
    (m2 : ∀ x y z, a ≤ z → z ≤ b → |iteratedDeriv N (fun z => F x y z) z| ≤ M)
    {X : ℕ → ℝ} (hX : ∀ d < 3, Resolved tol N Z (X d)) (ha : ∀ d < 3, a ≤ X d) (hb : ∀ d < 3, X d ≤ b) (C c : ℕ → ℝ)
    (hc : ∀ i < N, ∀ j < N, ∀ k < N, c (i + j * N + k * N * N) = F (Z i) (Z j) (Z k)) :
    |F (X 0) (X 1) (X 2) - evalApprox tol N Z C c X| ≤
      M / N.factorial * ∏ j ∈ range N, |X 0 - Z j| +
        lebesgue N Z (X 0) * (M / N.factorial * ∏ j ∈ range N, |X 1 - Z j|) +
        lebesgue N Z (X 0) * (lebesgue N Z (X 1) * (M / N.factorial * ∏ j ∈ range N, |X 2 - Z j|)) := by
  have e : evalApprox tol N Z C c X =
      ∑ i ∈ range N, (∑ j ∈ range N, (∑ k ∈ range N, F (Z i) (Z j) (Z k) * ell N Z k (X 2)) * ell N Z j (X 1)) * ell N Z i (X 0) := by
    have hr : ∀ I ∈ range (N * N * N), c I * (evalBasis tol N Z I X).getD 0 =
        c I * (ell N Z (I % N) (X 0) * ell N Z (I / N % N) (X 1) * ell N Z (I / N / N) (X 2)) := by
      intro I hI
      rw [C09_basis hs hX (mem_range.1 hI)]; rfl
    rw [C10_approx hs hX, sum_congr rfl hr, sum_range_cube, sum_comm]
    simp only [sum_mul]
    rw [sum_congr rfl fun j _ => sum_comm, sum_comm]
    refine sum_congr rfl fun i hi => sum_congr rfl fun j hj => sum_congr rfl fun k hk => ?_
    have hi := mem_range.1 hi
    have hj := mem_range.1 hj
    have hk := mem_range.1 hk
    rw [hc i hi j hj k hk, digit0 hi, digit1 hi hj, digit2 hi hj]
    ring
  have s0 := line_error hs (h0 (X 1) (X 2)) hab (m0 · (X 1) (X 2)) (ha 0 (by omega)) (hb 0 (by omega))
  have s1 : ∀ i < N, |F (Z i) (X 1) (X 2) - ∑ j ∈ range N, F (Z i) (Z j) (X 2) * ell N Z j (X 1)| ≤ _ := fun i _ =>
    line_error hs (h1 (Z i) (X 2)) hab (m1 (Z i) · (X 2)) (ha 1 (by omega)) (hb 1 (by omega))
  have s2 : ∀ i < N, ∀ j < N, |F (Z i) (Z j) (X 2) - ∑ k ∈ range N, F (Z i) (Z j) (Z k) * ell N Z k (X 2)| ≤ _ := fun i _ j _ =>
    line_error hs (h2 (Z i) (Z j)) hab (m2 (Z i) (Z j)) (ha 2 (by omega)) (hb 2 (by omega))
  have t1 := sum_le_lebesgue (N := N) (Z := Z) _ s1 (X 0)
  have t2 := sum_le_lebesgue (N := N) (Z := Z) _ (fun i hi => sum_le_lebesgue (N := N) (Z := Z) _ (s2 i hi) (X 1)) (X 0)
  rw [e]
  set A := ∑ i ∈ range N, F (Z i) (X 1) (X 2) * ell N Z i (X 0) with hA
  set B := ∑ i ∈ range N, (∑ j ∈ range N, F (Z i) (Z j) (X 2) * ell N Z j (X 1)) * ell N Z i (X 0) with hB
  set D := ∑ i ∈ range N, (∑ j ∈ range N, (∑ k ∈ range N, F (Z i) (Z j) (Z k) * ell N Z k (X 2)) * ell N Z j (X 1)) * ell N Z i (X 0)
    with hD
  have u1 : ∑ i ∈ range N, (F (Z i) (X 1) (X 2) - ∑ j ∈ range N, F (Z i) (Z j) (X 2) * ell N Z j (X 1)) * ell N Z i (X 0) = A - B := by
    simp only [sub_mul, sum_sub_distrib, hA, hB]
  have u2 : ∑ i ∈ range N, (∑ j ∈ range N, (F (Z i) (Z j) (X 2) - ∑ k ∈ range N, F (Z i) (Z j) (Z k) * ell N Z k (X 2)) * ell N Z j (X 1)) *
      ell N Z i (X 0) = B - D := by
    simp only [sub_mul, sum_sub_distrib, hB, hD]
  rw [u1] at t1
  rw [u2] at t2
  have : F (X 0) (X 1) (X 2) - D = (F (X 0) (X 1) (X 2) - A) + (A - B) + (B - D) := by ring
  rw [this]
  refine (abs_add_le _ _).trans (add_le_add ((abs_add_le _ _).trans (add_le_add s0 t1)) t2)

/-! ### Concrete instances -/

/-- Non-vacuity: linear interpolation of the sine between 0 and 1 is within 1/8 (+ tolerance) everywhere. -/
example (w0 : ℕ → ℝ) {X : ℝ} (h0 : 0 ≤ X) (h1 : X ≤ 1) :
    |Real.sin X - evalInterp 2 (findCoincidentVertex (1 / 1000) 2 (fun j => (j : ℝ)) X).toNat (fun j => (j : ℝ))
      (computeBarycentricWeights 2 (fun j => (j : ℝ)) w0) X (fun j => Real.sin j)| ≤ 1 / 8 + 1 / 1000 := by
  have hd2 : iteratedDeriv 2 Real.sin = fun x => -Real.sin x := by
    rw [iteratedDeriv_succ', iteratedDeriv_one, Real.deriv_sin, Real.deriv_cos']
  have h := C72_interp_bound (tol := 1 / 1000) (N := 2) (Z := fun j => (j : ℝ)) (f := Real.sin) (a := 0) (b := 1) (M := 1) (L := 1)
    (by norm_num) (by norm_num) w0 (by
      intro j hj k hk hjk
      interval_cases j <;> interval_cases k <;> first | exact absurd rfl hjk | norm_num)
    Real.contDiff_sin Real.differentiable_sin (by intro j hj; interval_cases j <;> norm_num)
    (by intro c _ _; rw [hd2]; simpa using Real.abs_sin_le_one c)
    (by intro c _ _; rw [Real.deriv_sin]; exact Real.abs_cos_le_one c) h0 h1
  refine h.trans ?_
  rw [prod_range_succ, prod_range_succ, prod_range_zero]
  simp only [Nat.cast_zero, Nat.cast_one, sub_zero, one_mul]
  rw [abs_of_nonneg h0, abs_of_nonpos (by linarith)]
  have : (Nat.factorial 2 : ℝ) = 2 := by norm_num [Nat.factorial]
  rw [this]
  nlinarith [sq_nonneg (X - 1 / 2)]

/-- Non-vacuity of `C72_der_error`: the difference quotient of the sine on `[0, 1]`, at 0. -/
example (w0 : ℕ → ℝ) : ∃ c, 0 ≤ c ∧ c ≤ 1 ∧
    deriv Real.sin ((fun j : ℕ => (j : ℝ)) 0) - evalDerInterp 2 1 (findCoincidentVertex (1 / 1000) 2 (fun j => (j : ℝ)) ((fun j : ℕ => (j : ℝ)) 0)).toNat
      (fun j => (j : ℝ)) (computeBarycentricWeights 2 (fun j => (j : ℝ)) w0) ((fun j : ℕ => (j : ℝ)) 0) (fun j => Real.sin ((fun j : ℕ => (j : ℝ)) j)) =
      iteratedDeriv 2 Real.sin c / (Nat.factorial 2) * ∏ j ∈ (range 2).erase 0, ((fun j : ℕ => (j : ℝ)) 0 - (fun j : ℕ => (j : ℝ)) j) :=
  C72_der_error (by norm_num) (by norm_num) w0 (by
      intro j hj k hk hjk
      interval_cases j <;> interval_cases k <;> first | exact absurd rfl hjk | norm_num)
    Real.contDiff_sin (by intro j hj; interval_cases j <;> norm_num) (by norm_num)

/-- Non-vacuity of `C72_element`: the trilinear element, `sin x + sin y + sin z`, at the centre. -/
example (C c : ℕ → ℝ)
    (hc : ∀ i < 2, ∀ j < 2, ∀ k < 2, c (i + j * 2 + k * 2 * 2) = Real.sin (i : ℝ) + Real.sin (j : ℝ) + Real.sin (k : ℝ)) :
    |Real.sin (1 / 2) + Real.sin (1 / 2) + Real.sin (1 / 2) - evalApprox (1 / 1000) 2 (fun j => (j : ℝ)) C c (fun _ => 1 / 2)| ≤ 
      1 / Nat.factorial 2 * ∏ j ∈ range 2, |(1 / 2 : ℝ) - (j : ℝ)| +
        lebesgue 2 (fun j => (j : ℝ)) (1 / 2) * (1 / Nat.factorial 2 * ∏ j ∈ range 2, |(1 / 2 : ℝ) - (j : ℝ)|) +
        lebesgue 2 (fun j => (j : ℝ)) (1 / 2) *
          (lebesgue 2 (fun j => (j : ℝ)) (1 / 2) * (1 / Nat.factorial 2 * ∏ j ∈ range 2, |(1 / 2 : ℝ) - (j : ℝ)|)) := by
  have hd2 : iteratedDeriv 2 Real.sin = fun x => -Real.sin x := by
    rw [iteratedDeriv_succ', iteratedDeriv_one, Real.deriv_sin, Real.deriv_cos']
  have hk : ∀ (K : ℝ) (x : ℝ), |iteratedDeriv 2 (fun x => K + Real.sin x) x| ≤ 1 := by
    intro K x
    rw [show (fun x => K + Real.sin x) = (fun x => (fun _ => K) x + Real.sin x) from rfl,
      iteratedDeriv_fun_add contDiffAt_const Real.contDiff_sin.contDiffAt, hd2]
    have : iteratedDeriv 2 (fun _ : ℝ => K) x = 0 := by
      rw [iteratedDeriv_succ', iteratedDeriv_one]; simp
    rw [this]
    simpa using Real.abs_sin_le_one x
  have hcd : ∀ K : ℝ, ContDiff ℝ (2 : ℕ) fun x => K + Real.sin x := fun K => contDiff_const.add Real.contDiff_sin
  have hs : Separated (1 / 1000 : ℝ) 2 (fun j => (j : ℝ)) := by
    refine ⟨by norm_num, by norm_num, by norm_num, ?_⟩
    intro j hj k hk hjk
    interval_cases j <;> interval_cases k <;> first | exact absurd rfl hjk | norm_num
  refine C72_element (tol := 1 / 1000) (N := 2) (Z := fun j => (j : ℝ)) (a := 0) (b := 1) (M := 1) hs
    (fun x y z => Real.sin x + Real.sin y + Real.sin z) (by intro j hj; interval_cases j <;> norm_num) ?_ ?_ ?_ ?_ ?_ ?_
    (X := fun _ => 1 / 2) ?_ ?_ ?_ C c hc
  · intro y z
    have := hcd (Real.sin y + Real.sin z)
    rwa [show (fun x => Real.sin y + Real.sin z + Real.sin x) = fun x => Real.sin x + Real.sin y + Real.sin z by funext x; ring] at this
  · intro x z
    have := hcd (Real.sin x + Real.sin z)
    rwa [show (fun y => Real.sin x + Real.sin z + Real.sin y) = fun y => Real.sin x + Real.sin y + Real.sin z by funext y; ring] at this
  · intro x y
    exact hcd (Real.sin x + Real.sin y)
  · intro x y z _ _
    have := hk (Real.sin y + Real.sin z) x
    rwa [show (fun x => Real.sin y + Real.sin z + Real.sin x) = fun x => Real.sin x + Real.sin y + Real.sin z by funext x; ring] at this
  · intro x y z _ _
    have := hk (Real.sin x + Real.sin z) y
    rwa [show (fun y => Real.sin x + Real.sin z + Real.sin y) = fun y => Real.sin x + Real.sin y + Real.sin z by funext y; ring] at this
  · intro x y z _ _
    exact hk (Real.sin x + Real.sin y) z
  · intro d _ j hj
    right
    interval_cases j <;> norm_num [abs_of_nonneg, abs_of_nonpos]
  · intro d _; norm_num
  · intro d _; norm_num

end

end Verif.Lagrange
