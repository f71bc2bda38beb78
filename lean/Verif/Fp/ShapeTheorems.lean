import Verif.Fp.ShapeLemmas

/-!
# C104: shape functions, their partials and physical positions in floating-point arithmetic
-/

namespace Verif.Fp.Elem
open Expr Finset
open Verif.Shape (Kind)

/-- `basis(b, x)` in rounded arithmetic. -/
noncomputable def basisR (R : Rounding) : Kind → (ℕ → ℝ) → (ℕ → ℝ) → ℕ → ℝ
  | .quad4 => Quad4.basis R | .quad8 => Quad8.basis R | .quad12 => Quad12.basis R
  | .hex8 => Hex8.basis R | .hex20 => Hex20.basis R | .hex32 => Hex32.basis R
  | .tess16 => Tess16.basis R

/-- The partial derivative routines in rounded arithmetic, numbered as in `Kind.partials`. -/
noncomputable def partialsR (R : Rounding) (k : Kind) (d : ℕ) (x b : ℕ → ℝ) : ℕ → ℝ :=
  match k, d with
  | .quad4, 0 => Quad4.partialXi R x b | .quad4, 1 => Quad4.partialEta R x b
  | .quad8, 0 => Quad8.partialXi R x b | .quad8, 1 => Quad8.partialEta R x b
  | .quad12, 0 => Quad12.partialXi R x b | .quad12, 1 => Quad12.partialEta R x b
  | .hex8, 0 => Hex8.partialXi R x b | .hex8, 1 => Hex8.partialEta R x b | .hex8, 2 => Hex8.partialMu R x b
  | .hex20, 0 => Hex20.partialXi R x b | .hex20, 1 => Hex20.partialEta R x b
  | .hex20, 2 => Hex20.partialMu R x b
  | .hex32, 0 => Hex32.partialXi R x b | .hex32, 1 => Hex32.partialEta R x b
  | .hex32, 2 => Hex32.partialMu R x b
  | .tess16, 0 => Tess16.partialXi R x b | .tess16, 1 => Tess16.partialEta R x b
  | .tess16, 2 => Tess16.partialMu R x b | .tess16, 3 => Tess16.partialTau R x b
  | _, _ => b

/-- `physical_position(x_point, xi_point, vertices)` in rounded arithmetic. -/
noncomputable def positionR (R : Rounding) :
    Kind → (ℕ → ℝ) → (ℕ → ℕ → ℝ) → (ℕ → ℝ) → (ℕ → ℝ) → Option (ℕ → ℝ)
  | .quad4 => Quad4.physicalPosition R | .quad8 => Quad8.physicalPosition R
  | .quad12 => Quad12.physicalPosition R | .hex8 => Hex8.physicalPosition R
  | .hex20 => Hex20.physicalPosition R | .hex32 => Hex32.physicalPosition R
  | .tess16 => Tess16.physicalPosition R

/-- The shape functions inside `physical_position`. -/
noncomputable def posBasisR (R : Rounding) : Kind → (ℕ → ℝ) → (ℕ → ℝ) → ℕ → ℝ
  | .quad4 => Quad4.posBasis R | .quad8 => Quad8.posBasis R | .quad12 => Quad12.posBasis R
  | .hex8 => Hex8.posBasis R | .hex20 => Hex20.posBasis R | .hex32 => Hex32.posBasis R
  | .tess16 => Tess16.posBasis R

/-- Sum of the moduli of the terms of a shape function on the reference element, at most. -/
def basisMag : Kind → ℚ
  | .quad4 | .hex8 | .tess16 => 1
  | .quad8 => 3
  | .hex20 => 5
  | .quad12 | .hex32 => 45 / 4

/-- The same for the partials. -/
def partialMag : Kind → ℚ
  | .quad4 | .hex8 | .tess16 => 1 / 2
  | .quad8 => 2
  | .hex20 => 5 / 2
  | .quad12 | .hex32 => 171 / 8

/-! ### The trees of a class -/

/-- Trees of the shape functions. -/
def basisE : Kind → ℕ → Expr
  | .quad4 => Quad4.basisE | .quad8 => Quad8.basisE | .quad12 => Quad12.basisE
  | .hex8 => Hex8.basisE | .hex20 => Hex20.basisE | .hex32 => Hex32.basisE | .tess16 => Tess16.basisE
/-- Trees of the shape functions in `physical_position`. -/
def posBasisE : Kind → ℕ → Expr
  | .quad4 => Quad4.posBasisE | .quad8 => Quad8.posBasisE | .quad12 => Quad12.posBasisE
  | .hex8 => Hex8.posBasisE | .hex20 => Hex20.posBasisE | .hex32 => Hex32.posBasisE | .tess16 => Tess16.posBasisE
/-- Trees of the partials. -/
def partialsE (k : Kind) (d : ℕ) : ℕ → Expr :=
  match k, d with
  | .quad4, 0 => Quad4.partialXiE | .quad4, _ => Quad4.partialEtaE
  | .quad8, 0 => Quad8.partialXiE | .quad8, _ => Quad8.partialEtaE
  | .quad12, 0 => Quad12.partialXiE | .quad12, _ => Quad12.partialEtaE
  | .hex8, 0 => Hex8.partialXiE | .hex8, 1 => Hex8.partialEtaE | .hex8, _ => Hex8.partialMuE
  | .hex20, 0 => Hex20.partialXiE | .hex20, 1 => Hex20.partialEtaE | .hex20, _ => Hex20.partialMuE
  | .hex32, 0 => Hex32.partialXiE | .hex32, 1 => Hex32.partialEtaE | .hex32, _ => Hex32.partialMuE
  | .tess16, 0 => Tess16.partialXiE | .tess16, 1 => Tess16.partialEtaE | .tess16, 2 => Tess16.partialMuE
  | .tess16, _ => Tess16.partialTauE

theorem basisR_expr (R : Rounding) (k : Kind) (x b : ℕ → ℝ) (v : ℕ) (hv : v < k.numVerts) :
    basisR R k x b v = (basisE k v).evalFl R (vars x fun d => R.fl (k.refLoc v d)) := by
  cases k
  · exact Quad4.basis_expr R x b v hv
  · exact Quad8.basis_expr R x b v hv
  · exact Quad12.basis_expr R x b v hv
  · exact Hex8.basis_expr R x b v hv
  · exact Hex20.basis_expr R x b v hv
  · exact Hex32.basis_expr R x b v hv
  · exact Tess16.basis_expr R x b v hv

theorem basis_eval (k : Kind) (x b : ℕ → ℝ) (v : ℕ) (hv : v < k.numVerts) :
    k.basis x b v = (basisE k v).eval (vars x fun d => k.refLoc v d) := by
  cases k
  · exact Quad4.basis_eval x b v hv
  · exact Quad8.basis_eval x b v hv
  · exact Quad12.basis_eval x b v hv
  · exact Hex8.basis_eval x b v hv
  · exact Hex20.basis_eval x b v hv
  · exact Hex32.basis_eval x b v hv
  · exact Tess16.basis_eval x b v hv

theorem posBasisR_expr (R : Rounding) (k : Kind) (x b : ℕ → ℝ) (v : ℕ) (hv : v < k.numVerts) :
    posBasisR R k x b v = (posBasisE k v).evalFl R (vars x fun d => R.fl (k.refLoc v d)) := by
  cases k
  · exact Quad4.posBasis_expr R x b v hv
  · exact Quad8.posBasis_expr R x b v hv
  · exact Quad12.posBasis_expr R x b v hv
  · exact Hex8.posBasis_expr R x b v hv
  · exact Hex20.posBasis_expr R x b v hv
  · exact Hex32.posBasis_expr R x b v hv
  · exact Tess16.posBasis_expr R x b v hv

theorem posBasis_eval (k : Kind) (x b : ℕ → ℝ) (v : ℕ) (hv : v < k.numVerts) :
    k.basis x b v = (posBasisE k v).eval (vars x fun d => k.refLoc v d) := by
  cases k
  · exact Quad4.posBasis_eval x v hv b
  · exact Quad8.posBasis_eval x v hv b
  · exact Quad12.posBasis_eval x v hv b
  · exact Hex8.posBasis_eval x v hv b
  · exact Hex20.posBasis_eval x v hv b
  · exact Hex32.posBasis_eval x v hv b
  · exact Tess16.posBasis_eval x v hv b

theorem partials_expr (R : Rounding) (k : Kind) (d : ℕ) (hd : d < k.dim) (x b : ℕ → ℝ) (v : ℕ) (hv : v < k.numVerts) :
    partialsR R k d x b v = (partialsE k d v).evalFl R (vars x fun d => R.fl (k.refLoc v d)) ∧
      k.partials d x b v = (partialsE k d v).eval (vars x fun d => k.refLoc v d) := by
  cases k
  · change d < 2 at hd; interval_cases d
    · exact ⟨Quad4.partialXi_expr R x b v hv, Quad4.partialXi_eval x b v hv⟩
    · exact ⟨Quad4.partialEta_expr R x b v hv, Quad4.partialEta_eval x b v hv⟩
  · change d < 2 at hd; interval_cases d
    · exact ⟨Quad8.partialXi_expr R x b v hv, Quad8.partialXi_eval x b v hv⟩
    · exact ⟨Quad8.partialEta_expr R x b v hv, Quad8.partialEta_eval x b v hv⟩
  · change d < 2 at hd; interval_cases d
    · exact ⟨Quad12.partialXi_expr R x b v hv, Quad12.partialXi_eval x b v hv⟩
    · exact ⟨Quad12.partialEta_expr R x b v hv, Quad12.partialEta_eval x b v hv⟩
  · change d < 3 at hd; interval_cases d
    · exact ⟨Hex8.partialXi_expr R x b v hv, Hex8.partialXi_eval x b v hv⟩
    · exact ⟨Hex8.partialEta_expr R x b v hv, Hex8.partialEta_eval x b v hv⟩
    · exact ⟨Hex8.partialMu_expr R x b v hv, Hex8.partialMu_eval x b v hv⟩
  · change d < 3 at hd; interval_cases d
    · exact ⟨Hex20.partialXi_expr R x b v hv, Hex20.partialXi_eval x b v hv⟩
    · exact ⟨Hex20.partialEta_expr R x b v hv, Hex20.partialEta_eval x b v hv⟩
    · exact ⟨Hex20.partialMu_expr R x b v hv, Hex20.partialMu_eval x b v hv⟩
  · change d < 3 at hd; interval_cases d
    · exact ⟨Hex32.partialXi_expr R x b v hv, Hex32.partialXi_eval x b v hv⟩
    · exact ⟨Hex32.partialEta_expr R x b v hv, Hex32.partialEta_eval x b v hv⟩
    · exact ⟨Hex32.partialMu_expr R x b v hv, Hex32.partialMu_eval x b v hv⟩
  · change d < 4 at hd; interval_cases d
    · exact ⟨Tess16.partialXi_expr R x b v hv, Tess16.partialXi_eval x b v hv⟩
    · exact ⟨Tess16.partialEta_expr R x b v hv, Tess16.partialEta_eval x b v hv⟩
    · exact ⟨Tess16.partialMu_expr R x b v hv, Tess16.partialMu_eval x b v hv⟩
    · exact ⟨Tess16.partialTau_expr R x b v hv, Tess16.partialTau_eval x b v hv⟩

/-- The reference vertices lie in the reference element. -/
theorem refLoc_le (k : Kind) (v d : ℕ) (hv : v < k.numVerts) (hd : d < k.dim) : |(k.refLoc v d : ℝ)| ≤ 1 := by
  have key : ∀ k : Kind, ∀ v < k.numVerts, ∀ d < k.dim, |(k.refLoc v d : ℚ)| ≤ 1 := by
    intro k; cases k <;> decide +kernel
  have e : (k.refLoc v d : ℝ) = ((k.refLoc v d : ℚ) : ℝ) := by
    cases k
    all_goals
      simp only [Kind.refLoc, Shape.Quad4.rv, Shape.Quad8.rv, Shape.Quad12.rv, Shape.Hex8.rv, Shape.Hex20.rv, Shape.Hex32.rv,
        Shape.Tess16.rv, Shape.tableAt, List.getD_eq_getElem?_getD]
      rw [← Rat.cast_zero, ← Option.getD_map (fun q : ℚ => (q : ℝ)), ← List.getElem?_map]
      simp
  rw [e]
  exact_mod_cast key k v hv d hd

theorem fits_basis (k : Kind) : ∀ v < k.numVerts, fits k.dim (basisMag k) (basisE k v) = true := by
  cases k <;> decide +kernel
theorem fits_posBasis (k : Kind) : ∀ v < k.numVerts, fits k.dim (basisMag k) (posBasisE k v) = true := by
  cases k <;> decide +kernel
theorem fits_partials (k : Kind) : ∀ d < k.dim, ∀ v < k.numVerts, fits k.dim (partialMag k) (partialsE k d v) = true := by
  cases k <;> decide +kernel

/-! ### Errors on the reference element -/

/-- **C104** (shape functions). At every point of the reference element each computed shape function of each class is within
`18u/(1 - 18u)` times a constant of the class (1 for the linear classes, 3, 5, 45/4 for the others) of the exact one. -/
theorem C104_basis (R : Rounding) (hu : 18 * R.u < 1) (k : Kind) (x b b' : ℕ → ℝ) (hx : ∀ d < k.dim, |x d| ≤ 1) (v : ℕ)
    (hv : v < k.numVerts) :
    |basisR R k x b v - k.basis x b' v| ≤ basisMag k * (18 * R.u / (1 - 18 * R.u)) := by
  have hu1 : R.u < 1 := by linarith [R.u_nonneg]
  rw [basisR_expr R k x b v hv, basis_eval k x b' v hv, mul_comm]
  refine (fits_err hu1 (fits_basis k v hv) hx (fun d hd => refLoc_le k v d hv hd)).trans ?_
  have hM : (0 : ℝ) ≤ basisMag k := by cases k <;> norm_num [basisMag]
  exact mul_le_mul_of_nonneg_right (by simpa using factor_le hu1 (k := 18) (by simpa using hu)) hM

/-- **C104** (partials). The same for the partial derivative routines (against their own exact values, see C24). -/
theorem C104_partials (R : Rounding) (hu : 18 * R.u < 1) (k : Kind) (d : ℕ) (hd : d < k.dim) (x b : ℕ → ℝ)
    (hx : ∀ d < k.dim, |x d| ≤ 1) (v : ℕ) (hv : v < k.numVerts) :
    |partialsR R k d x b v - k.partials d x b v| ≤ partialMag k * (18 * R.u / (1 - 18 * R.u)) := by
  have hu1 : R.u < 1 := by linarith [R.u_nonneg]
  obtain ⟨e1, e2⟩ := partials_expr R k d hd x b v hv
  rw [e1, e2, mul_comm]
  refine (fits_err hu1 (fits_partials k d hd v hv) hx (fun d hd => refLoc_le k v d hv hd)).trans ?_
  have hM : (0 : ℝ) ≤ partialMag k := by cases k <;> norm_num [partialMag]
  exact mul_le_mul_of_nonneg_right (by simpa using factor_le hu1 (k := 18) (by simpa using hu)) hM

/-- **C104** (partition of unity). The computed shape functions sum to one up to rounding. -/
theorem C104_partition (R : Rounding) (hu : 18 * R.u < 1) (k : Kind) (x b : ℕ → ℝ) (hx : ∀ d < k.dim, |x d| ≤ 1) :
    |∑ v ∈ range k.numVerts, basisR R k x b v - 1| ≤ k.numVerts * (basisMag k * (18 * R.u / (1 - 18 * R.u))) := by
  have e : ∑ v ∈ range k.numVerts, basisR R k x b v - 1 = ∑ v ∈ range k.numVerts, (basisR R k x b v - k.basis x b v) := by
    rw [sum_sub_distrib, Shape.C23_partition]
  rw [e]
  refine (abs_sum_le_sum_abs _ _).trans ?_
  refine (sum_le_card_nsmul _ _ _ fun v hv => C104_basis R hu k x b b hx v (mem_range.1 hv)).trans ?_
  rw [card_range, nsmul_eq_mul]

/-- In double precision: the twelfth shape function of the 32-node hexahedron is off by less than `3 * 10^-14`. -/
example : |basisR Rounding.binary64 .hex32 (fun _ => 1 / 2) 0 12 - Kind.hex32.basis (fun _ => 1 / 2) 0 12| < 3 / 10 ^ 14 := by
  refine (C104_basis Rounding.binary64 (by rw [Rounding.binary64_u]; norm_num) .hex32 _ 0 0
    (fun d _ => by norm_num [abs_le]) 12 (by decide)).trans_lt ?_
  rw [Rounding.binary64_u]; norm_num [basisMag]

/-! ### Positions -/

theorem positionR_loop (R : Rounding) (k : Kind) (hk : k ≠ .hex32) (x : ℕ → ℝ) (V : ℕ → ℕ → ℝ) (b x0 : ℕ → ℝ) :
    ∃ p, positionR R k x V b x0 = some p ∧
      ∀ d < k.dim, p d = loop k.numVerts (fun v s => R.fl (s + R.fl (V v d * posBasisR R k x b v))) 0 := by
  cases k
  · exact accumulateR_spec R 2 4 V (Quad4.posBasis R x b) x0
  · exact accumulateR_spec R 2 8 V (Quad8.posBasis R x b) x0
  · exact accumulateR_spec R 2 12 V (Quad12.posBasis R x b) x0
  · exact accumulateR_spec R 3 8 V (Hex8.posBasis R x b) x0
  · exact accumulateDimOuterR_spec R 3 20 V (Hex20.posBasis R x b) x0
  · exact absurd rfl hk
  · exact accumulateR_spec R 4 16 V (Tess16.posBasis R x b) x0

/-- **C104** (position; every class but Hex32, whose routine reads past the vertices, C27). Coordinate `d` of the computed physical
position differs from the exact isoparametric map by at most `(numVerts + 19) u / (1 - (numVerts + 19) u)` times the constant of
the class times the sum of the moduli of the vertex coordinates. -/
theorem C104_position (R : Rounding) (k : Kind) (hk : k ≠ .hex32) (hu : (k.numVerts + 19 : ℕ) * R.u < 1) (x : ℕ → ℝ)
    (hx : ∀ d < k.dim, |x d| ≤ 1) (V : ℕ → ℕ → ℝ) (b b' x0 : ℕ → ℝ) :
    ∃ p, positionR R k x V b x0 = some p ∧ ∀ d < k.dim,
      |p d - ∑ v ∈ range k.numVerts, V v d * k.basis x b' v| ≤
        (k.numVerts + 19 : ℕ) * R.u / (1 - (k.numVerts + 19 : ℕ) * R.u) * basisMag k * ∑ v ∈ range k.numVerts, |V v d| := by
  have hu1 : R.u < 1 := by
    have h19 : (1 : ℝ) ≤ ((k.numVerts + 19 : ℕ) : ℝ) := by exact_mod_cast (by omega : 1 ≤ k.numVerts + 19)
    nlinarith [R.u_nonneg]
  obtain ⟨p, hp, hd⟩ := positionR_loop R k hk x V b x0
  refine ⟨p, hp, fun d h => ?_⟩
  obtain ⟨t, ht, e⟩ := Rel.loop_sum hu1 k.numVerts (fun v => R.fl (V v d * posBasisR R k x b v))
    (fun v => V v d * posBasisR R k x b v) (fun v _ => Rel.fl hu1 _)
  rw [hd d h, e, ← sum_sub_distrib, mul_sum]
  refine (abs_sum_le_sum_abs _ _).trans (sum_le_sum fun v hv => ?_)
  have hv := mem_range.1 hv
  have hM : (0 : ℝ) ≤ basisMag k := by cases k <;> norm_num [basisMag]
  have hr : ∀ d < k.dim, |(k.refLoc v d : ℝ)| ≤ 1 := fun d hd => refLoc_le k v d hv hd
  have h1 := fits_err hu1 (fits_posBasis k v hv) hx hr
  have h2 := abs_eval_bound (fits_posBasis k v hv) hx hr
  rw [← posBasisR_expr R k x b v hv, ← posBasis_eval k x b' v hv] at h1
  rw [← posBasis_eval k x b' v hv] at h2
  obtain ⟨t1, t2⟩ := ht v hv
  set n := k.numVerts
  set q1 := ((1 - R.u) ^ 18)⁻¹
  set q2 := ((1 - R.u) ^ (1 + n))⁻¹
  have hq1 : 1 ≤ q1 := (one_le_inv₀ (q_pos hu1 _)).2 (q_le_one hu1 _)
  have hq2 : 1 ≤ q2 := (one_le_inv₀ (q_pos hu1 _)).2 (q_le_one hu1 _)
  have ht1 : |t v - 1| ≤ q2 - 1 := by
    rw [abs_le]
    refine ⟨?_, by linarith⟩
    have hqp := q_pos hu1 (1 + n)
    have : (1 - R.u) ^ (1 + n) * q2 = 1 := mul_inv_cancel₀ hqp.ne'
    nlinarith
  have hB : |posBasisR R k x b v| ≤ q1 * basisMag k := by
    have := abs_sub_abs_le_abs_sub (posBasisR R k x b v) (k.basis x b' v)
    nlinarith
  have hq : q1 * q2 - 1 ≤ (n + 19 : ℕ) * R.u / (1 - (n + 19 : ℕ) * R.u) := by
    have := factor_le hu1 (k := n + 19) hu
    have e : ((1 - R.u) ^ (n + 19))⁻¹ = q1 * q2 := by
      rw [← mul_inv, ← pow_add]; congr 2; omega
    rwa [e] at this
  rw [show V v d * posBasisR R k x b v * t v - V v d * k.basis x b' v =
    V v d * (posBasisR R k x b v * (t v - 1) + (posBasisR R k x b v - k.basis x b' v)) by ring, abs_mul]
  have h3 : |posBasisR R k x b v * (t v - 1) + (posBasisR R k x b v - k.basis x b' v)| ≤ (q1 * q2 - 1) * basisMag k := by
    refine (abs_add_le _ _).trans ?_
    rw [abs_mul]
    have := mul_le_mul hB ht1 (abs_nonneg _) (by positivity)
    nlinarith
  rw [mul_comm]
  refine mul_le_mul_of_nonneg_right (h3.trans (mul_le_mul_of_nonneg_right hq hM)) (abs_nonneg _)

example : ∃ p, positionR Rounding.binary64 .hex20 (fun _ => 1 / 3) (fun _ _ => 1) 0 0 = some p ∧ |p 2 - 1| < 1 / 10 ^ 11 := by
  obtain ⟨p, hp, h⟩ := C104_position Rounding.binary64 .hex20 (by decide)
    (by rw [Rounding.binary64_u]; norm_num [Kind.numVerts]) (fun _ => 1 / 3) (fun _ _ => by norm_num [abs_le]) (fun _ _ => 1) 0 0 0
  refine ⟨p, hp, ?_⟩
  have h2 := h 2 (by decide)
  simp only [one_mul] at h2
  rw [Shape.C23_partition] at h2
  refine h2.trans_lt ?_
  rw [Rounding.binary64_u]; norm_num [Kind.numVerts, basisMag]

/-! ### Exactness at the vertices -/

/-- The reference vertices of the exact tables, as rationals. -/
theorem refLoc_cast (k : Kind) (v d : ℕ) : (k.refLoc v d : ℝ) = ((k.refLoc v d : ℚ) : ℝ) := by
  cases k
  all_goals
    simp only [Kind.refLoc, Shape.Quad4.rv, Shape.Quad8.rv, Shape.Quad12.rv, Shape.Hex8.rv, Shape.Hex20.rv, Shape.Hex32.rv,
      Shape.Tess16.rv, Shape.tableAt, List.getD_eq_getElem?_getD]
    rw [← Rat.cast_zero, ← Option.getD_map (fun q : ℚ => (q : ℝ)), ← List.getElem?_map]
    simp

/-- All results at the vertices are small multiples of 1/64. -/
def vertexChk (k : Kind) (E : ℕ → Expr) (v w : ℕ) : Bool :=
  chk (varsQ (k.refLoc w) (k.refLoc v)) (roundV (E v)) &&
    decide (evalQ (varsQ (k.refLoc w) (k.refLoc v)) (roundV (E v)) = if v = w then 1 else 0)

theorem vertex_of_chk {R : Rounding} (hb : 12 ≤ R.bits) {k : Kind} {E : ℕ → Expr} {v w : ℕ} (h : vertexChk k E v w = true) :
    (E v).evalFl R (vars (k.refLoc w) fun d => R.fl (k.refLoc v d)) = if v = w then 1 else 0 := by
  simp only [vertexChk, Bool.and_eq_true, decide_eq_true_eq] at h
  have e : (fun i => (k.refLoc w i : ℝ)) = fun i => ((k.refLoc w i : ℚ) : ℝ) := funext fun i => refLoc_cast k w i
  have e' : (fun i => (k.refLoc v i : ℝ)) = fun i => ((k.refLoc v i : ℚ) : ℝ) := funext fun i => refLoc_cast k v i
  rw [← evalFl_roundV R (k.refLoc w) (fun i => k.refLoc v i), e', show (k.refLoc w : ℕ → ℝ) = fun i => (k.refLoc w i : ℝ) from rfl,
    e, vars_cast, evalFl_chk hb _ _ h.1, h.2]
  split <;> simp

/-- The classes without thirds in their tables. -/
def dyadic : Kind → Bool
  | .quad12 | .hex32 => false
  | _ => true

theorem vertex_chk (k : Kind) (hk : dyadic k = true) :
    ∀ v < k.numVerts, ∀ w < k.numVerts, vertexChk k (basisE k) v w = true ∧ vertexChk k (posBasisE k) v w = true := by
  cases k
  · decide +kernel
  · decide +kernel
  · cases hk
  · decide +kernel
  · decide +kernel
  · cases hk
  · decide +kernel

/-- **C104** (vertices). For the classes whose reference vertices are representable (all but Quad12 and Hex32) the computed shape
functions are exactly 1 at their own vertex and exactly 0 at the others. -/
theorem C104_nodal (R : Rounding) (hb : 12 ≤ R.bits) (k : Kind) (hk : k ≠ .quad12 ∧ k ≠ .hex32) (b : ℕ → ℝ) (v w : ℕ)
    (hv : v < k.numVerts) (hw : w < k.numVerts) :
    basisR R k (k.refLoc w) b v = if v = w then 1 else 0 := by
  have hk' : dyadic k = true := by cases k <;> simp_all [dyadic]
  rw [basisR_expr R k _ b v hv]
  exact vertex_of_chk hb (vertex_chk k hk' v hv w hw).1

/-- **C104** (vertices). And `physical_position` returns exactly the vertex, if its coordinates are representable. -/
theorem C104_vertices (R : Rounding) (hb : 12 ≤ R.bits) (k : Kind) (hk : k ≠ .quad12 ∧ k ≠ .hex32) (V : ℕ → ℕ → ℝ) (b x0 : ℕ → ℝ)
    (w : ℕ) (hw : w < k.numVerts) (hV : ∀ d < k.dim, R.fl (V w d) = V w d) :
    ∃ p, positionR R k (k.refLoc w) V b x0 = some p ∧ ∀ d < k.dim, p d = V w d := by
  have hk' : dyadic k = true := by cases k <;> simp_all [dyadic]
  obtain ⟨p, hp, hd⟩ := positionR_loop R k hk.2 (k.refLoc w) V b x0
  refine ⟨p, hp, fun d h => ?_⟩
  have e : ∀ v < k.numVerts, posBasisR R k (k.refLoc w) b v = if v = w then 1 else 0 := fun v hv => by
    rw [posBasisR_expr R k _ b v hv]
    exact vertex_of_chk hb (vertex_chk k hk' v hv w hw).2
  have key : ∀ n ≤ k.numVerts, loop n (fun v s => R.fl (s + R.fl (V v d * posBasisR R k (k.refLoc w) b v))) 0 =
      if w < n then V w d else 0 := by
    intro n
    induction n with
    | zero => intro _; simp
    | succ n ih =>
      intro hn
      rw [loop_succ, ih (by omega), e n (by omega)]
      by_cases h1 : n = w
      · subst h1; simp [hV d h]
      · rw [if_neg h1, mul_zero, R.fl_zero, add_zero]
        by_cases h2 : w < n
        · rw [if_pos h2, if_pos (by omega), hV d h]
        · rw [if_neg h2, if_neg (by omega), R.fl_zero]
  rw [hd d h, key k.numVerts (le_refl _), if_pos hw]

example : basisR Rounding.binary64 .hex20 (Kind.hex20.refLoc 13) 0 13 = 1 ∧
    basisR Rounding.binary64 .hex20 (Kind.hex20.refLoc 13) 0 5 = 0 := by
  have hb : 12 ≤ Rounding.binary64.bits := by rw [Rounding.binary64_bits]; norm_num
  rw [C104_nodal _ hb .hex20 (by decide) 0 13 13 (by decide) (by decide), C104_nodal _ hb .hex20 (by decide) 0 5 13 (by decide) (by decide)]
  simp

/-! ### The linear classes: relative accuracy -/

/-- A number the format can represent. -/
def Repr (R : Rounding) (y : ℝ) : Prop := ∃ m e : ℤ, |m| ≤ 2 ^ R.bits ∧ y = m * 2 ^ e

theorem Repr.fl {R : Rounding} {y : ℝ} (h : Repr R y) : R.fl y = y := by
  obtain ⟨m, e, hm, rfl⟩ := h; exact R.exact m e hm
theorem Repr.neg {R : Rounding} {y : ℝ} (h : Repr R y) : Repr R (-y) := by
  obtain ⟨m, e, hm, rfl⟩ := h; exact ⟨-m, e, by rwa [abs_neg], by push_cast; ring⟩

theorem Repr.one {R : Rounding} : Repr R 1 := ⟨1, 0, by simpa using one_le_pow₀ (by norm_num), by simp⟩

/-- The classes with multilinear shape functions. -/
def linear : Kind → Bool
  | .quad4 | .hex8 | .tess16 => true
  | _ => false

theorem linear_sign (k : Kind) (hk : linear k = true) (v d : ℕ) (hv : v < k.numVerts) (hd : d < k.dim) :
    (k.refLoc v d : ℝ) = 1 ∨ (k.refLoc v d : ℝ) = -1 := by
  have key : ∀ v < k.numVerts, ∀ d < k.dim, (k.refLoc v d : ℚ) = 1 ∨ (k.refLoc v d : ℚ) = -1 := by
    cases k
    · decide +kernel
    · cases hk
    · cases hk
    · decide +kernel
    · cases hk
    · cases hk
    · decide +kernel
  rw [refLoc_cast]
  rcases key v hv d hd with h | h <;> rw [h] <;> simp

/-- One factor of a multilinear shape function. -/
theorem factor_rel {R : Rounding} (hu : R.u < 1) {y r : ℝ} (hy : Repr R y) (hr : r = 1 ∨ r = -1) :
    Rel R 1 (R.fl (1 + R.fl (y * R.fl r))) (1 + y * r) := by
  have e : R.fl (y * R.fl r) = y * r := by
    rcases hr with rfl | rfl
    · rw [Repr.one.fl, mul_one, hy.fl]
    · rw [Repr.one.neg.fl, mul_neg_one, hy.neg.fl]
  rw [e]; exact Rel.fl hu _

/-- Both copies of the shape functions have a small relative error. -/
theorem linear_rel {R : Rounding} (hu : R.u < 1) (k : Kind) (hk : linear k = true) (x b b' : ℕ → ℝ) (hx : ∀ d < k.dim, Repr R (x d))
    (v : ℕ) (hv : v < k.numVerts) :
    Rel R (2 * k.dim) (basisR R k x b v) (k.basis x b' v) ∧ Rel R (2 * k.dim) (posBasisR R k x b v) (k.basis x b' v) := by
  have F : ∀ d < k.dim, Rel R 1 (R.fl (1 + R.fl (x d * R.fl (k.refLoc v d)))) (1 + x d * k.refLoc v d) :=
    fun d hd => factor_rel hu (hx d hd) (linear_sign k hk v d hv hd)
  cases k
  · have e1 : basisR R .quad4 x b v = R.fl (R.fl (1 / 4 * R.fl (1 + R.fl (x 0 * R.fl (Kind.quad4.refLoc v 0)))) *
        R.fl (1 + R.fl (x 1 * R.fl (Kind.quad4.refLoc v 1)))) := by
      change v < 4 at hv; interval_cases v <;> rfl
    have e2 : posBasisR R .quad4 x b v = basisR R .quad4 x b v := by change v < 4 at hv; interval_cases v <;> rfl
    have e3 : Kind.quad4.basis x b' v = 1 / 4 * (1 + x 0 * Kind.quad4.refLoc v 0) * (1 + x 1 * Kind.quad4.refLoc v 1) := by
      change v < 4 at hv; interval_cases v <;> rfl
    rw [e2, e3, e1]
    have h := ((Rel.refl hu 0 (1 / 4)).flmul hu (F 0 (by decide))).flmul hu (F 1 (by decide))
    exact ⟨h, h⟩
  · cases hk
  · cases hk
  · have e1 : basisR R .hex8 x b v = R.fl (R.fl (R.fl (1 / 8 * R.fl (1 + R.fl (x 0 * R.fl (Kind.hex8.refLoc v 0)))) *
        R.fl (1 + R.fl (x 1 * R.fl (Kind.hex8.refLoc v 1)))) * R.fl (1 + R.fl (x 2 * R.fl (Kind.hex8.refLoc v 2)))) := by
      change v < 8 at hv; interval_cases v <;> rfl
    have e2 : posBasisR R .hex8 x b v = basisR R .hex8 x b v := by change v < 8 at hv; interval_cases v <;> rfl
    have e3 : Kind.hex8.basis x b' v = 1 / 8 * (1 + x 0 * Kind.hex8.refLoc v 0) * (1 + x 1 * Kind.hex8.refLoc v 1) *
        (1 + x 2 * Kind.hex8.refLoc v 2) := by
      change v < 8 at hv; interval_cases v <;> rfl
    rw [e2, e3, e1]
    have h := (((Rel.refl hu 0 (1 / 8)).flmul hu (F 0 (by decide))).flmul hu (F 1 (by decide))).flmul hu (F 2 (by decide))
    exact ⟨h, h⟩
  · cases hk
  · cases hk
  · have e1 : basisR R .tess16 x b v = R.fl (R.fl (R.fl (R.fl (1 / 16 * R.fl (1 + R.fl (x 0 * R.fl (Kind.tess16.refLoc v 0)))) *
        R.fl (1 + R.fl (x 1 * R.fl (Kind.tess16.refLoc v 1)))) * R.fl (1 + R.fl (x 2 * R.fl (Kind.tess16.refLoc v 2)))) *
        R.fl (1 + R.fl (x 3 * R.fl (Kind.tess16.refLoc v 3)))) := by
      change v < 16 at hv; interval_cases v <;> rfl
    have e2 : posBasisR R .tess16 x b v = basisR R .tess16 x b v := by change v < 16 at hv; interval_cases v <;> rfl
    have e3 : Kind.tess16.basis x b' v = 1 / 16 * (1 + x 0 * Kind.tess16.refLoc v 0) * (1 + x 1 * Kind.tess16.refLoc v 1) *
        (1 + x 2 * Kind.tess16.refLoc v 2) * (1 + x 3 * Kind.tess16.refLoc v 3) := by
      change v < 16 at hv; interval_cases v <;> rfl
    rw [e2, e3, e1]
    have h := ((((Rel.refl hu 0 (1 / 16)).flmul hu (F 0 (by decide))).flmul hu (F 1 (by decide))).flmul hu (F 2 (by decide))).flmul hu
      (F 3 (by decide))
    exact ⟨h, h⟩

/-- The exact multilinear shape functions are not negative on the reference element. -/
theorem linear_nonneg (k : Kind) (hk : linear k = true) (x b : ℕ → ℝ) (hx : ∀ d < k.dim, |x d| ≤ 1) (v : ℕ) (hv : v < k.numVerts) :
    0 ≤ k.basis x b v := by
  have F : ∀ d < k.dim, 0 ≤ 1 + x d * (k.refLoc v d : ℝ) := by
    intro d hd
    have := abs_le.1 (hx d hd)
    rcases linear_sign k hk v d hv hd with h | h <;> rw [h] <;> linarith
  cases k
  · have e3 : Kind.quad4.basis x b v = 1 / 4 * (1 + x 0 * Kind.quad4.refLoc v 0) * (1 + x 1 * Kind.quad4.refLoc v 1) := by
      change v < 4 at hv; interval_cases v <;> rfl
    rw [e3]
    exact mul_nonneg (mul_nonneg (by norm_num) (F 0 (by decide))) (F 1 (by decide))
  · cases hk
  · cases hk
  · have e3 : Kind.hex8.basis x b v = 1 / 8 * (1 + x 0 * Kind.hex8.refLoc v 0) * (1 + x 1 * Kind.hex8.refLoc v 1) *
        (1 + x 2 * Kind.hex8.refLoc v 2) := by
      change v < 8 at hv; interval_cases v <;> rfl
    rw [e3]
    exact mul_nonneg (mul_nonneg (mul_nonneg (by norm_num) (F 0 (by decide))) (F 1 (by decide))) (F 2 (by decide))
  · cases hk
  · cases hk
  · have e3 : Kind.tess16.basis x b v = 1 / 16 * (1 + x 0 * Kind.tess16.refLoc v 0) * (1 + x 1 * Kind.tess16.refLoc v 1) *
        (1 + x 2 * Kind.tess16.refLoc v 2) * (1 + x 3 * Kind.tess16.refLoc v 3) := by
      change v < 16 at hv; interval_cases v <;> rfl
    rw [e3]
    exact mul_nonneg (mul_nonneg (mul_nonneg (mul_nonneg (by norm_num) (F 0 (by decide))) (F 1 (by decide))) (F 2 (by decide)))
      (F 3 (by decide))

/-- **C104** (linear classes). For Quad4, Hex8 and Tess16, at every representable point (in the element or not), each computed shape
function has the sign of the exact one, vanishes exactly where it does, and has relative error at most
`2 dim u / (1 - 2 dim u)`. -/
theorem C104_linear (R : Rounding) (k : Kind) (hk : k = .quad4 ∨ k = .hex8 ∨ k = .tess16) (hu : (2 * k.dim : ℕ) * R.u < 1)
    (x b b' : ℕ → ℝ) (hx : ∀ d < k.dim, Repr R (x d)) (v : ℕ) (hv : v < k.numVerts) :
    |basisR R k x b v - k.basis x b' v| ≤ (2 * k.dim : ℕ) * R.u / (1 - (2 * k.dim : ℕ) * R.u) * |k.basis x b' v| ∧
      (0 < basisR R k x b v ↔ 0 < k.basis x b' v) ∧ (basisR R k x b v = 0 ↔ k.basis x b' v = 0) := by
  have hl : linear k = true := by rcases hk with rfl | rfl | rfl <;> rfl
  have hu1 : R.u < 1 := by
    have : (1 : ℝ) ≤ ((2 * k.dim : ℕ) : ℝ) := by
      have : 1 ≤ 2 * k.dim := by rcases hk with rfl | rfl | rfl <;> decide
      exact_mod_cast this
    nlinarith [R.u_nonneg]
  have h := (linear_rel hu1 k hl x b b' hx v hv).1
  refine ⟨h.err hu1 hu, ?_⟩
  obtain ⟨t, ht, e⟩ := h
  have hp := ht.pos hu1
  rw [e]
  exact ⟨mul_pos_iff_of_pos_right hp, by simp [hp.ne']⟩

/-- **C104** (linear classes, partition of unity). On the reference element the computed shape functions of Quad4, Hex8 and Tess16 are
not negative and sum to one up to `2 dim u / (1 - 2 dim u)`. -/
theorem C104_linear_partition (R : Rounding) (k : Kind) (hk : k = .quad4 ∨ k = .hex8 ∨ k = .tess16)
    (hu : (2 * k.dim : ℕ) * R.u < 1) (x b : ℕ → ℝ) (hx : ∀ d < k.dim, Repr R (x d)) (hx1 : ∀ d < k.dim, |x d| ≤ 1) :
    (∀ v < k.numVerts, 0 ≤ basisR R k x b v) ∧
      |∑ v ∈ range k.numVerts, basisR R k x b v - 1| ≤ (2 * k.dim : ℕ) * R.u / (1 - (2 * k.dim : ℕ) * R.u) := by
  have hl : linear k = true := by rcases hk with rfl | rfl | rfl <;> rfl
  have h0 := fun v hv => linear_nonneg k hl x b hx1 v hv
  refine ⟨fun v hv => ?_, ?_⟩
  · obtain ⟨-, h1, h2⟩ := C104_linear R k hk hu x b b hx v hv
    rcases (h0 v hv).lt_or_eq with h | h
    · exact (h1.2 h).le
    · exact (h2.2 h.symm).ge
  · have e : ∑ v ∈ range k.numVerts, basisR R k x b v - 1 = ∑ v ∈ range k.numVerts, (basisR R k x b v - k.basis x b v) := by
      rw [sum_sub_distrib, Shape.C23_partition]
    rw [e]
    refine (abs_sum_le_sum_abs _ _).trans ?_
    refine (sum_le_sum fun v hv => (C104_linear R k hk hu x b b hx v (mem_range.1 hv)).1).trans ?_
    rw [← mul_sum, sum_congr rfl fun v hv => abs_of_nonneg (h0 v (mem_range.1 hv)), Shape.C23_partition, mul_one]

/-- **C104** (linear classes, position). The computed position of a representable point of the reference element differs from the exact
one by at most `(2 dim + numVerts + 1) u / (1 - (2 dim + numVerts + 1) u)` times the largest modulus of the vertex coordinates. -/
theorem C104_linear_position (R : Rounding) (k : Kind) (hk : k = .quad4 ∨ k = .hex8 ∨ k = .tess16)
    (hu : (2 * k.dim + k.numVerts + 1 : ℕ) * R.u < 1) (x b b' x0 : ℕ → ℝ) (hx : ∀ d < k.dim, Repr R (x d))
    (hx1 : ∀ d < k.dim, |x d| ≤ 1) (V : ℕ → ℕ → ℝ) (L : ℝ) (hV : ∀ v < k.numVerts, ∀ d < k.dim, |V v d| ≤ L) :
    ∃ p, positionR R k x V b x0 = some p ∧ ∀ d < k.dim,
      |p d - ∑ v ∈ range k.numVerts, V v d * k.basis x b' v| ≤
        (2 * k.dim + k.numVerts + 1 : ℕ) * R.u / (1 - (2 * k.dim + k.numVerts + 1 : ℕ) * R.u) * L := by
  have hl : linear k = true := by rcases hk with rfl | rfl | rfl <;> rfl
  have hu1 : R.u < 1 := by
    have : (1 : ℝ) ≤ ((2 * k.dim + k.numVerts + 1 : ℕ) : ℝ) := by exact_mod_cast (by omega : 1 ≤ 2 * k.dim + k.numVerts + 1)
    nlinarith [R.u_nonneg]
  obtain ⟨p, hp, hd⟩ := positionR_loop R k (by rcases hk with rfl | rfl | rfl <;> decide) x V b x0
  refine ⟨p, hp, fun d h => ?_⟩
  obtain ⟨t, ht, e⟩ := Rel.loop_sum hu1 k.numVerts (fun v => R.fl (V v d * posBasisR R k x b v))
    (fun v => V v d * k.basis x b' v) (k := 2 * k.dim + 1)
    (fun v hv => ((Rel.refl hu1 0 (V v d)).flmul hu1 (linear_rel hu1 k hl x b b' hx v hv).2).mono hu1 (by omega))
  rw [hd d h, e, ← sum_sub_distrib]
  refine (abs_sum_le_sum_abs _ _).trans ?_
  have h0 := fun v hv => linear_nonneg k hl x b' hx1 v hv
  set g := (2 * k.dim + k.numVerts + 1 : ℕ) * R.u / (1 - (2 * k.dim + k.numVerts + 1 : ℕ) * R.u) with hg
  have hg0 : 0 ≤ g := div_nonneg (mul_nonneg (Nat.cast_nonneg _) R.u_nonneg) (by linarith)
  have step : ∀ v ∈ range k.numVerts, |V v d * k.basis x b' v * t v - V v d * k.basis x b' v| ≤ g * L * k.basis x b' v := by
    intro v hv
    have hv := mem_range.1 hv
    have h1 : |t v - 1| ≤ g := ((ht v hv).mono hu1 (by omega : _ ≤ 2 * k.dim + k.numVerts + 1)).err hu1 hu
    rw [show V v d * k.basis x b' v * t v - V v d * k.basis x b' v = (t v - 1) * V v d * k.basis x b' v by ring, abs_mul,
      abs_mul, abs_of_nonneg (h0 v hv)]
    exact mul_le_mul_of_nonneg_right (mul_le_mul h1 (hV v hv d h) (abs_nonneg _) hg0) (h0 v hv)
  refine (sum_le_sum step).trans (le_of_eq ?_)
  rw [← mul_sum, Shape.C23_partition, mul_one]

/-- Double precision, the trilinear hexahedron at a point of the element: the position is within `2 * 10^-15` of the exact one for
vertices with coordinates up to 1. -/
example (V : ℕ → ℕ → ℝ) (hV : ∀ v < 8, ∀ d < 3, |V v d| ≤ 1) :
    ∃ p, positionR Rounding.binary64 .hex8 (fun _ => 3 / 4) V 0 0 = some p ∧
      |p 2 - ∑ v ∈ range 8, V v 2 * Kind.hex8.basis (fun _ => 3 / 4) 0 v| < 2 / 10 ^ 15 := by
  obtain ⟨p, hp, h⟩ := C104_linear_position Rounding.binary64 .hex8 (by decide)
    (by rw [Rounding.binary64_u]; norm_num [Kind.numVerts, Kind.dim]) (fun _ => 3 / 4) 0 0 0
    (fun _ _ => ⟨3, -2, by rw [Rounding.binary64_bits]; norm_num, by norm_num⟩) (fun _ _ => by norm_num [abs_le]) V 1 hV
  refine ⟨p, hp, (h 2 (by decide)).trans_lt ?_⟩
  rw [Rounding.binary64_u]; norm_num [Kind.numVerts, Kind.dim]

/-- **C104 (Hex32).**  `Hex32::physical_position` reads past its vertices, whatever the arithmetic. -/
theorem C104_hex32_negation (R : Rounding) (x : ℕ → ℝ) (V : ℕ → ℕ → ℝ) (b x0 : ℕ → ℝ) : positionR R .hex32 x V b x0 = none := by
  simp only [positionR, Hex32.physicalPosition, accumulateR]
  rw [loop_succ]
  exact Option.bind_eq_none_iff.2 fun p _ => if_neg (lt_irrefl _)

end Verif.Fp.Elem
