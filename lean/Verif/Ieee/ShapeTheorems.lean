import Verif.Ieee.ShapeLemmas

/-!
# C110: shape functions, their partials and physical positions in double precision with overflow and underflow
-/

namespace Verif.Fp.ElemI
open Expr Finset
open Verif.Shape (Kind)
open Verif.Fp.Elem (vars basisMag partialMag basisE posBasisE partialsE refLoc_le refLoc_cast evalQ varsQ roundV within)

variable {A : Ieee}

/-- `basis(b, x)`. -/
noncomputable def basisI (A : Ieee) : Kind → (ℕ → ℝ) → (ℕ → FNum A) → ℕ → FNum A
  | .quad4 => Quad4.basis A
  | .quad8 => Quad8.basis A
  | .quad12 => Quad12.basis A
  | .hex8 => Hex8.basis A
  | .hex20 => Hex20.basis A
  | .hex32 => Hex32.basis A
  | .tess16 => Tess16.basis A

/-- The partial derivative routines, numbered as in `Kind.partials`. -/
noncomputable def partialsI (A : Ieee) (k : Kind) (d : ℕ) (x : ℕ → ℝ) (b : ℕ → FNum A) : ℕ → FNum A :=
  match k, d with
  | .quad4, 0 => Quad4.partialXi A x b | .quad4, 1 => Quad4.partialEta A x b
  | .quad8, 0 => Quad8.partialXi A x b | .quad8, 1 => Quad8.partialEta A x b
  | .quad12, 0 => Quad12.partialXi A x b | .quad12, 1 => Quad12.partialEta A x b
  | .hex8, 0 => Hex8.partialXi A x b | .hex8, 1 => Hex8.partialEta A x b | .hex8, 2 => Hex8.partialMu A x b
  | .hex20, 0 => Hex20.partialXi A x b | .hex20, 1 => Hex20.partialEta A x b | .hex20, 2 => Hex20.partialMu A x b
  | .hex32, 0 => Hex32.partialXi A x b | .hex32, 1 => Hex32.partialEta A x b | .hex32, 2 => Hex32.partialMu A x b
  | .tess16, 0 => Tess16.partialXi A x b | .tess16, 1 => Tess16.partialEta A x b | .tess16, 2 => Tess16.partialMu A x b | .tess16, 3 => Tess16.partialTau A x b
  | _, _ => b

/-- `physical_position(x_point, xi_point, vertices)`. -/
noncomputable def positionI (A : Ieee) : Kind → (ℕ → ℝ) → (ℕ → ℕ → ℝ) → (ℕ → FNum A) → (ℕ → FNum A) → Option (ℕ → FNum A)
  | .quad4 => Quad4.physicalPosition A
  | .quad8 => Quad8.physicalPosition A
  | .quad12 => Quad12.physicalPosition A
  | .hex8 => Hex8.physicalPosition A
  | .hex20 => Hex20.physicalPosition A
  | .hex32 => Hex32.physicalPosition A
  | .tess16 => Tess16.physicalPosition A

/-- The shape functions inside `physical_position`. -/
noncomputable def posBasisI (A : Ieee) : Kind → (ℕ → ℝ) → (ℕ → FNum A) → ℕ → FNum A
  | .quad4 => Quad4.posBasis A
  | .quad8 => Quad8.posBasis A
  | .quad12 => Quad12.posBasis A
  | .hex8 => Hex8.posBasis A
  | .hex20 => Hex20.posBasis A
  | .hex32 => Hex32.posBasis A
  | .tess16 => Tess16.posBasis A

theorem basisI_expr (k : Kind) (x : ℕ → ℝ) (b : ℕ → FNum A) (v : ℕ) (hv : v < k.numVerts) :
    basisI A k x b v = (basisE k v).evalI A (vars x fun d => A.fl (k.refLoc v d)) := by
  cases k
  · exact Quad4.basis_expr A x b v hv
  · exact Quad8.basis_expr A x b v hv
  · exact Quad12.basis_expr A x b v hv
  · exact Hex8.basis_expr A x b v hv
  · exact Hex20.basis_expr A x b v hv
  · exact Hex32.basis_expr A x b v hv
  · exact Tess16.basis_expr A x b v hv

theorem posBasisI_expr (k : Kind) (x : ℕ → ℝ) (b : ℕ → FNum A) (v : ℕ) (hv : v < k.numVerts) :
    posBasisI A k x b v = (posBasisE k v).evalI A (vars x fun d => A.fl (k.refLoc v d)) := by
  cases k
  · exact Quad4.posBasis_expr A x b v hv
  · exact Quad8.posBasis_expr A x b v hv
  · exact Quad12.posBasis_expr A x b v hv
  · exact Hex8.posBasis_expr A x b v hv
  · exact Hex20.posBasis_expr A x b v hv
  · exact Hex32.posBasis_expr A x b v hv
  · exact Tess16.posBasis_expr A x b v hv

theorem partialsI_expr (k : Kind) (d : ℕ) (hd : d < k.dim) (x : ℕ → ℝ) (b : ℕ → FNum A) (v : ℕ) (hv : v < k.numVerts) :
    partialsI A k d x b v = (partialsE k d v).evalI A (vars x fun d => A.fl (k.refLoc v d)) := by
  cases k
  · change d < 2 at hd; interval_cases d
    · exact Quad4.partialXi_expr A x b v hv
    · exact Quad4.partialEta_expr A x b v hv
  · change d < 2 at hd; interval_cases d
    · exact Quad8.partialXi_expr A x b v hv
    · exact Quad8.partialEta_expr A x b v hv
  · change d < 2 at hd; interval_cases d
    · exact Quad12.partialXi_expr A x b v hv
    · exact Quad12.partialEta_expr A x b v hv
  · change d < 3 at hd; interval_cases d
    · exact Hex8.partialXi_expr A x b v hv
    · exact Hex8.partialEta_expr A x b v hv
    · exact Hex8.partialMu_expr A x b v hv
  · change d < 3 at hd; interval_cases d
    · exact Hex20.partialXi_expr A x b v hv
    · exact Hex20.partialEta_expr A x b v hv
    · exact Hex20.partialMu_expr A x b v hv
  · change d < 3 at hd; interval_cases d
    · exact Hex32.partialXi_expr A x b v hv
    · exact Hex32.partialEta_expr A x b v hv
    · exact Hex32.partialMu_expr A x b v hv
  · change d < 4 at hd; interval_cases d
    · exact Tess16.partialXi_expr A x b v hv
    · exact Tess16.partialEta_expr A x b v hv
    · exact Tess16.partialMu_expr A x b v hv
    · exact Tess16.partialTau_expr A x b v hv

theorem small_basis (k : Kind) : ∀ v < k.numVerts, small (basisE k v) = true := by
  cases k <;> decide +kernel
theorem small_posBasis (k : Kind) : ∀ v < k.numVerts, small (posBasisE k v) = true := by
  cases k <;> decide +kernel
theorem small_partials (k : Kind) : ∀ d < k.dim, ∀ v < k.numVerts, small (partialsE k d v) = true := by
  cases k <;> decide +kernel

/-! ### Errors on the reference element -/

theorem bound48 {M : ℝ} (hM : 1 / 2 ≤ M) : (grow Ieee.ieee64 18 - 1) * (M + 2 ^ (-950 : ℤ)) ≤ M / 2 ^ 48 := by
  have hg := GeomI.grow19
  have hm := grow_mono GeomI.u_lt (show 18 ≤ 19 by omega)
  have h9 : (2 : ℝ) ^ (-950 : ℤ) ≤ 2 ^ (-30 : ℤ) := zpow_le_zpow_right₀ (by norm_num) (by norm_num)
  have h0 : (0 : ℝ) < 2 ^ (-950 : ℤ) := by positivity
  generalize (2 : ℝ) ^ (-950 : ℤ) = q at *
  generalize grow Ieee.ieee64 18 = g at *
  generalize grow Ieee.ieee64 19 = g' at *
  norm_num at hg h9 ⊢
  have : (g - 1) * (M + q) ≤ 1901 / 900719925474099200 * (M + q) := mul_le_mul_of_nonneg_right (by linarith) (by linarith)
  linarith

/-- **C110** (shape functions). In double precision, with overflow and underflow, every shape function of every class is finite at every
point of the reference element, and within `2^-48` times a constant of the class (1 for the linear classes, 3, 5, 45/4 for the others) of
the exact one. -/
theorem C110_basis (k : Kind) (x : ℕ → ℝ) (b : ℕ → FNum Ieee.ieee64) (b' : ℕ → ℝ) (hx : ∀ d < k.dim, |x d| ≤ 1) (v : ℕ)
    (hv : v < k.numVerts) :
    ∃ y, basisI Ieee.ieee64 k x b v = FNum.fin y ∧ |y - k.basis x b' v| ≤ basisMag k / 2 ^ 48 := by
  obtain ⟨y, y1, y2⟩ := small_err (Elem.fits_basis k v hv) (small_basis k v hv) hx (fun d hd => refLoc_le k v d hv hd)
  refine ⟨y, by rw [basisI_expr k x b v hv, y1], ?_⟩
  rw [Elem.basis_eval k x b' v hv]
  exact y2.trans (bound48 (by cases k <;> norm_num [basisMag]))

/-- **C110** (partials). The same for the partial derivative routines (against their own exact values, see C24). -/
theorem C110_partials (k : Kind) (d : ℕ) (hd : d < k.dim) (x : ℕ → ℝ) (b : ℕ → FNum Ieee.ieee64) (b' : ℕ → ℝ)
    (hx : ∀ d < k.dim, |x d| ≤ 1) (v : ℕ) (hv : v < k.numVerts) :
    ∃ y, partialsI Ieee.ieee64 k d x b v = FNum.fin y ∧ |y - k.partials d x b' v| ≤ partialMag k / 2 ^ 48 := by
  obtain ⟨y, y1, y2⟩ := small_err (Elem.fits_partials k d hd v hv) (small_partials k d hd v hv) hx (fun d hd => refLoc_le k v d hv hd)
  refine ⟨y, by rw [partialsI_expr k d hd x b v hv, y1], ?_⟩
  rw [(Elem.partials_expr Rounding.binary64 k d hd x b' v hv).2]
  exact y2.trans (bound48 (by cases k <;> norm_num [partialMag]))

/-- The hypotheses are met: a point with a denormal coordinate. -/
example : ∃ y, basisI Ieee.ieee64 .hex32 (fun d => if d = 0 then 2 ^ (-1074 : ℤ) else 1 / 2) (fun _ => none) 12 = FNum.fin y ∧
    |y - Kind.hex32.basis (fun d => if d = 0 then 2 ^ (-1074 : ℤ) else 1 / 2) 0 12| ≤ 45 / 4 / 2 ^ 48 := by
  have := C110_basis .hex32 (fun d => if d = 0 then 2 ^ (-1074 : ℤ) else 1 / 2) (fun _ => none) 0 (fun d _ => by
    split_ifs
    · rw [abs_of_nonneg (by positivity)]
      exact zpow_le_one_of_nonpos₀ (by norm_num) (by norm_num)
    · norm_num [abs_le]) 12 (by decide)
  simpa [basisMag] using this

/-! ### Positions -/

theorem accumulateI_spec (dim nv : ℕ) (V : ℕ → ℕ → ℝ) (basis x0 : ℕ → FNum A) :
    ∃ p, accumulateI A dim nv nv V basis x0 = some p ∧
      ∀ d < dim, p d = loop nv (fun v s => s + cn (V v d) * basis v) (cn 0) := by
  have h0 : ∀ n d, d < n → loop n (fun d p => store p d (cn (A := A) 0)) x0 d = cn 0 := by
    intro n d hd
    rw [loop_store n (fun _ => cn 0) x0]; exact if_pos hd
  have row : ∀ (f : ℕ → FNum A) (n : ℕ) (p : ℕ → FNum A) (d : ℕ),
      loop n (fun d p => store p d (p d + f d)) p d = if d < n then p d + f d else p d := by
    intro f n p
    induction n with
    | zero => intro d; simp
    | succ n ih =>
      intro d
      rw [loop_succ]
      by_cases h : d = n
      · subst h; rw [store_same, ih]; simp
      · rw [store_ne _ _ h, ih]
        by_cases h2 : d < n
        · rw [if_pos h2, if_pos (by omega)]
        · rw [if_neg h2, if_neg (by omega)]
  have key : ∀ m ≤ nv, ∃ p, loop m (fun v (s : Option (ℕ → FNum A)) => s.bind fun p =>
      if v < nv then some (loop dim (fun d p => store p d (p d + cn (V v d) * basis v)) p) else none)
      (some (loop dim (fun d p => store p d (cn 0)) x0)) = some p ∧
      ∀ d < dim, p d = loop m (fun v s => s + cn (V v d) * basis v) (cn 0) := by
    intro m
    induction m with
    | zero => intro _; exact ⟨_, rfl, fun d hd => h0 dim d hd⟩
    | succ m ih =>
      intro hm
      obtain ⟨p, hp, hd⟩ := ih (by omega)
      refine ⟨loop dim (fun d p => store p d (p d + cn (V m d) * basis m)) p, ?_, fun d h => ?_⟩
      · rw [loop_succ, hp, Option.bind_some, if_pos (by omega)]
      · rw [row (fun d => cn (V m d) * basis m), if_pos h, loop_succ, hd d h]
  exact key nv (le_refl _)

theorem accumulateDimOuterI_spec (dim nv : ℕ) (V : ℕ → ℕ → ℝ) (basis x0 : ℕ → FNum A) :
    ∃ p, accumulateDimOuterI A dim nv nv V basis x0 = some p ∧
      ∀ d < dim, p d = loop nv (fun v s => s + cn (V v d) * basis v) (cn 0) := by
  have h0 : ∀ n d, d < n → loop n (fun d p => store p d (cn (A := A) 0)) x0 d = cn 0 := by
    intro n d hd
    rw [loop_store n (fun _ => cn 0) x0]; exact if_pos hd
  have inner : ∀ (d : ℕ) (p : ℕ → FNum A), ∀ m ≤ nv, ∃ p', loop m (fun v (s : Option (ℕ → FNum A)) => s.bind fun p =>
      if v < nv then some (store p d (p d + cn (V v d) * basis v)) else none) (some p) = some p' ∧
      p' d = loop m (fun v s => s + cn (V v d) * basis v) (p d) ∧ ∀ d', d' ≠ d → p' d' = p d' := by
    intro d p m
    induction m with
    | zero => intro _; exact ⟨p, rfl, rfl, fun _ _ => rfl⟩
    | succ m ih =>
      intro hm
      obtain ⟨q, hq, h1, h2⟩ := ih (by omega)
      refine ⟨store q d (q d + cn (V m d) * basis m), ?_, ?_, fun d' hd' => ?_⟩
      · rw [loop_succ, hq, Option.bind_some, if_pos (by omega)]
      · rw [store_same, loop_succ, h1]
      · rw [store_ne _ _ hd', h2 d' hd']
  have key : ∀ n ≤ dim, ∃ p, loop n (fun d (s : Option (ℕ → FNum A)) => loop nv (fun v s => s.bind fun p =>
      if v < nv then some (store p d (p d + cn (V v d) * basis v)) else none) s)
      (some (loop dim (fun d p => store p d (cn 0)) x0)) = some p ∧
      (∀ d < n, p d = loop nv (fun v s => s + cn (V v d) * basis v) (cn 0)) ∧ ∀ d < dim, n ≤ d → p d = cn 0 := by
    intro n
    induction n with
    | zero => intro _; exact ⟨_, rfl, fun d hd => by omega, fun d hd _ => h0 dim d hd⟩
    | succ n ih =>
      intro hn
      obtain ⟨p, hp, h1, h2⟩ := ih (by omega)
      obtain ⟨q, hq, g1, g2⟩ := inner n p nv (le_refl _)
      refine ⟨q, by rw [loop_succ, hp, hq], fun d hd => ?_, fun d hd hd' => ?_⟩
      · by_cases h : d = n
        · subst h; rw [g1, h2 d (by omega) (le_refl _)]
        · rw [g2 d h, h1 d (by omega)]
      · rw [g2 d (by omega), h2 d hd (by omega)]
  obtain ⟨p, hp, h1, -⟩ := key dim (le_refl _)
  exact ⟨p, hp, h1⟩


theorem positionI_loop (k : Kind) (hk : k ≠ .hex32) (x : ℕ → ℝ) (V : ℕ → ℕ → ℝ) (b x0 : ℕ → FNum A) :
    ∃ p, positionI A k x V b x0 = some p ∧
      ∀ d < k.dim, p d = loop k.numVerts (fun v s => s + cn (V v d) * posBasisI A k x b v) (cn 0) := by
  cases k
  · exact accumulateI_spec 2 4 V (Quad4.posBasis A x b) x0
  · exact accumulateI_spec 2 8 V (Quad8.posBasis A x b) x0
  · exact accumulateI_spec 2 12 V (Quad12.posBasis A x b) x0
  · exact accumulateI_spec 3 8 V (Hex8.posBasis A x b) x0
  · exact accumulateDimOuterI_spec 3 20 V (Hex20.posBasis A x b) x0
  · exact absurd rfl hk
  · exact accumulateI_spec 4 16 V (Tess16.posBasis A x b) x0

/-- The error of a sum of products. -/
theorem sum_err (hu : A.u < 1) {n : ℕ} (W : ℕ → ℝ) {B : ℕ → FNum A} {N : ℕ → ℝ} {M : ℝ} (hM : 0 ≤ M)
    (hB : ∀ v < n, ∃ y, B v = FNum.fin y ∧ |y - N v| ≤ (grow A 18 - 1) * M) (hN : ∀ v < n, |N v| ≤ M)
    (ht : grow A (19 + n) * ∑ v ∈ range n, (|W v| * M + 2 * A.δ) < A.top) :
    ∃ s, loop n (fun v s => s + cn (W v) * B v) (cn 0) = FNum.fin s ∧
      |s - ∑ v ∈ range n, W v * N v| ≤ (grow A (19 + n) - 1) * ∑ v ∈ range n, (|W v| * M + 2 * A.δ) := by
  have hδ := A.δ_nonneg
  have T0 : ∀ v, 0 ≤ |W v| * M + 2 * A.δ := fun v => by positivity
  have key : ∀ m ≤ n, ∃ s, loop m (fun v s => s + cn (W v) * B v) (cn 0) = FNum.fin s ∧
      |s - ∑ v ∈ range m, W v * N v| ≤ (grow A (19 + m) - 1) * ∑ v ∈ range m, (|W v| * M + 2 * A.δ) := by
    intro m
    induction m with
    | zero => intro _; exact ⟨0, rfl, by simp⟩
    | succ m ih =>
      intro hm
      obtain ⟨s, s1, s2⟩ := ih (by omega)
      obtain ⟨y, y1, y2⟩ := hB m (by omega)
      have hle : ∑ v ∈ range (m + 1), (|W v| * M + 2 * A.δ) ≤ ∑ v ∈ range n, (|W v| * M + 2 * A.δ) :=
        sum_le_sum_of_subset_of_nonneg (range_subset_range.2 (by omega)) fun v _ _ => T0 v
      have hS0 : 0 ≤ ∑ v ∈ range m, (|W v| * M + 2 * A.δ) := sum_nonneg fun v _ => T0 v
      rw [sum_range_succ] at hle
      have thr : ∀ k ≤ 19 + n, ∀ z, 0 ≤ z → z ≤ ∑ v ∈ range n, (|W v| * M + 2 * A.δ) → grow A k * z < A.top := fun k hk z z0 hz =>
        lt_of_le_of_lt (mul_le_mul (grow_mono hu hk) hz z0 (grow_pos hu _).le) ht
      have aN := hN m (by omega)
      have w0 := abs_nonneg (W m)
      have wM : 0 ≤ |W m| * M := by positivity
      obtain ⟨r, r1, r2⟩ := rnd_fin hu (x := W m * y) (y := W m * N m) (M := |W m| * M) (k := 18)
        (by
          rw [← mul_sub, abs_mul]
          calc |W m| * |y - N m| ≤ |W m| * ((grow A 18 - 1) * M) := mul_le_mul_of_nonneg_left y2 w0
            _ = _ := by ring)
        (by rw [abs_mul]; exact mul_le_mul_of_nonneg_left aN w0)
        (thr 19 (by omega) _ (by positivity) (by linarith))
      have g19 := grow_mono hu (show 19 ≤ 19 + m by omega)
      have aS : |∑ v ∈ range m, W v * N v| ≤ ∑ v ∈ range m, (|W v| * M + 2 * A.δ) :=
        (abs_sum_le_sum_abs _ _).trans (sum_le_sum fun v hv => by
          rw [abs_mul]
          have := mul_le_mul_of_nonneg_left (hN v (by have := mem_range.1 hv; omega)) (abs_nonneg (W v))
          linarith)
      obtain ⟨t, t1, t2⟩ := rnd_fin hu (x := s + r) (y := ∑ v ∈ range m, W v * N v + W m * N m)
        (M := ∑ v ∈ range m, (|W v| * M + 2 * A.δ) + (|W m| * M + A.δ)) (k := 19 + m)
        (by
          rw [add_sub_add_comm, mul_add]
          refine (abs_add_le _ _).trans (add_le_add s2 (r2.trans ?_))
          exact mul_le_mul_of_nonneg_right (by linarith) (by positivity))
        (by
          refine (abs_add_le _ _).trans (add_le_add aS ?_)
          rw [abs_mul]
          have := mul_le_mul_of_nonneg_left aN w0
          linarith)
        (thr (19 + m + 1) (by omega) _ (by positivity) (by linarith))
      refine ⟨t, ?_, ?_⟩
      · rw [loop_succ, s1, y1]
        have e : (cn (W m) * FNum.fin y : FNum A) = FNum.fin r := r1
        rw [e]
        exact t1
      · rw [sum_range_succ, sum_range_succ]
        refine t2.trans (le_of_eq ?_)
        rw [show 19 + m + 1 = 19 + (m + 1) by omega]
        ring
  exact key n (le_refl _)

/-- **C110** (position; every class but Hex32, whose routine reads past the vertices, C27). If the coordinates of the vertices are at most
`2^1015` in modulus, coordinate `d` of the computed physical position is finite and differs from the exact isoparametric map by at
most `2^-47` times the constant of the class times the sum of the moduli of the vertex coordinates, plus `2^-1060`. -/
theorem C110_position (k : Kind) (hk : k ≠ .hex32) (x : ℕ → ℝ) (hx : ∀ d < k.dim, |x d| ≤ 1) (V : ℕ → ℕ → ℝ)
    (hV : ∀ v < k.numVerts, ∀ d < k.dim, |V v d| ≤ 2 ^ (1015 : ℤ)) (b x0 : ℕ → FNum Ieee.ieee64) (b' : ℕ → ℝ) :
    ∃ p, positionI Ieee.ieee64 k x V b x0 = some p ∧ ∀ d < k.dim, ∃ y, p d = FNum.fin y ∧
      |y - ∑ v ∈ range k.numVerts, V v d * k.basis x b' v| ≤
        basisMag k * (∑ v ∈ range k.numVerts, |V v d|) / 2 ^ 47 + 2 ^ (-1060 : ℤ) := by
  obtain ⟨p, hp, hd⟩ := positionI_loop (A := Ieee.ieee64) k hk x V b x0
  refine ⟨p, hp, fun d h => ?_⟩
  have hu := GeomI.u_lt
  have hδ := Ieee.ieee64.δ_nonneg
  have hδ6 := GeomI.delta_le
  have hδe := Ieee.ieee64_δ
  have hn : k.numVerts ≤ 20 := by cases k <;> first | decide | exact absurd rfl hk
  have hM1 : (1 : ℝ) ≤ basisMag k := by cases k <;> norm_num [basisMag]
  have hM2 : (basisMag k : ℝ) ≤ 12 := by cases k <;> norm_num [basisMag]
  have h9 : (2 : ℝ) ^ (-950 : ℤ) ≤ 2 ^ (-30 : ℤ) := zpow_le_zpow_right₀ (by norm_num) (by norm_num)
  have h90 : (0 : ℝ) < 2 ^ (-950 : ℤ) := by positivity
  have hg : grow Ieee.ieee64 39 - 1 ≤ 40 / 2 ^ 53 := by
    have := grow_le hu (k := 39) (by rw [Ieee.ieee64_u]; norm_num)
    rw [Ieee.ieee64_u] at this
    exact this.trans (by norm_num)
  have hgn := grow_mono hu (show 19 + k.numVerts ≤ 39 by omega)
  have hg1 := one_le_grow hu (19 + k.numVerts)
  set S := ∑ v ∈ range k.numVerts, |V v d| with hS
  have S0 : 0 ≤ S := sum_nonneg fun v _ => abs_nonneg _
  have S1 : S ≤ 20 * 2 ^ (1015 : ℤ) := by
    have h0 : (0 : ℝ) ≤ 2 ^ (1015 : ℤ) := by positivity
    refine (sum_le_card_nsmul _ _ _ fun v hv => hV v (mem_range.1 hv) d h).trans ?_
    rw [card_range, nsmul_eq_mul]
    exact mul_le_mul_of_nonneg_right (by exact_mod_cast hn) h0
  have hsum : ∑ v ∈ range k.numVerts, (|V v d| * (basisMag k + 2 ^ (-950 : ℤ)) + 2 * Ieee.ieee64.δ) =
      S * (basisMag k + 2 ^ (-950 : ℤ)) + k.numVerts * (2 * Ieee.ieee64.δ) := by
    rw [sum_add_distrib, ← sum_mul, sum_const, card_range, nsmul_eq_mul]
  have hn' : (k.numVerts : ℝ) ≤ 20 := by exact_mod_cast hn
  have hn0 : (0 : ℝ) ≤ k.numVerts := Nat.cast_nonneg _
  obtain ⟨s, s1, s2⟩ := sum_err (A := Ieee.ieee64) hu (n := k.numVerts) (fun v => V v d) (B := posBasisI Ieee.ieee64 k x b)
    (N := k.basis x b') (M := basisMag k + 2 ^ (-950 : ℤ)) (by linarith)
    (fun v hv => by
      obtain ⟨y, y1, y2⟩ := small_err (Elem.fits_posBasis k v hv) (small_posBasis k v hv) hx (fun d hd => refLoc_le k v d hv hd)
      exact ⟨y, by rw [posBasisI_expr k x b v hv, y1], by rw [Elem.posBasis_eval k x b' v hv]; exact y2⟩)
    (fun v hv => by
      have := Elem.abs_eval_bound (Elem.fits_posBasis k v hv) hx (fun d hd => refLoc_le k v d hv hd)
      rw [← Elem.posBasis_eval k x b' v hv] at this
      linarith)
    (by
      rw [hsum, Ieee.ieee64_top, show (2 : ℝ) ^ (1024 : ℤ) = 2 ^ (1015 : ℤ) * 512 by
        rw [show (1024 : ℤ) = 1015 + 9 by norm_num, zpow_add₀ (by norm_num : (2 : ℝ) ≠ 0)]; norm_num]
      have h1015 : (2 : ℝ) ^ (30 : ℤ) ≤ 2 ^ (1015 : ℤ) := zpow_le_zpow_right₀ (by norm_num) (by norm_num)
      clear_value S
      clear hδe hsum
      generalize (2 : ℝ) ^ (1015 : ℤ) = T at *
      generalize (2 : ℝ) ^ (-950 : ℤ) = q at *
      generalize Ieee.ieee64.δ = δ at *
      generalize grow Ieee.ieee64 39 = g39 at *
      generalize grow Ieee.ieee64 (19 + k.numVerts) = g at *
      generalize (basisMag k : ℝ) = M at *
      generalize (k.numVerts : ℝ) = n at *
      norm_num at hg h9 hδ6 h1015
      have a1 : S * (M + q) ≤ 20 * T * (12 + 1 / 10 ^ 6) := mul_le_mul S1 (by linarith) (by linarith) (by linarith)
      have a2 : n * (2 * δ) ≤ 20 * (2 * δ) := mul_le_mul_of_nonneg_right hn' (by linarith)
      have a3 : 0 ≤ S * (M + q) := mul_nonneg S0 (by linarith)
      have a4 : 0 ≤ n * (2 * δ) := by positivity
      have a5 : g * (S * (M + q) + n * (2 * δ)) ≤ (1 + 1 / 10 ^ 6) * (S * (M + q) + n * (2 * δ)) :=
        mul_le_mul_of_nonneg_right (by linarith) (by linarith)
      linarith)
  refine ⟨s, by rw [hd d h]; exact s1, s2.trans ?_⟩
  rw [hsum]
  have h1060 : (2 : ℝ) ^ (-1060 : ℤ) = Ieee.ieee64.δ / 2 ^ 38 := by
    rw [hδe, show (-1060 : ℤ) = -1022 + -38 by norm_num, zpow_add₀ (by norm_num : (2 : ℝ) ≠ 0),
      show (2 : ℝ) ^ (-38 : ℤ) = (2 ^ 38)⁻¹ by norm_num, div_eq_mul_inv]
  rw [h1060]
  clear s1 s2 hsum h1060 hδe hd hp S1
  clear_value S
  generalize (2 : ℝ) ^ (-950 : ℤ) = q at *
  generalize Ieee.ieee64.δ = δ at *
  generalize grow Ieee.ieee64 39 = g39 at *
  generalize grow Ieee.ieee64 (19 + k.numVerts) = g at *
  generalize (basisMag k : ℝ) = M at *
  generalize (k.numVerts : ℝ) = n at *
  norm_num at hg h9 hδ6 ⊢
  have a0 : 0 ≤ M * S := by nlinarith
  have a1 : S * (M + q) ≤ (1 + 1 / 10 ^ 6) * (M * S) := by nlinarith
  have a2 : n * (2 * δ) ≤ 20 * (2 * δ) := mul_le_mul_of_nonneg_right hn' (by linarith)
  have a3 : 0 ≤ S * (M + q) := mul_nonneg S0 (by linarith)
  have a4 : 0 ≤ n * (2 * δ) := by positivity
  have a5 : (g - 1) * (S * (M + q) + n * (2 * δ)) ≤ 5 / 1125899906842624 * (S * (M + q) + n * (2 * δ)) :=
    mul_le_mul_of_nonneg_right (by linarith) (by linarith)
  linarith

example : ∃ p, positionI Ieee.ieee64 .hex20 (fun _ => 1 / 3) (fun _ _ => 1) (fun _ => none) (fun _ => none) = some p ∧
    ∃ y, p 2 = FNum.fin y ∧ |y - 1| < 1 / 10 ^ 11 := by
  obtain ⟨p, hp, h⟩ := C110_position .hex20 (by decide) (fun _ => 1 / 3) (fun _ _ => by norm_num [abs_le]) (fun _ _ => 1)
    (fun _ _ _ _ => by rw [abs_one]; exact one_le_zpow₀ (by norm_num) (by norm_num)) (fun _ => none) (fun _ => none) 0
  obtain ⟨y, y1, y2⟩ := h 2 (by decide)
  refine ⟨p, hp, y, y1, ?_⟩
  simp only [one_mul] at y2
  rw [Shape.C23_partition] at y2
  refine y2.trans_lt ?_
  have h9 : (2 : ℝ) ^ (-1060 : ℤ) ≤ 2 ^ (-50 : ℤ) := zpow_le_zpow_right₀ (by norm_num) (by norm_num)
  generalize (2 : ℝ) ^ (-1060 : ℤ) = q at *
  norm_num [Kind.numVerts, basisMag] at h9 ⊢
  linarith

/-! ### Exactness at the vertices -/

theorem rnd_good {q : ℚ} (h : Elem.good q = true) : Ieee.ieee64.rnd (q : ℝ) = some (q : ℝ) := by
  simp only [Elem.good, Bool.and_eq_true, decide_eq_true_eq] at h
  have h1 : ((64 * q).num : ℚ) = 64 * q := by
    have := Rat.num_div_den (64 * q)
    rw [h.1] at this; simpa using this
  have h4 : (((64 * q).num : ℤ) : ℝ) = 64 * (q : ℝ) := by exact_mod_cast h1
  have h2 : (q : ℝ) = ((64 * q).num : ℤ) * (2 : ℝ) ^ (-6 : ℤ) := by
    rw [h4]; norm_num; ring
  have h3 : |(64 * q).num| ≤ 2 ^ 12 := by
    rw [Int.abs_eq_natAbs]; exact_mod_cast h.2
  have e : Ieee.ieee64.fl (q : ℝ) = q := by
    rw [h2]
    refine Ieee.ieee64.exact _ _ (h3.trans ?_) (by rw [Ieee.ieee64_emin]; norm_num)
    rw [Ieee.ieee64_bits]; norm_num
  have hq : |(q : ℝ)| ≤ 64 := by
    have : |(((64 * q).num : ℤ) : ℝ)| ≤ 2 ^ 12 := by exact_mod_cast h3
    rw [h4, abs_mul, abs_of_pos (by norm_num : (0 : ℝ) < 64)] at this
    norm_num at this
    linarith
  have := Ieee.rnd_some (A := Ieee.ieee64) (x := (q : ℝ)) (by
    rw [e, Ieee.ieee64_top]
    have h30 : (2 : ℝ) ^ (30 : ℤ) ≤ 2 ^ (1024 : ℤ) := zpow_le_zpow_right₀ (by norm_num) (by norm_num)
    generalize (2 : ℝ) ^ (1024 : ℤ) = T at *
    norm_num at h30
    linarith)
  rwa [e] at this

theorem evalI_chk (v : ℕ → ℕ → ℚ) : ∀ e : Expr, Elem.chk v e = true →
    e.evalI Ieee.ieee64 (fun a i => (v a i : ℝ)) = FNum.fin (evalQ v e : ℝ)
  | var a i, _ => rfl
  | neg e, h => by
    simp only [evalI, evalI_chk v e h, evalQ, Rat.cast_neg]
    rfl
  | add e f, h => by
    simp only [Elem.chk, Bool.and_eq_true] at h
    simp only [evalI, evalQ, evalI_chk v e h.1.1, evalI_chk v f h.1.2]
    rw [FNum.add_fin, ← Rat.cast_add]; exact rnd_good h.2
  | sub e f, h => by
    simp only [Elem.chk, Bool.and_eq_true] at h
    simp only [evalI, evalQ, evalI_chk v e h.1.1, evalI_chk v f h.1.2]
    rw [FNum.sub_fin, ← Rat.cast_sub]; exact rnd_good h.2
  | mul e f, h => by
    simp only [Elem.chk, Bool.and_eq_true] at h
    simp only [evalI, evalQ, evalI_chk v e h.1.1, evalI_chk v f h.1.2]
    rw [FNum.mul_fin, ← Rat.cast_mul]; exact rnd_good h.2

theorem fl_small {y : ℝ} (h : |y| ≤ 1) : |Ieee.ieee64.fl y| < Ieee.ieee64.top := by
  have h1 := Ieee.ieee64.fl_abs_le y
  have hδ6 := GeomI.delta_le
  have h30 : (2 : ℝ) ^ (30 : ℤ) ≤ 2 ^ (1024 : ℤ) := zpow_le_zpow_right₀ (by norm_num) (by norm_num)
  rw [Ieee.ieee64_top]
  rw [Ieee.ieee64_u] at h1
  generalize (2 : ℝ) ^ (1024 : ℤ) = T at *
  generalize Ieee.ieee64.δ = δ at *
  norm_num at h1 h30 hδ6
  linarith

/-- A tree at a rational point, if all intermediate results are multiples of 1/64. -/
theorem rat_of_chk {k : Kind} {E : Expr} {v : ℕ} (hv : v < k.numVerts) (hE : within k.dim E = true) (x : ℕ → ℚ)
    (h : Elem.chk (varsQ x (k.refLoc v)) (roundV E) = true) :
    E.evalI Ieee.ieee64 (vars (fun i => (x i : ℝ)) fun d => Ieee.ieee64.fl (k.refLoc v d)) =
      FNum.fin (evalQ (varsQ x (k.refLoc v)) (roundV E) : ℝ) := by
  have e' : (fun i => (k.refLoc v i : ℝ)) = fun i => ((k.refLoc v i : ℚ) : ℝ) := funext fun i => refLoc_cast k v i
  rw [← evalI_roundV (fun i => (x i : ℝ)) (fun i => k.refLoc v i) (fun d hd => fl_small (refLoc_le k v d hv hd)) E hE, e', Elem.vars_cast]
  exact evalI_chk _ _ h

theorem within_of_fits {D : ℕ} {M : ℚ} {e : Expr} (h : Elem.fits D M e = true) : within D e = true := by
  simp only [Elem.fits, Bool.and_eq_true] at h
  exact h.1.1

theorem vertexI {k : Kind} {E : ℕ → Expr} {v w : ℕ} (hv : v < k.numVerts) (hE : within k.dim (E v) = true)
    (h : Elem.vertexChk k E v w = true) :
    (E v).evalI Ieee.ieee64 (vars (k.refLoc w) fun d => Ieee.ieee64.fl (k.refLoc v d)) = FNum.fin (if v = w then 1 else 0) := by
  simp only [Elem.vertexChk, Bool.and_eq_true, decide_eq_true_eq] at h
  have e : (k.refLoc w : ℕ → ℝ) = fun i => ((k.refLoc w i : ℚ) : ℝ) := funext fun i => refLoc_cast k w i
  rw [e, rat_of_chk hv hE _ h.1, h.2]
  split <;> simp

/-- **C110** (vertices). For the classes whose reference vertices are representable (all but Quad12 and Hex32) the computed shape
functions are exactly 1 at their own vertex and exactly 0 at the others. -/
theorem C110_nodal (k : Kind) (hk : k ≠ .quad12 ∧ k ≠ .hex32) (b : ℕ → FNum Ieee.ieee64) (v w : ℕ) (hv : v < k.numVerts)
    (hw : w < k.numVerts) : basisI Ieee.ieee64 k (k.refLoc w) b v = FNum.fin (if v = w then 1 else 0) := by
  have hk' : Elem.dyadic k = true := by cases k <;> simp_all [Elem.dyadic]
  rw [basisI_expr k _ b v hv]
  exact vertexI hv (within_of_fits (Elem.fits_basis k v hv)) (Elem.vertex_chk k hk' v hv w hw).1

/-- **C110** (vertices). And `physical_position` returns exactly the vertex, if its coordinates are doubles: here overflow and underflow
are impossible, whatever the size of the coordinates. -/
theorem C110_vertices (k : Kind) (hk : k ≠ .quad12 ∧ k ≠ .hex32) (V : ℕ → ℕ → ℝ) (b x0 : ℕ → FNum Ieee.ieee64)
    (w : ℕ) (hw : w < k.numVerts) (hV : ∀ d < k.dim, Ieee.ieee64.rnd (V w d) = some (V w d)) :
    ∃ p, positionI Ieee.ieee64 k (k.refLoc w) V b x0 = some p ∧ ∀ d < k.dim, p d = FNum.fin (V w d) := by
  have hk' : Elem.dyadic k = true := by cases k <;> simp_all [Elem.dyadic]
  obtain ⟨p, hp, hd⟩ := positionI_loop (A := Ieee.ieee64) k hk.2 (k.refLoc w) V b x0
  refine ⟨p, hp, fun d h => ?_⟩
  have e : ∀ v < k.numVerts, posBasisI Ieee.ieee64 k (k.refLoc w) b v = FNum.fin (if v = w then 1 else 0) := fun v hv => by
    rw [posBasisI_expr k _ b v hv]
    exact vertexI hv (within_of_fits (Elem.fits_posBasis k v hv)) (Elem.vertex_chk k hk' v hv w hw).2
  have key : ∀ n ≤ k.numVerts, loop n (fun v s => s + cn (V v d) * posBasisI Ieee.ieee64 k (k.refLoc w) b v) (cn 0) =
      FNum.fin (if w < n then V w d else 0) := by
    intro n
    induction n with
    | zero => intro _; rfl
    | succ n ih =>
      intro hn
      rw [loop_succ, ih (by omega), e n (by omega)]
      have hz : ∀ y, (cn y * FNum.fin 0 : FNum Ieee.ieee64) = FNum.fin 0 := fun y => GeomI.zero_mul y rfl
      by_cases h1 : n = w
      · subst h1
        rw [if_pos rfl, if_neg (lt_irrefl _), if_pos (Nat.lt_succ_self _)]
        have e1 : (cn (V n d) * FNum.fin 1 : FNum Ieee.ieee64) = FNum.fin (V n d) := by
          show Ieee.ieee64.rnd (V n d * 1) = _
          rw [mul_one]; exact hV d h
        rw [e1, FNum.add_fin, zero_add]; exact hV d h
      · rw [if_neg h1, hz, FNum.add_fin, add_zero]
        by_cases h2 : w < n
        · rw [if_pos h2, if_pos (by omega)]; exact hV d h
        · rw [if_neg h2, if_neg (by omega)]; exact GeomI.zero_rnd
  rw [hd d h, key k.numVerts (le_refl _), if_pos hw]

/-- The hypotheses are met: a vertex near the largest double. -/
example : ∃ p, positionI Ieee.ieee64 .hex20 (Kind.hex20.refLoc 13) (fun _ _ => 2 ^ (1023 : ℤ)) (fun _ => none) (fun _ => none) = some p ∧
    p 1 = FNum.fin (2 ^ (1023 : ℤ)) := by
  obtain ⟨p, hp, h⟩ := C110_vertices .hex20 (by decide) (fun _ _ => 2 ^ (1023 : ℤ)) (fun _ => none) (fun _ => none) 13 (by decide)
    (fun d _ => by
      have h := Ieee.ieee64.exact 1 1023 (by rw [Ieee.ieee64_bits]; norm_num) (by rw [Ieee.ieee64_emin]; norm_num)
      rw [Int.cast_one, one_mul] at h
      have := Ieee.rnd_some (A := Ieee.ieee64) (x := 2 ^ (1023 : ℤ)) (by
        rw [h, Ieee.ieee64_top, abs_of_pos (by positivity)]
        exact zpow_lt_zpow_right₀ (by norm_num) (by norm_num))
      rwa [h] at this)
  exact ⟨p, hp, h 1 (by decide)⟩

/-- **C110 (overflow).**  The shape functions of the corners of a 20-node hexahedron are negative at its centre: if all vertices are at the
same place `(2^1023, 2^1023, 2^1023)`, so is the centre, but the partial sum of the corners overflows and `physical_position` returns
an infinity or a NaN.  So the bound on the coordinates cannot be dropped. -/
theorem C110_overflow_negation (b x0 : ℕ → FNum Ieee.ieee64) (b' : ℕ → ℝ) :
    ∃ p, positionI Ieee.ieee64 .hex20 (fun _ => 0) (fun _ _ => 2 ^ (1023 : ℤ)) b x0 = some p ∧
      (∀ d < 3, p d = (none : Option ℝ)) ∧
      ∑ v ∈ range 20, (2 : ℝ) ^ (1023 : ℤ) * Kind.hex20.basis (fun _ => 0) b' v = 2 ^ (1023 : ℤ) := by
  obtain ⟨p, hp, hd⟩ := positionI_loop (A := Ieee.ieee64) .hex20 (by decide) (fun _ => 0) (fun _ _ => 2 ^ (1023 : ℤ)) b x0
  refine ⟨p, hp, fun d h => ?_, ?_⟩
  · rw [hd d h]
    have c : ∀ v < 8, posBasisI Ieee.ieee64 .hex20 (fun _ => 0) b v = FNum.fin (-1 / 4) := by
      intro v hv
      have hv' : v < Kind.hex20.numVerts := lt_trans hv (by decide)
      have hc : ∀ v < 8, Elem.chk (varsQ (fun _ => 0) (Kind.hex20.refLoc v)) (roundV (posBasisE .hex20 v)) = true ∧
          evalQ (varsQ (fun _ => 0) (Kind.hex20.refLoc v)) (roundV (posBasisE .hex20 v)) = -1 / 4 := by decide +kernel
      have := rat_of_chk hv' (within_of_fits (Elem.fits_posBasis .hex20 v hv')) (fun _ => 0) (hc v hv).1
      rw [(hc v hv).2] at this
      rw [posBasisI_expr .hex20 _ b v hv']
      simpa using this
    have ex : ∀ m : ℤ, |m| ≤ 100 → Ieee.ieee64.fl (m * 2 ^ (1021 : ℤ)) = m * 2 ^ (1021 : ℤ) := fun m hm =>
      Ieee.ieee64.exact m 1021 (hm.trans (by rw [Ieee.ieee64_bits]; norm_num)) (by rw [Ieee.ieee64_emin]; norm_num)
    have h1024 : (2 : ℝ) ^ (1024 : ℤ) = 8 * 2 ^ (1021 : ℤ) := by
      rw [show (1024 : ℤ) = 3 + 1021 by norm_num, zpow_add₀ (by norm_num : (2 : ℝ) ≠ 0)]; norm_num
    have h1023 : (2 : ℝ) ^ (1023 : ℤ) = 4 * 2 ^ (1021 : ℤ) := by
      rw [show (1023 : ℤ) = 2 + 1021 by norm_num, zpow_add₀ (by norm_num : (2 : ℝ) ≠ 0)]; norm_num
    have hp0 : (0 : ℝ) < 2 ^ (1021 : ℤ) := by positivity
    have top : Ieee.ieee64.top = 8 * 2 ^ (1021 : ℤ) := by rw [Ieee.ieee64_top, h1024]
    rw [h1023]
    clear h1024 h1023
    generalize (2 : ℝ) ^ (1021 : ℤ) = T at *
    have rn : ∀ m : ℤ, |m| < 8 → Ieee.ieee64.rnd (m * T) = some (m * T) := by
      intro m hm
      have e := ex m (by linarith)
      have := Ieee.rnd_some (A := Ieee.ieee64) (x := m * T) (by
        rw [e, top, abs_mul, abs_of_pos hp0]
        exact mul_lt_mul_of_pos_right (by exact_mod_cast hm) hp0)
      rwa [e] at this
    have pr : (cn (4 * T) * FNum.fin (-1 / 4) : FNum Ieee.ieee64) = FNum.fin (-T) := by
      have := rn (-1) (by norm_num)
      show Ieee.ieee64.rnd (4 * T * (-1 / 4)) = some (-T)
      rw [show 4 * T * (-1 / 4) = ((-1 : ℤ) : ℝ) * T by push_cast; ring, this]
      congr 1; push_cast; ring
    have part : ∀ m : ℕ, m ≤ 7 → loop m (fun v s => s + cn (4 * T) * posBasisI Ieee.ieee64 .hex20 (fun _ => 0) b v) (cn 0) =
        FNum.fin (((-m : ℤ) : ℝ) * T) := by
      intro m
      induction m with
      | zero => intro _; simp; rfl
      | succ m ih =>
        intro hm
        rw [loop_succ, ih (by omega), c m (by omega), pr, FNum.add_fin,
          show ((-m : ℤ) : ℝ) * T + -T = ((-(m + 1 : ℕ) : ℤ) : ℝ) * T by push_cast; ring]
        exact rn _ (by rw [abs_neg, Nat.abs_cast]; exact_mod_cast (by omega : m + 1 < 8))
    have bad : ∀ m : ℕ, loop (8 + m) (fun v s => s + cn (4 * T) * posBasisI Ieee.ieee64 .hex20 (fun _ => 0) b v) (cn 0) =
        (none : Option ℝ) := by
      intro m
      induction m with
      | zero =>
        rw [show 8 + 0 = 7 + 1 from rfl, loop_succ, part 7 (le_refl _), c 7 (by omega), pr, FNum.add_fin,
          show ((-(7 : ℕ) : ℤ) : ℝ) * T + -T = ((-8 : ℤ) : ℝ) * T by push_cast; ring]
        unfold Ieee.rnd
        rw [if_neg]
        rw [ex _ (by norm_num), top, abs_mul, abs_of_pos hp0]
        push_cast
        rw [abs_neg, abs_of_pos (by norm_num : (0 : ℝ) < 8)]
        exact lt_irrefl _
      | succ m ih => rw [← Nat.add_assoc, loop_succ, ih]; rfl
    exact bad 12
  · rw [← mul_sum]
    have := Shape.C23_partition .hex20 (fun _ => (0 : ℝ)) b'
    rw [show range 20 = range Kind.hex20.numVerts from rfl, this, mul_one]

/-- **C110 (Hex32).**  `Hex32::physical_position` reads past its vertices, whatever the arithmetic. -/
theorem C110_hex32_negation (A : Ieee) (x : ℕ → ℝ) (V : ℕ → ℕ → ℝ) (b x0 : ℕ → FNum A) : positionI A .hex32 x V b x0 = none := by
  simp only [positionI, Hex32.physicalPosition, accumulateI]
  rw [loop_succ]
  exact Option.bind_eq_none_iff.2 fun p _ => if_neg (lt_irrefl _)

end Verif.Fp.ElemI
