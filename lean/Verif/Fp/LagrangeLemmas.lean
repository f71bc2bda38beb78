import Verif.Fp.Rel
import Verif.Fp.LagrangeModel
import Verif.Lagrange.Theorems

/-!
# Rounding errors of the barycentric formula
-/

namespace Verif.Fp.Interp
open Verif.Fp Finset

variable {R : Rounding}

/-- The rounded search is the exact search applied to the rounded differences. -/
theorem findVertex_eq (tol : ℝ) (N : ℕ) (z : ℕ → ℝ) (x : ℝ) :
    findVertex R tol N z x = (Lagrange.findCoincidentVertex tol N (fun j => R.fl (z j - x)) 0).toNat := by
  unfold findVertex Lagrange.findCoincidentVertex Lagrange.almostEqual
  simp only [sub_zero, decide_eq_true_eq]

/-- What a search can find: a vertex near the point, or none with the point off all vertices. -/
theorem findVertex_cases (hu : R.u ≤ 1 / 2) {tol : ℝ} (htol : 0 < tol) {N : ℕ} (hN : N < 2 ^ 64) {Z : ℕ → ℝ}
    (hsep : ∀ j < N, ∀ k < N, j ≠ k → 4 * tol ≤ |Z j - Z k|) (x : ℝ) :
    (∃ j < N, findVertex R tol N Z x = j ∧ |Z j - x| < 2 * tol) ∨
    (¬ findVertex R tol N Z x < N ∧ ∀ j < N, x ≠ Z j) := by
  rw [findVertex_eq]
  by_cases hex : ∃ j < N, |R.fl (Z j - x)| < tol
  · obtain ⟨j, hj, hlt⟩ := hex
    have near : ∀ j, |R.fl (Z j - x)| < tol → |Z j - x| < 2 * tol := by
      intro j h
      have e := R.err (Z j - x)
      have e2 : |Z j - x| ≤ |R.fl (Z j - x)| + |R.fl (Z j - x) - (Z j - x)| := by
        have := abs_sub_abs_le_abs_sub (Z j - x) (R.fl (Z j - x))
        rw [abs_sub_comm (Z j - x)] at this
        linarith
      nlinarith [abs_nonneg (Z j - x)]
    refine Or.inl ⟨j, hj, ?_, near j hlt⟩
    refine Lagrange.C05_unique tol N hN _ _ j hj (by rwa [sub_zero]) fun k hk hkj => ?_
    rw [sub_zero]
    by_contra hcon
    push Not at hcon
    have h1 := hsep k hk j hj hkj
    have h2 : |Z k - Z j| ≤ |Z k - x| + |Z j - x| := by
      have : Z k - Z j = (Z k - x) - (Z j - x) := by ring
      rw [this]; exact abs_sub _ _
    linarith [near j hlt, near k hcon]
  · push Not at hex
    refine Or.inr ⟨(Lagrange.C05_none tol N hN _ _ fun k hk => by rw [sub_zero]; exact hex k hk).2, fun j hj e => ?_⟩
    have := hex j hj
    have h0 := R.err 0
    rw [e, sub_self] at this
    simp only [abs_zero, mul_zero, sub_zero] at h0
    linarith

section
variable (hu : R.u < 1)
include hu

theorem weights_inner (j : ℕ) (z : ℕ → ℝ) (n : ℕ) :
    Rel R (3 * (n - if j < n then 1 else 0))
      (loop n (fun k wj => if j ≠ k then R.fl (wj * R.fl (1 / R.fl (z j - z k))) else wj) 1)
      (∏ k ∈ range n, if j ≠ k then (z j - z k)⁻¹ else 1) := by
  induction n with
  | zero => rw [loop_zero, range_zero, prod_empty]; exact Rel.refl hu _ _
  | succ n ih =>
    rw [loop_succ, prod_range_succ]
    by_cases h : j = n
    · subst h
      have h0 : ¬ (j ≠ j) := fun h => h rfl
      simp only [if_neg h0, mul_one]
      refine ih.mono hu ?_
      rw [if_neg (lt_irrefl j), if_pos (Nat.lt_succ_self j)]; omega
    · rw [if_pos h, if_pos h]
      have h1 : Rel R 2 (R.fl (1 / R.fl (z j - z n))) (z j - z n)⁻¹ := by
        rw [← one_div]
        exact ((Rel.refl hu 0 1).fldiv hu (Rel.fl hu (z j - z n))).mono hu (by omega)
      refine (ih.flmul hu h1).mono hu ?_
      by_cases hj : j < n
      · rw [if_pos hj, if_pos (by omega)]; omega
      · rw [if_neg hj, if_neg (by omega)]; omega

/-- The computed weights are the exact ones up to `3 (N - 1)` relative errors. -/
theorem weights_rel (N : ℕ) (z w0 : ℕ → ℝ) {j : ℕ} (hj : j < N) :
    Rel R (3 * (N - 1)) (weights R N z w0 j) (_root_.Lagrange.nodalWeight (range N) z j) := by
  have h := weights_inner hu j z N
  rw [if_pos hj] at h
  unfold weights
  rw [loop_store]
  simp only [hj, if_true]
  have e : _root_.Lagrange.nodalWeight (range N) z j = ∏ k ∈ range N, if j ≠ k then (z j - z k)⁻¹ else 1 := by
    rw [← Lagrange.weights_eq N z w0 j hj]
    unfold Lagrange.computeBarycentricWeights
    rw [loop_store]
    simp only [hj, if_true]
    have : ∀ n, loop n (fun k wj => if j ≠ k then wj * (1 / (z j - z k)) else wj) (1 : ℝ) =
        ∏ k ∈ range n, if j ≠ k then (z j - z k)⁻¹ else 1 := by
      intro n
      induction n with
      | zero => rw [loop_zero, range_zero, prod_empty]
      | succ n ih =>
        rw [loop_succ, prod_range_succ, ih]
        split_ifs <;> simp
    exact this N
  rw [e]
  exact h

theorem nodal_rel (N : ℕ) (Z : ℕ → ℝ) (X : ℝ) :
    Rel R (N * 2) (loop N (fun j L => R.fl (L * R.fl (X - Z j))) 1) ((_root_.Lagrange.nodal (range N) Z).eval X) := by
  rw [_root_.Lagrange.eval_nodal]
  exact Rel.loop_prod hu N _ _ fun j _ => Rel.fl hu _

/-- The basis function off the vertices. -/
theorem eval_rel {N i ic : ℕ} (hi : i < N) (hic : ¬ ic < N) (Z w0 : ℕ → ℝ) {X : ℝ} (hX : ∀ j < N, X ≠ Z j) :
    Rel R (5 * N) (eval R N i ic Z (weights R N Z w0) X) ((_root_.Lagrange.basis (range N) Z i).eval X) := by
  unfold eval
  rw [if_neg hic, _root_.Lagrange.eval_basis_not_at_node (mem_range.2 hi) (hX i hi)]
  have h := ((nodal_rel hu N Z X).flmul hu (weights_rel hu N Z w0 hi)).fldiv hu (Rel.fl hu (X - Z i))
  have e : ∀ a b c : ℝ, a * (b * c⁻¹) = a * b / c := fun a b c => by rw [div_eq_mul_inv]; ring
  rw [e]
  exact h.mono hu (by omega)

omit hu in
theorem sumLoop_fst (N : ℕ) (Z w : ℕ → ℝ) (X : ℝ) (c : ℕ → ℝ) :
    (sumLoop R N Z w X c).1 = loop N (fun j p => R.fl (p + R.fl (R.fl (w j * c j) / R.fl (X - Z j)))) 0 ∧
    (sumLoop R N Z w X c).2 = loop N (fun j L => R.fl (L * R.fl (X - Z j))) 1 := by
  unfold sumLoop
  induction N with
  | zero => exact ⟨rfl, rfl⟩
  | succ n ih =>
    simp only [loop_succ] at ih ⊢
    rw [ih.1, ih.2]
    exact ⟨rfl, rfl⟩

/-- The interpolant off the vertices: the exact interpolant of perturbed data. -/
theorem interp_rel {N ic : ℕ} (hic : ¬ ic < N) (Z w0 : ℕ → ℝ) {X : ℝ} (hX : ∀ j < N, X ≠ Z j) (c : ℕ → ℝ) :
    ∃ t : ℕ → ℝ, (∀ j < N, Pert R (6 * N + 1) (t j)) ∧
      evalInterp R N ic Z (weights R N Z w0) X c =
        ∑ j ∈ range N, c j * t j * (_root_.Lagrange.basis (range N) Z j).eval X := by
  unfold evalInterp
  rw [if_neg hic, (sumLoop_fst N Z _ X c).1, (sumLoop_fst N Z _ X c).2]
  have hterm : ∀ j < N, Rel R (3 * N) (R.fl (R.fl (weights R N Z w0 j * c j) / R.fl (X - Z j)))
      (_root_.Lagrange.nodalWeight (range N) Z j * c j / (X - Z j)) := fun j hj =>
    (((weights_rel hu N Z w0 hj).flmul hu (Rel.refl hu 0 (c j))).fldiv hu (Rel.fl hu (X - Z j))).mono hu (by omega)
  obtain ⟨t, ht, et⟩ := Rel.loop_sum hu N _ _ hterm
  obtain ⟨s, hs, es⟩ := nodal_rel hu N Z X
  rw [et, es]
  obtain ⟨r, hr, er⟩ := Pert.fl hu ((∑ j ∈ range N, _root_.Lagrange.nodalWeight (range N) Z j * c j / (X - Z j) * t j) *
    ((_root_.Lagrange.nodal (range N) Z).eval X * s))
  rw [er]
  refine ⟨fun j => t j * (s * r), fun j hj => ((ht j hj).mul hu (hs.mul hu hr)).mono hu (by omega), ?_⟩
  rw [sum_mul, sum_mul]
  refine sum_congr rfl fun j hj => ?_
  rw [_root_.Lagrange.eval_basis_not_at_node hj (hX j (mem_range.1 hj))]
  rw [div_eq_mul_inv]; ring

end

/-- The point at which the search places `x`: the vertex it found, or `x` itself. -/
noncomputable def snap (R : Rounding) (tol : ℝ) (N : ℕ) (Z : ℕ → ℝ) (x : ℝ) : ℝ :=
  if findVertex R tol N Z x < N then Z (findVertex R tol N Z x) else x

section
variable (hu : R.u ≤ 1 / 2) {tol : ℝ} (htol : 0 < tol) {N : ℕ} (hN : N < 2 ^ 64) {Z : ℕ → ℝ}
  (hsep : ∀ j < N, ∀ k < N, j ≠ k → 4 * tol ≤ |Z j - Z k|)
include hu htol hN hsep

omit hu hN in
theorem inj_of_sep : Set.InjOn Z (range N) :=
  Lagrange.injOn_of_sep htol fun j hj k hk h => by linarith [hsep j hj k hk h]

theorem snap_spec (x : ℝ) : snap R tol N Z x = x ∨ ∃ j < N, snap R tol N Z x = Z j ∧ |Z j - x| < 2 * tol := by
  unfold snap
  rcases findVertex_cases hu htol hN hsep x with ⟨j, hj, e, hn⟩ | ⟨h, -⟩
  · rw [e, if_pos hj]; exact Or.inr ⟨j, hj, rfl, hn⟩
  · rw [if_neg h]; exact Or.inl rfl

/-- Basis functions, anywhere. -/
theorem eval_snap (w0 : ℕ → ℝ) {i : ℕ} (hi : i < N) (x : ℝ) :
    Rel R (5 * N) (eval R N i (findVertex R tol N Z x) Z (weights R N Z w0) x)
      ((_root_.Lagrange.basis (range N) Z i).eval (snap R tol N Z x)) := by
  have hu1 : R.u < 1 := by linarith
  have hinj := inj_of_sep htol hsep
  unfold snap
  rcases findVertex_cases hu htol hN hsep x with ⟨j, hj, e, hn⟩ | ⟨h, hx⟩
  · rw [e, if_pos hj]
    unfold eval
    rw [if_pos hj]
    by_cases hij : i = j
    · subst hij
      rw [if_pos rfl, _root_.Lagrange.eval_basis_self hinj (mem_range.2 hi)]
      exact Rel.refl hu1 _ _
    · rw [if_neg hij, _root_.Lagrange.eval_basis_of_ne hij (mem_range.2 hj)]
      exact Rel.refl hu1 _ _
  · rw [if_neg h]
    exact eval_rel hu1 hi h Z w0 hx

/-- The interpolant, anywhere. -/
theorem interp_snap (w0 : ℕ → ℝ) (x : ℝ) (c : ℕ → ℝ) :
    ∃ t : ℕ → ℝ, (∀ j < N, Pert R (6 * N + 1) (t j)) ∧
      evalInterp R N (findVertex R tol N Z x) Z (weights R N Z w0) x c =
        ∑ j ∈ range N, c j * t j * (_root_.Lagrange.basis (range N) Z j).eval (snap R tol N Z x) := by
  have hu1 : R.u < 1 := by linarith
  have hinj := inj_of_sep htol hsep
  unfold snap
  rcases findVertex_cases hu htol hN hsep x with ⟨i, hi, e, hn⟩ | ⟨h, hx⟩
  · rw [e, if_pos hi]
    refine ⟨fun _ => 1, fun j _ => Pert.one hu1 _, ?_⟩
    unfold evalInterp
    rw [if_pos hi, sum_eq_single i]
    · rw [_root_.Lagrange.eval_basis_self hinj (mem_range.2 hi)]; ring
    · intro j _ hji
      rw [_root_.Lagrange.eval_basis_of_ne hji (mem_range.2 hi), mul_zero]
    · intro hni; exact absurd (mem_range.2 hi) hni
  · rw [if_neg h]
    exact interp_rel hu1 h Z w0 hx c

end

end Verif.Fp.Interp
