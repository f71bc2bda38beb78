import Verif.Fp.LagrangeTheorems

/-!
# Rounding errors of the first derivative of the interpolant
-/

namespace Verif.Fp.Interp
open Verif.Fp Finset Verif.LagrangeElement.Spec

variable {R : Rounding}

/-- The coincident loop: the running sum and the untouched part of the work array. -/
theorem costep_fst (N i : ℕ) (Z w : ℕ → ℝ) (d : ℝ) (c : ℕ → ℝ) :
    (∀ m, N ≤ m → (loop N (fun j (t : (ℕ → ℝ) × ℝ) =>
      let cj := R.fl (R.fl (1 / R.fl (Z i - Z j)) * R.fl (d - t.1 j))
      (store t.1 j cj, if j ≠ i then R.fl (t.2 + R.fl (w j * cj)) else t.2)) (c, 0)).1 m = c m) ∧
    (loop N (fun j (t : (ℕ → ℝ) × ℝ) =>
      let cj := R.fl (R.fl (1 / R.fl (Z i - Z j)) * R.fl (d - t.1 j))
      (store t.1 j cj, if j ≠ i then R.fl (t.2 + R.fl (w j * cj)) else t.2)) (c, 0)).2 =
    loop N (fun j p => if j ≠ i then
      R.fl (p + R.fl (w j * R.fl (R.fl (1 / R.fl (Z i - Z j)) * R.fl (d - c j)))) else p) 0 := by
  induction N with
  | zero => exact ⟨fun m _ => rfl, rfl⟩
  | succ n ih =>
    simp only [loop_succ] at ih ⊢
    refine ⟨fun m hm => ?_, ?_⟩
    · rw [store_ne _ _ (by omega)]; exact ih.1 m (by omega)
    · rw [ih.2, ih.1 n le_rfl]

/-- The non-coincident loop. -/
theorem noncostep_fst (N : ℕ) (Z w : ℕ → ℝ) (X d : ℝ) (c : ℕ → ℝ) :
    (∀ m, N ≤ m → (loop N (fun j (t : (ℕ → ℝ) × ℝ) =>
      let cj := R.fl (R.fl (1 / R.fl (X - Z j)) * R.fl (d - t.1 j))
      (store t.1 j cj, R.fl (t.2 + R.fl (R.fl (w j * cj) / R.fl (X - Z j))))) (c, 0)).1 m = c m) ∧
    (loop N (fun j (t : (ℕ → ℝ) × ℝ) =>
      let cj := R.fl (R.fl (1 / R.fl (X - Z j)) * R.fl (d - t.1 j))
      (store t.1 j cj, R.fl (t.2 + R.fl (R.fl (w j * cj) / R.fl (X - Z j))))) (c, 0)).2 =
    loop N (fun j p => R.fl (p + R.fl (R.fl (w j * R.fl (R.fl (1 / R.fl (X - Z j)) * R.fl (d - c j))) / R.fl (X - Z j)))) 0 := by
  induction N with
  | zero => exact ⟨fun m _ => rfl, rfl⟩
  | succ n ih =>
    simp only [loop_succ] at ih ⊢
    refine ⟨fun m hm => ?_, ?_⟩
    · rw [store_ne _ _ (by omega)]; exact ih.1 m (by omega)
    · rw [ih.2, ih.1 n le_rfl]

section
variable (hu : R.u < 1)
include hu

/-- A running sum that leaves out one index. -/
theorem loop_sum_skip {k : ℕ} (n i : ℕ) (a b : ℕ → ℝ) (h : ∀ j < n, j ≠ i → Rel R k (a j) (b j)) :
    ∃ t : ℕ → ℝ, (∀ j < n, Pert R (k + n) (t j)) ∧
      loop n (fun j p => if j ≠ i then R.fl (p + a j) else p) 0 = ∑ j ∈ range n, if j ≠ i then b j * t j else 0 := by
  induction n with
  | zero => exact ⟨fun _ => 1, fun j hj => absurd hj (Nat.not_lt_zero j), by rw [loop_zero]; simp⟩
  | succ n ih =>
    obtain ⟨t, ht, e⟩ := ih fun j hj => h j (by omega)
    by_cases hn : n = i
    · refine ⟨fun j => if j = n then 1 else t j, fun j hj => ?_, ?_⟩
      · by_cases hjn : j = n
        · simp only [if_pos hjn]; exact Pert.one hu _
        · simp only [if_neg hjn]; exact (ht j (by omega)).mono hu (by omega)
      · rw [loop_succ, sum_range_succ, if_neg (not_not.2 hn), if_neg (not_not.2 hn), add_zero, e]
        refine sum_congr rfl fun j hj => ?_
        have hjn : j ≠ n := by have := mem_range.1 hj; omega
        simp only [if_neg hjn]
    · obtain ⟨s, hs, es⟩ := h n (by omega) hn
      obtain ⟨r, hr, er⟩ := Pert.fl hu (loop n (fun j p => if j ≠ i then R.fl (p + a j) else p) 0 + a n)
      refine ⟨fun j => if j = n then s * r else t j * r, fun j hj => ?_, ?_⟩
      · by_cases hjn : j = n
        · simp only [if_pos hjn]
          exact (hs.mul hu hr).mono hu (by omega)
        · simp only [if_neg hjn]
          exact ((ht j (by omega)).mul hu hr).mono hu (by omega)
      · rw [loop_succ, sum_range_succ, if_pos hn, if_pos hn, er, e, es]
        simp only [if_true, add_mul, sum_mul]
        congr 1
        · refine sum_congr rfl fun j hj => ?_
          have hjn : j ≠ n := by have := mem_range.1 hj; omega
          simp only [if_neg hjn]
          split_ifs <;> ring
        · ring

end

/-- `c_i`-differences times derivatives of the basis functions: the exact first derivative at a vertex. -/
theorem der_exact {N : ℕ} {Z : ℕ → ℝ} (hZ : Set.InjOn Z (range N)) {i : ℕ} (hi : i < N) (c : ℕ → ℝ) :
    (Polynomial.derivative (Lagrange.interpolate (range N) Z c)).eval (Z i) =
      ∑ j ∈ range N, if j ≠ i then Lagrange.nodalWeight (range N) Z j * ((Z i - Z j)⁻¹ * (c i - c j)) *
        (-1 / Lagrange.nodalWeight (range N) Z i) else 0 := by
  have h := Verif.Lagrange.der_core hZ 0 c i (Z i) (Or.inl ⟨hi, rfl⟩) 1 (Or.inl rfl)
  rw [Function.iterate_one] at h
  rw [← h]
  unfold Verif.Lagrange.evalDerInterp Verif.Lagrange.evalDerRun
  rw [if_pos hi]
  simp only [loop_succ, loop_zero]
  unfold Verif.Lagrange.derStepCoincident
  rw [Verif.Lagrange.costep_loop]
  simp only []
  rw [sum_filter, sum_mul]
  refine sum_congr rfl fun j hj => ?_
  rw [Verif.Lagrange.weights_eq N Z 0 i hi, Verif.Lagrange.weights_eq N Z 0 j (mem_range.1 hj)]
  split_ifs with hji
  · rw [div_eq_mul_inv (c i - c j)]; push_cast; ring
  · ring

/-- The derivative of a basis polynomial at another vertex. -/
theorem dell_vertex {N : ℕ} {Z : ℕ → ℝ} (hZ : Set.InjOn Z (range N)) {i j : ℕ} (hi : i < N) (hj : j < N) (hji : j ≠ i) :
    dell N Z j (Z i) = Lagrange.nodalWeight (range N) Z j * (Z i - Z j)⁻¹ / Lagrange.nodalWeight (range N) Z i := by
  have h := der_exact hZ hi (fun m => if m = j then 1 else 0)
  have e : Lagrange.interpolate (range N) Z (fun m => if m = j then (1 : ℝ) else 0) = Lagrange.basis (range N) Z j := by
    rw [Lagrange.interpolate_apply, sum_eq_single j]
    · rw [if_pos rfl, map_one, one_mul]
    · intro b _ hb; rw [if_neg hb, map_zero, zero_mul]
    · intro hn; exact absurd (mem_range.2 hj) hn
  rw [e] at h
  unfold dell
  rw [h, sum_eq_single j]
  · rw [if_pos hji, if_neg (Ne.symm hji), if_pos rfl]; ring
  · intro b _ hb
    rw [if_neg hb, if_neg (Ne.symm hji)]; simp
  · intro hn; exact absurd (mem_range.2 hj) hn

/-- The exact first derivative off the vertices. -/
theorem der_exact_off {N : ℕ} {Z : ℕ → ℝ} (hZ : Set.InjOn Z (range N)) {X : ℝ} (hX : ∀ j < N, X ≠ Z j) (c : ℕ → ℝ) :
    (Polynomial.derivative (Lagrange.interpolate (range N) Z c)).eval X =
      ∑ j ∈ range N, ell N Z j X * (((Lagrange.interpolate (range N) Z c).eval X - c j) / (X - Z j)) := by
  have h := Verif.Lagrange.der_core hZ 0 c N X (Or.inr ⟨lt_irrefl N, hX⟩) 1 (Or.inl rfl)
  rw [Function.iterate_one] at h
  rw [← h]
  unfold Verif.Lagrange.evalDerInterp Verif.Lagrange.evalDerRun
  rw [if_neg (lt_irrefl N)]
  simp only [loop_succ, loop_zero]
  unfold Verif.Lagrange.derStepNonCoincident
  rw [Verif.Lagrange.noncostep_loop, Verif.Lagrange.pL_loop]
  simp only []
  rw [Verif.Lagrange.interp_nonco N Z _ c X (fun j hj => Verif.Lagrange.weights_eq N Z 0 j hj) hX, sum_mul]
  refine sum_congr rfl fun j hj => ?_
  unfold ell
  rw [Verif.Lagrange.weights_eq N Z 0 j (mem_range.1 hj), Lagrange.eval_basis_not_at_node hj (hX j (mem_range.1 hj)),
    div_eq_mul_inv]
  push_cast; ring

section
variable (hu : R.u < 1)
include hu

/-- First derivative at a vertex. -/
theorem der_vertex {N : ℕ} {Z : ℕ → ℝ} (hZ : Set.InjOn Z (range N)) (w0 : ℕ → ℝ) {i : ℕ} (hi : i < N) (x : ℝ) (c : ℕ → ℝ) :
    ∃ t : ℕ → ℝ, (∀ j < N, Pert R (7 * N + 3) (t j)) ∧
      evalDerInterp R N 1 i Z (weights R N Z w0) x c =
        ∑ j ∈ range N, if j ≠ i then (c j - c i) * dell N Z j (Z i) * t j else 0 := by
  unfold evalDerInterp evalDerRun
  rw [if_pos hi]
  simp only [loop_succ, loop_zero]
  unfold derStepCoincident
  simp only []
  rw [(costep_fst N i Z _ (c i) c).2]
  have hterm : ∀ j < N, j ≠ i → Rel R (3 * N + 2)
      (R.fl (weights R N Z w0 j * R.fl (R.fl (1 / R.fl (Z i - Z j)) * R.fl (c i - c j))))
      (Lagrange.nodalWeight (range N) Z j * ((Z i - Z j)⁻¹ * (c i - c j))) := fun j hj _ => by
    have h1 : Rel R 2 (R.fl (1 / R.fl (Z i - Z j))) (Z i - Z j)⁻¹ := by
      rw [← one_div]
      exact ((Rel.refl hu 0 1).fldiv hu (Rel.fl hu (Z i - Z j))).mono hu (by omega)
    exact ((weights_rel hu N Z w0 hj).flmul hu (h1.flmul hu (Rel.fl hu (c i - c j)))).mono hu (by omega)
  obtain ⟨t, ht, et⟩ := loop_sum_skip hu N i _ _ hterm
  have hM : Rel R (3 * N - 1) (R.fl (-R.fl (1 * ((0 + 1 : ℕ) : ℝ)) / weights R N Z w0 i))
      (-1 / Lagrange.nodalWeight (range N) Z i) := by
    have h1 : Rel R 1 (-R.fl (1 * ((0 + 1 : ℕ) : ℝ))) (-1) := by
      obtain ⟨s, hs, es⟩ := Pert.fl hu (1 * ((0 + 1 : ℕ) : ℝ))
      exact ⟨s, hs, by rw [es]; push_cast; ring⟩
    exact (h1.fldiv hu (weights_rel hu N Z w0 hi)).mono hu (by omega)
  obtain ⟨s, hs, es⟩ := hM
  rw [et, es]
  obtain ⟨r, hr, er⟩ := Pert.fl hu ((∑ j ∈ range N, if j ≠ i then
    Lagrange.nodalWeight (range N) Z j * ((Z i - Z j)⁻¹ * (c i - c j)) * t j else 0) *
      (-1 / Lagrange.nodalWeight (range N) Z i * s))
  rw [er, sum_mul, sum_mul]
  refine ⟨fun j => t j * (s * r), fun j hj => ((ht j hj).mul hu (hs.mul hu hr)).mono hu (by omega), ?_⟩
  refine sum_congr rfl fun j hj => ?_
  split_ifs with hji
  · rw [dell_vertex hZ hi (mem_range.1 hj) hji]; ring
  · ring

/-- First derivative off the vertices: `p` is the computed value of the interpolant. -/
theorem der_off {N ic : ℕ} (hic : ¬ ic < N) {Z : ℕ → ℝ} (w0 : ℕ → ℝ) {X : ℝ} (hX : ∀ j < N, X ≠ Z j) (c : ℕ → ℝ) :
    ∃ t : ℕ → ℝ, (∀ j < N, Pert R (6 * N + 7) (t j)) ∧
      evalDerInterp R N 1 ic Z (weights R N Z w0) X c =
        ∑ j ∈ range N, ell N Z j X * ((evalInterp R N ic Z (weights R N Z w0) X c - c j) / (X - Z j)) * t j := by
  set p := evalInterp R N ic Z (weights R N Z w0) X c with hp
  have hp' : R.fl ((sumLoop R N Z (weights R N Z w0) X c).1 * (sumLoop R N Z (weights R N Z w0) X c).2) = p := by
    rw [hp]; unfold evalInterp; rw [if_neg hic]
  unfold evalDerInterp evalDerRun
  rw [if_neg hic]
  simp only [loop_succ, loop_zero]
  rw [hp']
  unfold derStepNonCoincident
  simp only []
  rw [(noncostep_fst N Z _ X p c).2, (sumLoop_fst N Z _ X c).2]
  have hterm : ∀ j < N, Rel R (3 * N + 4)
      (R.fl (R.fl (weights R N Z w0 j * R.fl (R.fl (1 / R.fl (X - Z j)) * R.fl (p - c j))) / R.fl (X - Z j)))
      (Lagrange.nodalWeight (range N) Z j * ((X - Z j)⁻¹ * (p - c j)) / (X - Z j)) := fun j hj => by
    have h1 : Rel R 2 (R.fl (1 / R.fl (X - Z j))) (X - Z j)⁻¹ := by
      rw [← one_div]
      exact ((Rel.refl hu 0 1).fldiv hu (Rel.fl hu (X - Z j))).mono hu (by omega)
    exact (((weights_rel hu N Z w0 hj).flmul hu (h1.flmul hu (Rel.fl hu (p - c j)))).fldiv hu (Rel.fl hu (X - Z j))).mono hu
      (by omega)
  obtain ⟨t, ht, et⟩ := Rel.loop_sum hu N _ _ hterm
  have hM : Rel R (2 * N + 2) (R.fl (loop N (fun j L => R.fl (L * R.fl (X - Z j))) 1 * R.fl (1 * ((0 + 1 : ℕ) : ℝ))))
      ((Lagrange.nodal (range N) Z).eval X) := by
    have h1 : Rel R 1 (R.fl (1 * ((0 + 1 : ℕ) : ℝ))) 1 := by
      obtain ⟨s, hs, es⟩ := Pert.fl hu (1 * ((0 + 1 : ℕ) : ℝ))
      exact ⟨s, hs, by rw [es]; push_cast; ring⟩
    have h := (nodal_rel hu N Z X).flmul hu h1
    rw [mul_one] at h
    exact h.mono hu (by omega)
  obtain ⟨s, hs, es⟩ := hM
  rw [et, es]
  obtain ⟨r, hr, er⟩ := Pert.fl hu ((∑ j ∈ range N,
    Lagrange.nodalWeight (range N) Z j * ((X - Z j)⁻¹ * (p - c j)) / (X - Z j) * t j) *
      ((Lagrange.nodal (range N) Z).eval X * s))
  rw [er, sum_mul, sum_mul]
  refine ⟨fun j => t j * (s * r), fun j hj => ((ht j hj).mul hu (hs.mul hu hr)).mono hu (by omega), ?_⟩
  refine sum_congr rfl fun j hj => ?_
  unfold ell
  rw [Lagrange.eval_basis_not_at_node hj (hX j (mem_range.1 hj)), div_eq_mul_inv, div_eq_mul_inv]
  ring

end

end Verif.Fp.Interp
