import Verif.LagrangeElement.Gen

namespace Verif.LagrangeElement
open Verif.Lagrange Spec Polynomial Finset
variable {K : Type*} [Field K] [LinearOrder K] [IsStrictOrderedRing K]

omit [IsStrictOrderedRing K] in
theorem Spec.Separated.lt {tol : K} {N : ℕ} {Z : ℕ → K} (h : Separated tol N Z) : N < 2 ^ 64 := by
  have h1 := h.pos
  have h2 := h.fits
  have : N ≤ N * N * N := by
    calc N = N * 1 * 1 := by ring
      _ ≤ N * N * N := Nat.mul_le_mul (Nat.mul_le_mul_left N h1) h1
  omega

variable {tol : K} {N : ℕ} {Z : ℕ → K}

theorem Spec.Separated.verts (h : Separated tol N Z) : Verts N Z := ⟨h.pos, h.fits, injOn_of_sep h.tol_pos h.sep⟩

/-- The search of `LagrangeElement<Real>` is correct at resolved points. -/
theorem hits (h : Separated tol N Z) {x : K} (hx : Resolved tol N Z x) : Hits N Z x (find tol N Z x) := by
  by_cases hex : ∃ j < N, x = Z j
  · obtain ⟨j, hj, rfl⟩ := hex
    left
    unfold find
    rw [find_of_near h.lt h.sep hj (by simpa using h.tol_pos)]
    exact ⟨hj, rfl⟩
  · have hne : ∀ j < N, x ≠ Z j := fun j hj e => hex ⟨j, hj, e⟩
    exact Or.inr ⟨(C05_none tol N h.lt Z x fun j hj => (hx j hj).resolve_left (hne j hj)).2, hne⟩

theorem eval_ell (h : Separated tol N Z) {x : K} (hx : Resolved tol N Z x) {i : ℕ} (hi : i < N) :
    eval N i (find tol N Z x) Z (weights N Z) x = ell N Z i x := eval_ellAt h.verts (hits h hx) hi

theorem interp_ell (h : Separated tol N Z) {x : K} (hx : Resolved tol N Z x) (c : ℕ → K) :
    evalInterp N (find tol N Z x) Z (weights N Z) x c = ∑ i ∈ range N, c i * ell N Z i x :=
  interp_ellAt h.verts (hits h hx) c

end Verif.LagrangeElement
