import Verif.Geometry.HexTheorems
import Verif.Swage.PatchTheorems

/-!
# Specification for C112: the volume enclosed by quadrilateral patches

The position field has divergence 3, so a third of its flux through the faces of a body is the volume of the body.
-/

namespace Verif.Geometry
open Finset

/-- Component `d` of the bilinear surface through the corners `P 0`, `P 1`, `P 2`, `P 3` (in this order around the patch). -/
def bilinear (P : ℕ → ℕ → ℝ) (d : ℕ) (s t : ℝ) : ℝ :=
  (1 - s) * (1 - t) * P 0 d + s * (1 - t) * P 1 d + s * t * P 2 d + (1 - s) * t * P 3 d

/-- The position and the two tangent vectors of the bilinear surface. -/
noncomputable def patchMatrix (P : ℕ → ℕ → ℝ) (s t : ℝ) : Matrix (Fin 3) (Fin 3) ℝ :=
  !![bilinear P 0 s t, bilinear P 1 s t, bilinear P 2 s t;
     deriv (fun s => bilinear P 0 s t) s, deriv (fun s => bilinear P 1 s t) s, deriv (fun s => bilinear P 2 s t) s;
     deriv (fun t => bilinear P 0 s t) t, deriv (fun t => bilinear P 1 s t) t, deriv (fun t => bilinear P 2 s t) t]

/-- A third of the flux of the position field through the bilinear surface: the integral of
`X · (∂X/∂s × ∂X/∂t) / 3`.  It is the (signed) volume of the cone from the origin to the patch. -/
noncomputable def flux (P : ℕ → ℕ → ℝ) : ℝ := (∫ t in (0:ℝ)..1, ∫ s in (0:ℝ)..1, (patchMatrix P s t).det) / 3

/-- Triple product of three corners. -/
def tri (P : ℕ → ℕ → ℝ) (i j k : ℕ) : ℝ :=
  P i 0 * (P j 1 * P k 2 - P j 2 * P k 1) - P i 1 * (P j 0 * P k 2 - P j 2 * P k 0) + P i 2 * (P j 0 * P k 1 - P j 1 * P k 0)

theorem bilinear_ds (P : ℕ → ℕ → ℝ) (d : ℕ) (s t : ℝ) :
    deriv (fun s => bilinear P d s t) s = (1 - t) * (P 1 d - P 0 d) + t * (P 2 d - P 3 d) := by
  refine deriv_lin _ (bilinear P d 0 t) _ (fun u => ?_) s
  unfold bilinear; ring

theorem bilinear_dt (P : ℕ → ℕ → ℝ) (d : ℕ) (s t : ℝ) :
    deriv (fun t => bilinear P d s t) t = (1 - s) * (P 3 d - P 0 d) + s * (P 2 d - P 1 d) := by
  refine deriv_lin _ (bilinear P d s 0) _ (fun u => ?_) t
  unfold bilinear; ring

theorem det_patch (P : ℕ → ℕ → ℝ) (s t : ℝ) : (patchMatrix P s t).det =
    (1 - s) * (1 - t) * tri P 0 1 3 + s * (1 - t) * tri P 0 1 2 + s * t * tri P 1 2 3 + (1 - s) * t * tri P 0 2 3 := by
  unfold patchMatrix
  rw [Matrix.det_fin_three]
  simp only [bilinear_ds, bilinear_dt]
  simp [bilinear, tri]
  ring

theorem flux_eq (P : ℕ → ℕ → ℝ) : flux P = (tri P 0 1 3 + tri P 0 1 2 + tri P 1 2 3 + tri P 0 2 3) / 12 := by
  unfold flux
  have h1 : ∀ t, ∫ s in (0:ℝ)..1, (patchMatrix P s t).det =
      (1 - t) * (tri P 0 1 3 + tri P 0 1 2) / 2 + t * (tri P 1 2 3 + tri P 0 2 3) / 2 := by
    intro t
    rw [integral_quad _ ((1 - t) * tri P 0 1 3 + t * tri P 0 2 3)
      ((1 - t) * tri P 0 1 2 - (1 - t) * tri P 0 1 3 + t * tri P 1 2 3 - t * tri P 0 2 3) 0
      (fun s => by rw [det_patch]; ring)]
    ring
  simp only [h1]
  rw [integral_quad _ ((tri P 0 1 3 + tri P 0 1 2) / 2)
      ((tri P 1 2 3 + tri P 0 2 3) / 2 - (tri P 0 1 3 + tri P 0 1 2) / 2) 0 (fun t => by ring)]
  ring

/-- Walking around the patch the other way round changes the sign, wherever the walk starts. -/
theorem flux_reverse (P Q : ℕ → ℕ → ℝ) (r : ℕ) (hr : r < 4) (h : ∀ q < 4, ∀ d < 3, Q q d = P ((r + 3 - q) % 4) d) :
    flux Q = - flux P := by
  rw [flux_eq, flux_eq]
  have h0 := h 0 (by omega); have h1 := h 1 (by omega); have h2 := h 2 (by omega); have h3 := h 3 (by omega)
  unfold tri
  rw [h0 0 (by omega), h0 1 (by omega), h0 2 (by omega), h1 0 (by omega), h1 1 (by omega), h1 2 (by omega),
    h2 0 (by omega), h2 1 (by omega), h2 2 (by omega), h3 0 (by omega), h3 1 (by omega), h3 2 (by omega)]
  interval_cases r <;> norm_num <;> ring

theorem flux_congr (P Q : ℕ → ℕ → ℝ) (h : ∀ q < 4, ∀ d < 3, Q q d = P q d) : flux Q = flux P := by
  rw [flux_eq, flux_eq]
  have h0 := h 0 (by omega); have h1 := h 1 (by omega); have h2 := h 2 (by omega); have h3 := h 3 (by omega)
  unfold tri
  rw [h0 0 (by omega), h0 1 (by omega), h0 2 (by omega), h1 0 (by omega), h1 1 (by omega), h1 2 (by omega),
    h2 0 (by omega), h2 1 (by omega), h2 2 (by omega), h3 0 (by omega), h3 1 (by omega), h3 2 (by omega)]

/-- `1` on the upper sides 1, 3, 5 of a cell, whose patches point outwards, and `-1` on the lower sides 0, 2, 4, whose patches
point inwards. -/
def sgn (p : ℕ) : ℝ := if p % 2 = 1 then 1 else -1

set_option maxHeartbeats 4000000 in
/-- The volume of a hexahedron is the flux through its six sides. -/
theorem volume_flux (X : ℕ → ℕ → ℝ) :
    volume X = ∑ p ∈ range 6, sgn p * flux fun q => X (Swage.patchNodeTable.getD (q + p * 4) 0) := by
  have hc : ∀ l < 8, ∀ d < 3, (fun l => X (cCon l)) (cCon l) d = X l d := by
    intro l hl d _
    interval_cases l <;> rfl
  rw [← hexVol_eq X (fun l => X (cCon l)) hc]
  simp only [sum_range_succ, sum_range_zero, flux_eq, sgn, Swage.patchNodeTable, tri, hexVol, cCon]
  norm_num
  ring

end Verif.Geometry
