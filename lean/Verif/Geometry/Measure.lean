import Verif.Geometry.HexTheorems
import Mathlib.MeasureTheory.Function.Jacobian
import Mathlib.MeasureTheory.Integral.Prod
import Mathlib.MeasureTheory.Constructions.Pi
import Mathlib.MeasureTheory.Measure.Lebesgue.EqHaar
import Mathlib.MeasureTheory.Integral.IntervalIntegral.Basic

/-!
# C46: the cell volume is the Lebesgue measure of the cell
-/

namespace Verif.Geometry
open Finset MeasureTheory

/-- Fubini, one coordinate split off. -/
theorem cube_split {n : ℕ} (f : (Fin (n + 1) → ℝ) → ℝ) (hf : Continuous f) :
    ∫ x in Set.Icc (0 : Fin (n + 1) → ℝ) 1, f x =
      ∫ t in (0:ℝ)..1, ∫ y in Set.Icc (0 : Fin n → ℝ) 1, f ((Fin.last n).insertNth t y) := by
  have hem : MeasurePreserving (MeasurableEquiv.piFinSuccAbove (fun _ : Fin (n + 1) => ℝ) (Fin.last n)).symm :=
    (volume_preserving_piFinSuccAbove (fun _ : Fin (n + 1) => ℝ) (Fin.last n)).symm _
  have hpre : ((MeasurableEquiv.piFinSuccAbove (fun _ : Fin (n + 1) => ℝ) (Fin.last n)).symm ⁻¹' Set.Icc 0 1) =
      Set.Icc (0:ℝ) 1 ×ˢ Set.Icc (0 : Fin n → ℝ) 1 :=
    ((Fin.insertNthOrderIso (fun _ => ℝ) (Fin.last n)).preimage_Icc _ _).trans (Set.Icc_prod_eq _ _)
  have hc : Continuous fun z : ℝ × (Fin n → ℝ) => f ((MeasurableEquiv.piFinSuccAbove (fun _ : Fin (n + 1) => ℝ) (Fin.last n)).symm z) := by
    refine hf.comp ?_
    exact Continuous.finInsertNth (A := fun _ => ℝ) (Fin.last n) continuous_fst continuous_snd
  rw [← hem.map_eq, setIntegral_map_equiv, hpre, Measure.volume_eq_prod, setIntegral_prod,
    intervalIntegral.integral_of_le zero_le_one, integral_Icc_eq_integral_Ioc]
  · rfl
  · rw [← Measure.volume_eq_prod]
    exact hc.continuousOn.integrableOn_compact (isCompact_Icc.prod isCompact_Icc)

/-- Fubini on the unit cube of `ℝ³`. -/
theorem cube_integral (g : ℝ → ℝ → ℝ → ℝ) (hg : Continuous fun x : Fin 3 → ℝ => g (x 0) (x 1) (x 2)) :
    ∫ x in Set.Icc (0 : Fin 3 → ℝ) 1, g (x 0) (x 1) (x 2) =
      ∫ w in (0:ℝ)..1, ∫ v in (0:ℝ)..1, ∫ u in (0:ℝ)..1, g u v w := by
  have c2 : ∀ w, Continuous fun y : Fin 2 → ℝ => g (y 0) (y 1) w := fun w =>
    hg.comp (g := fun x : Fin 3 → ℝ => g (x 0) (x 1) (x 2)) (f := fun y : Fin 2 → ℝ => ![y 0, y 1, w]) (by fun_prop)
  have c1 : ∀ v w, Continuous fun y : Fin 1 → ℝ => g (y 0) v w := fun v w =>
    hg.comp (g := fun x : Fin 3 → ℝ => g (x 0) (x 1) (x 2)) (f := fun y : Fin 1 → ℝ => ![y 0, v, w]) (by fun_prop)
  rw [cube_split _ hg]
  congr 1; funext w
  refine (cube_split (fun y : Fin 2 → ℝ => g (y 0) (y 1) w) (c2 w)).trans ?_
  congr 1; funext v
  refine (cube_split (fun y : Fin 1 → ℝ => g (y 0) v w) (c1 v w)).trans ?_
  congr 1; funext u
  have h0 : (Set.Icc (0 : Fin 0 → ℝ) 1) = Set.univ := by
    ext x; simp [Subsingleton.elim x 0, Subsingleton.elim (1 : Fin 0 → ℝ) 0]
  rw [h0, Measure.restrict_univ, integral_unique]
  simp [measureReal_def, volume_pi]

/-- The trilinear map of the unit cube of `ℝ³`. -/
def triMap (X : ℕ → ℕ → ℝ) (x : Fin 3 → ℝ) : Fin 3 → ℝ := fun d => trilinear X d (x 0) (x 1) (x 2)

theorem jac_entry (X : ℕ → ℕ → ℝ) (u v w : ℝ) (d : Fin 3) :
    jacobianMatrix X u v w d 0 = (co X d).du v w ∧ jacobianMatrix X u v w d 1 = (co X d).dv u w ∧
      jacobianMatrix X u v w d 2 = (co X d).dw u v := by
  fin_cases d <;> exact ⟨du_eq .., dv_eq .., dw_eq ..⟩

/-- Its derivative is the Jacobian matrix. -/
theorem triMap_deriv (X : ℕ → ℕ → ℝ) (x : Fin 3 → ℝ) : HasFDerivAt (triMap X)
    (LinearMap.toContinuousLinearMap (Matrix.toLin' (jacobianMatrix X (x 0) (x 1) (x 2)))) x := by
  rw [hasFDerivAt_pi']
  intro d
  have e : (fun y => triMap X y d) = fun y : Fin 3 → ℝ => (co X d).at (y 0) (y 1) (y 2) := by
    funext y; exact trilinear_eq ..
  rw [e]
  have h0 := hasFDerivAt_apply (𝕜 := ℝ) (F' := fun _ : Fin 3 => ℝ) 0 x
  have h1 := hasFDerivAt_apply (𝕜 := ℝ) (F' := fun _ : Fin 3 => ℝ) 1 x
  have h2 := hasFDerivAt_apply (𝕜 := ℝ) (F' := fun _ : Fin 3 => ℝ) 2 x
  have H := (((((((hasFDerivAt_const (co X d).a x).add (h0.const_mul (co X d).b)).add (h1.const_mul (co X d).c)).add
    (h2.const_mul (co X d).d)).add ((h0.mul h1).const_mul (co X d).e)).add ((h1.mul h2).const_mul (co X d).f)).add
    ((h0.mul h2).const_mul (co X d).g)).add (((h0.mul h1).mul h2).const_mul (co X d).h)
  refine H.congr_fderiv ?_
  ext v
  obtain ⟨j0, j1, j2⟩ := jac_entry X (x 0) (x 1) (x 2) d
  simp [Matrix.toLin'_apply, Matrix.mulVec, dotProduct, Fin.sum_univ_three, j0, j1, j2, Co.du, Co.dv, Co.dw]
  ring

theorem det_continuous (X : ℕ → ℕ → ℝ) : Continuous fun x : Fin 3 → ℝ => (jacobianMatrix X (x 0) (x 1) (x 2)).det := by
  simp only [det_eq, cdet, Co.du, Co.dv, Co.dw]
  fun_prop

/-- If the trilinear map is injective on the unit cube and its Jacobian determinant is nonnegative there, `volume` is
the Lebesgue measure of the hexahedron. -/
theorem volume_measure (X : ℕ → ℕ → ℝ) (hinj : Set.InjOn (triMap X) (Set.Icc 0 1))
    (hpos : ∀ x ∈ Set.Icc (0 : Fin 3 → ℝ) 1, 0 ≤ (jacobianMatrix X (x 0) (x 1) (x 2)).det) :
    MeasureTheory.volume (triMap X '' Set.Icc 0 1) = ENNReal.ofReal (volume X) := by
  rw [← lintegral_abs_det_fderiv_eq_addHaar_image MeasureTheory.volume measurableSet_Icc
    (fun x _ => (triMap_deriv X x).hasFDerivWithinAt) hinj]
  simp only [LinearMap.det_toContinuousLinearMap, LinearMap.det_toLin']
  have c := det_continuous X
  rw [volume, ← cube_integral (fun u v w => (jacobianMatrix X u v w).det) c,
    ofReal_integral_eq_lintegral_ofReal (c.continuousOn.integrableOn_compact isCompact_Icc)]
  · refine setLIntegral_congr_fun measurableSet_Icc fun x hx => ?_
    rw [abs_of_nonneg (hpos x hx)]
  · exact (ae_restrict_mem measurableSet_Icc).mono fun x hx => hpos x hx

/-- **C46 (Lebesgue measure).**  After `get_vol_hex`, for every cell that is not inverted (the trilinear map through its
nodes is injective on the unit cube and its Jacobian determinant is nonnegative), `cell_vol` is the Lebesgue measure of
the region the cell occupies. -/
theorem C46_measure (m : Mesh) (h : CellsOK m) (verts0 : ℕ → ℕ → ℝ) (s : Vol) (h1 : s.cell.size = m.cells)
    (h2 : s.coords.size = m.cells) :
    ∃ s', volHex m verts0 s = some s' ∧ ∀ c < m.cells,
      Set.InjOn (triMap fun l d => m.coords.val (m.nodesInCell.val (c * 8 + l)) d) (Set.Icc 0 1) →
      (∀ x ∈ Set.Icc (0 : Fin 3 → ℝ) 1,
        0 ≤ (jacobianMatrix (fun l d => m.coords.val (m.nodesInCell.val (c * 8 + l)) d) (x 0) (x 1) (x 2)).det) →
      ∃ v, s'.cell.get c = some v ∧
        MeasureTheory.volume (triMap (fun l d => m.coords.val (m.nodesInCell.val (c * 8 + l)) d) '' Set.Icc 0 1) =
          ENNReal.ofReal v := by
  obtain ⟨s', e, e2⟩ := C46_volume m h verts0 s h1 h2
  exact ⟨s', e, fun c hc hi hp => ⟨_, e2 c hc, volume_measure _ hi hp⟩⟩

/-- A tapered hexahedron (not a parallelepiped): `(u, v, w) ↦ (u (1 + w), v, w)`. -/
def taper (l d : ℕ) : ℝ :=
  if d = 0 then (l % 2 : ℕ) * (1 + (l / 4 : ℕ)) else if d = 1 then (l / 2 % 2 : ℕ) else (l / 4 : ℕ)

/-- It meets the hypotheses of `C46_measure`. -/
example : Set.InjOn (triMap taper) (Set.Icc 0 1) ∧
    ∀ x ∈ Set.Icc (0 : Fin 3 → ℝ) 1, 0 ≤ (jacobianMatrix taper (x 0) (x 1) (x 2)).det := by
  have e : ∀ x : Fin 3 → ℝ, triMap taper x = ![x 0 * (1 + x 2), x 1, x 2] := by
    intro x; funext d
    simp only [triMap, trilinear_eq]
    fin_cases d <;> simp [co, Co.at, taper] <;> ring
  constructor
  · intro x hx y hy hxy
    rw [e, e] at hxy
    have a0 := congrFun hxy 0; have a1 := congrFun hxy 1; have a2 := congrFun hxy 2
    simp at a0 a1 a2
    rw [a2] at a0
    have hp : 0 < 1 + y 2 := by have := hy.1 2; simp at this; linarith
    have a0' := mul_right_cancel₀ hp.ne' a0
    funext d; fin_cases d
    · exact a0'
    · exact a1
    · exact a2
  · intro x hx
    have := hx.1 2
    simp at this
    rw [det_eq]
    simp [cdet, Co.du, Co.dv, Co.dw, co, taper]
    nlinarith

end Verif.Geometry
