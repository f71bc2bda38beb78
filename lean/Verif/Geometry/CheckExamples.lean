import Verif.Geometry.CheckTheorems

/-!
# C74: examples
-/

namespace Verif.Geometry
open Finset
open Verif.DetJac (polyAt partialAt jacDet)
open Verif.Swage.HighOrder (polyMap pt)

/-- The warped cube `(u, v, w) ↦ (u, v, w + u v / 2)`. -/
noncomputable def warped (i a b c : ℕ) : ℝ :=
  if i = 0 then (if a = 1 ∧ b = 0 ∧ c = 0 then 1 else 0)
  else if i = 1 then (if a = 0 ∧ b = 1 ∧ c = 0 then 1 else 0)
  else (if a = 0 ∧ b = 0 ∧ c = 1 then 1 else if a = 1 ∧ b = 1 ∧ c = 0 then 1 / 2 else 0)

theorem warped_eq (X : ℕ → ℝ) : polyAt 1 (warped 0) X = X 0 ∧ polyAt 1 (warped 1) X = X 1 ∧
    polyAt 1 (warped 2) X = X 2 + X 0 * X 1 / 2 := by
  unfold polyAt polyMap
  simp only [sum_range_succ, sum_range_zero, warped]
  norm_num
  ring

theorem warped_det (X : ℕ → ℝ) : jacDet (fun a => polyAt 1 (warped a)) X = 1 := by
  have h0 : polyAt 1 (warped 0) = fun X => X 0 := by funext X; exact (warped_eq X).1
  have h1 : polyAt 1 (warped 1) = fun X => X 1 := by funext X; exact (warped_eq X).2.1
  have h2 : polyAt 1 (warped 2) = fun X => X 2 + X 0 * X 1 / 2 := by funext X; exact (warped_eq X).2.2
  have d : ∀ (f : ℝ → ℝ) (p q : ℝ) (_ : ∀ t, f t = p + q * t) (t : ℝ), deriv f t = q := deriv_lin
  have p00 : partialAt (polyAt 1 (warped 0)) 0 X = 1 := by rw [h0]; exact d _ 0 _ (by intro t; simp) _
  have p01 : partialAt (polyAt 1 (warped 0)) 1 X = 0 := by rw [h0]; exact d _ (X 0) _ (by intro t; simp) _
  have p02 : partialAt (polyAt 1 (warped 0)) 2 X = 0 := by rw [h0]; exact d _ (X 0) _ (by intro t; simp) _
  have p10 : partialAt (polyAt 1 (warped 1)) 0 X = 0 := by rw [h1]; exact d _ (X 1) _ (by intro t; simp) _
  have p11 : partialAt (polyAt 1 (warped 1)) 1 X = 1 := by rw [h1]; exact d _ 0 _ (by intro t; simp) _
  have p12 : partialAt (polyAt 1 (warped 1)) 2 X = 0 := by rw [h1]; exact d _ (X 1) _ (by intro t; simp) _
  have p20 : partialAt (polyAt 1 (warped 2)) 0 X = X 1 / 2 := by rw [h2]; exact d _ (X 2) _ (by intro t; simp; ring) _
  have p21 : partialAt (polyAt 1 (warped 2)) 1 X = X 0 / 2 := by rw [h2]; exact d _ (X 2) _ (by intro t; simp; ring) _
  have p22 : partialAt (polyAt 1 (warped 2)) 2 X = 1 := by
    rw [h2]; exact d _ (X 0 * X 1 / 2) _ (by intro t; simp; ring) _
  unfold jacDet
  rw [Matrix.det_fin_three]
  simp only [Matrix.of_apply, Fin.val_zero, Fin.val_one, Fin.val_two, p00, p01, p02, p10, p11, p12, p20, p21, p22]
  ring

theorem warped_volume : imageVolume (fun a => polyAt 1 (warped a)) = 8 := by
  unfold imageVolume
  simp only [warped_det]
  norm_num

/-- Non-vacuity: the warped cube meets the hypotheses of `C74_closed`; the tally is below `1e-26`. -/
example (q : RefElem.Junk) (m0 : ℕ → ℕ) : ∃ (m : Mesh) (r : RefElem.Ref) (s s' : Jac) (t : ℕ → ℝ), MeshOK 1 m ∧
    RefElem.init 1 q = some r ∧ CurvedBy 1 m0 r m 0 warped ∧
    patchJacobian m (RefElem.verts1D 1 ^ 3) (HexN.vertNodeMap 1 m0) r s = some s' ∧ surfTally m r s' 0 = some t ∧
    ∀ i < 3, |t i| ≤ 1 / 10 ^ 26 := by
  obtain ⟨r, hr, R⟩ := RefElem.init_run 1 q
  have hc := oneElement_curved 1 m0 r warped
  set m := oneElement 1 fun n i => polyAt (degree 1) (warped i) (r.nodePos.val n) with hm
  obtain ⟨r', s', h1, h2, h3⟩ := C74_closed 1 (by norm_num) q m0 m (oneElement_ok _ _)
    ⟨⟨_, fun _ _ _ => 0⟩, ⟨_, fun _ _ _ => 0⟩, ⟨_, fun _ => 0⟩⟩ ⟨rfl, rfl, rfl⟩
  obtain rfl : r' = r := Option.some.inj (h1.symm.trans hr)
  obtain ⟨t, t1, t2⟩ := h3 0 (show 0 < 1 by norm_num) warped hc (fun l _ => by
    rw [show degree 1 = 1 from rfl, warped_det]; norm_num)
  refine ⟨m, r', _, s', t, oneElement_ok _ _, hr, hc, h2, t1, ?_⟩
  intro i hi
  refine (t2 i hi).trans ?_
  rw [show degree 1 = 1 from rfl]
  unfold coefSum
  interval_cases i <;> simp only [sum_range_succ, sum_range_zero, warped] <;> norm_num

/-- Non-vacuity: the volume of the warped cube. -/
example (q : RefElem.Junk) (m0 : ℕ → ℕ) : ∃ (m : Mesh) (r : RefElem.Ref) (s s' : Jac) (V : ℝ), MeshOK 1 m ∧
    RefElem.init 1 q = some r ∧ CurvedBy 1 m0 r m 0 warped ∧
    cellJacobian m (RefElem.verts1D 1 ^ 3) (HexN.vertNodeMap 1 m0) r s = some s' ∧ checkVolume m r s'.det 0 = some V ∧
    |V - 8| ≤ 1 / 10 ^ 26 := by
  obtain ⟨r, hr, R⟩ := RefElem.init_run 1 q
  have hc := oneElement_curved 1 m0 r warped
  set m := oneElement 1 fun n i => polyAt (degree 1) (warped i) (r.nodePos.val n) with hm
  obtain ⟨r', s', h1, h2, h3⟩ := C74_volume 1 le_rfl (by norm_num) q m0 m (oneElement_ok _ _) (fun _ l => l)
    (by
      intro e he l hl
      have he : e = 0 := by have : m.elems = 1 := rfl; omega
      subst he
      rw [zero_mul, zero_add]
      exact ⟨Arr.get_lt (a := ⟨RefElem.cells1D 1 ^ 3, id⟩) hl, hl⟩)
    (by
      intro e l e' l' he _ he' _ h
      have : m.elems = 1 := rfl
      exact ⟨by omega, h⟩)
    ⟨⟨_, fun _ _ _ => 0⟩, ⟨_, fun _ _ _ => 0⟩, ⟨_, fun _ => 0⟩⟩ ⟨rfl, rfl, rfl⟩
  obtain rfl : r' = r := Option.some.inj (h1.symm.trans hr)
  obtain ⟨V, v1, v2⟩ := h3 0 (show 0 < 1 by norm_num) warped hc
  refine ⟨m, r', _, s', V, oneElement_ok _ _, hr, hc, h2, v1, ?_⟩
  rw [warped_volume] at v2
  refine v2.trans ?_
  unfold coefSum
  simp only [sum_range_succ, sum_range_zero, warped]
  norm_num

/-- Non-vacuity of `C74_affine`: a sheared brick. -/
example (q : RefElem.Junk) (m0 : ℕ → ℕ) : ∃ (m : Mesh) (r : RefElem.Ref) (s s' : Jac) (t : ℕ → ℝ), MeshOK 2 m ∧
    RefElem.init 2 q = some r ∧
    patchJacobian m (RefElem.verts1D 2 ^ 3) (HexN.vertNodeMap 2 m0) r s = some s' ∧ surfTally m r s' 0 = some t ∧
    ∀ i < 3, t i = 0 := by
  obtain ⟨r, hr, R⟩ := RefElem.init_run 2 q
  set A : ℕ → ℕ → ℝ := fun i j => if i = 0 then (if j = 0 then 2 else if j = 1 then 1 else 0) else if i = j then 3 else 0 with hA
  set m := oneElement 2 fun n i => A i 0 * r.nodePos.val n 0 + A i 1 * r.nodePos.val n 1 + A i 2 * r.nodePos.val n 2 + 5 with hm
  obtain ⟨r', s', h1, h2, h3⟩ := C74_affine 2 (by norm_num) q m0 m (oneElement_ok _ _)
    ⟨⟨_, fun _ _ _ => 0⟩, ⟨_, fun _ _ _ => 0⟩, ⟨_, fun _ => 0⟩⟩ ⟨rfl, rfl, rfl⟩
  obtain rfl : r' = r := Option.some.inj (h1.symm.trans hr)
  obtain ⟨t, t1, t2⟩ := h3 0 (show 0 < 1 by norm_num) A (fun _ => 5) (by
    rw [Matrix.det_fin_three]; simp [Jacobian.mat, hA]) (by
    intro v _ i _
    show (fun n i => A i 0 * r'.nodePos.val n 0 + A i 1 * r'.nodePos.val n 1 + A i 2 * r'.nodePos.val n 2 + 5) (0 * _ + _) i = _
    rw [zero_mul, zero_add])
  exact ⟨m, r', _, s', t, oneElement_ok _ _, hr, h2, t1, t2⟩

end Verif.Geometry
