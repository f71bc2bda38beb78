import Verif.Geometry.Model
import Mathlib.Analysis.SpecialFunctions.Integrals.Basic
import Mathlib.LinearAlgebra.Matrix.Determinant.Basic
import Mathlib.Tactic.LinearCombination

/-!
# The volume expression of `get_vol_hex` is the integral of the Jacobian determinant of the trilinear map
-/

namespace Verif.Geometry
open Finset

/-- Shape function of vertex `l` of the unit cube, vertices numbered in i-j-k order. -/
def shape (l : ℕ) (u v w : ℝ) : ℝ :=
  (if l % 2 = 0 then 1 - u else u) * (if l / 2 % 2 = 0 then 1 - v else v) * (if l / 4 = 0 then 1 - w else w)

/-- Component `d` of the trilinear map of the unit cube to the hexahedron with vertices `X l`. -/
def trilinear (X : ℕ → ℕ → ℝ) (d : ℕ) (u v w : ℝ) : ℝ := ∑ l ∈ range 8, shape l u v w * X l d

/-- The Jacobian matrix of the trilinear map. -/
noncomputable def jacobianMatrix (X : ℕ → ℕ → ℝ) (u v w : ℝ) : Matrix (Fin 3) (Fin 3) ℝ :=
  !![deriv (fun t => trilinear X 0 t v w) u, deriv (fun t => trilinear X 0 u t w) v, deriv (fun t => trilinear X 0 u v t) w;
     deriv (fun t => trilinear X 1 t v w) u, deriv (fun t => trilinear X 1 u t w) v, deriv (fun t => trilinear X 1 u v t) w;
     deriv (fun t => trilinear X 2 t v w) u, deriv (fun t => trilinear X 2 u t w) v, deriv (fun t => trilinear X 2 u v t) w]

/-- Volume of the trilinear hexahedron: the integral of the Jacobian determinant over the unit cube. -/
noncomputable def volume (X : ℕ → ℕ → ℝ) : ℝ :=
  ∫ w in (0:ℝ)..1, ∫ v in (0:ℝ)..1, ∫ u in (0:ℝ)..1, (jacobianMatrix X u v w).det

/-- Monomial coefficients of the trilinear map. -/
structure Co where
  a : ℝ
  b : ℝ
  c : ℝ
  d : ℝ
  e : ℝ
  f : ℝ
  g : ℝ
  h : ℝ

/-- `a + b u + c v + d w + e u v + f v w + g u w + h u v w`. -/
def Co.at (c : Co) (u v w : ℝ) : ℝ :=
  c.a + c.b * u + c.c * v + c.d * w + c.e * (u * v) + c.f * (v * w) + c.g * (u * w) + c.h * (u * v * w)

def co (X : ℕ → ℕ → ℝ) (d : ℕ) : Co :=
  ⟨X 0 d, X 1 d - X 0 d, X 2 d - X 0 d, X 4 d - X 0 d, X 3 d - X 2 d - X 1 d + X 0 d, X 6 d - X 4 d - X 2 d + X 0 d,
    X 5 d - X 4 d - X 1 d + X 0 d, X 7 d - X 6 d - X 5 d - X 3 d + X 4 d + X 2 d + X 1 d - X 0 d⟩

theorem trilinear_eq (X : ℕ → ℕ → ℝ) (d : ℕ) (u v w : ℝ) : trilinear X d u v w = (co X d).at u v w := by
  simp only [trilinear, sum_range_succ, sum_range_zero, shape, Co.at, co]
  norm_num
  ring

def Co.du (c : Co) (v w : ℝ) : ℝ := c.b + c.e * v + c.g * w + c.h * (v * w)
def Co.dv (c : Co) (u w : ℝ) : ℝ := c.c + c.e * u + c.f * w + c.h * (u * w)
def Co.dw (c : Co) (u v : ℝ) : ℝ := c.d + c.f * v + c.g * u + c.h * (u * v)

theorem deriv_lin (f : ℝ → ℝ) (p q : ℝ) (h : ∀ t, f t = p + q * t) (t : ℝ) : deriv f t = q := by
  have : HasDerivAt f q t := by
    have h' : f = fun t => p + q * t := funext h
    rw [h']
    simpa using ((hasDerivAt_id t).const_mul q).const_add p
  exact this.deriv

theorem du_eq (X : ℕ → ℕ → ℝ) (d : ℕ) (u v w : ℝ) : deriv (fun t => trilinear X d t v w) u = (co X d).du v w := by
  refine deriv_lin _ ((co X d).at 0 v w) _ (fun t => ?_) u
  rw [trilinear_eq]; unfold Co.at Co.du; ring

theorem dv_eq (X : ℕ → ℕ → ℝ) (d : ℕ) (u v w : ℝ) : deriv (fun t => trilinear X d u t w) v = (co X d).dv u w := by
  refine deriv_lin _ ((co X d).at u 0 w) _ (fun t => ?_) v
  rw [trilinear_eq]; unfold Co.at Co.dv; ring

theorem dw_eq (X : ℕ → ℕ → ℝ) (d : ℕ) (u v w : ℝ) : deriv (fun t => trilinear X d u v t) w = (co X d).dw u v := by
  refine deriv_lin _ ((co X d).at u v 0) _ (fun t => ?_) w
  rw [trilinear_eq]; unfold Co.at Co.dw; ring

/-- The determinant in terms of the coefficients. -/
def cdet (x y z : Co) (u v w : ℝ) : ℝ :=
  x.du v w * (y.dv u w * z.dw u v - y.dw u v * z.dv u w) - x.dv u w * (y.du v w * z.dw u v - y.dw u v * z.du v w) +
    x.dw u v * (y.du v w * z.dv u w - y.dv u w * z.du v w)

theorem det_eq (X : ℕ → ℕ → ℝ) (u v w : ℝ) : (jacobianMatrix X u v w).det = cdet (co X 0) (co X 1) (co X 2) u v w := by
  unfold jacobianMatrix
  rw [Matrix.det_fin_three]
  simp only [du_eq, dv_eq, dw_eq]
  simp [cdet]
  ring

/-- Simpson's rule is exact for quadratic functions. -/
theorem integral_quad (f : ℝ → ℝ) (p q r : ℝ) (h : ∀ t, f t = p + q * t + r * t ^ 2) :
    ∫ t in (0:ℝ)..1, f t = p + q / 2 + r / 3 := by
  have h' : f = fun t => p + q * t + r * t ^ 2 := funext h
  rw [h', intervalIntegral.integral_add, intervalIntegral.integral_add]
  · rw [intervalIntegral.integral_const_mul, intervalIntegral.integral_const_mul, integral_id, integral_pow]
    simp only [intervalIntegral.integral_const, smul_eq_mul]
    norm_num; ring
  all_goals exact Continuous.intervalIntegrable (by fun_prop) _ _

/-- Polynomial of degree at most one / two. -/
def Lin (f : ℝ → ℝ) : Prop := ∃ p q, ∀ t, f t = p + q * t
def Quad (f : ℝ → ℝ) : Prop := ∃ p q r, ∀ t, f t = p + q * t + r * t ^ 2

theorem Lin.const (c : ℝ) : Lin fun _ => c := ⟨c, 0, fun t => by ring⟩
theorem Lin.quad {f : ℝ → ℝ} (h : Lin f) : Quad f := by
  obtain ⟨p, q, h⟩ := h; exact ⟨p, q, 0, fun t => by rw [h]; ring⟩
theorem Lin.mul {f g : ℝ → ℝ} (hf : Lin f) (hg : Lin g) : Quad fun t => f t * g t := by
  obtain ⟨p, q, h⟩ := hf
  obtain ⟨p', q', h'⟩ := hg
  exact ⟨p * p', p * q' + q * p', q * q', fun t => by simp only [h, h']; ring⟩
theorem Quad.add {f g : ℝ → ℝ} (hf : Quad f) (hg : Quad g) : Quad fun t => f t + g t := by
  obtain ⟨p, q, r, h⟩ := hf
  obtain ⟨p', q', r', h'⟩ := hg
  exact ⟨p + p', q + q', r + r', fun t => by simp only [h, h']; ring⟩
theorem Quad.sub {f g : ℝ → ℝ} (hf : Quad f) (hg : Quad g) : Quad fun t => f t - g t := by
  obtain ⟨p, q, r, h⟩ := hf
  obtain ⟨p', q', r', h'⟩ := hg
  exact ⟨p - p', q - q', r - r', fun t => by simp only [h, h']; ring⟩
theorem Quad.smul {f : ℝ → ℝ} (c : ℝ) (hf : Quad f) : Quad fun t => c * f t := by
  obtain ⟨p, q, r, h⟩ := hf
  exact ⟨c * p, c * q, c * r, fun t => by simp only [h]; ring⟩

/-- Simpson's value. -/
noncomputable def simpson (f : ℝ → ℝ) : ℝ := (f 0 + 4 * f (1 / 2) + f 1) / 6

theorem Quad.integral {f : ℝ → ℝ} (hf : Quad f) : ∫ t in (0:ℝ)..1, f t = simpson f := by
  obtain ⟨p, q, r, h⟩ := hf
  rw [integral_quad f p q r h, simpson, h, h, h]; ring

theorem cdet_u (x y z : Co) (v w : ℝ) : Quad fun u => cdet x y z u v w := by
  have hv : ∀ c : Co, Lin fun u => c.dv u w := fun c => ⟨c.c + c.f * w, c.e + c.h * w, fun t => by unfold Co.dv; ring⟩
  have hw : ∀ c : Co, Lin fun u => c.dw u v := fun c => ⟨c.d + c.f * v, c.g + c.h * v, fun t => by unfold Co.dw; ring⟩
  have e : ∀ u, cdet x y z u v w = x.du v w * (y.dv u w * z.dw u v - y.dw u v * z.dv u w) +
      y.du v w * (x.dw u v * z.dv u w - x.dv u w * z.dw u v) + z.du v w * (x.dv u w * y.dw u v - x.dw u v * y.dv u w) := by
    intro u; unfold cdet; ring
  simp only [e]
  exact (((((hv y).mul (hw z)).sub ((hw y).mul (hv z))).smul _).add ((((hw x).mul (hv z)).sub ((hv x).mul (hw z))).smul _)).add
    ((((hv x).mul (hw y)).sub ((hw x).mul (hv y))).smul _)

theorem cdet_v (x y z : Co) (u w : ℝ) : Quad fun v => cdet x y z u v w := by
  have hu : ∀ c : Co, Lin fun v => c.du v w := fun c => ⟨c.b + c.g * w, c.e + c.h * w, fun t => by unfold Co.du; ring⟩
  have hw : ∀ c : Co, Lin fun v => c.dw u v := fun c => ⟨c.d + c.g * u, c.f + c.h * u, fun t => by unfold Co.dw; ring⟩
  have e : ∀ v, cdet x y z u v w = x.dv u w * (y.dw u v * z.du v w - y.du v w * z.dw u v) +
      y.dv u w * (x.du v w * z.dw u v - x.dw u v * z.du v w) + z.dv u w * (x.dw u v * y.du v w - x.du v w * y.dw u v) := by
    intro v; unfold cdet; ring
  simp only [e]
  exact (((((hw y).mul (hu z)).sub ((hu y).mul (hw z))).smul _).add ((((hu x).mul (hw z)).sub ((hw x).mul (hu z))).smul _)).add
    ((((hw x).mul (hu y)).sub ((hu x).mul (hw y))).smul _)

theorem cdet_w (x y z : Co) (u v : ℝ) : Quad fun w => cdet x y z u v w := by
  have hu : ∀ c : Co, Lin fun w => c.du v w := fun c => ⟨c.b + c.e * v, c.g + c.h * v, fun t => by unfold Co.du; ring⟩
  have hv : ∀ c : Co, Lin fun w => c.dv u w := fun c => ⟨c.c + c.e * u, c.f + c.h * u, fun t => by unfold Co.dv; ring⟩
  have e : ∀ w, cdet x y z u v w = x.dw u v * (y.du v w * z.dv u w - y.dv u w * z.du v w) +
      y.dw u v * (x.dv u w * z.du v w - x.du v w * z.dv u w) + z.dw u v * (x.du v w * y.dv u w - x.dv u w * y.du v w) := by
    intro w; unfold cdet; ring
  simp only [e]
  exact (((((hu y).mul (hv z)).sub ((hv y).mul (hu z))).smul _).add ((((hv x).mul (hu z)).sub ((hu x).mul (hv z))).smul _)).add
    ((((hu x).mul (hv y)).sub ((hv x).mul (hu y))).smul _)

theorem Quad.simpson' {f : ℝ → ℝ → ℝ} (h : ∀ s, Quad fun t => f s t) : Quad fun t => simpson fun s => f s t := by
  have e : (fun t => simpson fun s => f s t) = fun t => (1 / 6) * (f 0 t + 4 * f (1 / 2) t + f 1 t) := by
    funext t; unfold simpson; ring
  rw [e]
  exact (((h 0).add ((h (1 / 2)).smul 4)).add (h 1)).smul _

theorem integral_cdet (x y z : Co) : ∫ w in (0:ℝ)..1, ∫ v in (0:ℝ)..1, ∫ u in (0:ℝ)..1, cdet x y z u v w =
    simpson fun w => simpson fun v => simpson fun u => cdet x y z u v w := by
  have h1 : ∀ v w, ∫ u in (0:ℝ)..1, cdet x y z u v w = simpson fun u => cdet x y z u v w :=
    fun v w => (cdet_u x y z v w).integral
  simp only [h1]
  have h2 : ∀ w, ∫ v in (0:ℝ)..1, (simpson fun u => cdet x y z u v w) = simpson fun v => simpson fun u => cdet x y z u v w :=
    fun w => (Quad.simpson' fun u => cdet_v x y z u w).integral
  simp only [h2]
  exact (Quad.simpson' fun v => Quad.simpson' (f := fun u w => cdet x y z u v w) fun u => cdet_w x y z u v).integral

/-- Vertex values of the trilinear function, in the order of the local arrays `x`, `y`, `z`. -/
def Co.verts (c : Co) (l : ℕ) : ℝ :=
  [c.at 0 0 0, c.at 1 0 0, c.at 1 1 0, c.at 0 1 0, c.at 0 0 1, c.at 1 0 1, c.at 1 1 1, c.at 0 1 1].getD l 0

set_option maxHeartbeats 4000000 in
theorem hexVol_co (x y z : Co) : hexVol x.verts y.verts z.verts = simpson fun w => simpson fun v => simpson fun u => cdet x y z u v w := by
  obtain ⟨xa, xb, xc, xd, xe, xf, xg, xh⟩ := x
  obtain ⟨ya, yb, yc, yd, ye, yf, yg, yh⟩ := y
  obtain ⟨za, zb, zc, zd, ze, zf, zg, zh⟩ := z
  simp only [hexVol, Co.verts, List.getD_cons_zero, List.getD_cons_succ, Co.at, simpson, cdet, Co.du, Co.dv, Co.dw]
  ring

/-- The volume expression of the code, with the vertices stored through `c_con`, is the integral of the Jacobian
determinant. -/
theorem hexVol_eq (X : ℕ → ℕ → ℝ) (t : ℕ → ℕ → ℝ) (h : ∀ l < 8, ∀ d < 3, t (cCon l) d = X l d) :
    hexVol (fun l => t l 0) (fun l => t l 1) (fun l => t l 2) = volume X := by
  have e : ∀ d < 3, ∀ l < 8, t l d = (co X d).verts l := by
    intro d hd l hl
    have h' := fun l hl => h l hl d hd
    have h0 := h' 0 (by omega); have h1 := h' 1 (by omega); have h2 := h' 2 (by omega); have h3 := h' 3 (by omega)
    have h4 := h' 4 (by omega); have h5 := h' 5 (by omega); have h6 := h' 6 (by omega); have h7 := h' 7 (by omega)
    simp only [cCon, List.getD_cons_zero, List.getD_cons_succ] at h0 h1 h2 h3 h4 h5 h6 h7
    interval_cases l <;>
      simp only [Co.verts, co, Co.at, List.getD_cons_zero, List.getD_cons_succ, h0, h1, h2, h3, h4, h5, h6, h7] <;> ring
  have e0 := e 0 (by omega); have e1 := e 1 (by omega); have e2 := e 2 (by omega)
  have : hexVol (fun l => t l 0) (fun l => t l 1) (fun l => t l 2) = hexVol (co X 0).verts (co X 1).verts (co X 2).verts := by
    simp only [hexVol, e0 _ (show 0 < 8 by omega), e0 _ (show 1 < 8 by omega), e0 _ (show 2 < 8 by omega),
      e0 _ (show 3 < 8 by omega), e0 _ (show 4 < 8 by omega), e0 _ (show 5 < 8 by omega), e0 _ (show 6 < 8 by omega),
      e0 _ (show 7 < 8 by omega), e1 _ (show 0 < 8 by omega), e1 _ (show 1 < 8 by omega), e1 _ (show 2 < 8 by omega),
      e1 _ (show 3 < 8 by omega), e1 _ (show 4 < 8 by omega), e1 _ (show 5 < 8 by omega), e1 _ (show 6 < 8 by omega),
      e1 _ (show 7 < 8 by omega), e2 _ (show 0 < 8 by omega), e2 _ (show 1 < 8 by omega), e2 _ (show 2 < 8 by omega),
      e2 _ (show 3 < 8 by omega), e2 _ (show 4 < 8 by omega), e2 _ (show 5 < 8 by omega), e2 _ (show 6 < 8 by omega),
      e2 _ (show 7 < 8 by omega)]
  rw [this, hexVol_co, ← integral_cdet]
  simp only [volume, det_eq]

/-- The volume does not change under translation. -/
theorem volume_translate (X : ℕ → ℕ → ℝ) (b : ℕ → ℝ) : volume (fun l d => X l d + b d) = volume X := by
  have : ∀ u v w, (jacobianMatrix (fun l d => X l d + b d) u v w).det = (jacobianMatrix X u v w).det := by
    intro u v w
    rw [det_eq, det_eq]
    simp only [cdet, Co.du, Co.dv, Co.dw, co]
    ring
  simp only [volume, this]

/-- The volume of a parallelepiped is the determinant of its edge vectors (columns). -/
theorem volume_affine (A : Matrix (Fin 3) (Fin 3) ℝ) (b : ℕ → ℝ) (X : ℕ → ℕ → ℝ)
    (h : ∀ l < 8, ∀ d : Fin 3, X l d = A d 0 * (l % 2 : ℕ) + A d 1 * (l / 2 % 2 : ℕ) + A d 2 * (l / 4 : ℕ) + b d) :
    volume X = A.det := by
  have hc : ∀ d : Fin 3, ∀ u v w, (co X d).du v w = A d 0 ∧ (co X d).dv u w = A d 1 ∧ (co X d).dw u v = A d 2 := by
    intro d u v w
    simp only [co, Co.du, Co.dv, Co.dw, h 0 (by omega), h 1 (by omega), h 2 (by omega), h 3 (by omega), h 4 (by omega),
      h 5 (by omega), h 6 (by omega), h 7 (by omega)]
    norm_num
    refine ⟨Or.inl ?_, Or.inl ?_, Or.inl ?_⟩ <;> ring
  have : ∀ u v w, (jacobianMatrix X u v w).det = A.det := by
    intro u v w
    rw [det_eq, Matrix.det_fin_three]
    have h0 := hc 0 u v w; have h1 := hc 1 u v w; have h2 := hc 2 u v w
    simp only [Fin.val_zero, Fin.val_one, Fin.val_two] at h0 h1 h2
    unfold cdet
    rw [h0.1, h0.2.1, h0.2.2, h1.1, h1.2.1, h1.2.2, h2.1, h2.2.1, h2.2.2]
    ring
  simp [volume, this]

end Verif.Geometry
