import Verif.Geometry.CurvedExamples
import Verif.Geometry.CheckTheorems
import Verif.Geometry.SurfaceSum

/-!
# C115: the volume of a curved element is fixed by its surface nodes
-/

namespace Verif.Geometry
open Finset MeasureTheory
open Verif.DetJac (polyAt partialAt jacDet interp)
open Verif.Swage.HighOrder (polyMap pt)
open LagrangeElement LagrangeElement.Spec

/-! ### Specification -/

/-- Vertex `v = i + j N + k N²` of the `N × N × N` lattice lies on the surface of the cube. -/
def OnSurface (N v : ℕ) : Prop :=
  v % N = 0 ∨ v % N = N - 1 ∨ v / N % N = 0 ∨ v / N % N = N - 1 ∨ v / N / N = 0 ∨ v / N / N = N - 1

/-- Element `e` of `m` and element `e'` of `m'`, both of order `p`, have their surface vertices in the same places. -/
def SameSurface (p : ℕ) (m0 : ℕ → ℕ) (m : Mesh) (e : ℕ) (m' : Mesh) (e' : ℕ) : Prop :=
  ∀ v < RefElem.verts1D p ^ 3, OnSurface (RefElem.verts1D p) v → ∀ i < 3,
    m.coords.val (m.nodesInElem.val (e * m.gaussInElem + HexN.vertNodeMap p m0 v)) i =
      m'.coords.val (m'.nodesInElem.val (e' * m'.gaussInElem + HexN.vertNodeMap p m0 v)) i

/-! ### The integral of a Jacobian determinant as a trilinear form -/

/-- Integral of the Jacobian determinant of three monomials. -/
noncomputable def triple (s t u : ℕ × ℕ × ℕ) : ℝ := edet s t u * ((Quad.mom (ex s 0 + ex t 0 + ex u 0 - 1) : ℝ) *
  (Quad.mom (ex s 1 + ex t 1 + ex u 1 - 1) : ℝ) * (Quad.mom (ex s 2 + ex t 2 + ex u 2 - 1) : ℝ))

theorem imageVolume_form (P : ℕ) (c : ℕ → ℕ → ℕ → ℕ → ℝ) : imageVolume (fun a => polyAt P (c a)) =
    ∑ s ∈ expo P, ∑ t ∈ expo P, ∑ u ∈ expo P, coef (c 0) s * coef (c 1) t * coef (c 2) u * triple s t u := by
  unfold imageVolume
  simp only [jacDet_flat]
  have e : ∀ x y z : ℝ, pt x y z 0 = x ∧ pt x y z 1 = y ∧ pt x y z 2 = z := by intro x y z; simp [pt]
  simp only [(e _ _ _).1, (e _ _ _).2.1, (e _ _ _).2.2]
  rw [integral_mons, sum_product]
  refine sum_congr rfl fun s _ => ?_
  rw [sum_product]
  refine sum_congr rfl fun t _ => sum_congr rfl fun u _ => ?_
  unfold triple; ring

theorem triple_cycle (s t u : ℕ × ℕ × ℕ) : triple s t u = triple t u s := by
  unfold triple
  rw [show ∀ d, ex t d + ex u d + ex s d = ex s d + ex t d + ex u d from fun d => by ring,
    show ex t 1 + ex u 1 + ex s 1 = ex s 1 + ex t 1 + ex u 1 by ring,
    show ex t 2 + ex u 2 + ex s 2 = ex s 2 + ex t 2 + ex u 2 by ring]
  unfold edet
  ring

/-- A one-dimensional polynomial with coefficients `p` that vanishes at both ends. -/
theorem vanish_row {P : ℕ} {p : ℕ → ℝ} (h1 : ∑ a ∈ range (P + 1), p a = 0) (h2 : ∑ a ∈ range (P + 1), p a * (-1) ^ a = 0) (n : ℕ) :
    ∑ a ∈ range (P + 1), p a * ((a + n : ℕ) * (Quad.mom (a + n - 1) : ℝ)) = 0 := by
  simp only [mom_pred, mul_sub, mul_one, sum_sub_distrib, h1, pow_add]
  simp only [← mul_assoc, ← sum_mul, h2]
  ring

/-- Products of polynomials vanishing at both ends do not contribute to the volume. -/
theorem vanish_triple {P : ℕ} {p q r : ℕ → ℝ} (hp : ∑ a ∈ range (P + 1), p a = 0 ∧ ∑ a ∈ range (P + 1), p a * (-1) ^ a = 0)
    (hq : ∑ a ∈ range (P + 1), q a = 0 ∧ ∑ a ∈ range (P + 1), q a * (-1) ^ a = 0)
    (hr : ∑ a ∈ range (P + 1), r a = 0 ∧ ∑ a ∈ range (P + 1), r a * (-1) ^ a = 0) (t u : ℕ × ℕ × ℕ) :
    ∑ s ∈ expo P, p s.1 * q s.2.1 * r s.2.2 * triple s t u = 0 := by
  have row : ∀ (f : ℕ → ℝ), (∑ a ∈ range (P + 1), f a = 0 ∧ ∑ a ∈ range (P + 1), f a * (-1) ^ a = 0) → ∀ m n : ℕ,
      ∑ a ∈ range (P + 1), f a * a * (Quad.mom (a + m + n - 1) : ℝ) =
        -((m : ℝ) + n) * ∑ a ∈ range (P + 1), f a * (Quad.mom (a + m + n - 1) : ℝ) := by
    intro f hf m n
    have := vanish_row hf.1 hf.2 (m + n)
    simp only [← add_assoc] at this
    rw [mul_sum, ← sub_eq_zero, ← sum_sub_distrib, ← this]
    refine sum_congr rfl fun a _ => ?_
    push_cast; ring
  have A := row p hp (ex t 0) (ex u 0)
  have B := row q hq (ex t 1) (ex u 1)
  have C := row r hr (ex t 2) (ex u 2)
  have prod3 : ∀ f g h : ℕ → ℝ, ∑ s ∈ expo P, f s.1 * g s.2.1 * h s.2.2 =
      (∑ a ∈ range (P + 1), f a) * (∑ a ∈ range (P + 1), g a) * (∑ a ∈ range (P + 1), h a) := by
    intro f g h
    unfold expo
    rw [sum_product, sum_mul_sum, sum_mul]
    refine sum_congr rfl fun a _ => ?_
    rw [sum_product, sum_mul]
    refine sum_congr rfl fun b _ => ?_
    rw [mul_sum]
  have split : ∀ s ∈ expo P, p s.1 * q s.2.1 * r s.2.2 * triple s t u =
      ((ex t 1 * ex u 2 - ex t 2 * ex u 1 : ℝ) * ((p s.1 * s.1 * (Quad.mom (s.1 + ex t 0 + ex u 0 - 1) : ℝ)) *
        (q s.2.1 * (Quad.mom (s.2.1 + ex t 1 + ex u 1 - 1) : ℝ)) * (r s.2.2 * (Quad.mom (s.2.2 + ex t 2 + ex u 2 - 1) : ℝ)))) -
      ((ex t 0 * ex u 2 - ex t 2 * ex u 0 : ℝ) * ((p s.1 * (Quad.mom (s.1 + ex t 0 + ex u 0 - 1) : ℝ)) *
        (q s.2.1 * s.2.1 * (Quad.mom (s.2.1 + ex t 1 + ex u 1 - 1) : ℝ)) * (r s.2.2 * (Quad.mom (s.2.2 + ex t 2 + ex u 2 - 1) : ℝ)))) +
      ((ex t 0 * ex u 1 - ex t 1 * ex u 0 : ℝ) * ((p s.1 * (Quad.mom (s.1 + ex t 0 + ex u 0 - 1) : ℝ)) *
        (q s.2.1 * (Quad.mom (s.2.1 + ex t 1 + ex u 1 - 1) : ℝ)) * (r s.2.2 * s.2.2 * (Quad.mom (s.2.2 + ex t 2 + ex u 2 - 1) : ℝ)))) := by
    intro s _
    unfold triple edet
    have e0 : ex s 0 = s.1 := rfl
    have e1 : ex s 1 = s.2.1 := rfl
    have e2 : ex s 2 = s.2.2 := rfl
    rw [e0, e1, e2]
    ring
  rw [sum_congr rfl split, sum_add_distrib, sum_sub_distrib, ← mul_sum, ← mul_sum, ← mul_sum,
    prod3 (fun a => p a * a * (Quad.mom (a + ex t 0 + ex u 0 - 1) : ℝ)) (fun a => q a * (Quad.mom (a + ex t 1 + ex u 1 - 1) : ℝ))
      (fun a => r a * (Quad.mom (a + ex t 2 + ex u 2 - 1) : ℝ)),
    prod3 (fun a => p a * (Quad.mom (a + ex t 0 + ex u 0 - 1) : ℝ)) (fun a => q a * a * (Quad.mom (a + ex t 1 + ex u 1 - 1) : ℝ))
      (fun a => r a * (Quad.mom (a + ex t 2 + ex u 2 - 1) : ℝ)),
    prod3 (fun a => p a * (Quad.mom (a + ex t 0 + ex u 0 - 1) : ℝ)) (fun a => q a * (Quad.mom (a + ex t 1 + ex u 1 - 1) : ℝ))
      (fun a => r a * a * (Quad.mom (a + ex t 2 + ex u 2 - 1) : ℝ)), A, B, C]
  ring

/-- Changing the three components by maps that do not contribute does not change the volume. -/
theorem volume_shift (P : ℕ) (c c' : ℕ → ℕ → ℕ → ℕ → ℝ) (h : ∀ i < 3, ∀ t u, ∑ s ∈ expo P, (coef (c' i) s - coef (c i) s) * triple s t u = 0) :
    imageVolume (fun a => polyAt P (c a)) = imageVolume (fun a => polyAt P (c' a)) := by
  rw [imageVolume_form, imageVolume_form]
  have t0 : ∑ s ∈ expo P, ∑ t ∈ expo P, ∑ u ∈ expo P, (coef (c' 0) s - coef (c 0) s) * coef (c' 1) t * coef (c' 2) u * triple s t u = 0 := by
    rw [sum_comm]
    refine sum_eq_zero fun t _ => ?_
    rw [sum_comm]
    refine sum_eq_zero fun u _ => ?_
    rw [← mul_zero (coef (c' 1) t * coef (c' 2) u), ← h 0 (by omega) t u, mul_sum]
    exact sum_congr rfl fun s _ => by ring
  have t1 : ∑ s ∈ expo P, ∑ t ∈ expo P, ∑ u ∈ expo P, coef (c 0) s * (coef (c' 1) t - coef (c 1) t) * coef (c' 2) u * triple s t u = 0 := by
    refine sum_eq_zero fun s _ => ?_
    rw [sum_comm]
    refine sum_eq_zero fun u _ => ?_
    rw [← mul_zero (coef (c 0) s * coef (c' 2) u), ← h 1 (by omega) u s, mul_sum]
    exact sum_congr rfl fun t _ => by rw [triple_cycle s t u]; ring
  have t2 : ∑ s ∈ expo P, ∑ t ∈ expo P, ∑ u ∈ expo P, coef (c 0) s * coef (c 1) t * (coef (c' 2) u - coef (c 2) u) * triple s t u = 0 := by
    refine sum_eq_zero fun s _ => sum_eq_zero fun t _ => ?_
    rw [← mul_zero (coef (c 0) s * coef (c 1) t), ← h 2 (by omega) s t, mul_sum]
    exact sum_congr rfl fun u _ => by rw [triple_cycle s t u, triple_cycle t u s]; ring
  have key : (∑ s ∈ expo P, ∑ t ∈ expo P, ∑ u ∈ expo P, coef (c' 0) s * coef (c' 1) t * coef (c' 2) u * triple s t u) -
      (∑ s ∈ expo P, ∑ t ∈ expo P, ∑ u ∈ expo P, coef (c 0) s * coef (c 1) t * coef (c 2) u * triple s t u) =
      (∑ s ∈ expo P, ∑ t ∈ expo P, ∑ u ∈ expo P, (coef (c' 0) s - coef (c 0) s) * coef (c' 1) t * coef (c' 2) u * triple s t u) +
      (∑ s ∈ expo P, ∑ t ∈ expo P, ∑ u ∈ expo P, coef (c 0) s * (coef (c' 1) t - coef (c 1) t) * coef (c' 2) u * triple s t u) +
      (∑ s ∈ expo P, ∑ t ∈ expo P, ∑ u ∈ expo P, coef (c 0) s * coef (c 1) t * (coef (c' 2) u - coef (c 2) u) * triple s t u) := by
    simp only [← sum_sub_distrib, ← sum_add_distrib]
    exact sum_congr rfl fun s _ => sum_congr rfl fun t _ => sum_congr rfl fun u _ => by ring
  rw [t0, t1, t2] at key
  linarith

/-! ### Interior vertices -/

/-- The basis polynomial of an interior node of a lattice whose ends are -1 and 1. -/
theorem basis_vanish {P : ℕ} {Z : ℕ → ℝ} (hZ : Set.InjOn Z (range (P + 1) : Set ℕ)) (h0 : Z 0 = -1) (h1 : Z P = 1) {i : ℕ}
    (hi : i < P + 1) (i0 : i ≠ 0) (i1 : i ≠ P) :
    ∑ a ∈ range (P + 1), (Lagrange.basis (range (P + 1)) Z i).coeff a = 0 ∧
      ∑ a ∈ range (P + 1), (Lagrange.basis (range (P + 1)) Z i).coeff a * (-1) ^ a = 0 := by
  have ev : ∀ t : ℝ, (Lagrange.basis (range (P + 1)) Z i).eval t =
      ∑ a ∈ range (P + 1), (Lagrange.basis (range (P + 1)) Z i).coeff a * t ^ a := by
    intro t
    refine Polynomial.eval_eq_sum_range' ?_ t
    rw [Lagrange.natDegree_basis hZ (mem_range.2 hi), card_range]
    omega
  constructor
  · have := ev 1
    rw [← h1, Lagrange.eval_basis_of_ne i1 (mem_range.2 (by omega)), h1] at this
    simpa using this.symm
  · have := ev (-1)
    rw [← h0, Lagrange.eval_basis_of_ne i0 (mem_range.2 (by omega)), h0] at this
    exact this.symm

theorem interp_shift {P : ℕ} {Z : ℕ → ℝ} (hZ : Set.InjOn Z (range (P + 1) : Set ℕ)) (h0 : Z 0 = -1) (h1 : Z P = 1) (c c' : ℕ → ℝ)
    (h : ∀ v < (P + 1) ^ 3, OnSurface (P + 1) v → c v = c' v) (t u : ℕ × ℕ × ℕ) :
    ∑ s ∈ expo P, (coef (interpCoef (P + 1) Z c') s - coef (interpCoef (P + 1) Z c) s) * triple s t u = 0 := by
  unfold coef interpCoef
  simp only [← sum_sub_distrib, sum_mul]
  refine sum_comm.trans (sum_eq_zero fun v hv => ?_)
  have hv := mem_range.1 hv
  by_cases hs : OnSurface (P + 1) v
  · rw [h v (lt_of_lt_of_eq hv (by ring)) hs]
    exact sum_eq_zero fun s _ => by ring
  · unfold OnSurface at hs
    push Not at hs
    obtain ⟨a1, a2, a3, a4, a5, a6⟩ := hs
    obtain ⟨b1, b2, b3, -⟩ := lex3_surj hv
    have key := vanish_triple (basis_vanish hZ h0 h1 b1 a1 a2) (basis_vanish hZ h0 h1 b2 a3 a4) (basis_vanish hZ h0 h1 b3 a5 a6) t u
    rw [← mul_zero (c' v - c v), ← key, mul_sum]
    exact sum_congr rfl fun s _ => by ring

/-! ### C115 -/

theorem verts_ends {p : ℕ} (h1 : 1 ≤ p) (hp : p ≤ 9) {q : RefElem.Junk} {r : RefElem.Ref} (h : RefElem.InitSpec p q r) :
    r.verts 0 = -1 ∧ r.verts (degree p) = 1 := by
  have hd : degree p = p := by unfold degree RefElem.verts1D; rw [if_neg (by omega)]; omega
  have hv : RefElem.verts1D p = p + 1 := by rw [← degree_succ, hd]
  obtain ⟨l0, l1⟩ := lob_ends hp h
  refine ⟨?_, ?_⟩
  · rw [(RefElem.verts_val hp h (show 0 < RefElem.verts1D p by omega)).2, Nat.mul_zero, l0]
  · rw [hd, (RefElem.verts_val hp h (show p < RefElem.verts1D p by omega)).2, if_neg (by omega)]
    rw [show RefElem.cells1D p = 2 * p by unfold RefElem.cells1D RefElem.nodes1D; rw [if_neg (by omega)]; omega] at l1
    exact l1

/-- The coefficients of the interpolant of the vertex positions describe the same map. -/
theorem curved_interp {p : ℕ} (hp : p ≤ 9) {q : RefElem.Junk} {r : RefElem.Ref} (hr : RefElem.InitSpec p q r) (m0 : ℕ → ℕ) {m : Mesh}
    {e : ℕ} {co : ℕ → ℕ → ℕ → ℕ → ℝ} (h : CurvedBy p m0 r m e co) {i : ℕ} (hi : i < 3) :
    polyAt (degree p) (co i) = interp (degree p + 1) r.verts
      (fun v => m.coords.val (m.nodesInElem.val (e * m.gaussInElem + HexN.vertNodeMap p m0 v)) i) := by
  have hz := RefElem.verts_inj hp hr
  refine (DetJac.interp_poly (by rw [degree_succ]; exact hz) (co i) _ ?_).symm
  rw [degree_succ]
  intro a ha b hb c hc
  have e1 : a + b * RefElem.verts1D p + c * RefElem.verts1D p ^ 2 = RefElem.rid (RefElem.verts1D p) a b c := by
    unfold RefElem.rid; ring
  have hv : a + b * RefElem.verts1D p + c * RefElem.verts1D p ^ 2 < RefElem.verts1D p ^ 3 := by
    rw [e1]; exact lt_of_lt_of_eq (RefElem.rid_lt ha hb hc) (by ring)
  show m.coords.val _ i = _
  rw [h _ hv i hi, e1, (RefElem.vertex_pos hp hr m0 ha hb hc).2]
  rfl

theorem imageVolume_congr {F G : ℕ → (ℕ → ℝ) → ℝ} (h : ∀ a < 3, F a = G a) : imageVolume F = imageVolume G := by
  unfold imageVolume
  simp only [DetJac.jacDet_congr h]

/-- **C115 (surface).**  Two elements of order 1 to 9 with the same surface vertices have the same surface: their maps agree
at every point of the boundary of the reference cube. -/
theorem C115_surface (p : ℕ) (h1 : 1 ≤ p) (hp : p ≤ 9) (q : RefElem.Junk) (m0 : ℕ → ℕ) (r : RefElem.Ref)
    (hr : RefElem.init p q = some r) (m m' : Mesh) (e e' : ℕ) (co co' : ℕ → ℕ → ℕ → ℕ → ℝ) (h : CurvedBy p m0 r m e co)
    (h' : CurvedBy p m0 r m' e' co') (hs : SameSurface p m0 m e m' e') (X : ℕ → ℝ) (hX : ∃ d < 3, X d = -1 ∨ X d = 1) :
    ∀ i < 3, polyAt p (co i) X = polyAt p (co' i) X := by
  obtain ⟨r2, e1, R⟩ := RefElem.init_run p q
  obtain rfl : r2 = r := Option.some.inj (e1.symm.trans hr)
  have hd : degree p = p := by unfold degree RefElem.verts1D; rw [if_neg (by omega)]; omega
  have hz := RefElem.verts_inj hp R
  rw [← degree_succ p] at hz
  obtain ⟨z0, z1⟩ := verts_ends h1 hp R
  intro i hi
  have a := curved_interp hp R m0 h hi
  have b := curved_interp hp R m0 h' hi
  rw [hd] at a b z1 hz
  rw [a, b]
  unfold interp
  refine sum_congr rfl fun v hv => ?_
  have hv := mem_range.1 hv
  by_cases hon : OnSurface (p + 1) v
  · have := hs v (by rw [← degree_succ, hd]; exact lt_of_lt_of_eq hv (by ring)) (by rw [← degree_succ, hd]; exact hon) i hi
    show m.coords.val _ i * _ = m'.coords.val _ i * _
    rw [this]
  · unfold OnSurface at hon
    push Not at hon
    obtain ⟨a1, a2, a3, a4, a5, a6⟩ := hon
    have van : ∀ k, k ≠ 0 → k ≠ p → ∀ t : ℝ, t = -1 ∨ t = 1 → ell (p + 1) r2.verts k t = 0 := by
      intro k k0 k1 t ht
      unfold ell
      rcases ht with rfl | rfl
      · rw [← z0]; exact Lagrange.eval_basis_of_ne k0 (mem_range.2 (by omega))
      · rw [← z1]; exact Lagrange.eval_basis_of_ne k1 (mem_range.2 (by omega))
    have hphi : phi (p + 1) r2.verts v X = 0 := by
      obtain ⟨d, hd3, hX⟩ := hX
      unfold phi
      interval_cases d
      · rw [van _ a1 a2 _ hX]; ring
      · rw [van _ a3 a4 _ hX]; ring
      · rw [van _ a5 a6 _ hX]; ring
    rw [hphi]; ring

/-- **C115 (volume).**  Two elements of order 1 to 9 with the same surface vertices have the same volume, whatever the
positions of their interior vertices (even if these make the maps fold over). -/
theorem C115_volume (p : ℕ) (h1 : 1 ≤ p) (hp : p ≤ 9) (q : RefElem.Junk) (m0 : ℕ → ℕ) (r : RefElem.Ref)
    (hr : RefElem.init p q = some r) (m m' : Mesh) (e e' : ℕ) (co co' : ℕ → ℕ → ℕ → ℕ → ℝ) (h : CurvedBy p m0 r m e co)
    (h' : CurvedBy p m0 r m' e' co') (hs : SameSurface p m0 m e m' e') :
    imageVolume (fun a => polyAt p (co a)) = imageVolume (fun a => polyAt p (co' a)) := by
  obtain ⟨r2, e1, R⟩ := RefElem.init_run p q
  obtain rfl : r2 = r := Option.some.inj (e1.symm.trans hr)
  have hd : degree p = p := by unfold degree RefElem.verts1D; rw [if_neg (by omega)]; omega
  have hz := RefElem.verts_inj hp R
  rw [← degree_succ p] at hz
  obtain ⟨z0, z1⟩ := verts_ends h1 hp R
  have a : ∀ i < 3, polyAt (degree p) (co i) = polyAt (degree p) (interpCoef (degree p + 1) r2.verts
      (fun v => m.coords.val (m.nodesInElem.val (e * m.gaussInElem + HexN.vertNodeMap p m0 v)) i)) := by
    intro i hi; funext X; rw [curved_interp hp R m0 h hi, interp_coef hz]
  have b : ∀ i < 3, polyAt (degree p) (co' i) = polyAt (degree p) (interpCoef (degree p + 1) r2.verts
      (fun v => m'.coords.val (m'.nodesInElem.val (e' * m'.gaussInElem + HexN.vertNodeMap p m0 v)) i)) := by
    intro i hi; funext X; rw [curved_interp hp R m0 h' hi, interp_coef hz]
  rw [← hd, imageVolume_congr a, imageVolume_congr b]
  refine volume_shift (degree p) (fun i => interpCoef (degree p + 1) r2.verts _) (fun i => interpCoef (degree p + 1) r2.verts _) ?_
  intro i hi t u
  refine interp_shift hz z0 z1 _ _ ?_ t u
  intro v hv hon
  rw [degree_succ] at hv hon
  exact hs v hv hon i hi

/-- **C115 (measure).**  If both maps are injective with nonnegative Jacobian determinant, the two elements have the same
Lebesgue measure. -/
theorem C115_measure (p : ℕ) (h1 : 1 ≤ p) (hp : p ≤ 9) (q : RefElem.Junk) (m0 : ℕ → ℕ) (r : RefElem.Ref)
    (hr : RefElem.init p q = some r) (m m' : Mesh) (e e' : ℕ) (co co' : ℕ → ℕ → ℕ → ℕ → ℝ) (h : CurvedBy p m0 r m e co)
    (h' : CurvedBy p m0 r m' e' co') (hs : SameSurface p m0 m e m' e')
    (hi : Set.InjOn (curve p co) refCube) (hi' : Set.InjOn (curve p co') refCube)
    (hpos : ∀ x ∈ refCube, 0 ≤ jacDet (fun a => polyAt p (co a)) (pt (x 0) (x 1) (x 2)))
    (hpos' : ∀ x ∈ refCube, 0 ≤ jacDet (fun a => polyAt p (co' a)) (pt (x 0) (x 1) (x 2))) :
    MeasureTheory.volume (curve p co '' refCube) = MeasureTheory.volume (curve p co' '' refCube) := by
  rw [imageVolume_measure p co hi hpos, imageVolume_measure p co' hi' hpos', C115_volume p h1 hp q m0 r hr m m' e e' co co' h h' hs]

/-- **C115 (`get_vol_jacobi`).**  The volumes computed for two elements of order 1 to 9 with the same surface vertices
differ by no more than the accuracy of the tabulated weights. -/
theorem C115_computed (p : ℕ) (h1 : 1 ≤ p) (hp : p ≤ 9) (q : RefElem.Junk) (m0 : ℕ → ℕ)
    (m : Mesh) (hm : MeshOK p m) (hl : LatticeMesh p m) (s : Jac) (hs : s.Sized (m.elems * RefElem.nodes1D p ^ 3)) (v : Vol) (hv : v.Sized m)
    (m' : Mesh) (hm' : MeshOK p m') (hl' : LatticeMesh p m') (t : Jac) (ht : t.Sized (m'.elems * RefElem.nodes1D p ^ 3)) (w : Vol)
    (hw : w.Sized m') :
    ∃ r s' v' t' w', RefElem.init p q = some r ∧
      gaussJacobian m (RefElem.verts1D p ^ 3) (HexN.vertNodeMap p m0) r s = some s' ∧ volJacobi m r s'.det v = some v' ∧
      gaussJacobian m' (RefElem.verts1D p ^ 3) (HexN.vertNodeMap p m0) r t = some t' ∧ volJacobi m' r t'.det w = some w' ∧
      ∀ e < m.elems, ∀ e' < m'.elems, SameSurface p m0 m e m' e' → ∀ co co', CurvedBy p m0 r m e co → CurvedBy p m0 r m' e' co' →
        |v'.elem.val e - w'.elem.val e'| ≤ 114 / 10 ^ 23 * p ^ 3 * (coefSum p (co 0) * coefSum p (co 1) * coefSum p (co 2) +
          coefSum p (co' 0) * coefSum p (co' 1) * coefSum p (co' 2)) := by
  obtain ⟨r, s', v', hr, g1, g2, g3⟩ := C73_volume p h1 hp q m0 m hm hl s hs v hv
  obtain ⟨r2, t', w', hr2, k1, k2, k3⟩ := C73_volume p h1 hp q m0 m' hm' hl' t ht w hw
  obtain rfl : r2 = r := Option.some.inj (hr2.symm.trans hr)
  refine ⟨r2, s', v', t', w', hr, g1, g2, k1, k2, ?_⟩
  intro e he e' he' hss co co' hc hc'
  have a := g3 e he co hc
  have b := k3 e' he' co' hc'
  rw [← C115_volume p h1 hp q m0 r2 hr m m' e e' co co' hc hc' hss] at b
  have := abs_sub_le (v'.elem.val e) (imageVolume fun a => polyAt p (co a)) (w'.elem.val e')
  rw [abs_sub_comm (imageVolume fun a => polyAt p (co a))] at this
  linarith

/-! ### A concrete element -/

/-- The map `(u, v, w) ↦ (u + b (1 - u²) (1 - v²) (1 - w²), v, w)` of degree 2: the cube `[-1, 1]³` whose centre node has been
moved by `b` in the first direction. -/
noncomputable def bump (b : ℝ) (i a c d : ℕ) : ℝ :=
  if i = 0 then (if a = 1 ∧ c = 0 ∧ d = 0 then 1 else 0) +
    b * ((if a = 0 then 1 else if a = 2 then -1 else 0) * (if c = 0 then 1 else if c = 2 then -1 else 0) *
      (if d = 0 then 1 else if d = 2 then -1 else 0))
  else if i = 1 then (if a = 0 ∧ c = 1 ∧ d = 0 then 1 else 0)
  else (if a = 0 ∧ c = 0 ∧ d = 1 then 1 else 0)

theorem bump_eq (b : ℝ) (X : ℕ → ℝ) : polyAt 2 (bump b 0) X = X 0 + b * ((1 - X 0 ^ 2) * (1 - X 1 ^ 2) * (1 - X 2 ^ 2)) ∧
    polyAt 2 (bump b 1) X = X 1 ∧ polyAt 2 (bump b 2) X = X 2 := by
  unfold polyAt polyMap
  simp only [sum_range_succ, sum_range_zero, bump]
  norm_num
  ring

theorem bump_surface (b : ℝ) (q : RefElem.Junk) (m0 : ℕ → ℕ) (r : RefElem.Ref) (R : RefElem.InitSpec 2 q r) :
    SameSurface 2 m0 (oneElement 2 fun n i => polyAt (degree 2) (bump 0 i) (r.nodePos.val n)) 0
      (oneElement 2 fun n i => polyAt (degree 2) (bump b i) (r.nodePos.val n)) 0 := by
  intro v hv hon i hi
  show polyAt 2 (bump 0 i) (r.nodePos.val (0 * _ + _)) = polyAt 2 (bump b i) (r.nodePos.val (0 * _ + _))
  rw [zero_mul, zero_add, zero_mul, zero_add]
  have hv : v < 3 * 3 * 3 := hv
  obtain ⟨b1, b2, b3, b4⟩ := lex3_surj hv
  have hz := verts_ends (by norm_num) (by norm_num) R
  have z0 : r.verts 0 = -1 := hz.1
  have z1 : r.verts 2 = 1 := hz.2
  have hpos := (RefElem.vertex_pos (by norm_num) R m0 (show v % 3 < RefElem.verts1D 2 from b1)
    (show v / 3 % 3 < RefElem.verts1D 2 from b2) (show v / 3 / 3 < RefElem.verts1D 2 from b3)).2
  rw [show RefElem.rid (RefElem.verts1D 2) (v % 3) (v / 3 % 3) (v / 3 / 3) = v from b4] at hpos
  rw [hpos]
  have hon : v % 3 = 0 ∨ v % 3 = 2 ∨ v / 3 % 3 = 0 ∨ v / 3 % 3 = 2 ∨ v / 3 / 3 = 0 ∨ v / 3 / 3 = 2 := hon
  obtain ⟨e0, e1, e2⟩ := bump_eq b (RefElem.row3 (r.verts (v % 3)) (r.verts (v / 3 % 3)) (r.verts (v / 3 / 3)))
  obtain ⟨f0, f1, f2⟩ := bump_eq 0 (RefElem.row3 (r.verts (v % 3)) (r.verts (v / 3 % 3)) (r.verts (v / 3 / 3)))
  interval_cases i
  · rw [e0, f0]
    have : (1 - r.verts (v % 3) ^ 2) * (1 - r.verts (v / 3 % 3) ^ 2) * (1 - r.verts (v / 3 / 3) ^ 2) = 0 := by
      rcases hon with h | h | h | h | h | h <;> rw [h] <;> simp [z0, z1]
    have e : (1 - RefElem.row3 (r.verts (v % 3)) (r.verts (v / 3 % 3)) (r.verts (v / 3 / 3)) 0 ^ 2) *
      (1 - RefElem.row3 (r.verts (v % 3)) (r.verts (v / 3 % 3)) (r.verts (v / 3 / 3)) 1 ^ 2) *
      (1 - RefElem.row3 (r.verts (v % 3)) (r.verts (v / 3 % 3)) (r.verts (v / 3 / 3)) 2 ^ 2) = 0 := this
    rw [e]; ring
  · rw [e1, f1]
  · rw [e2, f2]

theorem cube_volume : imageVolume (fun a => polyAt 2 (bump 0 a)) = 8 := by
  rw [imageVolume]
  have h0 : polyAt 2 (bump 0 0) = fun X => X 0 := by funext X; rw [(bump_eq 0 X).1]; ring
  have h1 : polyAt 2 (bump 0 1) = fun X => X 1 := by funext X; exact (bump_eq 0 X).2.1
  have h2 : polyAt 2 (bump 0 2) = fun X => X 2 := by funext X; exact (bump_eq 0 X).2.2
  have det : ∀ X, jacDet (fun a => polyAt 2 (bump 0 a)) X = 1 := by
    intro X
    have pd : ∀ a d : ℕ, partialAt (fun X => X a) d X = if a = d then 1 else 0 := by
      intro a d
      unfold partialAt
      by_cases h : a = d
      · subst h
        simp only [Function.update_self, if_true]
        exact (hasDerivAt_id _).deriv
      · rw [if_neg h]
        simp only [Function.update_of_ne h]
        exact deriv_const _ _
    unfold jacDet
    rw [Matrix.det_fin_three]
    simp only [Matrix.of_apply, Fin.val_zero, Fin.val_one, Fin.val_two, h0, h1, h2, pd]
    norm_num
  simp only [det]
  norm_num

/-- Non-vacuity: the volume computed for the cube `[-1, 1]³` of order 2 with its centre node moved to `(10, 0, 0)`, far outside, is
still 8, up to `1e-17`. -/
example (q : RefElem.Junk) (m0 : ℕ → ℕ) : ∃ (m m' : Mesh) (r : RefElem.Ref) (t t' : Jac) (w w' : Vol), MeshOK 2 m' ∧ LatticeMesh 2 m' ∧
    RefElem.init 2 q = some r ∧ CurvedBy 2 m0 r m 0 (bump 0) ∧ CurvedBy 2 m0 r m' 0 (bump 10) ∧ SameSurface 2 m0 m 0 m' 0 ∧
    gaussJacobian m' (RefElem.verts1D 2 ^ 3) (HexN.vertNodeMap 2 m0) r t = some t' ∧ volJacobi m' r t'.det w = some w' ∧
    |w'.elem.val 0 - 8| ≤ 1 / 10 ^ 17 := by
  obtain ⟨r, hr, R⟩ := RefElem.init_run 2 q
  have hs := bump_surface 10 q m0 r R
  have hc := oneElement_curved 2 m0 r (bump 0)
  have hc' := oneElement_curved 2 m0 r (bump 10)
  set m := oneElement 2 fun n i => polyAt (degree 2) (bump 0 i) (r.nodePos.val n) with hm
  set m' := oneElement 2 fun n i => polyAt (degree 2) (bump 10 i) (r.nodePos.val n) with hm'
  obtain ⟨r', s', v', h1, h2, h3, h4⟩ := C73_volume 2 (by norm_num) (by norm_num) q m0 m' (oneElement_ok _ _) (oneElement_lattice _ _)
    ⟨⟨_, fun _ _ _ => 0⟩, ⟨_, fun _ _ _ => 0⟩, ⟨_, fun _ => 0⟩⟩ ⟨rfl, rfl, rfl⟩
    ⟨⟨_, fun _ => 0⟩, ⟨_, fun _ _ => 0⟩, ⟨_, fun _ => 0⟩⟩ ⟨rfl, rfl, rfl⟩
  obtain rfl : r' = r := Option.some.inj (h1.symm.trans hr)
  refine ⟨m, m', r', _, s', _, v', oneElement_ok _ _, oneElement_lattice _ _, hr, hc, hc', hs, h2, h3, ?_⟩
  have := h4 0 (show 0 < 1 by norm_num) (bump 10) hc'
  rw [← C115_volume 2 (by norm_num) (by norm_num) q m0 r' hr m m' 0 0 _ _ hc hc' hs, cube_volume] at this
  refine this.trans ?_
  unfold coefSum
  simp only [sum_range_succ, sum_range_zero, bump]
  norm_num

end Verif.Geometry
