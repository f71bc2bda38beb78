import Verif.Geometry.CurvedVolume
import Verif.Geometry.VolTheorems

/-!
# C73: volumes of curved elements
-/

namespace Verif.Geometry
open Finset MeasureTheory
open Verif.DetJac (polyAt partialAt jacDet interp)
open Verif.Swage.HighOrder (polyMap pt)

/-! ### Specification -/

/-- Degree in each variable of the map of an element of order `p` (order 0 means the trilinear element). -/
def degree (p : ℕ) : ℕ := RefElem.verts1D p - 1

/-- Element `e` is the image of the reference cube under the polynomial map whose component `i` has the coefficients
`co i`: its vertices are the images of the reference vertices. -/
def CurvedBy (p : ℕ) (m0 : ℕ → ℕ) (r : RefElem.Ref) (m : Mesh) (e : ℕ) (co : ℕ → ℕ → ℕ → ℕ → ℝ) : Prop :=
  ∀ v < RefElem.verts1D p ^ 3, ∀ i < 3, m.coords.val (m.nodesInElem.val (e * m.gaussInElem + HexN.vertNodeMap p m0 v)) i =
    polyAt (degree p) (co i) (r.nodePos.val (HexN.vertNodeMap p m0 v))

/-- The polynomial map on `ℝ³`. -/
noncomputable def curve (P : ℕ) (co : ℕ → ℕ → ℕ → ℕ → ℝ) (x : Fin 3 → ℝ) : Fin 3 → ℝ :=
  fun i => polyAt P (co i) (pt (x 0) (x 1) (x 2))

/-! ### The element map -/

theorem degree_succ (p : ℕ) : degree p + 1 = RefElem.verts1D p := by
  have := RefElem.two_le_verts p; unfold degree; omega

theorem degree_pos (p : ℕ) : 1 ≤ degree p := by have := RefElem.two_le_verts p; unfold degree; omega

theorem store_update (X : ℕ → ℝ) (d : ℕ) (t : ℝ) : store X d t = Function.update X d t := by
  funext j
  unfold store
  by_cases h : j = d
  · subst h; simp
  · rw [if_neg h, Function.update_of_ne h]

theorem elemMap_curved {p : ℕ} (hp : p ≤ 9) {q : RefElem.Junk} {r : RefElem.Ref} (hr : RefElem.InitSpec p q r) (m0 : ℕ → ℕ) {m : Mesh}
    {e : ℕ} {co : ℕ → ℕ → ℕ → ℕ → ℝ} (h : CurvedBy p m0 r m e co) (X : ℕ → ℝ) {i : ℕ} (hi : i < 3) :
    elemMap m (RefElem.verts1D p ^ 3) (HexN.vertNodeMap p m0) (RefElem.phi (RefElem.verts1D p) r.verts) e X i =
      polyAt (degree p) (co i) X := by
  have hz := RefElem.verts_inj hp hr
  have key := DetJac.interp_poly (p := degree p) (Z := r.verts) (by rw [degree_succ]; exact hz) (co i)
    (fun v => m.coords.val (m.nodesInElem.val (e * m.gaussInElem + HexN.vertNodeMap p m0 v)) i)
    (by
      rw [degree_succ]
      intro a ha b hb c hc
      have e1 : a + b * RefElem.verts1D p + c * RefElem.verts1D p ^ 2 = RefElem.rid (RefElem.verts1D p) a b c := by
        unfold RefElem.rid; ring
      have hv : a + b * RefElem.verts1D p + c * RefElem.verts1D p ^ 2 < RefElem.verts1D p ^ 3 := by
        rw [e1]; exact lt_of_lt_of_eq (RefElem.rid_lt ha hb hc) (by ring)
      show m.coords.val _ i = _
      rw [h _ hv i hi, e1, (RefElem.vertex_pos hp hr m0 ha hb hc).2]
      rfl)
  rw [← key]
  unfold elemMap interp
  rw [degree_succ, show RefElem.verts1D p ^ 3 = RefElem.verts1D p * RefElem.verts1D p * RefElem.verts1D p by ring]
  exact sum_congr rfl fun v _ => mul_comm _ _

/-- The stored entries and determinant at a point of a curved element. -/
theorem curved_point {p : ℕ} (hp : p ≤ 9) {q : RefElem.Junk} {r : RefElem.Ref} (hr : RefElem.InitSpec p q r) (m0 : ℕ → ℕ) {m : Mesh}
    {e : ℕ} {co : ℕ → ℕ → ℕ → ℕ → ℝ} (h : CurvedBy p m0 r m e co) {X : ℕ → ℝ} {J I : ℕ → ℕ → ℝ} {d : ℝ}
    (hJ : IsJacobian (elemMap m (RefElem.verts1D p ^ 3) (HexN.vertNodeMap p m0) (RefElem.phi (RefElem.verts1D p) r.verts) e) X J I d) :
    (∀ i < 3, ∀ j < 3, J i j = partialAt (polyAt (degree p) (co i)) j X) ∧ d = jacDet (fun i => polyAt (degree p) (co i)) X := by
  have E : ∀ i < 3, ∀ j < 3, J i j = partialAt (polyAt (degree p) (co i)) j X := by
    intro i hi j hj
    have := hJ.entries i hi j hj
    simp only [elemMap_curved hp hr m0 h _ hi, store_update] at this
    exact this.deriv.symm
  refine ⟨E, ?_⟩
  rw [hJ.det]
  unfold jacDet
  congr 1
  ext i j
  exact E i i.2 j j.2

/-- Polynomials only depend on the three coordinates. -/
theorem polyAt_congr (P : ℕ) (c : ℕ → ℕ → ℕ → ℝ) {X Y : ℕ → ℝ} (h : ∀ d < 3, X d = Y d) : polyAt P c X = polyAt P c Y := by
  unfold polyAt; rw [h 0 (by omega), h 1 (by omega), h 2 (by omega)]

theorem jacDet_congr3 (P : ℕ) (c : ℕ → ℕ → ℕ → ℕ → ℝ) {X Y : ℕ → ℝ} (h : ∀ d < 3, X d = Y d) :
    jacDet (fun a => polyAt P (c a)) X = jacDet (fun a => polyAt P (c a)) Y := by
  rw [jacDet_poly, jacDet_poly, h 0 (by omega), h 1 (by omega), h 2 (by omega)]

/-! ### From the integral to the Lebesgue measure -/

/-- Fubini, one coordinate split off. -/
theorem box_split {n : ℕ} (f : (Fin (n + 1) → ℝ) → ℝ) (hf : Continuous f) :
    ∫ x in Set.Icc (fun _ => -1 : Fin (n + 1) → ℝ) (fun _ => 1), f x =
      ∫ t in (-1:ℝ)..1, ∫ y in Set.Icc (fun _ => -1 : Fin n → ℝ) (fun _ => 1), f ((Fin.last n).insertNth t y) := by
  have hem : MeasurePreserving (MeasurableEquiv.piFinSuccAbove (fun _ : Fin (n + 1) => ℝ) (Fin.last n)).symm :=
    (volume_preserving_piFinSuccAbove (fun _ : Fin (n + 1) => ℝ) (Fin.last n)).symm _
  have hpre : ((MeasurableEquiv.piFinSuccAbove (fun _ : Fin (n + 1) => ℝ) (Fin.last n)).symm ⁻¹'
      Set.Icc (fun _ => -1 : Fin (n + 1) → ℝ) (fun _ => 1)) = Set.Icc (-1:ℝ) 1 ×ˢ Set.Icc (fun _ => -1 : Fin n → ℝ) (fun _ => 1) :=
    ((Fin.insertNthOrderIso (fun _ => ℝ) (Fin.last n)).preimage_Icc _ _).trans (Set.Icc_prod_eq _ _)
  have hc : Continuous fun z : ℝ × (Fin n → ℝ) => f ((MeasurableEquiv.piFinSuccAbove (fun _ : Fin (n + 1) => ℝ) (Fin.last n)).symm z) := by
    refine hf.comp ?_
    exact Continuous.finInsertNth (A := fun _ => ℝ) (Fin.last n) continuous_fst continuous_snd
  rw [← hem.map_eq, setIntegral_map_equiv, hpre, Measure.volume_eq_prod, setIntegral_prod,
    intervalIntegral.integral_of_le (by norm_num), integral_Icc_eq_integral_Ioc]
  · rfl
  · rw [← Measure.volume_eq_prod]
    exact hc.continuousOn.integrableOn_compact (isCompact_Icc.prod isCompact_Icc)

/-- The reference cube. -/
def refCube : Set (Fin 3 → ℝ) := Set.Icc (fun _ => -1) (fun _ => 1)

theorem box_integral (g : ℝ → ℝ → ℝ → ℝ) (hg : Continuous fun x : Fin 3 → ℝ => g (x 0) (x 1) (x 2)) :
    ∫ x in refCube, g (x 0) (x 1) (x 2) =
      ∫ w in (-1:ℝ)..1, ∫ v in (-1:ℝ)..1, ∫ u in (-1:ℝ)..1, g u v w := by
  have c2 : ∀ w, Continuous fun y : Fin 2 → ℝ => g (y 0) (y 1) w := fun w =>
    hg.comp (g := fun x : Fin 3 → ℝ => g (x 0) (x 1) (x 2)) (f := fun y : Fin 2 → ℝ => ![y 0, y 1, w]) (by fun_prop)
  have c1 : ∀ v w, Continuous fun y : Fin 1 → ℝ => g (y 0) v w := fun v w =>
    hg.comp (g := fun x : Fin 3 → ℝ => g (x 0) (x 1) (x 2)) (f := fun y : Fin 1 → ℝ => ![y 0, v, w]) (by fun_prop)
  unfold refCube
  rw [box_split _ hg]
  congr 1; funext w
  refine (box_split (fun y : Fin 2 → ℝ => g (y 0) (y 1) w) (c2 w)).trans ?_
  congr 1; funext v
  refine (box_split (fun y : Fin 1 → ℝ => g (y 0) v w) (c1 v w)).trans ?_
  congr 1; funext u
  have h0 : (Set.Icc (fun _ => -1 : Fin 0 → ℝ) (fun _ => 1)) = Set.univ := by
    ext x; simp [Subsingleton.elim x 0, Set.mem_Icc]
  rw [h0, Measure.restrict_univ, integral_unique]
  simp [measureReal_def, volume_pi]

theorem curve_deriv (P : ℕ) (co : ℕ → ℕ → ℕ → ℕ → ℝ) (x : Fin 3 → ℝ) : HasFDerivAt (curve P co)
    (LinearMap.toContinuousLinearMap (Matrix.toLin' (Matrix.of fun a d : Fin 3 => partialAt (polyAt P (co a)) d (pt (x 0) (x 1) (x 2))))) x := by
  rw [hasFDerivAt_pi']
  intro i
  have e : (fun y => curve P co y i) = fun y : Fin 3 → ℝ => ∑ s ∈ expo P, coef (co i) s *
      (y 0 ^ ex s 0 * y 1 ^ ex s 1 * y 2 ^ ex s 2) := by
    funext y; exact polyAt_sum P (co i) _
  rw [e]
  have h0 := hasFDerivAt_apply (𝕜 := ℝ) (F' := fun _ : Fin 3 => ℝ) 0 x
  have h1 := hasFDerivAt_apply (𝕜 := ℝ) (F' := fun _ : Fin 3 => ℝ) 1 x
  have h2 := hasFDerivAt_apply (𝕜 := ℝ) (F' := fun _ : Fin 3 => ℝ) 2 x
  have H := HasFDerivAt.fun_sum (u := expo P) fun s _ =>
    (((h0.pow (ex s 0)).mul (h1.pow (ex s 1))).mul (h2.pow (ex s 2))).const_mul (coef (co i) s)
  refine H.congr_fderiv ?_
  ext v
  simp only [FunLike.coe_sum, Finset.sum_apply, FunLike.coe_smul, Pi.smul_apply,
    add_apply, ContinuousLinearMap.proj_apply, smul_eq_mul, ContinuousLinearMap.coe_comp, Function.comp_apply,
    LinearMap.coe_toContinuousLinearMap', Matrix.toLin'_apply, Matrix.mulVec, dotProduct, Fin.sum_univ_three, Matrix.of_apply]
  rw [show ((0 : Fin 3) : ℕ) = 0 from rfl, show ((1 : Fin 3) : ℕ) = 1 from rfl, show ((2 : Fin 3) : ℕ) = 2 from rfl,
    polyAt_partial P _ _ (by omega), polyAt_partial P _ _ (by omega), polyAt_partial P _ _ (by omega), sum_mul, sum_mul, sum_mul,
    ← sum_add_distrib, ← sum_add_distrib]
  refine sum_congr rfl fun s _ => ?_
  simp [dmon, pt]
  ring

theorem jacDet_continuous (P : ℕ) (co : ℕ → ℕ → ℕ → ℕ → ℝ) :
    Continuous fun x : Fin 3 → ℝ => jacDet (fun a => polyAt P (co a)) (pt (x 0) (x 1) (x 2)) := by
  simp only [jacDet_flat]
  refine continuous_finsetSum _ fun q _ => ?_
  simp only [pt, if_true, one_ne_zero, if_false, OfNat.ofNat_ne_zero, OfNat.ofNat_ne_one]
  fun_prop

/-- For an element map that is injective with nonnegative Jacobian determinant, `imageVolume` is the measure of the
element. -/
theorem imageVolume_measure (P : ℕ) (co : ℕ → ℕ → ℕ → ℕ → ℝ) (hinj : Set.InjOn (curve P co) refCube)
    (hpos : ∀ x ∈ refCube, 0 ≤ jacDet (fun a => polyAt P (co a)) (pt (x 0) (x 1) (x 2))) :
    MeasureTheory.volume (curve P co '' refCube) = ENNReal.ofReal (imageVolume fun a => polyAt P (co a)) := by
  rw [← lintegral_abs_det_fderiv_eq_addHaar_image MeasureTheory.volume (show MeasurableSet refCube from measurableSet_Icc)
    (fun x _ => (curve_deriv P co x).hasFDerivWithinAt) hinj]
  simp only [LinearMap.det_toContinuousLinearMap, LinearMap.det_toLin']
  have c := jacDet_continuous P co
  rw [imageVolume, ← box_integral (fun u v w => jacDet (fun a => polyAt P (co a)) (pt u v w)) c,
    ofReal_integral_eq_lintegral_ofReal (c.continuousOn.integrableOn_compact (show IsCompact refCube from isCompact_Icc))]
  · refine setLIntegral_congr_fun (show MeasurableSet refCube from measurableSet_Icc) fun x hx => ?_
    exact congrArg ENNReal.ofReal (abs_of_nonneg (hpos x hx))
  · exact (ae_restrict_mem (show MeasurableSet refCube from measurableSet_Icc)).mono fun x hx => hpos x hx

/-! ### C73 -/

/-- Coefficients of the interpolant. -/
noncomputable def interpCoef (N : ℕ) (Z c : ℕ → ℝ) (a b d : ℕ) : ℝ :=
  ∑ v ∈ range (N * N * N), c v * ((Lagrange.basis (range N) Z (v % N)).coeff a * (Lagrange.basis (range N) Z (v / N % N)).coeff b *
    (Lagrange.basis (range N) Z (v / N / N)).coeff d)

theorem interp_coef {P : ℕ} {Z : ℕ → ℝ} (hZ : Set.InjOn Z (range (P + 1) : Set ℕ)) (c X : ℕ → ℝ) :
    polyAt P (interpCoef (P + 1) Z c) X = interp (P + 1) Z c X := by
  have ev : ∀ i < P + 1, ∀ t : ℝ, (Lagrange.basis (range (P + 1)) Z i).eval t =
      ∑ a ∈ range (P + 1), (Lagrange.basis (range (P + 1)) Z i).coeff a * t ^ a := by
    intro i hi t
    refine Polynomial.eval_eq_sum_range' ?_ t
    rw [Lagrange.natDegree_basis hZ (mem_range.2 hi), card_range]
    omega
  have hN : ∀ v < (P + 1) * (P + 1) * (P + 1), v % (P + 1) < P + 1 ∧ v / (P + 1) % (P + 1) < P + 1 ∧ v / (P + 1) / (P + 1) < P + 1 := by
    intro v hv
    refine ⟨Nat.mod_lt _ (by omega), Nat.mod_lt _ (by omega), ?_⟩
    rw [Nat.div_div_eq_div_mul]
    exact Nat.div_lt_of_lt_mul hv
  unfold interp polyAt polyMap interpCoef
  have step : ∀ a ∈ range (P + 1), ∀ b ∈ range (P + 1), ∀ d ∈ range (P + 1),
      (∑ v ∈ range ((P + 1) * (P + 1) * (P + 1)), c v * ((Lagrange.basis (range (P + 1)) Z (v % (P + 1))).coeff a *
        (Lagrange.basis (range (P + 1)) Z (v / (P + 1) % (P + 1))).coeff b *
        (Lagrange.basis (range (P + 1)) Z (v / (P + 1) / (P + 1))).coeff d)) * (X 0 ^ a * X 1 ^ b * X 2 ^ d) =
      ∑ v ∈ range ((P + 1) * (P + 1) * (P + 1)), c v * (((Lagrange.basis (range (P + 1)) Z (v % (P + 1))).coeff a * X 0 ^ a) *
        (((Lagrange.basis (range (P + 1)) Z (v / (P + 1) % (P + 1))).coeff b * X 1 ^ b) *
        ((Lagrange.basis (range (P + 1)) Z (v / (P + 1) / (P + 1))).coeff d * X 2 ^ d))) := by
    intro a _ b _ d _
    rw [sum_mul]
    exact sum_congr rfl fun v _ => by ring
  rw [sum_congr rfl fun a ha => sum_congr rfl fun b hb => sum_congr rfl fun d hd => step a ha b hb d hd,
    sum_congr rfl fun a _ => sum_congr rfl fun b _ => sum_comm, sum_congr rfl fun a _ => sum_comm, sum_comm]
  refine sum_congr rfl fun v hv => ?_
  obtain ⟨h0, h1, h2⟩ := hN v (mem_range.1 hv)
  unfold LagrangeElement.Spec.phi LagrangeElement.Spec.ell
  rw [ev _ h0, ev _ h1, ev _ h2]
  simp only [← mul_sum, ← sum_mul]
  ring

/-- **C73 (every element).**  Every element of a mesh of order `p ≤ 9` is the image of the reference cube under a
polynomial map of degree at most `p` in each variable (1 for `p = 0`). -/
theorem C73_every (p : ℕ) (hp : p ≤ 9) (q : RefElem.Junk) (m0 : ℕ → ℕ) (m : Mesh) (e : ℕ) :
    ∃ r, RefElem.init p q = some r ∧ ∃ co, CurvedBy p m0 r m e co := by
  obtain ⟨r, h1, h2⟩ := RefElem.init_run p q
  refine ⟨r, h1, fun i => interpCoef (degree p + 1) r.verts
    (fun v => m.coords.val (m.nodesInElem.val (e * m.gaussInElem + HexN.vertNodeMap p m0 v)) i), ?_⟩
  intro v hv i hi
  have hz := RefElem.verts_inj hp h2
  rw [show RefElem.verts1D p ^ 3 = RefElem.verts1D p * RefElem.verts1D p * RefElem.verts1D p by ring] at hv
  obtain ⟨a, b, c, ha, hb, hc, rfl⟩ := RefElem.rid_surj hv
  rw [interp_coef (by rw [degree_succ]; exact hz), (RefElem.vertex_pos hp h2 m0 ha hb hc).2, degree_succ]
  have := DetJac.interp_vertex hz (fun v => m.coords.val (m.nodesInElem.val (e * m.gaussInElem + HexN.vertNodeMap p m0 v)) i) ha hb hc
  refine Eq.trans ?_ this.symm
  rfl

theorem lob_rule {p : ℕ} (h1 : 1 ≤ p) (hp : p ≤ 9) {q : RefElem.Junk} {r : RefElem.Ref} (h : RefElem.InitSpec p q r) :
    Quad.GoodRule (RefElem.nodes1D p) (4 * p) (1 / 10 ^ 23) r.lob.val r.lobw.val := by
  have hn : RefElem.nodes1D p = 2 * p + 1 := by unfold RefElem.nodes1D; rw [if_neg (by omega)]
  obtain ⟨x, w, e1, e2, g, -⟩ := Quad.C30_lobatto (RefElem.nodes1D p) (by omega) (by omega) q.lob q.lobw
  obtain rfl : x = r.lob := Option.some.inj (e1.symm.trans h.lob)
  obtain rfl : w = r.lobw := Option.some.inj (e2.symm.trans h.lobw)
  rw [if_neg (by omega), show 2 * RefElem.nodes1D p - 2 = 4 * p by omega] at g
  exact g

/-- The computed volume as a tensor quadrature, for every order. -/
theorem volume_quad (p : ℕ) (hp : p ≤ 9) (q : RefElem.Junk) (m0 : ℕ → ℕ) (m : Mesh) (hm : MeshOK p m) (hl : LatticeMesh p m)
    (s : Jac) (hs : s.Sized (m.elems * RefElem.nodes1D p ^ 3)) (v : Vol) (hv : v.Sized m) :
    ∃ r s' v', RefElem.init p q = some r ∧ RefElem.InitSpec p q r ∧
      gaussJacobian m (RefElem.verts1D p ^ 3) (HexN.vertNodeMap p m0) r s = some s' ∧ volJacobi m r s'.det v = some v' ∧
      ∀ e < m.elems, ∀ co, CurvedBy p m0 r m e co →
        v'.elem.val e = tensorQuad (RefElem.nodes1D p) r.lob.val r.lobw.val (jacDet fun a => polyAt (degree p) (co a)) := by
  obtain ⟨r, hr, R⟩ := RefElem.init_run p q
  obtain ⟨r1, s', h1', g1, g2⟩ := C48_gauss p hp q m0 m hm s hs
  have E1 : r1 = r := Option.some.inj (h1'.symm.trans hr)
  subst E1
  obtain ⟨t, t1, t2, -⟩ := gauss_run R m0 hm hs
  have E2 : t = s' := Option.some.inj (t1.symm.trans g1)
  subst E2
  obtain ⟨r2, v', h2, k1, k2⟩ := C49_volumes p q m hl t.det t2.2.2 v hv
  have E3 : r2 = r1 := Option.some.inj (h2.symm.trans hr)
  subst E3
  refine ⟨r2, t, v', hr, R, g1, k1, ?_⟩
  intro e he co hco
  obtain ⟨-, -, k5⟩ := k2 e he
  rw [k5, show RefElem.nodes1D p ^ 3 = RefElem.nodes1D p * RefElem.nodes1D p * RefElem.nodes1D p by ring, sum_range_cube]
  unfold tensorQuad
  refine sum_congr rfl fun k hk => sum_congr rfl fun j hj => sum_congr rfl fun i hi => ?_
  have hi := mem_range.1 hi
  have hj := mem_range.1 hj
  have hk := mem_range.1 hk
  have en : i + j * RefElem.nodes1D p + k * RefElem.nodes1D p * RefElem.nodes1D p = RefElem.rid (RefElem.nodes1D p) i j k := by
    unfold RefElem.rid; ring
  have hlt := RefElem.rid_lt hi hj hk
  rw [en]
  congr 1
  · exact (R.nodeW i j k hi hj hk)
  · have := (curved_point hp R m0 hco (g2 e he (RefElem.rid (RefElem.nodes1D p) i j k)
      (lt_of_lt_of_eq hlt (by ring)) _ rfl).1).2
    rw [← show RefElem.nodes1D p ^ 3 = RefElem.nodes1D p * RefElem.nodes1D p * RefElem.nodes1D p by ring, this,
      R.nodePos i j k hi hj hk]
    rfl

/-- **C73 (curved elements).**  `get_gauss_pt_jacobian` followed by `get_vol_jacobi`, orders 1 to 9: the volume of an
element that is the image of the reference cube under a polynomial map is the integral of the Jacobian determinant of that
map, up to the accuracy of the tabulated weights. -/
theorem C73_volume (p : ℕ) (h1 : 1 ≤ p) (hp : p ≤ 9) (q : RefElem.Junk) (m0 : ℕ → ℕ) (m : Mesh) (hm : MeshOK p m) (hl : LatticeMesh p m)
    (s : Jac) (hs : s.Sized (m.elems * RefElem.nodes1D p ^ 3)) (v : Vol) (hv : v.Sized m) :
    ∃ r s' v', RefElem.init p q = some r ∧
      gaussJacobian m (RefElem.verts1D p ^ 3) (HexN.vertNodeMap p m0) r s = some s' ∧ volJacobi m r s'.det v = some v' ∧
      ∀ e < m.elems, ∀ co, CurvedBy p m0 r m e co →
        |v'.elem.val e - imageVolume (fun a => polyAt p (co a))| ≤
          114 / 10 ^ 23 * p ^ 3 * (coefSum p (co 0) * coefSum p (co 1) * coefSum p (co 2)) := by
  obtain ⟨r, s', v', hr, R, g1, k1, k2⟩ := volume_quad p hp q m0 m hm hl s hs v hv
  refine ⟨r, s', v', hr, g1, k1, ?_⟩
  intro e he co hco
  have hd : degree p = p := by unfold degree RefElem.verts1D; rw [if_neg (by omega)]; omega
  have key := quad_jacDet (degree p) co (degree_pos p) (lob_rule h1 hp R) (by norm_num) (show 3 * degree p ≤ 4 * p by omega)
  rw [k2 e he co hco]
  rw [hd] at key ⊢
  refine key.trans (le_of_eq (by ring))

/-- **C73 (Lebesgue measure).**  If moreover the map is injective on the reference cube with nonnegative Jacobian
determinant, the computed volume is the Lebesgue measure of the element, up to the same accuracy. -/
theorem C73_measure (p : ℕ) (h1 : 1 ≤ p) (hp : p ≤ 9) (q : RefElem.Junk) (m0 : ℕ → ℕ) (m : Mesh) (hm : MeshOK p m) (hl : LatticeMesh p m)
    (s : Jac) (hs : s.Sized (m.elems * RefElem.nodes1D p ^ 3)) (v : Vol) (hv : v.Sized m) :
    ∃ r s' v', RefElem.init p q = some r ∧
      gaussJacobian m (RefElem.verts1D p ^ 3) (HexN.vertNodeMap p m0) r s = some s' ∧ volJacobi m r s'.det v = some v' ∧
      ∀ e < m.elems, ∀ co, CurvedBy p m0 r m e co → Set.InjOn (curve p co) refCube →
        (∀ x ∈ refCube, 0 ≤ jacDet (fun a => polyAt p (co a)) (pt (x 0) (x 1) (x 2))) →
        |v'.elem.val e - (MeasureTheory.volume (curve p co '' refCube)).toReal| ≤
          114 / 10 ^ 23 * p ^ 3 * (coefSum p (co 0) * coefSum p (co 1) * coefSum p (co 2)) := by
  obtain ⟨r, s', v', hr, g1, k1, k2⟩ := C73_volume p h1 hp q m0 m hm hl s hs v hv
  refine ⟨r, s', v', hr, g1, k1, ?_⟩
  intro e he co hco hi hpos
  rw [imageVolume_measure p co hi hpos, ENNReal.toReal_ofReal]
  · exact k2 e he co hco
  · rw [imageVolume, ← box_integral (fun u v w => jacDet (fun a => polyAt p (co a)) (pt u v w)) (jacDet_continuous p co)]
    exact setIntegral_nonneg (show MeasurableSet refCube from measurableSet_Icc) fun x hx => hpos x hx

end Verif.Geometry
