import Verif.Geometry.CurvedOuter

/-!
# C119: the total volume of a mesh of curved elements depends on its outer surface only, also for meshes of different orders
-/

namespace Verif.Geometry
open Finset MeasureTheory
open Verif.DetJac (polyAt interp)
open LagrangeElement LagrangeElement.Spec

/-! ### Specification -/

/-- The point of the reference cube on the upper or lower side in direction `d` with coordinates `u`, `v` in the two directions after
`d`. -/
noncomputable def sidePt (d : ℕ) (up : Bool) (u v : ℝ) (c : ℕ) : ℝ :=
  if c = d then (if up then 1 else -1) else if c = (d + 1) % 3 then u else v

/-- Minus one for a mirror image. -/
noncomputable def sg (f : Bool) : ℝ := if f then -1 else 1

/-- Two meshes, of orders `p` and `p'`, whose elements are described by the polynomial maps `co` and `co'`, have the same outer surface,
`φ` telling which outer side of the second mesh is the same as a given outer side of the first: the maps agree on them, under one of the
eight symmetries of the square (swap the two directions, then mirror them).  The elements lie on the same side of the common side,
which is to say that the symmetry is a rotation if both are upper or both lower sides, and a mirror image otherwise. -/
structure SameSkin (p : ℕ) (m : Mesh) (nb : Side → Option Side) (co : ℕ → ℕ → ℕ → ℕ → ℕ → ℝ) (p' : ℕ) (m' : Mesh)
    (nb' : Side → Option Side) (co' : ℕ → ℕ → ℕ → ℕ → ℕ → ℝ) (φ : Side → Side) : Prop where
  maps : ∀ s, s.In m → nb s = none → (φ s).In m' ∧ nb' (φ s) = none
  inj : ∀ s, s.In m → nb s = none → ∀ t, t.In m → nb t = none → φ s = φ t → s = t
  surj : ∀ t, t.In m' → nb' t = none → ∃ s, s.In m ∧ nb s = none ∧ φ s = t
  same : ∀ s, s.In m → nb s = none → ∃ sw f1 f2 : Bool, xor (xor sw f1) f2 = (s.2.2 != (φ s).2.2) ∧
    ∀ u ∈ Set.Icc (-1 : ℝ) 1, ∀ v ∈ Set.Icc (-1 : ℝ) 1, ∀ i < 3, polyAt p (co s.1 i) (sidePt s.2.1 s.2.2 u v) =
      polyAt p' (co' (φ s).1 i) (sidePt (φ s).2.1 (φ s).2.2 (sg f1 * if sw then v else u) (sg f2 * if sw then u else v))

/-! ### Polynomials in two variables -/

/-- Value of the polynomial in two variables with coefficients `f`. -/
noncomputable def biv (P : ℕ) (f : ℕ × ℕ → ℝ) (u v : ℝ) : ℝ := ∑ y ∈ range (P + 1) ×ˢ range (P + 1), f y * (u ^ y.1 * v ^ y.2)

theorem uni_zero {P : ℕ} {c : ℕ → ℝ} (h : ∀ u ∈ Set.Icc (-1 : ℝ) 1, ∑ a ∈ range (P + 1), c a * u ^ a = 0) : ∀ a ∈ range (P + 1), c a = 0 := by
  set q : Polynomial ℝ := ∑ a ∈ range (P + 1), Polynomial.C (c a) * Polynomial.X ^ a with hq
  have hev : ∀ u, q.eval u = ∑ a ∈ range (P + 1), c a * u ^ a := by
    intro u; rw [hq, Polynomial.eval_finsetSum]; simp
  have q0 : q = 0 := by
    refine Polynomial.eq_zero_of_infinite_isRoot q ((Set.Icc_infinite (show (-1 : ℝ) < 1 by norm_num)).mono fun u hu => ?_)
    show q.eval u = 0
    rw [hev, h u hu]
  intro a ha
  have : q.coeff a = c a := by
    rw [hq, Polynomial.finsetSum_coeff]
    simp only [Polynomial.coeff_C_mul_X_pow]
    rw [sum_ite_eq, if_pos ha]
  rw [← this, q0, Polynomial.coeff_zero]

theorem biv_unique {P : ℕ} {f g : ℕ × ℕ → ℝ} (h : ∀ u ∈ Set.Icc (-1 : ℝ) 1, ∀ v ∈ Set.Icc (-1 : ℝ) 1, biv P f u v = biv P g u v) :
    ∀ y ∈ range (P + 1) ×ˢ range (P + 1), f y = g y := by
  rintro ⟨a, b⟩ hy
  obtain ⟨ha, hb⟩ := mem_product.1 hy
  have key : ∀ v ∈ Set.Icc (-1 : ℝ) 1, ∀ a ∈ range (P + 1), ∑ b ∈ range (P + 1), (f (a, b) - g (a, b)) * v ^ b = 0 := by
    intro v hv
    refine uni_zero (c := fun a => ∑ b ∈ range (P + 1), (f (a, b) - g (a, b)) * v ^ b) fun u hu => ?_
    have := h u hu v hv
    unfold biv at this
    rw [← sub_eq_zero, ← sum_sub_distrib, sum_product] at this
    rw [← this]
    refine sum_congr rfl fun a _ => ?_
    rw [sum_mul]
    refine sum_congr rfl fun b _ => ?_
    ring
  have := uni_zero (c := fun b => f (a, b) - g (a, b)) (fun v hv => key v hv a ha) b hb
  linarith

theorem sideForm_congr {P : ℕ} {f g : ℕ → ℕ × ℕ → ℝ} (h : ∀ i < 3, ∀ y ∈ range (P + 1) ×ˢ range (P + 1), f i y = g i y) :
    sideForm P f = sideForm P g := by
  unfold sideForm
  refine sum_congr rfl fun y hy => sum_congr rfl fun y' hy' => sum_congr rfl fun y'' hy'' => ?_
  rw [h 0 (by omega) y hy, h 1 (by omega) y' hy', h 2 (by omega) y'' hy'']

/-- Coefficients of a polynomial of degree `P` as one of higher degree. -/
noncomputable def pad (P : ℕ) (f : ℕ × ℕ → ℝ) (y : ℕ × ℕ) : ℝ := if y ∈ range (P + 1) ×ˢ range (P + 1) then f y else 0

theorem pad_sub {P Q : ℕ} (h : P ≤ Q) : range (P + 1) ×ˢ range (P + 1) ⊆ range (Q + 1) ×ˢ range (Q + 1) := by
  intro y hy
  rw [mem_product, mem_range, mem_range] at *
  omega

theorem pad_sum {P Q : ℕ} (h : P ≤ Q) (f : ℕ × ℕ → ℝ) (G : ℕ × ℕ → ℝ) :
    ∑ y ∈ range (Q + 1) ×ˢ range (Q + 1), pad P f y * G y = ∑ y ∈ range (P + 1) ×ˢ range (P + 1), f y * G y := by
  rw [← sum_subset (pad_sub h)]
  · refine sum_congr rfl fun y hy => ?_
    unfold pad; rw [if_pos hy]
  · intro y _ hy
    unfold pad; rw [if_neg hy, zero_mul]

theorem sideForm_nest (P : ℕ) (f : ℕ → ℕ × ℕ → ℝ) : sideForm P f = ∑ y ∈ range (P + 1) ×ˢ range (P + 1), f 0 y *
    ∑ y' ∈ range (P + 1) ×ˢ range (P + 1), f 1 y' * ∑ y'' ∈ range (P + 1) ×ˢ range (P + 1), f 2 y'' * sideK y y' y'' := by
  unfold sideForm
  simp only [mul_sum, mul_assoc]

theorem sideForm_pad {P Q : ℕ} (h : P ≤ Q) (f : ℕ → ℕ × ℕ → ℝ) : sideForm Q (fun i => pad P (f i)) = sideForm P f := by
  rw [sideForm_nest, sideForm_nest]
  simp only [pad_sum h]

theorem biv_pad {P Q : ℕ} (h : P ≤ Q) (f : ℕ × ℕ → ℝ) (u v : ℝ) : biv Q (pad P f) u v = biv P f u v := pad_sum h f _

theorem biv_swap (P : ℕ) (f : ℕ × ℕ → ℝ) (u v : ℝ) : biv P (fun y => f y.swap) u v = biv P f v u := by
  unfold biv
  rw [← sum_swap_pair _ (fun y => f y * (v ^ y.1 * u ^ y.2))]
  refine sum_congr rfl fun y _ => ?_
  simp only [Prod.fst_swap, Prod.snd_swap]
  ring

theorem sideForm_flip' (P : ℕ) (f : ℕ → ℕ × ℕ → ℝ) : sideForm P (fun i y => (-1) ^ y.2 * f i y) = -sideForm P f := by
  have a := sideForm_swap P (fun i y => (-1) ^ y.1 * f i y.swap)
  have b := sideForm_flip P (fun i y => f i y.swap)
  have c := sideForm_swap P f
  simp only [Prod.fst_swap, Prod.swap_swap] at a
  rw [a, b, c]
  ring

/-- Coefficients after one of the eight symmetries. -/
noncomputable def act (sw f1 f2 : Bool) (f : ℕ × ℕ → ℝ) (y : ℕ × ℕ) : ℝ :=
  if sw then sg f1 ^ y.swap.1 * (sg f2 ^ y.swap.2 * f y.swap) else sg f1 ^ y.1 * (sg f2 ^ y.2 * f y)

theorem biv_act (P : ℕ) (sw f1 f2 : Bool) (f : ℕ × ℕ → ℝ) (u v : ℝ) :
    biv P (act sw f1 f2 f) u v = biv P f (sg f1 * if sw then v else u) (sg f2 * if sw then u else v) := by
  have h : ∀ a b : ℝ, biv P (fun y => sg f1 ^ y.1 * (sg f2 ^ y.2 * f y)) a b = biv P f (sg f1 * a) (sg f2 * b) := by
    intro a b
    unfold biv
    refine sum_congr rfl fun y _ => ?_
    rw [mul_pow, mul_pow]; ring
  cases sw
  · exact h u v
  · rw [if_pos rfl, if_pos rfl, ← h, ← biv_swap]; rfl

theorem sideForm_act (P : ℕ) (sw f1 f2 : Bool) (f : ℕ → ℕ × ℕ → ℝ) : sideForm P (fun i => act sw f1 f2 (f i)) =
    if xor (xor sw f1) f2 then -sideForm P f else sideForm P f := by
  have h : sideForm P (fun i y => sg f1 ^ y.1 * (sg f2 ^ y.2 * f i y)) = sg f1 * sg f2 * sideForm P f := by
    have a := sideForm_flip P f
    have b := sideForm_flip' P f
    have c := sideForm_flip P (fun i y => (-1) ^ y.2 * f i y)
    cases f1 <;> cases f2 <;> simp only [sg, if_true, Bool.false_eq_true, if_false, one_pow, one_mul] <;> linarith
  have e : sideForm P (fun i => act sw f1 f2 (f i)) = (if sw then -1 else 1) * (sg f1 * sg f2 * sideForm P f) := by
    rw [← h]
    cases sw
    · rw [if_neg (by decide), one_mul]; rfl
    · rw [if_pos rfl, neg_one_mul, ← sideForm_swap]; rfl
  rw [e]
  cases sw <;> cases f1 <;> cases f2 <;> simp [sg]

/-- The restriction of a polynomial to a side. -/
theorem biv_restr (P : ℕ) {d : ℕ} (hd : d < 3) (up : Bool) (c : ℕ → ℕ → ℕ → ℝ) (u v : ℝ) :
    biv P (restr P d (if up then 1 else -1) c) u v = polyAt P c (sidePt d up u v) := by
  have flat : polyAt P c (sidePt d up u v) = ∑ s ∈ expo P, coef c s * (sidePt d up u v 0 ^ s.1 * sidePt d up u v 1 ^ s.2.1 * sidePt d up u v 2 ^ s.2.2) := by
    unfold polyAt Swage.HighOrder.polyMap expo
    rw [sum_product]
    refine sum_congr rfl fun a _ => ?_
    rw [sum_product]
    rfl
  rw [flat, sum_mk P hd]
  unfold biv restr
  refine sum_congr rfl fun y _ => ?_
  rw [sum_mul]
  refine sum_congr rfl fun a _ => ?_
  unfold sidePt
  generalize (if up then (1 : ℝ) else -1) = ε
  interval_cases d
  · show coef c (a, y.1, y.2) * ε ^ a * (u ^ y.1 * v ^ y.2) = coef c (a, y.1, y.2) * (ε ^ a * u ^ y.1 * v ^ y.2)
    ring
  · show coef c (y.2, a, y.1) * ε ^ a * (u ^ y.1 * v ^ y.2) = coef c (y.2, a, y.1) * (v ^ y.2 * ε ^ a * u ^ y.1)
    ring
  · show coef c (y.1, y.2, a) * ε ^ a * (u ^ y.1 * v ^ y.2) = coef c (y.1, y.2, a) * (u ^ y.1 * v ^ y.2 * ε ^ a)
    ring

/-! ### C119 -/

theorem side_co {p : ℕ} (h1 : 1 ≤ p) (hp : p ≤ 9) {q : RefElem.Junk} {r : RefElem.Ref} (R : RefElem.InitSpec p q r) (m0 : ℕ → ℕ)
    {m : Mesh} {s : Side} (hs : s.In m) {co : ℕ → ℕ → ℕ → ℕ → ℝ} (h : CurvedBy p m0 r m s.1 co) :
    sideSum p m0 r.verts m m.coords.val s = (if s.2.2 then 1 else -1) * sideForm p fun i => restr p s.2.1 (if s.2.2 then 1 else -1) (co i) := by
  have hd : degree p = p := by unfold degree RefElem.verts1D; rw [if_neg (by omega)]; omega
  have hN : RefElem.verts1D p = p + 1 := by unfold RefElem.verts1D; rw [if_neg (by omega)]
  have hz := RefElem.verts_inj hp R
  rw [hN] at hz
  obtain ⟨z0, z1⟩ := verts_ends h1 hp R
  rw [hd] at z1
  unfold sideSum squareForm
  congr 1
  refine sideForm_congr fun i hi => ?_
  have hZ : r.verts (if s.2.2 then p else 0) = if s.2.2 then 1 else -1 := by split <;> assumption
  have e1 : ∀ y : ℕ × ℕ, ∑ β ∈ range (p + 1), ∑ α ∈ range (p + 1), m.coords.val (sideNode p m0 m s α β) i *
      ((Lagrange.basis (range (p + 1)) r.verts α).coeff y.1 * (Lagrange.basis (range (p + 1)) r.verts β).coeff y.2) =
      restr p s.2.1 (if s.2.2 then 1 else -1) (interpCoef (p + 1) r.verts
        (fun v => m.coords.val (m.nodesInElem.val (s.1 * m.gaussInElem + HexN.vertNodeMap p m0 v)) i)) y := by
    intro y
    rw [← hZ, restr_interp hz (by split <;> omega) _ hs.2]
    unfold sideNode
    rw [hN]
    rfl
  have e2 := curved_interp hp R m0 h hi
  rw [hd] at e2
  intro y hy
  rw [e1]
  refine biv_unique (P := p) (fun u _ v _ => ?_) y hy
  rw [biv_restr p hs.2, biv_restr p hs.2, interp_coef hz, ← e2]

/-- **C119 (volume).**  Two meshes of orders 1 to 9, not necessarily the same, with the same outer surface have the same total
volume, however many elements they have inside and however these are glued together. -/
theorem C119_volume (p p' : ℕ) (h1 : 1 ≤ p) (hp : p ≤ 9) (h1' : 1 ≤ p') (hp' : p' ≤ 9) (q q' : RefElem.Junk) (m0 : ℕ → ℕ) (r r' : RefElem.Ref)
    (hr : RefElem.init p q = some r) (hr' : RefElem.init p' q' = some r') (m m' : Mesh) (nb nb' : Side → Option Side)
    (hg : GluedAny p m0 m nb) (hg' : GluedAny p' m0 m' nb') (co co' : ℕ → ℕ → ℕ → ℕ → ℕ → ℝ)
    (h : ∀ e < m.elems, CurvedBy p m0 r m e (co e)) (h' : ∀ e < m'.elems, CurvedBy p' m0 r' m' e (co' e))
    (φ : Side → Side) (hs : SameSkin p m nb co p' m' nb' co' φ) :
    ∑ e ∈ range m.elems, imageVolume (fun a => polyAt p (co e a)) = ∑ e ∈ range m'.elems, imageVolume (fun a => polyAt p' (co' e a)) := by
  obtain ⟨r2, e1, R⟩ := RefElem.init_run p q
  obtain rfl : r2 = r := Option.some.inj (e1.symm.trans hr)
  obtain ⟨r2', e1', R'⟩ := RefElem.init_run p' q'
  obtain rfl : r2' = r' := Option.some.inj (e1'.symm.trans hr')
  rw [total_sides h1 hp R m0 hg h, total_sides h1' hp' R' m0 hg' h']
  have mem : ∀ (m : Mesh) (nb : Side → Option Side) s, s ∈ (sides m).filter (fun s => nb s = none) ↔ s.In m ∧ nb s = none := by
    intro m nb s; rw [mem_filter, mem_sides]
  refine sum_bij (fun s _ => φ s) ?_ ?_ ?_ ?_
  · intro s h2
    obtain ⟨a, b⟩ := (mem _ _ _).1 h2
    exact (mem _ _ _).2 (hs.maps s a b)
  · intro s h2 t h3 h4
    obtain ⟨a, b⟩ := (mem _ _ _).1 h2
    obtain ⟨c, d⟩ := (mem _ _ _).1 h3
    exact hs.inj s a b t c d h4
  · intro t h2
    obtain ⟨a, b⟩ := (mem _ _ _).1 h2
    obtain ⟨s, h3, h4, h5⟩ := hs.surj t a b
    exact ⟨s, (mem _ _ _).2 ⟨h3, h4⟩, h5⟩
  · intro s h2
    obtain ⟨a, b⟩ := (mem _ _ _).1 h2
    obtain ⟨c, -⟩ := hs.maps s a b
    obtain ⟨sw, f1, f2, hodd, hsame⟩ := hs.same s a b
    rw [side_co h1 hp R m0 a (h s.1 a.1), side_co h1' hp' R' m0 c (h' (φ s).1 c.1), ← sideForm_pad (le_max_left p p'),
      ← sideForm_pad (le_max_right p p')]
    have k : sideForm (max p p') (fun i => pad p (restr p s.2.1 (if s.2.2 then 1 else -1) (co s.1 i))) =
        sideForm (max p p') (fun i => act sw f1 f2 (pad p' (restr p' (φ s).2.1 (if (φ s).2.2 then 1 else -1) (co' (φ s).1 i)))) := by
      refine sideForm_congr fun i hi => biv_unique fun u hu v hv => ?_
      rw [biv_act, biv_pad (le_max_left p p'), biv_pad (le_max_right p p'), biv_restr p a.2, biv_restr p' c.2]
      exact hsame u hu v hv i hi
    rw [k, sideForm_act, hodd]
    cases s.2.2 <;> cases (φ s).2.2 <;> simp

/-- **C119 (`get_vol_jacobi`).**  The total volumes computed by `get_gauss_pt_jacobian` and `get_vol_jacobi` for two such meshes
differ by no more than the accuracy of the tabulated weights. -/
theorem C119_computed (p p' : ℕ) (h1 : 1 ≤ p) (hp : p ≤ 9) (h1' : 1 ≤ p') (hp' : p' ≤ 9) (q q' : RefElem.Junk) (m0 : ℕ → ℕ)
    (m : Mesh) (hm : MeshOK p m) (hl : LatticeMesh p m) (s : Jac) (hs : s.Sized (m.elems * RefElem.nodes1D p ^ 3)) (v : Vol) (hv : v.Sized m)
    (m' : Mesh) (hm' : MeshOK p' m') (hl' : LatticeMesh p' m') (t : Jac) (ht : t.Sized (m'.elems * RefElem.nodes1D p' ^ 3)) (w : Vol)
    (hw : w.Sized m') (nb nb' : Side → Option Side) (hg : GluedAny p m0 m nb) (hg' : GluedAny p' m0 m' nb') :
    ∃ r s' v' r' t' w', RefElem.init p q = some r ∧
      gaussJacobian m (RefElem.verts1D p ^ 3) (HexN.vertNodeMap p m0) r s = some s' ∧ volJacobi m r s'.det v = some v' ∧
      RefElem.init p' q' = some r' ∧
      gaussJacobian m' (RefElem.verts1D p' ^ 3) (HexN.vertNodeMap p' m0) r' t = some t' ∧ volJacobi m' r' t'.det w = some w' ∧
      ∀ co co' : ℕ → ℕ → ℕ → ℕ → ℕ → ℝ, (∀ e < m.elems, CurvedBy p m0 r m e (co e)) → (∀ e < m'.elems, CurvedBy p' m0 r' m' e (co' e)) →
        ∀ φ, SameSkin p m nb co p' m' nb' co' φ →
        |∑ e ∈ range m.elems, v'.elem.val e - ∑ e ∈ range m'.elems, w'.elem.val e| ≤
          114 / 10 ^ 23 * p ^ 3 * (∑ e ∈ range m.elems, coefSum p (co e 0) * coefSum p (co e 1) * coefSum p (co e 2)) +
          114 / 10 ^ 23 * p' ^ 3 * (∑ e ∈ range m'.elems, coefSum p' (co' e 0) * coefSum p' (co' e 1) * coefSum p' (co' e 2)) := by
  obtain ⟨r, s', v', hr, g1, g2, g3⟩ := C73_volume p h1 hp q m0 m hm hl s hs v hv
  obtain ⟨r', t', w', hr', k1, k2, k3⟩ := C73_volume p' h1' hp' q' m0 m' hm' hl' t ht w hw
  refine ⟨r, s', v', r', t', w', hr, g1, g2, hr', k1, k2, ?_⟩
  intro co co' hc hc' φ ho
  have key := C119_volume p p' h1 hp h1' hp' q q' m0 r r' hr hr' m m' nb nb' hg hg' co co' hc hc' φ ho
  have a : |∑ e ∈ range m.elems, v'.elem.val e - ∑ e ∈ range m.elems, imageVolume fun a => polyAt p (co e a)| ≤
      ∑ e ∈ range m.elems, 114 / 10 ^ 23 * p ^ 3 * (coefSum p (co e 0) * coefSum p (co e 1) * coefSum p (co e 2)) := by
    rw [← sum_sub_distrib]
    exact (abs_sum_le_sum_abs _ _).trans (sum_le_sum fun e he => (g3 e (mem_range.1 he) (co e) (hc e (mem_range.1 he))).trans (le_of_eq (by ring)))
  have b : |∑ e ∈ range m'.elems, w'.elem.val e - ∑ e ∈ range m'.elems, imageVolume fun a => polyAt p' (co' e a)| ≤
      ∑ e ∈ range m'.elems, 114 / 10 ^ 23 * p' ^ 3 * (coefSum p' (co' e 0) * coefSum p' (co' e 1) * coefSum p' (co' e 2)) := by
    rw [← sum_sub_distrib]
    exact (abs_sum_le_sum_abs _ _).trans (sum_le_sum fun e he => (k3 e (mem_range.1 he) (co' e) (hc' e (mem_range.1 he))).trans (le_of_eq (by ring)))
  rw [← mul_sum] at a b
  rw [← key] at b
  rw [abs_le] at a b ⊢
  constructor <;> linarith [a.1, a.2, b.1, b.2]

/-! ### A concrete pair of meshes -/

theorem bump_one (X : ℕ → ℝ) : polyAt 1 (bump 0 0) X = X 0 ∧ polyAt 1 (bump 0 1) X = X 1 ∧ polyAt 1 (bump 0 2) X = X 2 := by
  unfold polyAt Swage.HighOrder.polyMap
  simp only [sum_range_succ, sum_range_zero, bump]
  norm_num

/-- The cube as one element of order 1, and as one of order 2 whose centre node has been moved by `b`. -/
theorem cube_skin (m m' : Mesh) (hm : m.elems = 1) (hm' : m'.elems = 1) (b : ℝ) :
    SameSkin 1 m (fun _ => none) (fun _ => bump 0) 2 m' (fun _ => none) (fun _ => bump b) id where
  maps := by
    rintro s ⟨a, b⟩ -
    exact ⟨⟨by show s.1 < m'.elems; omega, b⟩, rfl⟩
  inj := fun s _ _ t _ _ h => h
  surj := by
    rintro s ⟨a, b⟩ -
    exact ⟨s, ⟨by omega, b⟩, rfl, rfl⟩
  same := by
    rintro ⟨e, d, up⟩ ⟨_, hd⟩ -
    refine ⟨false, false, false, by simp, fun u _ v _ i hi => ?_⟩
    have e : sidePt d up (sg false * if false = true then v else u) (sg false * if false = true then u else v) = sidePt d up u v := by
      simp [sg]
    show polyAt 1 (bump 0 i) (sidePt d up u v) = polyAt 2 (bump b i) (sidePt d up _ _)
    rw [e]
    have hd : d < 3 := hd
    have van : (1 - sidePt d up u v 0 ^ 2) * (1 - sidePt d up u v 1 ^ 2) * (1 - sidePt d up u v 2 ^ 2) = 0 := by
      have : 1 - sidePt d up u v d ^ 2 = 0 := by unfold sidePt; rw [if_pos rfl]; split <;> norm_num
      interval_cases d
      · rw [this]; ring
      · rw [this]; ring
      · rw [this]; ring
    obtain ⟨a0, a1, a2⟩ := bump_one (sidePt d up u v)
    obtain ⟨b0, b1, b2⟩ := bump_eq b (sidePt d up u v)
    interval_cases i
    · rw [a0, b0, van]; ring
    · rw [a1, b1]
    · rw [a2, b2]

/-- Non-vacuity of the hypotheses of C119: the cube as one element of order 1, and as one of order 2 with the centre node at `(10, 0, 0)`. -/
example (q q' : RefElem.Junk) (m0 : ℕ → ℕ) : ∃ (r r' : RefElem.Ref) (m m' : Mesh), RefElem.init 1 q = some r ∧ RefElem.init 2 q' = some r' ∧
    MeshOK 1 m ∧ LatticeMesh 1 m ∧ MeshOK 2 m' ∧ LatticeMesh 2 m' ∧ GluedAny 1 m0 m (fun _ => none) ∧ GluedAny 2 m0 m' (fun _ => none) ∧
    (∀ e < m.elems, CurvedBy 1 m0 r m e (bump 0)) ∧ (∀ e < m'.elems, CurvedBy 2 m0 r' m' e (bump 10)) ∧
    SameSkin 1 m (fun _ => none) (fun _ => bump 0) 2 m' (fun _ => none) (fun _ => bump 10) id := by
  obtain ⟨r, hr, -⟩ := RefElem.init_run 1 q
  obtain ⟨r', hr', -⟩ := RefElem.init_run 2 q'
  refine ⟨r, r', oneElement 1 fun n i => polyAt (degree 1) (bump 0 i) (r.nodePos.val n),
    oneElement 2 fun n i => polyAt (degree 2) (bump 10 i) (r'.nodePos.val n), hr, hr', oneElement_ok _ _, oneElement_lattice _ _,
    oneElement_ok _ _, oneElement_lattice _ _, ?_, ?_, ?_, ?_, cube_skin _ _ rfl rfl 10⟩
  · intro s _ s' h; cases h
  · intro s _ s' h; cases h
  · intro e he
    obtain rfl : e = 0 := by have : e < 1 := he; omega
    exact oneElement_curved 1 m0 r (bump 0)
  · intro e he
    obtain rfl : e = 0 := by have : e < 1 := he; omega
    exact oneElement_curved 2 m0 r' (bump 10)

end Verif.Geometry
