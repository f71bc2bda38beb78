import Verif.Geometry.CurvedTurned

/-!
# C118: the total volume of a mesh of curved elements depends on its outer sides only
-/

namespace Verif.Geometry
open Finset MeasureTheory
open Verif.DetJac (polyAt interp)
open Verif.Swage.HighOrder (orient mirror)
open LagrangeElement LagrangeElement.Spec

/-! ### Specification -/

/-- Two meshes of order `p` have the same outer sides, `φ` telling which outer side of the second mesh is the same as a given outer side
of the first: their nodes are in the same places, under one of the eight symmetries of the square lattice.  The elements lie on
the same side of the common side, which is to say that the symmetry is a rotation if both are upper or both lower sides, and a
mirror image otherwise. -/
structure SameOuter (p : ℕ) (m0 : ℕ → ℕ) (m : Mesh) (nb : Side → Option Side) (m' : Mesh) (nb' : Side → Option Side) (φ : Side → Side) :
    Prop where
  maps : ∀ s, s.In m → nb s = none → (φ s).In m' ∧ nb' (φ s) = none
  inj : ∀ s, s.In m → nb s = none → ∀ t, t.In m → nb t = none → φ s = φ t → s = t
  surj : ∀ t, t.In m' → nb' t = none → ∃ s, s.In m ∧ nb s = none ∧ φ s = t
  same : ∀ s, s.In m → nb s = none → ∃ sw f1 f2 : Bool, xor (xor sw f1) f2 = (s.2.2 != (φ s).2.2) ∧
    ∀ a < RefElem.verts1D p, ∀ b < RefElem.verts1D p, ∀ i < 3, m.coords.val (sideNode p m0 m s a b) i =
      m'.coords.val (sideNode p m0 m' (φ s) (orient (RefElem.verts1D p - 1) sw f1 f2 a b).1
        (orient (RefElem.verts1D p - 1) sw f1 f2 a b).2) i

/-! ### The volume as a sum over the outer sides -/

/-- All sides of a mesh. -/
def sides (m : Mesh) : Finset Side := range m.elems ×ˢ (range 3 ×ˢ (univ : Finset Bool))

theorem mem_sides {m : Mesh} {s : Side} : s ∈ sides m ↔ s.In m := by
  simp [sides, Side.In, mem_product]

theorem total_sides {p : ℕ} (h1 : 1 ≤ p) (hp : p ≤ 9) {q : RefElem.Junk} {r : RefElem.Ref} (R : RefElem.InitSpec p q r) (m0 : ℕ → ℕ)
    {m : Mesh} {nb : Side → Option Side} (hg : GluedAny p m0 m nb) {co : ℕ → ℕ → ℕ → ℕ → ℕ → ℝ} (h : ∀ e < m.elems, CurvedBy p m0 r m e (co e)) :
    ∑ e ∈ range m.elems, imageVolume (fun a => polyAt p (co e a)) =
      ∑ s ∈ (sides m).filter (fun s => nb s = none), sideSum p m0 r.verts m m.coords.val s := by
  have hN : RefElem.verts1D p = p + 1 := by unfold RefElem.verts1D; rw [if_neg (by omega)]
  have hz := RefElem.verts_inj hp R
  rw [hN] at hz
  have hsym := verts_sym h1 hp R
  rw [sum_congr rfl fun e he => element_sum h1 hp R m0 (h e (mem_range.1 he))]
  have flat : ∑ e ∈ range m.elems, ∑ d ∈ range 3, ∑ u : Bool, sideSum p m0 r.verts m m.coords.val (e, d, u) =
      ∑ s ∈ sides m, sideSum p m0 r.verts m m.coords.val s := by
    unfold sides
    rw [sum_product]
    exact sum_congr rfl fun e _ => by rw [sum_product]
  have pair : ∀ s : Side, s.In m → ∀ s', nb s = some s' →
      sideSum p m0 r.verts m m.coords.val s + sideSum p m0 r.verts m m.coords.val s' = 0 := by
    intro s hs s' hn
    obtain ⟨-, -, sw, f1, f2, hodd, hsame⟩ := hg s hs s' hn
    rw [hN] at hsame
    have k : squareForm p r.verts (fun i a b => m.coords.val (sideNode p m0 m s a b) i) =
        squareForm p r.verts (fun i a b => m.coords.val (sideNode p m0 m s' (orient p sw f1 f2 a b).1 (orient p sw f1 f2 a b).2) i) :=
      squareForm_congr fun i _ a ha b hb => by rw [hsame a ha b hb]; rfl
    unfold sideSum
    rw [k, square_orient hz hsym (fun i a b => m.coords.val (sideNode p m0 m s' a b) i), hodd]
    cases s.2.2 <;> cases s'.2.2 <;> simp
  rw [flat, ← sum_filter_add_sum_filter_not (sides m) (fun s => nb s = none), add_eq_left]
  have some_of : ∀ s ∈ (sides m).filter (fun s => ¬ nb s = none), s.In m ∧ ∃ s', nb s = some s' := by
    intro s hs
    obtain ⟨a, b⟩ := mem_filter.1 hs
    exact ⟨mem_sides.1 a, Option.ne_none_iff_exists'.1 b⟩
  refine sum_involution (fun s _ => (nb s).getD s) ?_ ?_ ?_ ?_
  · intro s hs
    obtain ⟨hs, s', hn⟩ := some_of s hs
    rw [hn]
    exact pair s hs s' hn
  · intro s hs h0 hsame
    obtain ⟨hs, s', hn⟩ := some_of s hs
    rw [hn] at hsame
    have hsame : s' = s := hsame
    subst hsame
    have := pair s' hs s' hn
    exact h0 (by linarith)
  · intro s hs
    obtain ⟨hs, s', hn⟩ := some_of s hs
    obtain ⟨a, b, -⟩ := hg s hs s' hn
    rw [hn]
    exact mem_filter.2 ⟨mem_sides.2 a, by show ¬ nb s' = none; rw [b]; exact Option.some_ne_none _⟩
  · intro s hs
    obtain ⟨hs, s', hn⟩ := some_of s hs
    obtain ⟨-, b, -⟩ := hg s hs s' hn
    simp only [hn, Option.getD_some, b]

/-! ### C118 -/

/-- **C118 (volume).**  Two meshes of order 1 to 9 with the same outer sides have the same total volume, however many elements
they have inside and however these are glued together. -/
theorem C118_volume (p : ℕ) (h1 : 1 ≤ p) (hp : p ≤ 9) (q : RefElem.Junk) (m0 : ℕ → ℕ) (r : RefElem.Ref)
    (hr : RefElem.init p q = some r) (m m' : Mesh) (nb nb' : Side → Option Side) (hg : GluedAny p m0 m nb) (hg' : GluedAny p m0 m' nb')
    (φ : Side → Side) (hs : SameOuter p m0 m nb m' nb' φ) (co co' : ℕ → ℕ → ℕ → ℕ → ℕ → ℝ)
    (h : ∀ e < m.elems, CurvedBy p m0 r m e (co e)) (h' : ∀ e < m'.elems, CurvedBy p m0 r m' e (co' e)) :
    ∑ e ∈ range m.elems, imageVolume (fun a => polyAt p (co e a)) = ∑ e ∈ range m'.elems, imageVolume (fun a => polyAt p (co' e a)) := by
  obtain ⟨r2, e1, R⟩ := RefElem.init_run p q
  obtain rfl : r2 = r := Option.some.inj (e1.symm.trans hr)
  have hN : RefElem.verts1D p = p + 1 := by unfold RefElem.verts1D; rw [if_neg (by omega)]
  have hz := RefElem.verts_inj hp R
  rw [hN] at hz
  have hsym := verts_sym h1 hp R
  rw [total_sides h1 hp R m0 hg h, total_sides h1 hp R m0 hg' h']
  have mem : ∀ (m : Mesh) (nb : Side → Option Side) s, s ∈ (sides m).filter (fun s => nb s = none) ↔ s.In m ∧ nb s = none := by
    intro m nb s; rw [mem_filter, mem_sides]
  refine sum_bij (fun s _ => φ s) ?_ ?_ ?_ ?_
  · intro s h2
    obtain ⟨a, b⟩ := (mem _ _ _).1 h2
    exact (mem _ _ _).2 (hs.maps s a b)
  · intro s h2 t h3 h4
    obtain ⟨a, b⟩ := (mem _ _ _).1 h2
    obtain ⟨c, d⟩ := (mem _ _ _).1 h3
    exact hs.inj s a b t c d h4
  · intro t h2
    obtain ⟨a, b⟩ := (mem _ _ _).1 h2
    obtain ⟨s, h3, h4, h5⟩ := hs.surj t a b
    exact ⟨s, (mem _ _ _).2 ⟨h3, h4⟩, h5⟩
  · intro s h2
    obtain ⟨a, b⟩ := (mem _ _ _).1 h2
    obtain ⟨sw, f1, f2, hodd, hsame⟩ := hs.same s a b
    rw [hN] at hsame
    have k : squareForm p r2.verts (fun i a b => m.coords.val (sideNode p m0 m s a b) i) =
        squareForm p r2.verts (fun i a b => m'.coords.val (sideNode p m0 m' (φ s) (orient p sw f1 f2 a b).1 (orient p sw f1 f2 a b).2) i) :=
      squareForm_congr fun i hi a ha b hb => hsame a ha b hb i hi
    unfold sideSum
    rw [k, square_orient hz hsym (fun i a b => m'.coords.val (sideNode p m0 m' (φ s) a b) i), hodd]
    cases s.2.2 <;> cases (φ s).2.2 <;> simp

/-- **C118 (`get_vol_jacobi`).**  The total volumes computed by `get_gauss_pt_jacobian` and `get_vol_jacobi` for two such meshes
differ by no more than the accuracy of the tabulated weights. -/
theorem C118_computed (p : ℕ) (h1 : 1 ≤ p) (hp : p ≤ 9) (q : RefElem.Junk) (m0 : ℕ → ℕ)
    (m : Mesh) (hm : MeshOK p m) (hl : LatticeMesh p m) (s : Jac) (hs : s.Sized (m.elems * RefElem.nodes1D p ^ 3)) (v : Vol) (hv : v.Sized m)
    (m' : Mesh) (hm' : MeshOK p m') (hl' : LatticeMesh p m') (t : Jac) (ht : t.Sized (m'.elems * RefElem.nodes1D p ^ 3)) (w : Vol)
    (hw : w.Sized m') (nb nb' : Side → Option Side) (hg : GluedAny p m0 m nb) (hg' : GluedAny p m0 m' nb')
    (φ : Side → Side) (ho : SameOuter p m0 m nb m' nb' φ) :
    ∃ r s' v' t' w', RefElem.init p q = some r ∧
      gaussJacobian m (RefElem.verts1D p ^ 3) (HexN.vertNodeMap p m0) r s = some s' ∧ volJacobi m r s'.det v = some v' ∧
      gaussJacobian m' (RefElem.verts1D p ^ 3) (HexN.vertNodeMap p m0) r t = some t' ∧ volJacobi m' r t'.det w = some w' ∧
      ∀ co co' : ℕ → ℕ → ℕ → ℕ → ℕ → ℝ, (∀ e < m.elems, CurvedBy p m0 r m e (co e)) → (∀ e < m'.elems, CurvedBy p m0 r m' e (co' e)) →
        |∑ e ∈ range m.elems, v'.elem.val e - ∑ e ∈ range m'.elems, w'.elem.val e| ≤
          114 / 10 ^ 23 * p ^ 3 * (∑ e ∈ range m.elems, coefSum p (co e 0) * coefSum p (co e 1) * coefSum p (co e 2) +
            ∑ e ∈ range m'.elems, coefSum p (co' e 0) * coefSum p (co' e 1) * coefSum p (co' e 2)) := by
  obtain ⟨r, s', v', hr, g1, g2, g3⟩ := C73_volume p h1 hp q m0 m hm hl s hs v hv
  obtain ⟨r2, t', w', hr2, k1, k2, k3⟩ := C73_volume p h1 hp q m0 m' hm' hl' t ht w hw
  obtain rfl : r2 = r := Option.some.inj (hr2.symm.trans hr)
  refine ⟨r2, s', v', t', w', hr, g1, g2, k1, k2, ?_⟩
  intro co co' hc hc'
  have key := C118_volume p h1 hp q m0 r2 hr m m' nb nb' hg hg' φ ho co co' hc hc'
  have a : |∑ e ∈ range m.elems, v'.elem.val e - ∑ e ∈ range m.elems, imageVolume fun a => polyAt p (co e a)| ≤
      ∑ e ∈ range m.elems, 114 / 10 ^ 23 * p ^ 3 * (coefSum p (co e 0) * coefSum p (co e 1) * coefSum p (co e 2)) := by
    rw [← sum_sub_distrib]
    exact (abs_sum_le_sum_abs _ _).trans (sum_le_sum fun e he => (g3 e (mem_range.1 he) (co e) (hc e (mem_range.1 he))).trans (le_of_eq (by ring)))
  have b : |∑ e ∈ range m'.elems, w'.elem.val e - ∑ e ∈ range m'.elems, imageVolume fun a => polyAt p (co' e a)| ≤
      ∑ e ∈ range m'.elems, 114 / 10 ^ 23 * p ^ 3 * (coefSum p (co' e 0) * coefSum p (co' e 1) * coefSum p (co' e 2)) := by
    rw [← sum_sub_distrib]
    exact (abs_sum_le_sum_abs _ _).trans (sum_le_sum fun e he => (k3 e (mem_range.1 he) (co' e) (hc' e (mem_range.1 he))).trans (le_of_eq (by ring)))
  rw [← mul_sum] at a b
  rw [← key] at b
  rw [mul_add]
  rw [abs_le] at a b ⊢
  constructor <;> linarith [a.1, a.2, b.1, b.2]

/-! ### A concrete pair of meshes -/

/-- The gluing of `rowMesh`: the upper side of element 0 and the lower side of element 1 in direction 0. -/
def rowGlue' (s : Side) : Option Side :=
  if s = (0, 0, true) then some (1, 0, false) else if s = (1, 0, false) then some (0, 0, true) else none

theorem row_glued' (m0 : ℕ → ℕ) (x : ℕ → ℕ → ℝ) : GluedAny 2 m0 (rowMesh x) rowGlue' := by
  intro s _ s' hn
  unfold rowGlue' at hn
  split at hn
  · next hs =>
    obtain rfl := hs
    obtain rfl := Option.some.inj hn
    refine ⟨⟨show 1 < 2 by omega, show 0 < 3 by omega⟩, by decide, false, false, false, rfl, fun a ha b hb => ?_⟩
    have ha : a < 3 := ha
    have hb : b < 3 := hb
    show vertNode 2 m0 (rowMesh x) 0 (2 + a * 3 + b * 3 * 3) = vertNode 2 m0 (rowMesh x) 1 (0 + a * 3 + b * 3 * 3)
    rw [row_vert m0 x (by omega) (by omega) ha hb, row_vert m0 x (by omega) (by omega) ha hb]
  · split at hn
    · next hs =>
      obtain rfl := hs
      obtain rfl := Option.some.inj hn
      refine ⟨⟨show 0 < 2 by omega, show 0 < 3 by omega⟩, by decide, false, false, false, rfl, fun a ha b hb => ?_⟩
      have ha : a < 3 := ha
      have hb : b < 3 := hb
      show vertNode 2 m0 (rowMesh x) 1 (0 + a * 3 + b * 3 * 3) = vertNode 2 m0 (rowMesh x) 0 (2 + a * 3 + b * 3 * 3)
      rw [row_vert m0 x (by omega) (by omega) ha hb, row_vert m0 x (by omega) (by omega) ha hb]
    · cases hn

theorem row_vert' (m0 : ℕ → ℕ) (x : ℕ → ℕ → ℝ) {e v : ℕ} (he : e < 2) (hv : v < 27) :
    vertNode 2 m0 (rowMesh x) e v = 2 * (v % 3) + 4 * e + 2 * (v / 3 % 3) * 9 + 2 * (v / 3 / 3) * 45 := by
  rw [← row_vert m0 x he (show v % 3 < 3 by omega) (show v / 3 % 3 < 3 by omega) (show v / 3 / 3 < 3 by omega)]
  congr 1
  omega

theorem turn_vert' (m0 : ℕ → ℕ) (x : ℕ → ℕ → ℝ) {e v : ℕ} (he : e < 2) (hv : v < 27) : vertNode 2 m0 (turnMesh x) e v =
    if e = 0 then 2 * (v % 3) + 2 * (v / 3 % 3) * 9 + 2 * (v / 3 / 3) * 45
    else (8 - 2 * (v % 3)) + (4 - 2 * (v / 3 % 3)) * 9 + 2 * (v / 3 / 3) * 45 := by
  rw [← turn_vert m0 x he (show v % 3 < 3 by omega) (show v / 3 % 3 < 3 by omega) (show v / 3 / 3 < 3 by omega)]
  congr 1
  omega

/-- Where the outer sides of `rowMesh` are in `turnMesh`. -/
def rowTurn (s : Side) : Side := if s.1 = 1 ∧ s.2.1 < 2 then (s.1, s.2.1, !s.2.2) else s

/-- Non-vacuity: two elements of order 2, and the same with the second turned by 180° and the middle node of the common side elsewhere. -/
theorem row_turn (m0 : ℕ → ℕ) (x : ℕ → ℕ → ℝ) (y : ℕ → ℝ) :
    SameOuter 2 m0 (rowMesh x) rowGlue' (turnMesh (Function.update x 112 y)) turnGlue rowTurn where
  maps := by
    rintro ⟨e, d, u⟩ ⟨he, hd⟩ hn
    have he : e < 2 := he
    have hd : d < 3 := hd
    refine ⟨⟨?_, ?_⟩, ?_⟩
    · show (rowTurn (e, d, u)).1 < 2
      unfold rowTurn; split <;> exact he
    · unfold rowTurn; split <;> exact hd
    · revert hn
      cases u <;> interval_cases e <;> interval_cases d <;> decide
  inj := by
    rintro ⟨e, d, u⟩ ⟨he, hd⟩ hn ⟨e', d', u'⟩ ⟨he', hd'⟩ hn' h
    have he : e < 2 := he
    have hd : d < 3 := hd
    have he' : e' < 2 := he'
    have hd' : d' < 3 := hd'
    revert h
    clear hn hn'
    cases u <;> cases u' <;> interval_cases e <;> interval_cases d <;> interval_cases e' <;> interval_cases d' <;> decide
  surj := by
    rintro ⟨e, d, u⟩ ⟨he, hd⟩ hn
    have he : e < 2 := he
    have hd : d < 3 := hd
    refine ⟨rowTurn (e, d, u), ⟨?_, ?_⟩, ?_, ?_⟩
    · show (rowTurn (e, d, u)).1 < 2
      unfold rowTurn; split <;> exact he
    · unfold rowTurn; split <;> exact hd
    · revert hn
      cases u <;> interval_cases e <;> interval_cases d <;> decide
    · cases u <;> interval_cases e <;> interval_cases d <;> decide
  same := by
    rintro ⟨e, d, u⟩ ⟨he, hd⟩ hn
    have he : e < 2 := he
    have hd : d < 3 := hd
    refine ⟨false, if e = 1 ∧ d ≠ 1 then true else false, if e = 1 ∧ d ≠ 0 then true else false, ?_, ?_⟩
    · cases u <;> interval_cases e <;> interval_cases d <;> decide
    · intro a ha b hb i hi
      have ha : a < 3 := ha
      have hb : b < 3 := hb
      set t := rowTurn (e, d, u) with ht
      set a' := (orient (RefElem.verts1D 2 - 1) false (if e = 1 ∧ d ≠ 1 then true else false) (if e = 1 ∧ d ≠ 0 then true else false) a b).1 with ha'
      set b' := (orient (RefElem.verts1D 2 - 1) false (if e = 1 ∧ d ≠ 1 then true else false) (if e = 1 ∧ d ≠ 0 then true else false) a b).2 with hb'
      have fin : sideVert 3 d (if u then 2 else 0) a b < 27 ∧ sideVert 3 t.2.1 (if t.2.2 then 2 else 0) a' b' < 27 ∧ t.1 < 2 ∧
          2 * (sideVert 3 d (if u then 2 else 0) a b % 3) + 4 * e + 2 * (sideVert 3 d (if u then 2 else 0) a b / 3 % 3) * 9 +
            2 * (sideVert 3 d (if u then 2 else 0) a b / 3 / 3) * 45 =
          (if t.1 = 0 then 2 * (sideVert 3 t.2.1 (if t.2.2 then 2 else 0) a' b' % 3) + 2 * (sideVert 3 t.2.1 (if t.2.2 then 2 else 0) a' b' / 3 % 3) * 9 +
            2 * (sideVert 3 t.2.1 (if t.2.2 then 2 else 0) a' b' / 3 / 3) * 45
          else (8 - 2 * (sideVert 3 t.2.1 (if t.2.2 then 2 else 0) a' b' % 3)) + (4 - 2 * (sideVert 3 t.2.1 (if t.2.2 then 2 else 0) a' b' / 3 % 3)) * 9 +
            2 * (sideVert 3 t.2.1 (if t.2.2 then 2 else 0) a' b' / 3 / 3) * 45) ∧
          2 * (sideVert 3 d (if u then 2 else 0) a b % 3) + 4 * e + 2 * (sideVert 3 d (if u then 2 else 0) a b / 3 % 3) * 9 +
            2 * (sideVert 3 d (if u then 2 else 0) a b / 3 / 3) * 45 ≠ 112 := by
        rw [ha', hb', ht]
        clear_value t a' b'
        clear ha' hb' ht a' b' t
        revert hn
        cases u <;> interval_cases e <;> interval_cases d <;> interval_cases a <;> interval_cases b <;> decide
      obtain ⟨f1, f2, f3, f4, f5⟩ := fin
      have e1 := row_vert' m0 x he f1
      have e2 : sideNode 2 m0 (turnMesh (Function.update x 112 y)) t a' b' = sideNode 2 m0 (rowMesh x) (e, d, u) a b :=
        (turn_vert' m0 _ f3 f2).trans (f4.symm.trans e1.symm)
      have e3 : sideNode 2 m0 (rowMesh x) (e, d, u) a b ≠ 112 := fun h => f5 (e1.symm.trans h)
      show x (sideNode 2 m0 (rowMesh x) (e, d, u) a b) i = Function.update x 112 y (sideNode 2 m0 (turnMesh (Function.update x 112 y)) t a' b') i
      rw [e2, Function.update_of_ne e3]

/-- Non-vacuity of the hypotheses of C118. -/
example (m0 : ℕ → ℕ) (x : ℕ → ℕ → ℝ) (y : ℕ → ℝ) : ∃ (m m' : Mesh) (nb nb' : Side → Option Side) (φ : Side → Side), m.coords.val = x ∧
    m'.coords.val 112 = y ∧ MeshOK 2 m ∧ LatticeMesh 2 m ∧ MeshOK 2 m' ∧ LatticeMesh 2 m' ∧
    GluedAny 2 m0 m nb ∧ GluedAny 2 m0 m' nb' ∧ SameOuter 2 m0 m nb m' nb' φ :=
  ⟨rowMesh x, turnMesh (Function.update x 112 y), rowGlue', turnGlue, rowTurn, rfl,
    (show Function.update x 112 y 112 = y from Function.update_self ..), rowMesh_ok _, rowMesh_lattice _, turnMesh_ok _,
    turnMesh_lattice _, row_glued' m0 x, turn_glued m0 _, row_turn m0 x y⟩

end Verif.Geometry
