import Verif.Geometry.CurvedMesh
import Verif.Swage.HighOrderHash

/-!
# C117: the total volume of a mesh of curved elements turned against each other is fixed by its outer sides
-/

namespace Verif.Geometry
open Finset MeasureTheory
open Verif.DetJac (polyAt interp)
open Verif.Swage.HighOrder (orient mirror)
open LagrangeElement LagrangeElement.Spec

/-! ### Specification -/

/-- A side of an element: the element, the direction, and whether it is the upper side. -/
abbrev Side := ℕ × ℕ × Bool

/-- The side is one of the six of an element of the mesh. -/
def Side.In (m : Mesh) (s : Side) : Prop := s.1 < m.elems ∧ s.2.1 < 3

/-- The node of a side with indices `a`, `b` in the two directions after that of the side. -/
def sideNode (p : ℕ) (m0 : ℕ → ℕ) (m : Mesh) (s : Side) (a b : ℕ) : ℕ :=
  vertNode p m0 m s.1 (sideVert (RefElem.verts1D p) s.2.1 (if s.2.2 then RefElem.verts1D p - 1 else 0) a b)

/-- How the elements of a mesh of order `p` are glued together: `nb s = some s'` if sides `s` and `s'` have the same nodes, under one of
the eight symmetries of the square lattice (`orient`: swap the two directions, then mirror them).  Elements lie on different sides of
the common side, which is to say that the symmetry is a mirror image (an odd number of swaps and mirrors) if `s` and `s'` are both upper
or both lower sides, and a rotation otherwise. -/
def GluedAny (p : ℕ) (m0 : ℕ → ℕ) (m : Mesh) (nb : Side → Option Side) : Prop :=
  ∀ s, s.In m → ∀ s', nb s = some s' → s'.In m ∧ nb s' = some s ∧ ∃ sw f1 f2 : Bool, xor (xor sw f1) f2 = (s.2.2 == s'.2.2) ∧
    ∀ a < RefElem.verts1D p, ∀ b < RefElem.verts1D p,
      sideNode p m0 m s a b = sideNode p m0 m s' (orient (RefElem.verts1D p - 1) sw f1 f2 a b).1 (orient (RefElem.verts1D p - 1) sw f1 f2 a b).2

/-- The nodes of the outer sides: the sides that are glued to no other. -/
def OuterNodeAny (p : ℕ) (m0 : ℕ → ℕ) (m : Mesh) (nb : Side → Option Side) (n : ℕ) : Prop :=
  ∃ s, s.In m ∧ nb s = none ∧ ∃ a < RefElem.verts1D p, ∃ b < RefElem.verts1D p, n = sideNode p m0 m s a b

/-! ### Symmetries of the form of a side -/

theorem sum_swap_pair (n : ℕ) (g : ℕ × ℕ → ℝ) : ∑ y ∈ range n ×ˢ range n, g y.swap = ∑ y ∈ range n ×ˢ range n, g y := by
  rw [sum_product, sum_product_right]
  rfl

theorem sideForm_swap (P : ℕ) (f : ℕ → ℕ × ℕ → ℝ) : sideForm P (fun i y => f i y.swap) = -sideForm P f := by
  have hK : ∀ y y' y'' : ℕ × ℕ, sideK y y' y'' = -sideK y.swap y'.swap y''.swap := by
    intro y y' y''
    unfold sideK
    simp only [Prod.fst_swap, Prod.snd_swap]
    ring
  unfold sideForm
  rw [← sum_swap_pair _ (fun y => ∑ y' ∈ range (P + 1) ×ˢ range (P + 1), ∑ y'' ∈ range (P + 1) ×ˢ range (P + 1),
    f 0 y * f 1 y' * f 2 y'' * sideK y y' y''), ← sum_neg_distrib]
  refine sum_congr rfl fun y _ => ?_
  rw [← sum_swap_pair _ (fun y' => ∑ y'' ∈ range (P + 1) ×ˢ range (P + 1), f 0 y.swap * f 1 y' * f 2 y'' * sideK y.swap y' y''),
    ← sum_neg_distrib]
  refine sum_congr rfl fun y' _ => ?_
  rw [← sum_swap_pair _ (fun y'' => f 0 y.swap * f 1 y'.swap * f 2 y'' * sideK y.swap y'.swap y''), ← sum_neg_distrib]
  refine sum_congr rfl fun y'' _ => ?_
  rw [hK]; ring

theorem sideForm_flip (P : ℕ) (f : ℕ → ℕ × ℕ → ℝ) : sideForm P (fun i y => (-1) ^ y.1 * f i y) = -sideForm P f := by
  have hK : ∀ y y' y'' : ℕ × ℕ, (-1) ^ (y.1 + y'.1 + y''.1) * sideK y y' y'' = -sideK y y' y'' := by
    intro y y' y''
    unfold sideK
    rcases Nat.even_or_odd (y.1 + y'.1 + y''.1) with h | h
    · by_cases h0 : y.1 + y'.1 + y''.1 = 0
      · have h1 : y'.1 = 0 := by omega
        have h2 : y''.1 = 0 := by omega
        rw [h1, h2]; simp
      · have hm : Quad.mom (y.1 + y'.1 + y''.1 - 1) = 0 := by
          unfold Quad.mom
          rw [if_neg]
          obtain ⟨k, hk⟩ := h
          omega
        rw [hm]; simp
    · rw [h.neg_one_pow]; ring
  unfold sideForm
  rw [← sum_neg_distrib]
  refine sum_congr rfl fun y _ => ?_
  rw [← sum_neg_distrib]
  refine sum_congr rfl fun y' _ => ?_
  rw [← sum_neg_distrib]
  refine sum_congr rfl fun y'' _ => ?_
  rw [← mul_neg, ← hK, pow_add, pow_add]
  ring

/-- Basis polynomials of a symmetric lattice. -/
theorem basis_reflect {P : ℕ} {Z : ℕ → ℝ} (hZ : Set.InjOn Z (range (P + 1) : Set ℕ)) (hs : ∀ i ≤ P, Z (P - i) = -Z i) {i : ℕ}
    (hi : i < P + 1) (n : ℕ) : (Lagrange.basis (range (P + 1)) Z (P - i)).coeff n = (-1) ^ n * (Lagrange.basis (range (P + 1)) Z i).coeff n := by
  have e : Lagrange.basis (range (P + 1)) Z (P - i) = (Lagrange.basis (range (P + 1)) Z i).comp (Polynomial.C (-1) * Polynomial.X) := by
    have deg : ∀ j < P + 1, (Lagrange.basis (range (P + 1)) Z j).degree < ((range (P + 1)).card : WithBot ℕ) := by
      intro j hj
      rw [Lagrange.degree_basis hZ (mem_range.2 hj), card_range]
      exact_mod_cast Nat.lt_succ_self P
    refine Polynomial.eq_of_degrees_lt_of_eval_index_eq (range (P + 1)) hZ (deg _ (by omega)) ?_ ?_
    · refine lt_of_le_of_lt ?_ (deg i hi)
      refine Polynomial.degree_le_of_natDegree_le ?_ |>.trans (Polynomial.degree_eq_natDegree ?_).ge
      · refine Polynomial.natDegree_comp_le.trans ?_
        exact (Nat.mul_le_mul_left _ ((Polynomial.natDegree_C_mul_le _ _).trans Polynomial.natDegree_X_le)).trans (by omega)
      · exact Lagrange.basis_ne_zero hZ (mem_range.2 hi)
    · intro k hk
      have hk' := mem_range.1 hk
      rw [Polynomial.eval_comp, Polynomial.eval_mul, Polynomial.eval_C, Polynomial.eval_X, neg_one_mul, ← hs k (by omega)]
      by_cases h : k = P - i
      · rw [h, Lagrange.eval_basis_self hZ (mem_range.2 (by omega)), show P - (P - i) = i by omega,
          Lagrange.eval_basis_self hZ (mem_range.2 hi)]
      · rw [Lagrange.eval_basis_of_ne (Ne.symm h) hk, Lagrange.eval_basis_of_ne (by omega) (mem_range.2 (by omega))]
  rw [e, Polynomial.comp_C_mul_X_coeff]
  ring

/-- The form of a square lattice of points `X i a b`, `i` the component. -/
noncomputable def squareForm (P : ℕ) (Z : ℕ → ℝ) (X : ℕ → ℕ → ℕ → ℝ) : ℝ :=
  sideForm P fun i y => ∑ β ∈ range (P + 1), ∑ α ∈ range (P + 1), X i α β *
    ((Lagrange.basis (range (P + 1)) Z α).coeff y.1 * (Lagrange.basis (range (P + 1)) Z β).coeff y.2)

theorem square_swap (P : ℕ) (Z : ℕ → ℝ) (X : ℕ → ℕ → ℕ → ℝ) : squareForm P Z (fun i a b => X i b a) = -squareForm P Z X := by
  unfold squareForm
  rw [← sideForm_swap]
  refine congrArg (sideForm P) ?_
  funext i y
  rw [sum_comm]
  refine sum_congr rfl fun b _ => sum_congr rfl fun a _ => ?_
  simp only [Prod.fst_swap, Prod.snd_swap]
  ring

theorem square_flip {P : ℕ} {Z : ℕ → ℝ} (hZ : Set.InjOn Z (range (P + 1) : Set ℕ)) (hs : ∀ i ≤ P, Z (P - i) = -Z i)
    (X : ℕ → ℕ → ℕ → ℝ) : squareForm P Z (fun i a b => X i (P - a) b) = -squareForm P Z X := by
  unfold squareForm
  rw [← sideForm_flip]
  refine congrArg (sideForm P) ?_
  funext i y
  rw [mul_sum]
  refine sum_congr rfl fun b _ => ?_
  rw [mul_sum, ← sum_flip]
  refine sum_congr rfl fun a ha => ?_
  have ha := mem_range.1 ha
  have e : X i (P - (P - a)) b = X i a b := by rw [show P - (P - a) = a by omega]
  rw [basis_reflect hZ hs ha]
  show X i (P - (P - a)) b * _ = _
  rw [e]
  ring

theorem square_flip' {P : ℕ} {Z : ℕ → ℝ} (hZ : Set.InjOn Z (range (P + 1) : Set ℕ)) (hs : ∀ i ≤ P, Z (P - i) = -Z i)
    (X : ℕ → ℕ → ℕ → ℝ) : squareForm P Z (fun i a b => X i a (P - b)) = -squareForm P Z X := by
  rw [square_swap P Z (fun i a b => X i b (P - a)), square_flip hZ hs (fun i a b => X i b a), square_swap P Z X]
  ring

/-- The form of a lattice under the eight symmetries. -/
theorem square_orient {P : ℕ} {Z : ℕ → ℝ} (hZ : Set.InjOn Z (range (P + 1) : Set ℕ)) (hs : ∀ i ≤ P, Z (P - i) = -Z i)
    (X : ℕ → ℕ → ℕ → ℝ) (sw f1 f2 : Bool) : squareForm P Z (fun i a b => X i (orient P sw f1 f2 a b).1 (orient P sw f1 f2 a b).2) =
      if xor (xor sw f1) f2 then -squareForm P Z X else squareForm P Z X := by
  have a1 := square_flip hZ hs X
  have a2 := square_flip' hZ hs X
  have a3 := square_flip hZ hs (fun i a b => X i a (P - b))
  have b0 := square_swap P Z X
  have b1 := square_swap P Z (fun i a b => X i (P - a) b)
  have b2 := square_swap P Z (fun i a b => X i a (P - b))
  have b3 := square_swap P Z (fun i a b => X i (P - a) (P - b))
  cases sw <;> cases f1 <;> cases f2 <;> simp only [orient, mirror, Bool.false_eq_true, if_true, if_false, Bool.xor_false,
    Bool.false_xor, Bool.true_xor, Bool.not_true] <;> linarith

theorem squareForm_congr {P : ℕ} {Z : ℕ → ℝ} {X X' : ℕ → ℕ → ℕ → ℝ} (h : ∀ i < 3, ∀ a < P + 1, ∀ b < P + 1, X i a b = X' i a b) :
    squareForm P Z X = squareForm P Z X' := by
  have key : ∀ i < 3, ∀ y : ℕ × ℕ, ∑ β ∈ range (P + 1), ∑ α ∈ range (P + 1), X i α β *
      ((Lagrange.basis (range (P + 1)) Z α).coeff y.1 * (Lagrange.basis (range (P + 1)) Z β).coeff y.2) =
    ∑ β ∈ range (P + 1), ∑ α ∈ range (P + 1), X' i α β *
      ((Lagrange.basis (range (P + 1)) Z α).coeff y.1 * (Lagrange.basis (range (P + 1)) Z β).coeff y.2) := by
    intro i hi y
    refine sum_congr rfl fun β hβ => sum_congr rfl fun α hα => ?_
    rw [h i hi α (mem_range.1 hα) β (mem_range.1 hβ)]
  unfold squareForm sideForm
  simp only [key 0 (by omega), key 1 (by omega), key 2 (by omega)]

theorem verts_sym {p : ℕ} (h1 : 1 ≤ p) (hp : p ≤ 9) {q : RefElem.Junk} {r : RefElem.Ref} (h : RefElem.InitSpec p q r) :
    ∀ i ≤ p, r.verts (p - i) = -r.verts i := by
  intro i hi
  have hv : RefElem.verts1D p = p + 1 := by unfold RefElem.verts1D; rw [if_neg (by omega)]
  have hn : RefElem.nodes1D p = 2 * p + 1 := by unfold RefElem.nodes1D; rw [if_neg (by omega)]
  have hl := h.lob
  rw [hn] at hl
  have hs := Swage.HighOrder.lob_sym h1 hp hl
  rw [(RefElem.verts_val hp h (show p - i < RefElem.verts1D p by omega)).2, (RefElem.verts_val hp h (show i < RefElem.verts1D p by omega)).2,
    if_neg (by omega), ← hs.symm (2 * i) (by omega)]
  congr 1
  omega

/-! ### C117 -/

/-- Contribution of a side, with positions `x` of the nodes. -/
noncomputable def sideSum (p : ℕ) (m0 : ℕ → ℕ) (Z : ℕ → ℝ) (m : Mesh) (x : ℕ → ℕ → ℝ) (s : Side) : ℝ :=
  (if s.2.2 then 1 else -1) * squareForm p Z fun i a b => x (sideNode p m0 m s a b) i

theorem element_sum {p : ℕ} (h1 : 1 ≤ p) (hp : p ≤ 9) {q : RefElem.Junk} {r : RefElem.Ref} (R : RefElem.InitSpec p q r) (m0 : ℕ → ℕ)
    {m : Mesh} {e : ℕ} {co : ℕ → ℕ → ℕ → ℕ → ℝ} (h : CurvedBy p m0 r m e co) : imageVolume (fun a => polyAt p (co a)) =
      ∑ d ∈ range 3, ∑ u : Bool, sideSum p m0 r.verts m m.coords.val (e, d, u) := by
  have hd : degree p = p := by unfold degree RefElem.verts1D; rw [if_neg (by omega)]; omega
  have hv : RefElem.verts1D p = p + 1 := by unfold RefElem.verts1D; rw [if_neg (by omega)]
  rw [element_sides h1 hp R m0 h]
  refine sum_congr rfl fun d _ => ?_
  unfold sideSum sideNode sideOf squareForm
  rw [hd, hv, Fintype.sum_bool]
  simp only [if_true, Bool.false_eq_true, if_false, Nat.add_sub_cancel]
  ring

/-- **C117 (volume).**  As C116, for elements turned against each other in any way: take a mesh of order 1 to 9 and how its
elements are glued together, and move its nodes in any way that leaves the nodes of the outer sides where they are.  The total volume
of its (curved) elements stays the same. -/
theorem C117_volume (p : ℕ) (h1 : 1 ≤ p) (hp : p ≤ 9) (q : RefElem.Junk) (m0 : ℕ → ℕ) (r : RefElem.Ref)
    (hr : RefElem.init p q = some r) (m m' : Mesh) (hm' : ∃ y, m' = { m with coords := y }) (nb : Side → Option Side)
    (hg : GluedAny p m0 m nb) (hx : ∀ n, OuterNodeAny p m0 m nb n → ∀ i < 3, m.coords.val n i = m'.coords.val n i)
    (co co' : ℕ → ℕ → ℕ → ℕ → ℕ → ℝ) (h : ∀ e < m.elems, CurvedBy p m0 r m e (co e))
    (h' : ∀ e < m.elems, CurvedBy p m0 r m' e (co' e)) :
    ∑ e ∈ range m.elems, imageVolume (fun a => polyAt p (co e a)) = ∑ e ∈ range m.elems, imageVolume (fun a => polyAt p (co' e a)) := by
  obtain ⟨r2, e1, R⟩ := RefElem.init_run p q
  obtain rfl : r2 = r := Option.some.inj (e1.symm.trans hr)
  have hd : degree p = p := by unfold degree RefElem.verts1D; rw [if_neg (by omega)]; omega
  have hN : RefElem.verts1D p = p + 1 := by unfold RefElem.verts1D; rw [if_neg (by omega)]
  have hz := RefElem.verts_inj hp R
  rw [hN] at hz
  have hsym := verts_sym h1 hp R
  obtain ⟨y, rfl⟩ := hm'
  rw [← sub_eq_zero, ← sum_sub_distrib]
  set F : Side → ℝ := fun s => sideSum p m0 r2.verts m m.coords.val s - sideSum p m0 r2.verts m y.val s with hF
  have E : ∀ e ∈ range m.elems, imageVolume (fun a => polyAt p (co e a)) - imageVolume (fun a => polyAt p (co' e a)) =
      ∑ d ∈ range 3, ∑ u : Bool, F (e, d, u) := by
    intro e he
    rw [element_sum h1 hp R m0 (h e (mem_range.1 he)), element_sum h1 hp R m0 (h' e (mem_range.1 he)), ← sum_sub_distrib]
    exact sum_congr rfl fun d _ => (sum_sub_distrib ..).symm
  rw [sum_congr rfl E]
  have flat : ∑ e ∈ range m.elems, ∑ d ∈ range 3, ∑ u : Bool, F (e, d, u) =
      ∑ s ∈ range m.elems ×ˢ (range 3 ×ˢ (univ : Finset Bool)), F s := by
    rw [sum_product]
    exact sum_congr rfl fun e _ => by rw [sum_product]
  rw [flat]
  have mem : ∀ s : Side, s ∈ range m.elems ×ˢ (range 3 ×ˢ (univ : Finset Bool)) ↔ s.In m := by
    intro s
    simp [Side.In, mem_product]
  -- an outer side does not contribute
  have out : ∀ s : Side, s.In m → nb s = none → F s = 0 := by
    intro s hs hn
    show sideSum p m0 r2.verts m m.coords.val s - sideSum p m0 r2.verts m y.val s = 0
    unfold sideSum
    rw [squareForm_congr (X := fun i a b => m.coords.val (sideNode p m0 m s a b) i) (X' := fun i a b => y.val (sideNode p m0 m s a b) i)]
    · ring
    · intro i hi a ha b hb
      exact hx _ ⟨s, hs, hn, a, by omega, b, by omega, rfl⟩ i hi
  -- two sides glued together cancel
  have pair : ∀ s : Side, s.In m → ∀ s', nb s = some s' → ∀ x : ℕ → ℕ → ℝ,
      sideSum p m0 r2.verts m x s + sideSum p m0 r2.verts m x s' = 0 := by
    intro s hs s' hn x
    obtain ⟨-, -, sw, f1, f2, hodd, hsame⟩ := hg s hs s' hn
    rw [hN] at hsame
    have k : squareForm p r2.verts (fun i a b => x (sideNode p m0 m s a b) i) =
        squareForm p r2.verts (fun i a b => x (sideNode p m0 m s' (orient p sw f1 f2 a b).1 (orient p sw f1 f2 a b).2) i) :=
      squareForm_congr fun i _ a ha b hb => by rw [hsame a ha b hb]; rfl
    unfold sideSum
    rw [k, square_orient hz hsym (fun i a b => x (sideNode p m0 m s' a b) i), hodd]
    cases s.2.2 <;> cases s'.2.2 <;> simp
  refine sum_involution (fun s _ => (nb s).getD s) ?_ ?_ ?_ ?_
  · intro s hs
    have hs := (mem s).1 hs
    cases hn : nb s with
    | none => simp [out s hs hn]
    | some s' =>
      show F s + F s' = 0
      have a := pair s hs s' hn m.coords.val
      have b := pair s hs s' hn y.val
      rw [hF]
      show _ - _ + (_ - _) = (0 : ℝ)
      linarith
  · intro s hs h0 hsame
    have hs := (mem s).1 hs
    cases hn : nb s with
    | none => exact h0 (out s hs hn)
    | some s' =>
      rw [hn] at hsame
      have hsame : s' = s := hsame
      subst hsame
      have a := pair s' hs s' hn m.coords.val
      have b := pair s' hs s' hn y.val
      refine h0 ?_
      rw [hF]
      show _ - _ = (0 : ℝ)
      linarith
  · intro s hs
    have hs := (mem s).1 hs
    refine (mem _).2 ?_
    cases hn : nb s with
    | none => exact hs
    | some s' => exact (hg s hs s' hn).1
  · intro s hs
    have hs := (mem s).1 hs
    cases hn : nb s with
    | none => show (nb s).getD s = s; rw [hn]; rfl
    | some s' => show (nb s').getD s' = s; rw [(hg s hs s' hn).2.1]; rfl

/-- The gluings of C116 are among those of C117. -/
theorem Glued.any {p : ℕ} {m0 : ℕ → ℕ} {m : Mesh} {nb : ℕ → ℕ → Option ℕ} (hg : Glued p m0 m nb) :
    ∃ nb', GluedAny p m0 m nb' ∧ ∀ n, OuterNodeAny p m0 m nb' n → OuterNode p m0 m nb n := by
  classical
  refine ⟨fun s => if s.2.2 then (nb s.1 s.2.1).map fun e' => (e', s.2.1, false) else
    if h : ∃ e < m.elems, nb e s.2.1 = some s.1 then some (h.choose, s.2.1, true) else none, ?_, ?_⟩
  · rintro ⟨e, d, u⟩ ⟨he, hd⟩ s' hn
    have he : e < m.elems := he
    have hd : d < 3 := hd
    cases u with
    | true =>
      obtain ⟨e', h1, rfl⟩ : ∃ e', nb e d = some e' ∧ (e', d, false) = s' := by simpa using hn
      have h : ∃ e < m.elems, nb e d = some e' := ⟨e, he, h1⟩
      refine ⟨⟨hg.lt e he d hd e' h1, hd⟩, ?_, false, false, false, rfl, fun a ha b hb => ?_⟩
      · show (if h : ∃ e < m.elems, nb e d = some e' then some ((h.choose, d, true) : Side) else none) = some (e, d, true)
        rw [dif_pos h, hg.inj _ h.choose_spec.1 e he d hd e' h.choose_spec.2 h1]
      · exact hg.same e he d hd e' h1 a ha b hb
    | false =>
      have hn : (if h : ∃ e' < m.elems, nb e' d = some e then some ((h.choose, d, true) : Side) else none) = some s' := hn
      split at hn
      · next h =>
        obtain rfl := Option.some.inj hn
        obtain ⟨c1, c2⟩ := h.choose_spec
        refine ⟨⟨c1, hd⟩, ?_, false, false, false, rfl, fun a ha b hb => ?_⟩
        · show (nb h.choose d).map (fun e' => ((e', d, false) : Side)) = some (e, d, false)
          rw [c2]; rfl
        · exact (hg.same _ c1 d hd e c2 a ha b hb).symm
      · cases hn
  · rintro n ⟨⟨e, d, u⟩, ⟨he, hd⟩, hn, a, ha, b, hb, rfl⟩
    have he : e < m.elems := he
    have hd : d < 3 := hd
    refine ⟨e, he, d, hd, a, ha, b, hb, ?_⟩
    cases u with
    | true =>
      refine Or.inl ⟨?_, rfl⟩
      have hn : (nb e d).map (fun e' => ((e', d, false) : Side)) = none := hn
      simpa using hn
    | false =>
      refine Or.inr ⟨fun e' he' h1 => ?_, rfl⟩
      have hn : (if h : ∃ e' < m.elems, nb e' d = some e then some ((h.choose, d, true) : Side) else none) = none := hn
      rw [dif_pos ⟨e', he', h1⟩] at hn
      cases hn

/-- **C117 (`get_vol_jacobi`).**  The total volume computed by `get_gauss_pt_jacobian` and `get_vol_jacobi` before and after such a
move differs by no more than the accuracy of the tabulated weights. -/
theorem C117_computed (p : ℕ) (h1 : 1 ≤ p) (hp : p ≤ 9) (q : RefElem.Junk) (m0 : ℕ → ℕ)
    (m : Mesh) (hm : MeshOK p m) (hl : LatticeMesh p m) (s : Jac) (hs : s.Sized (m.elems * RefElem.nodes1D p ^ 3)) (v : Vol) (hv : v.Sized m)
    (m' : Mesh) (hmm : ∃ y, m' = { m with coords := y }) (hm' : MeshOK p m') (hl' : LatticeMesh p m') (t : Jac)
    (ht : t.Sized (m'.elems * RefElem.nodes1D p ^ 3)) (w : Vol) (hw : w.Sized m') (nb : Side → Option Side) (hg : GluedAny p m0 m nb)
    (hx : ∀ n, OuterNodeAny p m0 m nb n → ∀ i < 3, m.coords.val n i = m'.coords.val n i) :
    ∃ r s' v' t' w', RefElem.init p q = some r ∧
      gaussJacobian m (RefElem.verts1D p ^ 3) (HexN.vertNodeMap p m0) r s = some s' ∧ volJacobi m r s'.det v = some v' ∧
      gaussJacobian m' (RefElem.verts1D p ^ 3) (HexN.vertNodeMap p m0) r t = some t' ∧ volJacobi m' r t'.det w = some w' ∧
      ∀ co co' : ℕ → ℕ → ℕ → ℕ → ℕ → ℝ, (∀ e < m.elems, CurvedBy p m0 r m e (co e)) → (∀ e < m.elems, CurvedBy p m0 r m' e (co' e)) →
        |∑ e ∈ range m.elems, v'.elem.val e - ∑ e ∈ range m.elems, w'.elem.val e| ≤
          ∑ e ∈ range m.elems, 114 / 10 ^ 23 * p ^ 3 * (coefSum p (co e 0) * coefSum p (co e 1) * coefSum p (co e 2) +
            coefSum p (co' e 0) * coefSum p (co' e 1) * coefSum p (co' e 2)) := by
  obtain ⟨r, s', v', hr, g1, g2, g3⟩ := C73_volume p h1 hp q m0 m hm hl s hs v hv
  obtain ⟨r2, t', w', hr2, k1, k2, k3⟩ := C73_volume p h1 hp q m0 m' hm' hl' t ht w hw
  obtain rfl : r2 = r := Option.some.inj (hr2.symm.trans hr)
  refine ⟨r2, s', v', t', w', hr, g1, g2, k1, k2, ?_⟩
  intro co co' hc hc'
  have he : m'.elems = m.elems := by obtain ⟨y, rfl⟩ := hmm; rfl
  have key := C117_volume p h1 hp q m0 r2 hr m m' hmm nb hg hx co co' hc hc'
  have split : ∑ e ∈ range m.elems, v'.elem.val e - ∑ e ∈ range m.elems, w'.elem.val e =
      ∑ e ∈ range m.elems, ((v'.elem.val e - imageVolume fun a => polyAt p (co e a)) -
        (w'.elem.val e - imageVolume fun a => polyAt p (co' e a))) := by
    simp only [sum_sub_distrib]
    linarith
  rw [split]
  refine (abs_sum_le_sum_abs _ _).trans (sum_le_sum fun e hem => ?_)
  have hem := mem_range.1 hem
  have a := g3 e hem (co e) (hc e hem)
  have b := k3 e (by omega) (co' e) (hc' e hem)
  rw [sub_eq_add_neg]
  refine (abs_add_le _ _).trans ?_
  rw [abs_neg]
  linarith

/-! ### A concrete mesh -/

/-- Node of Gauss point `a` of the mesh of two elements of order 2 side by side, the second turned by 180° about direction 2. -/
def turnNode (a : ℕ) : ℕ :=
  if a < 125 then rowNode a else rowNode (125 + ((4 - a % 125 % 5) + (4 - a % 125 / 5 % 5) * 5 + a % 125 / 5 / 5 * 25))

/-- That mesh, with node positions `x`. -/
def turnMesh (x : ℕ → ℕ → ℝ) : Mesh :=
  { rowMesh x with nodesInElem := ⟨250, turnNode⟩, nodesInCell := ⟨1024, fun a => turnNode (rowGauss a)⟩ }

theorem turnNode_lt : ∀ a < 250, turnNode a < 225 := by decide +kernel

theorem turnMesh_ok (x : ℕ → ℕ → ℝ) : MeshOK 2 (turnMesh x) where
  gauss := rfl
  patches := rfl
  cells := rfl
  size := rfl
  nodes := turnNode_lt

theorem turnMesh_lattice (x : ℕ → ℕ → ℝ) : LatticeMesh 2 (turnMesh x) where
  perElem := rfl
  cells := rfl
  inElem := (rowMesh_lattice x).inElem
  gaussSize := rfl
  gauss := (rowMesh_lattice x).gauss
  nodesSize := rfl
  nodes := by
    intro a ha
    have ha : a < 1024 := ha
    exact turnNode_lt _ ((show ∀ a < 1024, rowGauss a < 250 by decide +kernel) a ha)

theorem turn_vert (m0 : ℕ → ℕ) (x : ℕ → ℕ → ℝ) {e i j k : ℕ} (he : e < 2) (hi : i < 3) (hj : j < 3) (hk : k < 3) :
    vertNode 2 m0 (turnMesh x) e (i + j * 3 + k * 3 * 3) =
      if e = 0 then 2 * i + 2 * j * 9 + 2 * k * 45 else (8 - 2 * i) + (4 - 2 * j) * 9 + 2 * k * 45 := by
  have h : HexN.vertNodeMap 2 m0 (i + j * 3 + k * 3 * 3) = 2 * i + 2 * j * 5 + 2 * k * 5 * 5 :=
    (HexN.C60_setup (K := ℝ) 2 (fun _ => 0) (fun _ => 0) m0 (fun _ _ => 0) i j k hi hj hk).1
  show turnNode (e * 125 + HexN.vertNodeMap 2 m0 (i + j * 3 + k * 3 * 3)) = _
  rw [h]
  clear h
  interval_cases e <;> interval_cases i <;> interval_cases j <;> interval_cases k <;> rfl

/-- How the two elements are glued: the upper sides in direction 0 of both, mirrored. -/
def turnGlue (s : Side) : Option Side :=
  if s = (0, 0, true) then some (1, 0, true) else if s = (1, 0, true) then some (0, 0, true) else none

theorem turn_glued (m0 : ℕ → ℕ) (x : ℕ → ℕ → ℝ) : GluedAny 2 m0 (turnMesh x) turnGlue := by
  intro s _ s' hn
  unfold turnGlue at hn
  split at hn
  · next hs =>
    obtain rfl := hs
    obtain rfl := Option.some.inj hn
    refine ⟨⟨show 1 < 2 by omega, show 0 < 3 by omega⟩, by decide, false, true, false, rfl, fun a ha b hb => ?_⟩
    have ha : a < 3 := ha
    have hb : b < 3 := hb
    show vertNode 2 m0 (turnMesh x) 0 (2 + a * 3 + b * 3 * 3) = vertNode 2 m0 (turnMesh x) 1 (2 + (2 - a) * 3 + b * 3 * 3)
    rw [turn_vert m0 x (by omega) (by omega) ha hb, turn_vert m0 x (by omega) (by omega) (by omega) hb, if_pos rfl, if_neg (by omega)]
    omega
  · split at hn
    · next hs =>
      obtain rfl := hs
      obtain rfl := Option.some.inj hn
      refine ⟨⟨show 0 < 2 by omega, show 0 < 3 by omega⟩, by decide, false, true, false, rfl, fun a ha b hb => ?_⟩
      have ha : a < 3 := ha
      have hb : b < 3 := hb
      show vertNode 2 m0 (turnMesh x) 1 (2 + a * 3 + b * 3 * 3) = vertNode 2 m0 (turnMesh x) 0 (2 + (2 - a) * 3 + b * 3 * 3)
      rw [turn_vert m0 x (by omega) (by omega) ha hb, turn_vert m0 x (by omega) (by omega) (by omega) hb, if_neg (by omega), if_pos rfl]
      omega
    · cases hn

/-- The node in the middle of the side the two elements share is on no outer side. -/
theorem turn_inner (m0 : ℕ → ℕ) (x : ℕ → ℕ → ℝ) : ¬ OuterNodeAny 2 m0 (turnMesh x) turnGlue 112 := by
  rintro ⟨⟨e, d, u⟩, ⟨he, hd⟩, hn, a, ha, b, hb, hv⟩
  have he : e < 2 := he
  have hd : d < 3 := hd
  have ha : a < 3 := ha
  have hb : b < 3 := hb
  obtain ⟨k, hk, hk2, hv⟩ : ∃ k, (k = 0 ∨ k = 2) ∧ (k = 2 → u = true) ∧ 112 = vertNode 2 m0 (turnMesh x) e (sideVert 3 d k a b) := by
    cases u
    · exact ⟨0, Or.inl rfl, by omega, hv⟩
    · exact ⟨2, Or.inr rfl, fun _ => rfl, hv⟩
  have hk3 : k < 3 := by omega
  interval_cases d
  · rw [show sideVert 3 0 k a b = k + a * 3 + b * 3 * 3 from rfl, turn_vert m0 x he hk3 ha hb] at hv
    have hk' : k = 2 := by split at hv <;> omega
    rw [hk2 hk'] at hn
    interval_cases e <;> exact absurd hn (by decide)
  · rw [show sideVert 3 1 k a b = b + k * 3 + a * 3 * 3 from rfl, turn_vert m0 x he hb hk3 ha] at hv
    split at hv <;> omega
  · rw [show sideVert 3 2 k a b = a + b * 3 + k * 3 * 3 from rfl, turn_vert m0 x he ha hb hk3] at hv
    split at hv <;> omega

/-- Non-vacuity: two elements of order 2, the second turned by 180°; the middle node of the side they share may be moved to any place `y`. -/
example (m0 : ℕ → ℕ) (x : ℕ → ℕ → ℝ) (y : ℕ → ℝ) : ∃ (m m' : Mesh) (nb : Side → Option Side), m.coords.val = x ∧
    m'.coords.val 112 = y ∧ (∃ y, m' = { m with coords := y }) ∧ MeshOK 2 m ∧ LatticeMesh 2 m ∧ MeshOK 2 m' ∧ LatticeMesh 2 m' ∧
    GluedAny 2 m0 m nb ∧ ∀ n, OuterNodeAny 2 m0 m nb n → ∀ i < 3, m.coords.val n i = m'.coords.val n i := by
  refine ⟨turnMesh x, turnMesh (Function.update x 112 y), turnGlue, rfl, (show Function.update x 112 y 112 = y from Function.update_self ..), ⟨⟨225, Function.update x 112 y⟩, rfl⟩,
    turnMesh_ok _, turnMesh_lattice _, turnMesh_ok _, turnMesh_lattice _, turn_glued m0 x, ?_⟩
  intro n hn i _
  have : n ≠ 112 := by rintro rfl; exact turn_inner m0 x hn
  show x n i = Function.update x 112 y n i
  rw [Function.update_of_ne this]

end Verif.Geometry
