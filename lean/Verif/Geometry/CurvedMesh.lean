import Verif.Geometry.CurvedSurface

/-!
# C116: the total volume of a mesh of curved elements is fixed by its outer sides
-/

namespace Verif.Geometry
open Finset MeasureTheory
open Verif.DetJac (polyAt partialAt jacDet interp)
open Verif.Swage.HighOrder (polyMap pt)
open LagrangeElement LagrangeElement.Spec

/-! ### Specification -/

/-- Number in the `N × N × N` lattice of the vertex with index `k` in direction `d` and indices `a`, `b` in the two directions after
`d` (in the cyclic order 0, 1, 2). -/
def sideVert (N d k a b : ℕ) : ℕ :=
  if d = 0 then k + a * N + b * N * N else if d = 1 then b + k * N + a * N * N else a + b * N + k * N * N

/-- The node of element `e` at its vertex `v`. -/
def vertNode (p : ℕ) (m0 : ℕ → ℕ) (m : Mesh) (e v : ℕ) : ℕ := m.nodesInElem.val (e * m.gaussInElem + HexN.vertNodeMap p m0 v)

/-- How the elements of a mesh of order `p` are glued together: `nb e d = some e'` if the upper side of element `e` in direction
`d` is the lower side of element `e'` in direction `d`, node by node.  Every side is glued to at most one other. -/
structure Glued (p : ℕ) (m0 : ℕ → ℕ) (m : Mesh) (nb : ℕ → ℕ → Option ℕ) : Prop where
  lt : ∀ e < m.elems, ∀ d < 3, ∀ e', nb e d = some e' → e' < m.elems
  inj : ∀ e₁ < m.elems, ∀ e₂ < m.elems, ∀ d < 3, ∀ e', nb e₁ d = some e' → nb e₂ d = some e' → e₁ = e₂
  same : ∀ e < m.elems, ∀ d < 3, ∀ e', nb e d = some e' → ∀ a < RefElem.verts1D p, ∀ b < RefElem.verts1D p,
    vertNode p m0 m e (sideVert (RefElem.verts1D p) d (RefElem.verts1D p - 1) a b) =
      vertNode p m0 m e' (sideVert (RefElem.verts1D p) d 0 a b)

/-- The nodes of the outer sides: the sides that are glued to no other. -/
def OuterNode (p : ℕ) (m0 : ℕ → ℕ) (m : Mesh) (nb : ℕ → ℕ → Option ℕ) (n : ℕ) : Prop :=
  ∃ e < m.elems, ∃ d < 3, ∃ a < RefElem.verts1D p, ∃ b < RefElem.verts1D p,
    (nb e d = none ∧ n = vertNode p m0 m e (sideVert (RefElem.verts1D p) d (RefElem.verts1D p - 1) a b)) ∨
    ((∀ e' < m.elems, nb e' d ≠ some e) ∧ n = vertNode p m0 m e (sideVert (RefElem.verts1D p) d 0 a b))

/-! ### The volume as a sum over six sides -/

theorem sum_exact (s t u : ℕ × ℕ × ℕ) : triple s t u =
    ecross t u 0 * (1 - (-1) ^ (ex s 0 + ex t 0 + ex u 0)) * ((Quad.mom (ex s 1 + ex t 1 + ex u 1 - 1) : ℝ) * (Quad.mom (ex s 2 + ex t 2 + ex u 2 - 1) : ℝ)) +
    ecross t u 1 * (1 - (-1) ^ (ex s 1 + ex t 1 + ex u 1)) * ((Quad.mom (ex s 2 + ex t 2 + ex u 2 - 1) : ℝ) * (Quad.mom (ex s 0 + ex t 0 + ex u 0 - 1) : ℝ)) +
    ecross t u 2 * (1 - (-1) ^ (ex s 2 + ex t 2 + ex u 2)) * ((Quad.mom (ex s 0 + ex t 0 + ex u 0 - 1) : ℝ) * (Quad.mom (ex s 1 + ex t 1 + ex u 1 - 1) : ℝ)) := by
  rw [← mom_pred, ← mom_pred, ← mom_pred]
  unfold triple edet ecross
  norm_num only
  push_cast
  ring

/-- The monomial with exponent `a` in direction `d` and `b`, `c` in the next two directions. -/
def mk (d a b c : ℕ) : ℕ × ℕ × ℕ := if d = 0 then (a, b, c) else if d = 1 then (c, a, b) else (b, c, a)

/-- Weight of three monomials on a side. -/
noncomputable def sideK (y y' y'' : ℕ × ℕ) : ℝ := (y'.1 * y''.2 - y'.2 * y''.1 : ℝ) *
  ((Quad.mom (y.1 + y'.1 + y''.1 - 1) : ℝ) * (Quad.mom (y.2 + y'.2 + y''.2 - 1) : ℝ))

/-- The trilinear form of a side. -/
noncomputable def sideForm (P : ℕ) (f : ℕ → ℕ × ℕ → ℝ) : ℝ :=
  ∑ y ∈ range (P + 1) ×ˢ range (P + 1), ∑ y' ∈ range (P + 1) ×ˢ range (P + 1), ∑ y'' ∈ range (P + 1) ×ˢ range (P + 1),
    f 0 y * f 1 y' * f 2 y'' * sideK y y' y''

/-- Coefficients of the restriction of a polynomial to the side where coordinate `d` is `ε`. -/
noncomputable def restr (P d : ℕ) (ε : ℝ) (c : ℕ → ℕ → ℕ → ℝ) (y : ℕ × ℕ) : ℝ :=
  ∑ a ∈ range (P + 1), coef c (mk d a y.1 y.2) * ε ^ a

theorem sum_mk (P : ℕ) {d : ℕ} (hd : d < 3) (g : ℕ × ℕ × ℕ → ℝ) :
    ∑ s ∈ expo P, g s = ∑ y ∈ range (P + 1) ×ˢ range (P + 1), ∑ a ∈ range (P + 1), g (mk d a y.1 y.2) := by
  unfold expo
  simp only [sum_product]
  interval_cases d
  · simp only [mk, if_true]
    rw [sum_comm]
    exact sum_congr rfl fun b _ => sum_comm
  · simp only [mk, if_true, one_ne_zero, if_false]
    rw [sum_comm]
    rw [sum_congr rfl fun a _ => sum_comm, sum_comm]
    exact sum_congr rfl fun _ _ => sum_comm
  · simp only [mk, OfNat.ofNat_ne_zero, OfNat.ofNat_ne_one, if_false]

theorem sum_mk3 (P : ℕ) {d : ℕ} (hd : d < 3) (g : ℕ × ℕ × ℕ → ℕ × ℕ × ℕ → ℕ × ℕ × ℕ → ℝ) :
    ∑ s ∈ expo P, ∑ t ∈ expo P, ∑ u ∈ expo P, g s t u = ∑ y ∈ range (P + 1) ×ˢ range (P + 1), ∑ y' ∈ range (P + 1) ×ˢ range (P + 1),
      ∑ y'' ∈ range (P + 1) ×ˢ range (P + 1), ∑ a ∈ range (P + 1), ∑ a' ∈ range (P + 1), ∑ a'' ∈ range (P + 1),
        g (mk d a y.1 y.2) (mk d a' y'.1 y'.2) (mk d a'' y''.1 y''.2) := by
  rw [sum_mk P hd (fun s => ∑ t ∈ expo P, ∑ u ∈ expo P, g s t u)]
  refine sum_congr rfl fun y _ => ?_
  have h1 : ∀ a ∈ range (P + 1), ∑ t ∈ expo P, ∑ u ∈ expo P, g (mk d a y.1 y.2) t u =
      ∑ y' ∈ range (P + 1) ×ˢ range (P + 1), ∑ y'' ∈ range (P + 1) ×ˢ range (P + 1), ∑ a' ∈ range (P + 1), ∑ a'' ∈ range (P + 1),
        g (mk d a y.1 y.2) (mk d a' y'.1 y'.2) (mk d a'' y''.1 y''.2) := by
    intro a _
    rw [sum_mk P hd (fun t => ∑ u ∈ expo P, g (mk d a y.1 y.2) t u)]
    refine sum_congr rfl fun y' _ => ?_
    have h2 : ∀ a' ∈ range (P + 1), ∑ u ∈ expo P, g (mk d a y.1 y.2) (mk d a' y'.1 y'.2) u =
        ∑ y'' ∈ range (P + 1) ×ˢ range (P + 1), ∑ a'' ∈ range (P + 1), g (mk d a y.1 y.2) (mk d a' y'.1 y'.2) (mk d a'' y''.1 y''.2) :=
      fun a' _ => sum_mk P hd _
    rw [sum_congr rfl h2, sum_comm]
  rw [sum_congr rfl h1, sum_comm]
  refine sum_congr rfl fun y' _ => ?_
  rw [sum_comm]

theorem side_term (P : ℕ) {d : ℕ} (hd : d < 3) (ε : ℝ) (c : ℕ → ℕ → ℕ → ℕ → ℝ) :
    ∑ s ∈ expo P, ∑ t ∈ expo P, ∑ u ∈ expo P, coef (c 0) s * coef (c 1) t * coef (c 2) u * (ecross t u d * ε ^ (ex s d + ex t d + ex u d) *
      ((Quad.mom (ex s ((d + 1) % 3) + ex t ((d + 1) % 3) + ex u ((d + 1) % 3) - 1) : ℝ) *
        (Quad.mom (ex s ((d + 2) % 3) + ex t ((d + 2) % 3) + ex u ((d + 2) % 3) - 1) : ℝ))) =
      sideForm P fun i => restr P d ε (c i) := by
  have e0 : ∀ a b c, ex (mk d a b c) d = a := by intro a b c; interval_cases d <;> rfl
  have e1 : ∀ a b c, ex (mk d a b c) ((d + 1) % 3) = b := by intro a b c; interval_cases d <;> rfl
  have e2 : ∀ a b c, ex (mk d a b c) ((d + 2) % 3) = c := by intro a b c; interval_cases d <;> rfl
  rw [sum_mk3 P hd]
  unfold sideForm restr ecross sideK
  simp only [e0, e1, e2]
  refine sum_congr rfl fun y _ => sum_congr rfl fun y' _ => sum_congr rfl fun y'' _ => ?_
  rw [sum_mul_sum, sum_mul, sum_mul]
  refine sum_congr rfl fun a _ => ?_
  rw [sum_mul_sum, sum_mul]
  refine sum_congr rfl fun a' _ => ?_
  rw [sum_mul]
  refine sum_congr rfl fun a'' _ => ?_
  rw [pow_add, pow_add]
  ring

/-- The volume is the sum over the three directions of the difference of upper and lower side. -/
theorem imageVolume_sides (P : ℕ) (c : ℕ → ℕ → ℕ → ℕ → ℝ) : imageVolume (fun a => polyAt P (c a)) =
    ∑ d ∈ range 3, (sideForm P (fun i => restr P d 1 (c i)) - sideForm P (fun i => restr P d (-1) (c i))) := by
  rw [imageVolume_form]
  simp only [sum_range_succ, sum_range_zero, ← side_term P (show 0 < 3 by omega), ← side_term P (show 1 < 3 by omega),
    ← side_term P (show 2 < 3 by omega), zero_add, ← sum_sub_distrib, ← sum_add_distrib]
  refine sum_congr rfl fun s _ => sum_congr rfl fun t _ => sum_congr rfl fun u _ => ?_
  rw [sum_exact]
  norm_num only [one_pow]
  ring

/-! ### Sides of interpolants -/

/-- Coefficients of the interpolant on a side. -/
theorem restr_interp {P : ℕ} {Z : ℕ → ℝ} (hZ : Set.InjOn Z (range (P + 1) : Set ℕ)) {k : ℕ} (hk : k < P + 1) (c : ℕ → ℝ) {d : ℕ}
    (hd : d < 3) (y : ℕ × ℕ) : restr P d (Z k) (interpCoef (P + 1) Z c) y =
      ∑ β ∈ range (P + 1), ∑ α ∈ range (P + 1), c (sideVert (P + 1) d k α β) *
        ((Lagrange.basis (range (P + 1)) Z α).coeff y.1 * (Lagrange.basis (range (P + 1)) Z β).coeff y.2) := by
  have ev : ∀ i < P + 1, ∑ a ∈ range (P + 1), (Lagrange.basis (range (P + 1)) Z i).coeff a * Z k ^ a = if i = k then 1 else 0 := by
    intro i hi
    have := Polynomial.eval_eq_sum_range' (p := Lagrange.basis (range (P + 1)) Z i) (n := P + 1)
      (by rw [Lagrange.natDegree_basis hZ (mem_range.2 hi), card_range]; omega) (Z k)
    rw [← this]
    split
    · next h => subst h; exact Lagrange.eval_basis_self hZ (mem_range.2 hi)
    · next h => exact Lagrange.eval_basis_of_ne h (mem_range.2 hk)
  have pull : ∀ f : ℕ → ℕ → ℕ → ℕ → ℝ, ∑ a ∈ range (P + 1), (∑ z ∈ range (P + 1), ∑ y ∈ range (P + 1), ∑ x ∈ range (P + 1), f x y z a) * Z k ^ a =
      ∑ z ∈ range (P + 1), ∑ y ∈ range (P + 1), ∑ x ∈ range (P + 1), ∑ a ∈ range (P + 1), f x y z a * Z k ^ a := by
    intro f
    simp only [sum_mul]
    rw [sum_comm]
    refine sum_congr rfl fun z _ => ?_
    rw [sum_comm]
    refine sum_congr rfl fun y _ => ?_
    rw [sum_comm]
  unfold restr coef interpCoef
  simp only [sum_range_cube]
  rw [pull]
  have dig : ∀ z ∈ range (P + 1), ∀ y ∈ range (P + 1), ∀ x ∈ range (P + 1), ∀ F : ℕ → ℕ → ℕ → ℝ,
      F ((x + y * (P + 1) + z * (P + 1) * (P + 1)) % (P + 1)) ((x + y * (P + 1) + z * (P + 1) * (P + 1)) / (P + 1) % (P + 1))
        ((x + y * (P + 1) + z * (P + 1) * (P + 1)) / (P + 1) / (P + 1)) = F x y z := by
    intro z _ y hy x hx F
    rw [digit0 (mem_range.1 hx), digit1 (mem_range.1 hx) (mem_range.1 hy), digit2 (mem_range.1 hx) (mem_range.1 hy)]
  have one : ∀ f : ℕ → ℝ, ∑ i ∈ range (P + 1), f i * (if i = k then 1 else 0) = f k := by
    intro f
    rw [sum_eq_single_of_mem k (mem_range.2 hk)]
    · simp
    · intro b _ hb; rw [if_neg hb, mul_zero]
  set L := fun i => Lagrange.basis (range (P + 1)) Z i with hL
  interval_cases d
  · simp only [mk, sideVert, if_true]
    refine sum_congr rfl fun z hz => sum_congr rfl fun w hw => ?_
    rw [← one fun x => c (x + w * (P + 1) + z * (P + 1) * (P + 1)) * ((L w).coeff y.1 * (L z).coeff y.2)]
    refine sum_congr rfl fun x hx => ?_
    rw [← ev x (mem_range.1 hx), mul_sum]
    refine sum_congr rfl fun a _ => ?_
    rw [digit0 (mem_range.1 hx), digit1 (mem_range.1 hx) (mem_range.1 hw), digit2 (mem_range.1 hx) (mem_range.1 hw)]
    ring
  · simp only [mk, sideVert, if_true, one_ne_zero, if_false]
    rw [sum_comm (s := range (P + 1)) (t := range (P + 1)) (f := fun β α => c (β + k * (P + 1) + α * (P + 1) * (P + 1)) * _)]
    refine sum_congr rfl fun z hz => ?_
    rw [sum_comm]
    refine sum_congr rfl fun x hx => ?_
    rw [← one fun w => c (x + w * (P + 1) + z * (P + 1) * (P + 1)) * ((L z).coeff y.1 * (L x).coeff y.2)]
    refine sum_congr rfl fun w hw => ?_
    rw [← ev w (mem_range.1 hw), mul_sum]
    refine sum_congr rfl fun a _ => ?_
    rw [digit0 (mem_range.1 hx), digit1 (mem_range.1 hx) (mem_range.1 hw), digit2 (mem_range.1 hx) (mem_range.1 hw)]
    ring
  · simp only [mk, sideVert, OfNat.ofNat_ne_zero, OfNat.ofNat_ne_one, if_false]
    rw [sum_comm]
    refine sum_congr rfl fun w hw => ?_
    rw [sum_comm]
    refine sum_congr rfl fun x hx => ?_
    rw [← one fun z => c (x + w * (P + 1) + z * (P + 1) * (P + 1)) * ((L x).coeff y.1 * (L w).coeff y.2)]
    refine sum_congr rfl fun z hz => ?_
    rw [← ev z (mem_range.1 hz), mul_sum]
    refine sum_congr rfl fun a _ => ?_
    rw [digit0 (mem_range.1 hx), digit1 (mem_range.1 hx) (mem_range.1 hw), digit2 (mem_range.1 hx) (mem_range.1 hw)]
    ring

/-- The trilinear form of the side of an element, from the positions `x` of the nodes on it. -/
noncomputable def sideOf (p : ℕ) (m0 : ℕ → ℕ) (Z : ℕ → ℝ) (m : Mesh) (x : ℕ → ℕ → ℝ) (e d k : ℕ) : ℝ :=
  sideForm (degree p) fun i y => ∑ β ∈ range (degree p + 1), ∑ α ∈ range (degree p + 1),
    x (vertNode p m0 m e (sideVert (degree p + 1) d k α β)) i *
      ((Lagrange.basis (range (degree p + 1)) Z α).coeff y.1 * (Lagrange.basis (range (degree p + 1)) Z β).coeff y.2)

theorem sideOf_congr {p : ℕ} {m0 : ℕ → ℕ} {Z : ℕ → ℝ} {m : Mesh} {x x' : ℕ → ℕ → ℝ} {e d k e' k' : ℕ}
    (h : ∀ a < degree p + 1, ∀ b < degree p + 1, ∀ i < 3, x (vertNode p m0 m e (sideVert (degree p + 1) d k a b)) i =
      x' (vertNode p m0 m e' (sideVert (degree p + 1) d k' a b)) i) : sideOf p m0 Z m x e d k = sideOf p m0 Z m x' e' d k' := by
  have key : ∀ i < 3, ∀ y : ℕ × ℕ, ∑ β ∈ range (degree p + 1), ∑ α ∈ range (degree p + 1),
    x (vertNode p m0 m e (sideVert (degree p + 1) d k α β)) i *
      ((Lagrange.basis (range (degree p + 1)) Z α).coeff y.1 * (Lagrange.basis (range (degree p + 1)) Z β).coeff y.2) =
    ∑ β ∈ range (degree p + 1), ∑ α ∈ range (degree p + 1),
    x' (vertNode p m0 m e' (sideVert (degree p + 1) d k' α β)) i *
      ((Lagrange.basis (range (degree p + 1)) Z α).coeff y.1 * (Lagrange.basis (range (degree p + 1)) Z β).coeff y.2) := by
    intro i hi y
    refine sum_congr rfl fun β hβ => sum_congr rfl fun α hα => ?_
    rw [h α (mem_range.1 hα) β (mem_range.1 hβ) i hi]
  unfold sideOf sideForm
  simp only [key 0 (by omega), key 1 (by omega), key 2 (by omega)]

/-- The volume of an element from its six sides. -/
theorem element_sides {p : ℕ} (h1 : 1 ≤ p) (hp : p ≤ 9) {q : RefElem.Junk} {r : RefElem.Ref} (R : RefElem.InitSpec p q r) (m0 : ℕ → ℕ)
    {m : Mesh} {e : ℕ} {co : ℕ → ℕ → ℕ → ℕ → ℝ} (h : CurvedBy p m0 r m e co) : imageVolume (fun a => polyAt p (co a)) =
      ∑ d ∈ range 3, (sideOf p m0 r.verts m m.coords.val e d (degree p) - sideOf p m0 r.verts m m.coords.val e d 0) := by
  have hd : degree p = p := by unfold degree RefElem.verts1D; rw [if_neg (by omega)]; omega
  have hz := RefElem.verts_inj hp R
  rw [← degree_succ p] at hz
  obtain ⟨z0, z1⟩ := verts_ends h1 hp R
  have a : ∀ i < 3, polyAt p (co i) = polyAt (degree p) (interpCoef (degree p + 1) r.verts
      (fun v => m.coords.val (m.nodesInElem.val (e * m.gaussInElem + HexN.vertNodeMap p m0 v)) i)) := by
    intro i hi; funext X; rw [interp_coef hz, ← curved_interp hp R m0 h hi, hd]
  rw [imageVolume_congr a, imageVolume_sides (degree p) (fun i => interpCoef (degree p + 1) r.verts _)]
  refine sum_congr rfl fun d hd3 => ?_
  have hd3 := mem_range.1 hd3
  unfold sideOf
  refine congrArg₂ (· - ·) (congrArg (sideForm _) ?_) (congrArg (sideForm _) ?_)
  · funext i y
    rw [← z1]
    exact restr_interp hz (Nat.lt_succ_self _) _ hd3 y
  · funext i y
    rw [← z0]
    exact restr_interp hz (Nat.succ_pos _) _ hd3 y

/-- Sides glued together cancel. -/
theorem sum_glued {E : ℕ} {nb : ℕ → Option ℕ} {U L : ℕ → ℝ} (hlt : ∀ e < E, ∀ e', nb e = some e' → e' < E)
    (hinj : ∀ e₁ < E, ∀ e₂ < E, ∀ e', nb e₁ = some e' → nb e₂ = some e' → e₁ = e₂)
    (hs : ∀ e < E, ∀ e', nb e = some e' → U e = L e') (hu : ∀ e < E, nb e = none → U e = 0)
    (hl : ∀ e < E, (∀ e' < E, nb e' ≠ some e) → L e = 0) : ∑ e ∈ range E, U e = ∑ e ∈ range E, L e := by
  have some_of : ∀ e < E, U e ≠ 0 → nb e = some ((nb e).getD 0) := by
    intro e he h
    cases hn : nb e with
    | none => exact absurd (hu e he hn) h
    | some e' => rfl
  refine sum_bij_ne_zero (fun e _ _ => (nb e).getD 0) ?_ ?_ ?_ ?_
  · intro e he h
    exact mem_range.2 (hlt e (mem_range.1 he) _ (some_of e (mem_range.1 he) h))
  · intro e₁ he₁ h₁ e₂ he₂ h₂ h
    have a := some_of e₁ (mem_range.1 he₁) h₁
    have b := some_of e₂ (mem_range.1 he₂) h₂
    rw [← h] at b
    exact hinj e₁ (mem_range.1 he₁) e₂ (mem_range.1 he₂) _ a b
  · intro e' he' h
    have he' := mem_range.1 he'
    by_contra hcon
    refine h (hl e' he' fun e he hn => hcon ⟨e, mem_range.2 he, ?_, ?_⟩)
    · rw [hs e he e' hn]; exact h
    · rw [hn]; rfl
  · intro e he h
    exact hs e (mem_range.1 he) _ (some_of e (mem_range.1 he) h)

/-! ### C116 -/

/-- **C116 (volume).**  Take a mesh of order 1 to 9 and how its elements are glued together, and move its nodes in any way that
leaves the nodes of the outer sides where they are.  The total volume of its (curved) elements stays the same. -/
theorem C116_volume (p : ℕ) (h1 : 1 ≤ p) (hp : p ≤ 9) (q : RefElem.Junk) (m0 : ℕ → ℕ) (r : RefElem.Ref)
    (hr : RefElem.init p q = some r) (m m' : Mesh) (hm' : ∃ y, m' = { m with coords := y }) (nb : ℕ → ℕ → Option ℕ)
    (hg : Glued p m0 m nb) (hx : ∀ n, OuterNode p m0 m nb n → ∀ i < 3, m.coords.val n i = m'.coords.val n i)
    (co co' : ℕ → ℕ → ℕ → ℕ → ℕ → ℝ) (h : ∀ e < m.elems, CurvedBy p m0 r m e (co e))
    (h' : ∀ e < m.elems, CurvedBy p m0 r m' e (co' e)) :
    ∑ e ∈ range m.elems, imageVolume (fun a => polyAt p (co e a)) = ∑ e ∈ range m.elems, imageVolume (fun a => polyAt p (co' e a)) := by
  obtain ⟨r2, e1, R⟩ := RefElem.init_run p q
  obtain rfl : r2 = r := Option.some.inj (e1.symm.trans hr)
  have hdg := degree_succ p
  have hN : RefElem.verts1D p - 1 = degree p := rfl
  obtain ⟨y, rfl⟩ := hm'
  rw [← sub_eq_zero, ← sum_sub_distrib]
  have E : ∀ e ∈ range m.elems, imageVolume (fun a => polyAt p (co e a)) - imageVolume (fun a => polyAt p (co' e a)) =
      ∑ d ∈ range 3, ((sideOf p m0 r2.verts m m.coords.val e d (degree p) - sideOf p m0 r2.verts m y.val e d (degree p)) -
        (sideOf p m0 r2.verts m m.coords.val e d 0 - sideOf p m0 r2.verts m y.val e d 0)) := by
    intro e he
    rw [element_sides h1 hp R m0 (h e (mem_range.1 he)), element_sides h1 hp R m0 (h' e (mem_range.1 he)), ← sum_sub_distrib]
    refine sum_congr rfl fun d _ => ?_
    show _ - (sideOf p m0 r2.verts m y.val e d (degree p) - sideOf p m0 r2.verts m y.val e d 0) = _
    ring
  rw [sum_congr rfl E, sum_comm]
  refine sum_eq_zero fun d hd => ?_
  have hd := mem_range.1 hd
  rw [sum_sub_distrib, sub_eq_zero]
  refine sum_glued (nb := fun e => nb e d) (fun e he e' => hg.lt e he d hd e') (fun a ha b hb e' => hg.inj a ha b hb d hd e') ?_ ?_ ?_
  · intro e he e' hn
    have s := hg.same e he d hd e' hn
    rw [hN, ← hdg] at s
    rw [sideOf_congr (x := m.coords.val) (x' := m.coords.val) (e' := e') (k' := 0) fun a ha b hb i _ => by rw [s a ha b hb],
      sideOf_congr (x := y.val) (x' := y.val) (e' := e') (k' := 0) fun a ha b hb i _ => by rw [s a ha b hb]]
  · intro e he hn
    rw [sub_eq_zero]
    refine sideOf_congr fun a ha b hb i hi => hx _ ⟨e, he, d, hd, a, by omega, b, by omega, Or.inl ⟨hn, ?_⟩⟩ i hi
    rw [hN, hdg]
  · intro e he hn
    rw [sub_eq_zero]
    refine sideOf_congr fun a ha b hb i hi => hx _ ⟨e, he, d, hd, a, by omega, b, by omega, Or.inr ⟨hn, ?_⟩⟩ i hi
    rw [hdg]

/-- **C116 (`get_vol_jacobi`).**  The total volume computed by `get_gauss_pt_jacobian` and `get_vol_jacobi` before and after such a
move differs by no more than the accuracy of the tabulated weights. -/
theorem C116_computed (p : ℕ) (h1 : 1 ≤ p) (hp : p ≤ 9) (q : RefElem.Junk) (m0 : ℕ → ℕ)
    (m : Mesh) (hm : MeshOK p m) (hl : LatticeMesh p m) (s : Jac) (hs : s.Sized (m.elems * RefElem.nodes1D p ^ 3)) (v : Vol) (hv : v.Sized m)
    (m' : Mesh) (hmm : ∃ y, m' = { m with coords := y }) (hm' : MeshOK p m') (hl' : LatticeMesh p m') (t : Jac)
    (ht : t.Sized (m'.elems * RefElem.nodes1D p ^ 3)) (w : Vol) (hw : w.Sized m') (nb : ℕ → ℕ → Option ℕ) (hg : Glued p m0 m nb)
    (hx : ∀ n, OuterNode p m0 m nb n → ∀ i < 3, m.coords.val n i = m'.coords.val n i) :
    ∃ r s' v' t' w', RefElem.init p q = some r ∧
      gaussJacobian m (RefElem.verts1D p ^ 3) (HexN.vertNodeMap p m0) r s = some s' ∧ volJacobi m r s'.det v = some v' ∧
      gaussJacobian m' (RefElem.verts1D p ^ 3) (HexN.vertNodeMap p m0) r t = some t' ∧ volJacobi m' r t'.det w = some w' ∧
      ∀ co co' : ℕ → ℕ → ℕ → ℕ → ℕ → ℝ, (∀ e < m.elems, CurvedBy p m0 r m e (co e)) → (∀ e < m.elems, CurvedBy p m0 r m' e (co' e)) →
        |∑ e ∈ range m.elems, v'.elem.val e - ∑ e ∈ range m.elems, w'.elem.val e| ≤
          ∑ e ∈ range m.elems, 114 / 10 ^ 23 * p ^ 3 * (coefSum p (co e 0) * coefSum p (co e 1) * coefSum p (co e 2) +
            coefSum p (co' e 0) * coefSum p (co' e 1) * coefSum p (co' e 2)) := by
  obtain ⟨r, s', v', hr, g1, g2, g3⟩ := C73_volume p h1 hp q m0 m hm hl s hs v hv
  obtain ⟨r2, t', w', hr2, k1, k2, k3⟩ := C73_volume p h1 hp q m0 m' hm' hl' t ht w hw
  obtain rfl : r2 = r := Option.some.inj (hr2.symm.trans hr)
  refine ⟨r2, s', v', t', w', hr, g1, g2, k1, k2, ?_⟩
  intro co co' hc hc'
  have he : m'.elems = m.elems := by obtain ⟨y, rfl⟩ := hmm; rfl
  have key := C116_volume p h1 hp q m0 r2 hr m m' hmm nb hg hx co co' hc hc'
  have split : ∑ e ∈ range m.elems, v'.elem.val e - ∑ e ∈ range m.elems, w'.elem.val e =
      ∑ e ∈ range m.elems, ((v'.elem.val e - imageVolume fun a => polyAt p (co e a)) -
        (w'.elem.val e - imageVolume fun a => polyAt p (co' e a))) := by
    simp only [sum_sub_distrib]
    linarith
  rw [split]
  refine (abs_sum_le_sum_abs _ _).trans (sum_le_sum fun e hem => ?_)
  have hem := mem_range.1 hem
  have a := g3 e hem (co e) (hc e hem)
  have b := k3 e (by omega) (co' e) (hc' e hem)
  rw [sub_eq_add_neg]
  refine (abs_add_le _ _).trans ?_
  rw [abs_neg]
  linarith

/-! ### A concrete mesh -/

/-- Node of Gauss point `a` of the mesh of two elements of order 2 side by side in direction 0. -/
def rowNode (a : ℕ) : ℕ := (a % 125 % 5 + 4 * (a / 125)) + a % 125 / 5 % 5 * 9 + a % 125 / 5 / 5 * 45

/-- Gauss point of corner `a % 8` of cell `a / 8` of that mesh. -/
def rowGauss (a : ℕ) : ℕ :=
  a / 8 / 64 * 125 + ((a / 8 % 64 % 4 + a % 8 % 2) + (a / 8 % 64 / 4 % 4 + a % 8 / 2 % 2) * 5 + (a / 8 % 64 / 4 / 4 + a % 8 / 4) * 25)

/-- Two elements of order 2 side by side, with node positions `x`. -/
def rowMesh (x : ℕ → ℕ → ℝ) : Mesh where
  elems := 2
  cells := 128
  gaussInElem := 125
  patchesInElem := 240
  cellsPerElem := 64
  nodesInElem := ⟨250, rowNode⟩
  cellsInElem := ⟨128, id⟩
  nodesInCell := ⟨1024, fun a => rowNode (rowGauss a)⟩
  gaussInCell := ⟨1024, rowGauss⟩
  coords := ⟨225, x⟩

theorem rowMesh_ok (x : ℕ → ℕ → ℝ) : MeshOK 2 (rowMesh x) where
  gauss := rfl
  patches := rfl
  cells := rfl
  size := rfl
  nodes := by
    intro a ha
    have ha : a < 250 := ha
    show rowNode a < 225
    unfold rowNode
    omega

theorem rowMesh_lattice (x : ℕ → ℕ → ℝ) : LatticeMesh 2 (rowMesh x) where
  perElem := rfl
  cells := rfl
  inElem := by
    intro e he l hl
    have he : e < 2 := he
    have hl : l < 64 := hl
    exact Arr.get_lt (a := ⟨128, id⟩) (show e * 64 + l < 128 by omega)
  gaussSize := rfl
  gauss := by
    intro e he i j k hi hj hk a ha b hb c hc
    have he : e < 2 := he
    have hi : i < 4 := hi
    have hj : j < 4 := hj
    have hk : k < 4 := hk
    show rowGauss ((e * 64 + (i + j * 4 + k * 16)) * 8 + (a + 2 * b + 4 * c)) = e * 125 + (i + a + (j + b) * 5 + (k + c) * 25)
    unfold rowGauss
    omega
  nodesSize := rfl
  nodes := by
    intro a ha
    have ha : a < 1024 := ha
    show rowNode (rowGauss a) < 225
    have h : rowGauss a < 250 := (show ∀ a < 1024, rowGauss a < 250 by decide +kernel) a ha
    unfold rowNode
    omega

theorem row_vert (m0 : ℕ → ℕ) (x : ℕ → ℕ → ℝ) {e i j k : ℕ} (he : e < 2) (hi : i < 3) (hj : j < 3) (hk : k < 3) :
    vertNode 2 m0 (rowMesh x) e (i + j * 3 + k * 3 * 3) = 2 * i + 4 * e + 2 * j * 9 + 2 * k * 45 := by
  have h : HexN.vertNodeMap 2 m0 (i + j * 3 + k * 3 * 3) = 2 * i + 2 * j * 5 + 2 * k * 5 * 5 :=
    (HexN.C60_setup (K := ℝ) 2 (fun _ => 0) (fun _ => 0) m0 (fun _ _ => 0) i j k hi hj hk).1
  show rowNode (e * 125 + HexN.vertNodeMap 2 m0 (i + j * 3 + k * 3 * 3)) = _
  rw [h]
  clear h
  interval_cases e <;> interval_cases i <;> interval_cases j <;> interval_cases k <;> rfl

/-- How the two elements are glued. -/
def rowGlue (e d : ℕ) : Option ℕ := if e = 0 ∧ d = 0 then some 1 else none

theorem row_glued (m0 : ℕ → ℕ) (x : ℕ → ℕ → ℝ) : Glued 2 m0 (rowMesh x) rowGlue where
  lt := by
    intro e he d hd e' h
    unfold rowGlue at h
    split at h
    · cases h; show 1 < 2; omega
    · cases h
  inj := by
    intro a ha b hb d hd e' h1 h2
    unfold rowGlue at h1 h2
    split at h1
    · split at h2
      · omega
      · cases h2
    · cases h1
  same := by
    intro e he d hd e' h a ha b hb
    have ha : a < 3 := ha
    have hb : b < 3 := hb
    unfold rowGlue at h
    split at h
    · next hh =>
      cases h
      obtain ⟨rfl, rfl⟩ := hh
      show vertNode 2 m0 (rowMesh x) 0 (2 + a * 3 + b * 3 * 3) = vertNode 2 m0 (rowMesh x) 1 (0 + a * 3 + b * 3 * 3)
      rw [row_vert m0 x (by omega) (by omega) ha hb, row_vert m0 x (by omega) (by omega) ha hb]
    · cases h

/-- The node in the middle of the side the two elements share is on no outer side. -/
theorem row_inner (m0 : ℕ → ℕ) (x : ℕ → ℕ → ℝ) : ¬ OuterNode 2 m0 (rowMesh x) rowGlue 112 := by
  rintro ⟨e, he, d, hd, a, ha, b, hb, h⟩
  have he : e < 2 := he
  have ha : a < 3 := ha
  have hb : b < 3 := hb
  have key : ∀ k < 3, (d = 0 → (k = 2 → e = 1) ∧ (k = 0 → e = 0)) → (k = 0 ∨ k = 2) →
      112 ≠ vertNode 2 m0 (rowMesh x) e (sideVert 3 d k a b) := by
    intro k hk h0 hk2 hv
    interval_cases d
    · rw [show sideVert 3 0 k a b = k + a * 3 + b * 3 * 3 from rfl, row_vert m0 x he hk ha hb] at hv
      have := h0 rfl
      omega
    · rw [show sideVert 3 1 k a b = b + k * 3 + a * 3 * 3 from rfl, row_vert m0 x he hb hk ha] at hv
      omega
    · rw [show sideVert 3 2 k a b = a + b * 3 + k * 3 * 3 from rfl, row_vert m0 x he ha hb hk] at hv
      omega
  rcases h with ⟨h1, h2⟩ | ⟨h1, h2⟩
  · refine key 2 (by omega) ?_ (Or.inr rfl) h2
    rintro rfl
    refine ⟨fun _ => ?_, fun h => by omega⟩
    by_contra hne
    have : e = 0 := by omega
    subst this
    exact absurd h1 (by decide)
  · refine key 0 (by omega) ?_ (Or.inl rfl) h2
    rintro rfl
    refine ⟨fun h => by omega, fun _ => ?_⟩
    by_contra hne
    have : e = 1 := by omega
    subst this
    exact h1 0 (show 0 < 2 by omega) rfl

/-- Non-vacuity: two elements of order 2 side by side; the middle node of the side they share may be moved to any place `y`. -/
example (m0 : ℕ → ℕ) (x : ℕ → ℕ → ℝ) (y : ℕ → ℝ) : ∃ (m m' : Mesh) (nb : ℕ → ℕ → Option ℕ), m.coords.val = x ∧
    m'.coords.val 112 = y ∧ (∃ y, m' = { m with coords := y }) ∧ MeshOK 2 m ∧ LatticeMesh 2 m ∧ MeshOK 2 m' ∧ LatticeMesh 2 m' ∧
    Glued 2 m0 m nb ∧ ∀ n, OuterNode 2 m0 m nb n → ∀ i < 3, m.coords.val n i = m'.coords.val n i := by
  refine ⟨rowMesh x, rowMesh (Function.update x 112 y), rowGlue, rfl, (show Function.update x 112 y 112 = y from Function.update_self ..), ⟨⟨225, Function.update x 112 y⟩, rfl⟩,
    rowMesh_ok _, rowMesh_lattice _, rowMesh_ok _, rowMesh_lattice _, row_glued m0 x, ?_⟩
  intro n hn i _
  have : n ≠ 112 := by rintro rfl; exact row_inner m0 x hn
  show x n i = Function.update x 112 y n i
  rw [Function.update_of_ne this]

end Verif.Geometry
