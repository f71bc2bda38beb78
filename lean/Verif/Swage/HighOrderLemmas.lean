import Verif.Swage.HighOrder
import Verif.Swage.RefineNegation
import Verif.LagrangeElement.Theorems

/-!
# Lemmas on `refine_high_order_mesh`
-/

namespace Verif.Swage.HighOrder
open Verif.Swage Verif.Swage.Refine LagrangeElement LagrangeElement.Spec

/-! ### Specification -/

/-- Vertex `i` of `p + 1` equally spaced ones on `[-1, 1]`. -/
noncomputable def equi (p i : ℕ) : ℝ := -1 + 2 * ((i : ℝ) / p)

/-- The interpolant of degree `p` in each variable with the value `c (a + b (p+1) + c (p+1)²)` at the vertex
`(a, b, c)` of the equally spaced lattice on `[-1, 1]³`, at the point `X`. -/
noncomputable def isoMap (p : ℕ) (c X : ℕ → ℝ) : ℝ :=
  ∑ I ∈ Finset.range ((p + 1) * (p + 1) * (p + 1)), c I * phi (p + 1) (equi p) I X

/-- A point from its coordinates. -/
def pt (a b c : ℝ) (d : ℕ) : ℝ := if d = 0 then a else if d = 1 then b else c

/-! ### The 1-D vertices -/

theorem ell_congr {N : ℕ} {Z Z' : ℕ → ℝ} (h : ∀ i < N, Z i = Z' i) {i : ℕ} (hi : i < N) (x : ℝ) :
    ell N Z i x = ell N Z' i x := by
  unfold ell Lagrange.basis
  congr 1
  refine Finset.prod_congr rfl fun j hj => ?_
  rw [h i hi, h j (Finset.mem_range.1 (Finset.mem_of_mem_erase hj))]

theorem dig_lt {N I : ℕ} (hI : I < N * N * N) : I % N < N ∧ I / N % N < N ∧ I / N / N < N := by
  obtain ⟨h1, h2, h3, -⟩ := lex3_surj hI
  exact ⟨h1, h2, h3⟩

theorem phi_congr {N : ℕ} {Z Z' : ℕ → ℝ} (h : ∀ i < N, Z i = Z' i) {I : ℕ} (hI : I < N * N * N) (X : ℕ → ℝ) :
    phi N Z I X = phi N Z' I X := by
  obtain ⟨h1, h2, h3⟩ := dig_lt hI
  unfold phi
  rw [ell_congr h h1, ell_congr h h2, ell_congr h h3]

theorem equi_run {p : ℕ} (hp : 1 ≤ p) (a : ℕ → ℝ) :
    ∃ Z, Points.equispacedPoints (p + 1) (-1) 1 a = some Z ∧ ∀ i < p + 1, Z i = equi p i := by
  refine ⟨_, if_neg (by omega), ?_⟩
  intro i hi
  rw [loop_store]
  simp only [hi, if_true, Nat.add_sub_cancel, equi]
  ring

theorem tol_pos : 0 < tol := by unfold tol; norm_num

theorem separated {p : ℕ} (hp : 1 ≤ p) (hp9 : p ≤ 9) {Z : ℕ → ℝ} (hZ : ∀ i < p + 1, Z i = equi p i) :
    Separated tol (p + 1) Z := by
  refine ⟨by omega, tol_pos, ?_, ?_⟩
  · calc (p + 1) * (p + 1) * (p + 1) ≤ 10 * 10 * 10 := by gcongr <;> omega
      _ < 2 ^ 64 := by norm_num
  · intro j hj k hk hjk
    rw [hZ j hj, hZ k hk]
    unfold equi
    have hp0 : (0 : ℝ) < p := by exact_mod_cast hp
    have e : (-1 + 2 * ((j : ℝ) / p) - (-1 + 2 * ((k : ℝ) / p))) = 2 / p * ((j : ℝ) - k) := by field_simp; ring
    rw [e, abs_mul, abs_of_pos (by positivity)]
    have h1 : (1 : ℝ) ≤ |(j : ℝ) - k| := by
      have : (1 : ℤ) ≤ |(j : ℤ) - k| := Int.one_le_abs (by omega)
      exact_mod_cast this
    have h2 : (2 : ℝ) / 9 ≤ 2 / p := by
      apply div_le_div_of_nonneg_left (by norm_num) hp0
      exact_mod_cast hp9
    have h3 : 2 * tol ≤ 2 / 9 := by unfold tol; norm_num
    nlinarith

theorem equi_cast (p i : ℕ) : equi p i = (((-1 + 2 * ((i : ℚ) / p)) : ℚ) : ℝ) := by
  unfold equi; push_cast; rfl

theorem tol_cast : tol = (((2 * (1 / 2 ^ 52)) : ℚ) : ℝ) := by unfold tol; push_cast; rfl

theorem resolved_check : ∀ p ∈ ([1, 3, 4, 5, 6, 7, 8, 9] : List ℕ), ∀ i < 2 * p + 1, ∀ j : ℕ, j < p + 1 →
    (Quad.lobNodesQ (2 * p + 1)).getD i 0 = -1 + 2 * ((j : ℚ) / p) ∨
    (2 * (1 / 2 ^ 52) : ℚ) ≤ |(-1 + 2 * ((j : ℚ) / p)) - (Quad.lobNodesQ (2 * p + 1)).getD i 0| := by decide +kernel

theorem resolved {p : ℕ} (hp : 1 ≤ p) (hp9 : p ≤ 9) {Z : ℕ → ℝ} (hZ : ∀ i < p + 1, Z i = equi p i) {a : ℕ → ℝ}
    {lob : Arr ℝ} (h : Quad.lobatto_nodes_1D (2 * p + 1) ⟨2 * p + 1, a⟩ = some lob) {i : ℕ} (hi : i < 2 * p + 1) :
    Resolved tol (p + 1) Z (lob.val i) := by
  intro j hj
  rw [hZ j hj, lob_val (by omega) (by omega) h i hi]
  by_cases h2 : p = 2
  · subst h2
    have hx : Quad.lobNodes (2 * 2 + 1) = [-1, -1/7*√21, 0, 1/7*√21, (1:ℝ)] := rfl
    have hs : √21 ^ 2 = (21 : ℝ) := Real.sq_sqrt (by norm_num)
    have h0 : 0 < √21 := Real.sqrt_pos.2 (by norm_num)
    have h1 : √21 < 4.6 := by nlinarith
    have h3 : 4.5 < √21 := by nlinarith
    have ht : tol ≤ 1 / 10 := by unfold tol; norm_num
    rw [hx]
    unfold equi
    interval_cases i <;> interval_cases j <;>
      first
        | (left; norm_num; done)
        | (right; refine ht.trans ?_; rw [le_abs]; left; norm_num <;> linarith)
        | (right; refine ht.trans ?_; rw [le_abs]; right; norm_num <;> linarith)
  · have hm : p ∈ [1, 3, 4, 5, 6, 7, 8, 9] := by
      have : p = 1 ∨ p = 3 ∨ p = 4 ∨ p = 5 ∨ p = 6 ∨ p = 7 ∨ p = 8 ∨ p = 9 := by omega
      simpa using this
    have hc := resolved_check p hm i hi j hj
    rw [Quad.lobNodes_eq (by omega), Quad.getD_map_cast, equi_cast, tol_cast]
    rcases hc with hc | hc
    · left; rw [hc]
    · right
      have := (Rat.cast_le (K := ℝ)).2 hc
      rw [Rat.cast_abs, Rat.cast_sub] at this
      exact this

/-! ### Gauss points -/

theorem getVerts_spec (V : ℕ) (nodes : ℕ → ℕ) (x : ℕ → ℕ → ℝ) (s : Verts) (h1 : s.vx.size = V) (h2 : s.vy.size = V)
    (h3 : s.vz.size = V) : ∃ r, getVerts V nodes x s = some r ∧ r.vx.size = V ∧ r.vy.size = V ∧ r.vz.size = V ∧
      ∀ v < V, r.vx.val v = x (nodes v) 0 ∧ r.vy.val v = x (nodes v) 1 ∧ r.vz.val v = x (nodes v) 2 := by
  unfold getVerts
  apply loopM_spec (fun m (r : Verts) => r.vx.size = V ∧ r.vy.size = V ∧ r.vz.size = V ∧
      ∀ v < m, r.vx.val v = x (nodes v) 0 ∧ r.vy.val v = x (nodes v) 1 ∧ r.vz.val v = x (nodes v) 2)
  · exact ⟨h1, h2, h3, fun v hv => absurd hv (Nat.not_lt_zero _)⟩
  · rintro m ⟨⟨a, fa⟩, ⟨b, fb⟩, ⟨c, fc⟩⟩ hm ⟨e1, e2, e3, e4⟩
    simp only [] at e1 e2 e3 e4
    subst e1
    subst e2
    subst e3
    refine ⟨⟨⟨c, store fa m (x (nodes m) 0)⟩, ⟨c, store fb m (x (nodes m) 1)⟩, ⟨c, store fc m (x (nodes m) 2)⟩⟩, ?_,
      rfl, rfl, rfl, ?_⟩
    · show ((⟨c, fa⟩ : Arr ℝ).set m _).bind _ = _
      rw [Arr.set_lt _ (by exact hm), Option.bind_some]
      show ((⟨c, fb⟩ : Arr ℝ).set m _).bind _ = _
      rw [Arr.set_lt _ (by exact hm), Option.bind_some]
      show ((⟨c, fc⟩ : Arr ℝ).set m _).bind _ = _
      rw [Arr.set_lt _ (by exact hm), Option.bind_some]
      rfl
    · intro v hv
      simp only []
      by_cases h : v = m
      · subst h; simp only [store_same, and_self]
      · rw [store_ne _ _ h, store_ne _ _ h, store_ne _ _ h]; exact e4 v (by omega)

/-- The reference position of local Gauss point `lid`. -/
def refPt (n : ℕ) (L : ℕ → ℝ) (lid : ℕ) : ℕ → ℝ := pt (L (lid % n)) (L (lid / n % n)) (L (lid / n / n))

/-- Positions computed so far. -/
def Filled (E p n : ℕ) (nodes : ℕ → ℕ → ℕ) (x : ℕ → ℕ → ℝ) (L : ℕ → ℝ) (m : ℕ) (s : GState) : Prop :=
  s.count = m ∧ s.g.size = E * n ^ 3 ∧ s.verts.vx.size = (p + 1) ^ 3 ∧ s.verts.vy.size = (p + 1) ^ 3 ∧
  s.verts.vz.size = (p + 1) ^ 3 ∧ ∀ g < m, ∀ d < 3,
    s.g.val g d = isoMap p (fun I => x (nodes (g / n ^ 3) I) d) (refPt n L (g % n ^ 3))

theorem approx_eq {p : ℕ} (hp : 1 ≤ p) (hp9 : p ≤ 9) {Z : ℕ → ℝ} (hZ : ∀ i < p + 1, Z i = equi p i) {X : ℕ → ℝ}
    (hX : ∀ d < 3, Resolved tol (p + 1) Z (X d)) (C c c' : ℕ → ℝ) (hc : ∀ v < (p + 1) ^ 3, c v = c' v) :
    evalApprox tol (p + 1) Z C c X = isoMap p c' X := by
  have hs := separated hp hp9 hZ
  rw [C10_approx hs hX]
  unfold isoMap
  refine Finset.sum_congr rfl fun I hI => ?_
  have hI := Finset.mem_range.1 hI
  rw [C09_basis hs hX hI, Option.getD_some, phi_congr hZ hI, hc I (lt_of_lt_of_eq hI (by ring))]

theorem gaussPoints_spec {E p : ℕ} (hp : 1 ≤ p) (hp9 : p ≤ 9) (nodes : ℕ → ℕ → ℕ) (x : ℕ → ℕ → ℝ) {Z : ℕ → ℝ}
    (hZ : ∀ i < p + 1, Z i = equi p i) {L : ℕ → ℝ} (hL : ∀ i < 2 * p + 1, Resolved tol (p + 1) Z (L i))
    (work : ℕ → ℕ → ℕ → ℝ) (vx vy vz : ℕ → ℝ) (j0 : ℕ → ℕ → ℝ) :
    ∃ s, gaussPoints E p (2 * p + 1) nodes x Z L work
        ⟨⟨⟨(p + 1) ^ 3, vx⟩, ⟨(p + 1) ^ 3, vy⟩, ⟨(p + 1) ^ 3, vz⟩⟩, 0, ⟨E * (2 * p + 1) ^ 3, j0⟩⟩ = some s ∧
      Filled E p (2 * p + 1) nodes x L ((2 * p + 1) ^ 3 * E) s := by
  set n := 2 * p + 1 with hn
  have hn0 : 0 < n := by omega
  have hn3 : 0 < n ^ 3 := by positivity
  have hfit : n * n * n < 2 ^ 64 := by
    calc n * n * n ≤ 19 * 19 * 19 := by gcongr <;> omega
      _ < 2 ^ 64 := by norm_num
  unfold gaussPoints
  apply loopM_spec (fun e s => Filled E p n nodes x L (n ^ 3 * e) s)
  · exact ⟨by simp, rfl, rfl, rfl, rfl, fun g hg => absurd hg (by simp)⟩
  · rintro e ⟨vs, cnt, g⟩ he ⟨e1, e2, e3, e4, e5, e6⟩
    simp only [] at e1 e2 e3 e4 e5 e6
    obtain ⟨r, hr, r1, r2, r3, r4⟩ := getVerts_spec ((p + 1) ^ 3) (nodes e) x vs e3 e4 e5
    have inner := loopM_spec (n := n ^ 3) (body := interpPoint p n Z L work) (s := ⟨r, cnt, g⟩)
      (fun l s => Filled E p n nodes x L (n ^ 3 * e + l) s ∧ s.verts = r)
      ⟨⟨e1, e2, r1, r2, r3, e6⟩, rfl⟩ (by
        rintro l ⟨vs', cnt', ⟨gz, gv⟩⟩ hl ⟨⟨f1, f2, f3, f4, f5, f6⟩, f7⟩
        simp only [] at f1 f2 f3 f4 f5 f6 f7
        subst f7
        subst f1
        subst f2
        have hl' : l < n * n * n := lt_of_lt_of_eq hl (by ring)
        obtain ⟨d1, d2, d3⟩ := dig_lt hl'
        have hin : n ^ 3 * e + l < E * n ^ 3 := by
          calc n ^ 3 * e + l < n ^ 3 * e + n ^ 3 := by omega
            _ = (e + 1) * n ^ 3 := by ring
            _ ≤ E * n ^ 3 := Nat.mul_le_mul_right _ he
        have hdiv : (n ^ 3 * e + l) / n ^ 3 = e := by
          rw [Nat.mul_add_div hn3, Nat.div_eq_of_lt hl, Nat.add_zero]
        have hmod : (n ^ 3 * e + l) % n ^ 3 = l := by
          rw [Nat.mul_add_mod, Nat.mod_eq_of_lt hl]
        have hX : ∀ d < 3, Resolved tol (p + 1) Z (refPt n L l d) := by
          intro d hd
          unfold refPt pt
          interval_cases d
          · exact hL _ d1
          · exact hL _ d2
          · exact hL _ d3
        have hXe : (fun c => if c = 0 then L (l % n) else if c = 1 then L (l / n % n) else L (l / n / n)) = refPt n L l := rfl
        unfold interpPoint
        show ∃ s', (digits n l).bind _ = some s' ∧ _
        rw [digits_eq hn0 hfit hl', Option.bind_some]
        simp only []
        rw [hXe]
        set Y : ℕ → ℝ := fun c => if c = 0 then evalApprox tol (p + 1) Z (work (n ^ 3 * e + l) 0) vs'.vx.val (refPt n L l)
          else if c = 1 then evalApprox tol (p + 1) Z (work (n ^ 3 * e + l) 1) vs'.vy.val (refPt n L l)
          else evalApprox tol (p + 1) Z (work (n ^ 3 * e + l) 2) vs'.vz.val (refPt n L l) with hY
        refine ⟨⟨vs', n ^ 3 * e + l + 1, ⟨E * n ^ 3, store gv (n ^ 3 * e + l) Y⟩⟩, ?_, ⟨by simp only []; ring, rfl, f3, f4, f5, ?_⟩, rfl⟩
        · show ((⟨E * n ^ 3, gv⟩ : Arr (ℕ → ℝ)).set _ Y).bind _ = _
          rw [Arr.set_lt _ (by exact hin), Option.bind_some]
          rfl
        · intro g hg d hd
          simp only []
          by_cases hgl : g = n ^ 3 * e + l
          · subst hgl
            rw [store_same, hdiv, hmod, hY]
            interval_cases d
            · exact approx_eq hp hp9 hZ hX _ _ _ fun v hv => (r4 v hv).1
            · exact approx_eq hp hp9 hZ hX _ _ _ fun v hv => (r4 v hv).2.1
            · exact approx_eq hp hp9 hZ hX _ _ _ fun v hv => (r4 v hv).2.2
          · rw [store_ne _ _ hgl]
            exact f6 g (by omega) d hd)
    obtain ⟨s', h1, h2, -⟩ := inner
    refine ⟨s', ?_, by rw [Nat.mul_succ]; exact h2⟩
    show (getVerts ((p + 1) ^ 3) (nodes e) x vs).bind _ = _
    rw [hr, Option.bind_some]
    exact h1

end Verif.Swage.HighOrder
