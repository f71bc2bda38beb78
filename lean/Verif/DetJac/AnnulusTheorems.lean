import Verif.DetJac.Annulus
import Mathlib.Analysis.SpecialFunctions.Trigonometric.Deriv

/-!
# C71: the example examples/vtk/plotting_jacobian_determinants.cpp
-/

namespace Verif.DetJac
open Verif.Swage.HighOrder (tol Verts pt equi equi_inj ell_equi)
open LagrangeElement LagrangeElement.Spec Finset
open Swage.Refine (initElement)

/-! ### Specification -/

/-- The point at angle `θ` (from the negative first axis), distance `r` from the third axis and height `h`. -/
noncomputable def cylinder (θ r h : ℝ) : ℕ → ℝ := pt (-r * Real.cos θ) (r * Real.sin θ) h

/-- The half annulus: angle from 0 to `π`, radius from 1/2 to 5/2, height from -1 to 1.  Vertex `(i, j, k)` of element `e` of the
two elements of order `p` that divide it. -/
noncomputable def halfAnnulus (p e i j k : ℕ) : ℕ → ℝ :=
  cylinder ((e + (i : ℝ) / p) * (Real.pi / 2)) (1 / 2 + 2 * ((j : ℝ) / p)) (-1 + 2 * ((k : ℝ) / p))

/-! ### The mesh -/

/-- Number of the node at angular position `t` (of `2 p`), radial position `j` and height `k`. -/
def annNode (p t j k : ℕ) : ℕ :=
  if t ≤ p then t + j * (p + 1) + k * (p + 1) * (p + 1)
  else (p + 1) * (p + 1) * (p + 1) + (t - (p + 1) + j * p + k * p * (p + 1))

theorem annNode_inj {p t j k t' j' k' : ℕ} (ht : t ≤ 2 * p) (hj : j ≤ p) (hk : k ≤ p) (ht' : t' ≤ 2 * p) (hj' : j' ≤ p) (hk' : k' ≤ p)
    (h : annNode p t j k = annNode p t' j' k') : t = t' ∧ j = j' ∧ k = k' := by
  unfold annNode at h
  by_cases h1 : t ≤ p <;> by_cases h2 : t' ≤ p
  · rw [if_pos h1, if_pos h2] at h
    exact lex3_inj (show t < p + 1 by omega) (show j < p + 1 by omega) (show t' < p + 1 by omega) (show j' < p + 1 by omega) h
  · rw [if_pos h1, if_neg h2] at h
    have := lex3_lt (n := p + 1) (m := p + 1) (l := p + 1) (show t < p + 1 by omega) (show j < p + 1 by omega) (show k < p + 1 by omega)
    omega
  · rw [if_neg h1, if_pos h2] at h
    have := lex3_lt (n := p + 1) (m := p + 1) (l := p + 1) (show t' < p + 1 by omega) (show j' < p + 1 by omega) (show k' < p + 1 by omega)
    omega
  · rw [if_neg h1, if_neg h2] at h
    obtain ⟨a, b, c⟩ := lex3_inj (n := p) (m := p + 1) (show t - (p + 1) < p by omega) (show j < p + 1 by omega)
      (show t' - (p + 1) < p by omega) (show j' < p + 1 by omega) (Nat.add_left_cancel h)
    exact ⟨by omega, b, c⟩

theorem annPoint_eq {p : ℕ} (hp : 1 ≤ p) (e i j k : ℕ) (he : e < 2) (d : ℕ) :
    annPoint (p + 1) (if e = 0 then 0 else 1 / 2 * Real.pi) (if e = 0 then 1 / 2 * Real.pi else Real.pi) i j k d =
      halfAnnulus p e i j k d := by
  have hp0 : (p : ℝ) ≠ 0 := by exact_mod_cast (by omega : p ≠ 0)
  have hN : ((p + 1 : ℕ) : ℝ) - 1 = p := by push_cast; ring
  have hth : (if e = 0 then 0 else 1 / 2 * Real.pi) + (i : ℝ) * ((if e = 0 then 1 / 2 * Real.pi else Real.pi) -
      (if e = 0 then 0 else 1 / 2 * Real.pi)) / p = (e + (i : ℝ) / p) * (Real.pi / 2) := by
    interval_cases e
    · rw [if_pos rfl, if_pos rfl]; push_cast; field_simp; ring
    · rw [if_neg one_ne_zero, if_neg one_ne_zero]; push_cast; field_simp; ring
  have hr : (1 / 2 : ℝ) + j * (5 / 2 - 1 / 2) / p = 1 / 2 + 2 * ((j : ℝ) / p) := by ring
  have hz : (-1 : ℝ) + 2 * k / p = -1 + 2 * ((k : ℝ) / p) := by ring
  unfold annPoint halfAnnulus cylinder pt
  rw [hN]
  simp only [hth, hr, hz]

/-- What `create_annular_mesh` builds. -/
theorem annular_run (p : ℕ) (hp : 1 ≤ p) (jc : ℕ → ℕ → ℝ) (jn : ℕ → ℕ) :
    ∃ m, annular p jc jn = some m ∧ m.order = p ∧ m.numElems = 2 ∧ m.coords.size = 2 * (p + 1) ^ 3 - (p + 1) ^ 2 ∧
      WellFormed m ((p + 1) ^ 3) ∧
      ∀ e < 2, ∀ i < p + 1, ∀ j < p + 1, ∀ k < p + 1,
        m.node e (i + j * (p + 1) + k * (p + 1) * (p + 1)) = annNode p (p * e + i) j k ∧
        ∀ d < 3, m.pos e (i + j * (p + 1) + k * (p + 1) * (p + 1)) d = halfAnnulus p e i j k d := by
  set N := p + 1 with hN
  have hN1 : N - 1 = p := by omega
  set S := (initElement p 3 2).gPts with hS
  have hSv : S = (2 * p + 1) ^ 3 := by
    rw [hS, Swage.Refine.gPts_eq]
    unfold Swage.Refine.pts1d
    rw [if_neg (by omega)]
  have hNS : N ^ 3 ≤ S := by rw [hSv]; exact Nat.pow_le_pow_left (by omega) 3
  have h3 : N ^ 3 = N * N * N := by ring
  have hT : N * N * N + (N - 1) * N * N = N ^ 3 * 2 - N * N := by
    have : (N - 1) * N * N + N * N = N * N * N := by
      rw [hN1, hN]; ring
    omega
  obtain ⟨s1, h1, i1⟩ := annFirst_spec (N := N) (S := S) (T := N ^ 3 * 2 - N * N) (by omega) (by omega) (by omega) jc jn
  obtain ⟨s2, h2, i2⟩ := annSecond_spec (N := N) (S := S) (T := N ^ 3 * 2 - N * N) (by omega) (by omega) (by omega) i1
  obtain ⟨e1, e2, e3, e4, e5⟩ := i2
  have key : ∀ e < 2, ∀ i < N, ∀ j < N, ∀ k < N,
      s2.nodes.val (e * S + (i + j * N + k * N * N)) = annNode p (p * e + i) j k ∧ annNode p (p * e + i) j k < N ^ 3 * 2 - N * N ∧
      ∀ d < 3, s2.coords.val (annNode p (p * e + i) j k) d = halfAnnulus p e i j k d := by
    intro e he i hi j hj k hk
    have hlt := lex3_lt (n := N) (m := N) (l := N) hi hj hk
    interval_cases e
    · obtain ⟨a, b, -⟩ := e4 i hi j hj k hk
      have hn : annNode p (p * 0 + i) j k = i + j * N + k * N * N := by
        unfold annNode
        rw [if_pos (by omega), Nat.mul_zero, Nat.zero_add]
      rw [hn]
      refine ⟨by rw [Nat.zero_mul, Nat.zero_add]; exact b, by omega, fun d hd => ?_⟩
      rw [a]
      exact annPoint_eq hp 0 i j k (by omega) d
    · by_cases h0 : i = 0
      · subst h0
        obtain ⟨a, -, b⟩ := e4 p (by omega) j hj k hk
        have hlt2 := lex3_lt (n := N) (m := N) (l := N) (show p < N by omega) hj hk
        have hn : annNode p (p * 1 + 0) j k = p + j * N + k * N * N := by
          unfold annNode
          rw [if_pos (by omega), Nat.mul_one, Nat.add_zero]
        rw [hn]
        refine ⟨?_, by omega, fun d hd => ?_⟩
        · rw [show 1 * S + (0 + j * N + k * N * N) = S + (j * N + k * N * N) by omega]
          exact b (by omega)
        · rw [a]
          have := annPoint_eq hp 0 p j k (by omega) d
          simp only [if_true] at this
          rw [this]
          have hp0 : (p : ℝ) ≠ 0 := by exact_mod_cast (by omega : p ≠ 0)
          unfold halfAnnulus
          rw [div_self hp0]
          congr 2
          push_cast; ring
      · obtain ⟨i, rfl⟩ : ∃ i', i = i' + 1 := ⟨i - 1, by omega⟩
        have hlt2 := lex3_lt (n := N - 1) (m := N) (l := N) (show i < N - 1 by omega) hj hk
        obtain ⟨a, b⟩ := e5 i (by omega) j hj k hk hlt2
        have hn : annNode p (p * 1 + (i + 1)) j k = N * N * N + (i + j * (N - 1) + k * (N - 1) * N) := by
          unfold annNode
          rw [if_neg (by omega), hN1, show p * 1 + (i + 1) - (p + 1) = i by omega]
        rw [hn]
        refine ⟨?_, by omega, fun d hd => ?_⟩
        · rw [Nat.one_mul]; exact b
        · rw [a]
          have := annPoint_eq hp 1 (i + 1) j k (by omega) d
          simpa only [one_ne_zero, if_false] using this
  refine ⟨⟨p, 2, S, s2.nodes, s2.coords⟩, ?_, rfl, rfl, ?_, ⟨e3, hNS, ?_⟩, ?_⟩
  · unfold annular
    show (loopM N _ _).bind _ = _
    rw [h1, Option.bind_some]
    show (loopM N _ _).bind _ = _
    rw [h2]
    rfl
  · simp only []
    rw [e2, show N * N = N ^ 2 by ring]; omega
  · intro e he l hl
    rw [h3] at hl
    obtain ⟨a1, a2, a3, a4⟩ := lex3_surj hl
    obtain ⟨k1, k2, -⟩ := key e he _ a1 _ a2 _ a3
    rw [a4] at k1
    show s2.nodes.val (e * S + l) < s2.coords.size
    rw [k1, e2]; exact k2
  · intro e he i hi j hj k hk
    obtain ⟨k1, k2, k3⟩ := key e he i hi j hj k hk
    refine ⟨k1, fun d hd => ?_⟩
    show s2.coords.val (s2.nodes.val (e * S + (i + j * N + k * N * N))) d = _
    rw [k1]; exact k3 d hd

theorem halfAnnulus_inj {p : ℕ} (hp : 1 ≤ p) {e i j k e' i' j' k' : ℕ} (he : e < 2) (he' : e' < 2) (hi : i < p + 1) (hi' : i' < p + 1)
    (h : ∀ d < 3, halfAnnulus p e i j k d = halfAnnulus p e' i' j' k' d) : p * e + i = p * e' + i' ∧ j = j' ∧ k = k' := by
  have hp0 : (0 : ℝ) < p := by exact_mod_cast hp
  have h0 := h 0 (by omega)
  have h1 := h 1 (by omega)
  have h2 := h 2 (by omega)
  unfold halfAnnulus cylinder pt at h0 h1 h2
  simp only [if_true, one_ne_zero, if_false, OfNat.ofNat_ne_zero, OfNat.ofNat_ne_one] at h0 h1 h2
  have hang : ∀ e i : ℕ, e < 2 → i < p + 1 → 0 ≤ (e + (i : ℝ) / p) * (Real.pi / 2) ∧ (e + (i : ℝ) / p) * (Real.pi / 2) ≤ Real.pi := by
    intro e i he hi
    have hpi := Real.pi_pos
    have : (e : ℝ) ≤ 1 := by exact_mod_cast (by omega : e ≤ 1)
    have h3 : (i : ℝ) / p ≤ 1 := by rw [div_le_one hp0]; exact_mod_cast (by omega : i ≤ p)
    have h4 : 0 ≤ (i : ℝ) / p := by positivity
    constructor
    · positivity
    · nlinarith
  have hr1 : 0 < 1 / 2 + 2 * ((j : ℝ) / p) := by positivity
  have hr2 : 0 < 1 / 2 + 2 * ((j' : ℝ) / p) := by positivity
  set r1 := 1 / 2 + 2 * ((j : ℝ) / p) with hr1d
  set r2 := 1 / 2 + 2 * ((j' : ℝ) / p) with hr2d
  set t1 := (e + (i : ℝ) / p) * (Real.pi / 2) with ht1
  set t2 := (e' + (i' : ℝ) / p) * (Real.pi / 2) with ht2
  have hsq : r1 ^ 2 = r2 ^ 2 := by
    calc r1 ^ 2 = (-r1 * Real.cos t1) ^ 2 + (r1 * Real.sin t1) ^ 2 := by
          have := Real.sin_sq_add_cos_sq t1
          linear_combination -(r1 ^ 2) * this
      _ = (-r2 * Real.cos t2) ^ 2 + (r2 * Real.sin t2) ^ 2 := by rw [h0, h1]
      _ = r2 ^ 2 := by
          have := Real.sin_sq_add_cos_sq t2
          linear_combination r2 ^ 2 * this
  have hr : r1 = r2 := by
    rcases sq_eq_sq_iff_eq_or_eq_neg.1 hsq with h | h
    · exact h
    · linarith
  have hc : Real.cos t1 = Real.cos t2 := by
    rw [hr] at h0
    exact mul_left_cancel₀ (neg_ne_zero.2 hr2.ne') h0
  have ht := Real.injOn_cos ⟨(hang e i he hi).1, (hang e i he hi).2⟩ ⟨(hang e' i' he' hi').1, (hang e' i' he' hi').2⟩ hc
  refine ⟨?_, ?_, ?_⟩
  · have hpi := Real.pi_pos
    have h5 : (e + (i : ℝ) / p) = e' + (i' : ℝ) / p := mul_right_cancel₀ (show Real.pi / 2 ≠ 0 by positivity) ht
    have h6 : (p : ℝ) * e + i = p * e' + i' := by field_simp at h5; linarith
    exact_mod_cast h6
  · have h5 : (j : ℝ) / p = j' / p := by rw [hr1d, hr2d] at hr; linarith
    have h6 : (j : ℝ) = j' := by field_simp at h5; linarith
    exact_mod_cast h6
  · have h5 : (k : ℝ) / p = k' / p := by linarith
    have h6 : (k : ℝ) = k' := by field_simp at h5; linarith
    exact_mod_cast h6

/-- **C71, the mesh.**  For every order `p ≥ 1` the half-annulus mesh is created without an access outside an array: two elements, every
vertex at its place, and two vertices (of one or of two elements) are the same node exactly when they are at the same place. -/
theorem C71_mesh (p : ℕ) (hp : 1 ≤ p) (jc : ℕ → ℕ → ℝ) (jn : ℕ → ℕ) :
    ∃ m, annular p jc jn = some m ∧ m.order = p ∧ m.numElems = 2 ∧ m.coords.size = 2 * (p + 1) ^ 3 - (p + 1) ^ 2 ∧
      WellFormed m ((p + 1) ^ 3) ∧
      (∀ e < 2, ∀ i < p + 1, ∀ j < p + 1, ∀ k < p + 1, ∀ d < 3,
        m.pos e (i + j * (p + 1) + k * (p + 1) * (p + 1)) d = halfAnnulus p e i j k d) ∧
      (∀ e < 2, ∀ v < (p + 1) ^ 3, ∀ e' < 2, ∀ v' < (p + 1) ^ 3,
        m.node e v = m.node e' v' ↔ ∀ d < 3, m.pos e v d = m.pos e' v' d) ∧
      ∀ n < m.coords.size, ∃ e < 2, ∃ v < (p + 1) ^ 3, m.node e v = n := by
  obtain ⟨m, h1, h2, h3, h4, h5, h6⟩ := annular_run p hp jc jn
  have hcube : (p + 1) ^ 3 = (p + 1) * (p + 1) * (p + 1) := by ring
  refine ⟨m, h1, h2, h3, h4, h5, fun e he i hi j hj k hk => (h6 e he i hi j hj k hk).2, ?_, ?_⟩
  · intro e he v hv e' he' v' hv'
    rw [hcube] at hv hv'
    obtain ⟨a1, a2, a3, a4⟩ := lex3_surj hv
    obtain ⟨b1, b2, b3, b4⟩ := lex3_surj hv'
    obtain ⟨c1, c2⟩ := h6 e he _ a1 _ a2 _ a3
    obtain ⟨d1, d2⟩ := h6 e' he' _ b1 _ b2 _ b3
    rw [a4] at c1 c2
    rw [b4] at d1 d2
    constructor
    · intro h d _
      unfold Mesh.pos; rw [h]
    · intro h
      obtain ⟨x, y, z⟩ := halfAnnulus_inj hp he he' a1 b1 (fun d hd => by rw [← c2 d hd, ← d2 d hd]; exact h d hd)
      rw [c1, d1, x, y, z]
  · intro n hn
    rw [h4] at hn
    by_cases hl : n < (p + 1) * (p + 1) * (p + 1)
    · obtain ⟨a1, a2, a3, a4⟩ := lex3_surj hl
      refine ⟨0, by omega, n, by rw [hcube]; exact hl, ?_⟩
      have := (h6 0 (by omega) _ a1 _ a2 _ a3).1
      rw [a4] at this
      rw [this]
      unfold annNode
      rw [if_pos (by omega)]
      omega
    · have hcnt : n - (p + 1) * (p + 1) * (p + 1) < p * (p + 1) * (p + 1) := by
        have : (p + 1) * (p + 1) * (p + 1) = p * (p + 1) * (p + 1) + (p + 1) ^ 2 := by ring
        omega
      set u := n - (p + 1) * (p + 1) * (p + 1) with hu
      obtain ⟨i, j, k, hi, hj, hk, hijk⟩ : ∃ i j k, i < p ∧ j < p + 1 ∧ k < p + 1 ∧ i + j * p + k * p * (p + 1) = u := by
        refine ⟨u % p, u / p % (p + 1), u / p / (p + 1), Nat.mod_lt _ (by omega), Nat.mod_lt _ (by omega), ?_, ?_⟩
        · rw [Nat.div_div_eq_div_mul]
          exact Nat.div_lt_of_lt_mul (by rw [show p * (p + 1) * (p + 1) = p * (p + 1) * (p + 1) from rfl] at hcnt; exact hcnt)
        · have q1 := Nat.mod_add_div u p
          have q2 := Nat.mod_add_div (u / p) (p + 1)
          calc u % p + u / p % (p + 1) * p + u / p / (p + 1) * p * (p + 1)
              = u % p + p * (u / p % (p + 1) + (p + 1) * (u / p / (p + 1))) := by ring
            _ = u := by rw [q2, q1]
      refine ⟨1, by omega, i + 1 + j * (p + 1) + k * (p + 1) * (p + 1), ?_, ?_⟩
      · rw [hcube]; exact lex3_lt (by omega) hj hk
      · rw [(h6 1 (by omega) (i + 1) (by omega) j hj k hk).1]
        unfold annNode
        rw [if_neg (by omega), show p * 1 + (i + 1) - (p + 1) = i by omega, hijk]
        omega

/-- Non-vacuity of `C71_mesh`: order 2, 45 nodes. -/
example (jc : ℕ → ℕ → ℝ) (jn : ℕ → ℕ) : ∃ m, annular 2 jc jn = some m ∧ m.coords.size = 45 ∧ m.node 1 0 = 2 ∧ m.node 0 2 = 2 := by
  obtain ⟨m, h1, -, -, h4, -, h6⟩ := annular_run 2 (by omega) jc jn
  refine ⟨m, h1, h4, ?_, ?_⟩
  · have := (h6 1 (by omega) 0 (by omega) 0 (by omega) 0 (by omega)).1
    simpa [annNode] using this
  · have := (h6 0 (by omega) 2 (by omega) 0 (by omega) 0 (by omega)).1
    simpa [annNode] using this

end Verif.DetJac
