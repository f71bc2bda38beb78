import Verif.DetJac.Boxes
import Mathlib.Analysis.SpecialFunctions.Trigonometric.Basic

/-!
# Lemmas on examples/vtk/plotting_jacobian_determinants.cpp
-/

namespace Verif.DetJac
open Verif.Swage.HighOrder (tol Verts pt refPt equi equi_run equi_inj tol_pos dig_lt)
open LagrangeElement LagrangeElement.Spec

/-! ### `compute_jacobian_determinants` -/

theorem equi_separated {p : ℕ} (hp : 1 ≤ p) (hfit : (p + 1) ^ 3 < 2 ^ 64) {Z : ℕ → ℝ} (hZ : ∀ i < p + 1, Z i = equi p i) :
    Separated tol (p + 1) Z := by
  refine ⟨by omega, tol_pos, lt_of_eq_of_lt (by ring) hfit, ?_⟩
  intro j hj k hk hjk
  rw [hZ j hj, hZ k hk]
  unfold equi
  have hp0 : (0 : ℝ) < p := by exact_mod_cast hp
  have e : (-1 + 2 * ((j : ℝ) / p) - (-1 + 2 * ((k : ℝ) / p))) = 2 / p * ((j : ℝ) - k) := by field_simp; ring
  rw [e, abs_mul, abs_of_pos (by positivity)]
  have h1 : (1 : ℝ) ≤ |(j : ℝ) - k| := by
    have : (1 : ℤ) ≤ |(j : ℤ) - k| := Int.one_le_abs (by omega)
    exact_mod_cast this
  have hps : p ≤ 2 ^ 22 := by
    by_contra h
    have : (2 ^ 22) ^ 3 ≤ (p + 1) ^ 3 := Nat.pow_le_pow_left (by omega) 3
    omega
  have h2 : (2 : ℝ) / 2 ^ 22 ≤ 2 / p := by
    apply div_le_div_of_nonneg_left (by norm_num) hp0
    exact_mod_cast hps
  have h3 : 2 * tol ≤ 2 / 2 ^ 22 := by unfold tol; norm_num
  nlinarith

theorem equi_resolved {p : ℕ} {Z : ℕ → ℝ} (hs : Separated tol (p + 1) Z) {i : ℕ} (hi : i < p + 1) : Resolved tol (p + 1) Z (Z i) := by
  intro j hj
  by_cases h : j = i
  · left; rw [h]
  · right
    have := hs.sep j hj i hi h
    have := hs.tol_pos
    linarith

/-- The map of element `e`: the interpolant of degree `p` of its vertices at the equally spaced points of the reference cube. -/
noncomputable def vertMap (m : Mesh) (e a : ℕ) : (ℕ → ℝ) → ℝ := interp (m.order + 1) (equi m.order) (fun v => m.pos e v a)

theorem compute_run (m : Mesh) (hp : 1 ≤ m.order) (hfit : (m.order + 1) ^ 3 < 2 ^ 64) (W : WellFormed m ((m.order + 1) ^ 3))
    (jdet : ℕ → ℝ) (q : Junk) :
    ∃ r, compute m jdet q = some r ∧ r.size = m.numElems * (m.order + 1) ^ 3 ∧
      ∀ e < m.numElems, ∀ i < m.order + 1, ∀ j < m.order + 1, ∀ k < m.order + 1,
        r.val (e * (m.order + 1) ^ 3 + (i + j * (m.order + 1) + k * (m.order + 1) * (m.order + 1))) =
          jacDet (vertMap m e) (pt (equi m.order i) (equi m.order j) (equi m.order k)) := by
  obtain ⟨Z, hZ1, hZ2⟩ := equi_run hp q.z
  set p := m.order with hpdef
  set N := p + 1 with hN
  set V := N ^ 3 with hV
  have hV3 : V = N * N * N := by rw [hV]; ring
  have hsep := equi_separated hp hfit hZ2
  set val : ℕ → ℕ → ℕ → ℕ → ℝ := fun e i j k => jacDet (vertMap m e) (pt (equi p i) (equi p j) (equi p k)) with hval
  obtain ⟨s, hs1, hs2⟩ := loopM_spec (n := m.numElems) (body := fun e (s : St) => do
      let vs ← copyVerts m V e s.verts
      loopM N (fun k => loopM N fun j => loopM N fun i => vertDet N V Z q.jac e k j i) ⟨vs, s.work, s.det⟩)
    (s := ⟨⟨⟨V, q.vx⟩, ⟨V, q.vy⟩, ⟨V, q.vz⟩⟩, q.work, ⟨m.numElems * V, jdet⟩⟩)
    (fun e (s : St) => s.verts.vx.size = V ∧ s.verts.vy.size = V ∧ s.verts.vz.size = V ∧ s.det.size = m.numElems * V ∧
      ∀ e' < e, ∀ i < N, ∀ j < N, ∀ k < N, s.det.val (e' * V + (i + j * N + k * N * N)) = val e' i j k)
    ⟨rfl, rfl, rfl, rfl, fun e he => absurd he (Nat.not_lt_zero _)⟩ (by
      rintro e ⟨vs, C, d⟩ he ⟨e1, e2, e3, e4, e5⟩
      simp only [] at e1 e2 e3 e4 e5
      obtain ⟨r, hr, r1, r2, r3, r4⟩ := verts_spec (V := V) W he (fun v => v) (fun v hv => hv) some (fun v _ => rfl) vs e1 e2 e3
      obtain ⟨s', t1, t2, t3, t4, t5⟩ := loopM3_spec (nk := N) (nj := N) (ni := N)
        (body := fun k j i => vertDet N V Z q.jac e k j i) (s := ⟨r, C, d⟩)
        (fun c (s : St) => s.verts = r ∧ s.det.size = m.numElems * V ∧
          (∀ e' < e, ∀ i < N, ∀ j < N, ∀ k < N, s.det.val (e' * V + (i + j * N + k * N * N)) = val e' i j k) ∧
          ∀ i < N, ∀ j < N, ∀ k < N, i + j * N + k * N * N < c → s.det.val (e * V + (i + j * N + k * N * N)) = val e i j k)
        ⟨rfl, e4, e5, fun i _ j _ k _ h => absurd h (Nat.not_lt_zero _)⟩ (by
          rintro k j i ⟨vs', C', ⟨dz, dv⟩⟩ hk hj hi ⟨f1, f2, f3, f4⟩
          simp only [] at f1 f2 f3 f4
          subst f1
          have hlt : i + j * N + k * N * N < V := by rw [hV3]; exact lex3_lt hi hj hk
          have hX : ∀ c < 3, Resolved tol N Z (pt (Z i) (Z j) (Z k) c) := by
            intro c hc
            unfold pt
            interval_cases c
            · exact equi_resolved hsep hi
            · exact equi_resolved hsep hj
            · exact equi_resolved hsep hk
          set R := evalDetJac tol N Z C' vs'.vx.val vs'.vy.val vs'.vz.val (pt (Z i) (Z j) (Z k)) (q.jac e (i + j * N + k * N * N)) with hR
          have hRv : R.1 = val e i j k := by
            rw [hR, detJac_eq hsep hX C' _ _ _ _ (fun a v => m.pos e v a)
              (fun v hv => (r4 v hv).1) (fun v hv => (r4 v hv).2.1) (fun v hv => (r4 v hv).2.2)]
            simp only [hval]
            rw [hZ2 i hi, hZ2 j hj, hZ2 k hk]
            exact jacDet_congr (fun a _ => interp_congr hZ2 fun v _ => rfl) _
          have hin : e * V + (i + j * N + k * N * N) < m.numElems * V := by
            calc e * V + (i + j * N + k * N * N) < e * V + V := by omega
              _ = (e + 1) * V := by ring
              _ ≤ _ := Nat.mul_le_mul_right _ he
          refine ⟨⟨vs', R.2, ⟨dz, store dv (e * V + (i + j * N + k * N * N)) R.1⟩⟩, ?_, rfl, f2, ?_, ?_⟩
          · unfold vertDet
            show ((⟨dz, dv⟩ : Arr ℝ).set (e * V + (i + j * N + k * N * N)) R.1).bind _ = _
            rw [Arr.set_lt _ (show e * V + (i + j * N + k * N * N) < dz by rw [f2]; exact hin), Option.bind_some]
            rfl
          · intro e' he' i' hi' j' hj' k' hk'
            simp only []
            have hlt' : i' + j' * N + k' * N * N < V := by rw [hV3]; exact lex3_lt hi' hj' hk'
            have : e' * V + V ≤ e * V := by
              calc e' * V + V = (e' + 1) * V := by ring
                _ ≤ _ := Nat.mul_le_mul_right _ he'
            rw [store_ne _ _ (by omega)]
            exact f3 e' he' i' hi' j' hj' k' hk'
          · intro i' hi' j' hj' k' hk' hc
            simp only []
            by_cases heq : i' + j' * N + k' * N * N = i + j * N + k * N * N
            · obtain ⟨rfl, rfl, rfl⟩ := lex3_inj hi' hj' hi hj heq
              rw [store_same, hRv]
            · rw [store_ne _ _ (by omega)]
              exact f4 i' hi' j' hj' k' hk' (by omega))
      refine ⟨s', ?_, ?_, ?_, ?_, t3, ?_⟩
      · show (copyVerts m V e vs).bind _ = _
        rw [show copyVerts m V e vs = some r from hr, Option.bind_some]
        exact t1
      · rw [t2]; exact r1
      · rw [t2]; exact r2
      · rw [t2]; exact r3
      · intro e' he' i hi j hj k hk
        rcases Nat.lt_succ_iff_lt_or_eq.1 he' with h | h
        · exact t4 e' h i hi j hj k hk
        · subst h; exact t5 i hi j hj k hk (lex3_lt hi hj hk))
  obtain ⟨-, -, -, h4, h5⟩ := hs2
  refine ⟨s.det, ?_, h4, ?_⟩
  · unfold compute
    show (Points.equispacedPoints N (-1) 1 q.z).bind _ = _
    rw [hZ1, Option.bind_some]
    show (loopM m.numElems _ _).bind _ = _
    rw [hs1]
    rfl
  · exact h5

/-! ### `create_annular_mesh` -/

/-- State after `c` vertices of the first element. -/
def AnnI (N S : ℕ) (T : ℕ) (c : ℕ) (s : Ann) : Prop :=
  s.cnt = c ∧ s.coords.size = T ∧ s.nodes.size = 2 * S ∧
    ∀ i < N, ∀ j < N, ∀ k < N, i + j * N + k * N * N < c →
      s.coords.val (i + j * N + k * N * N) = annPoint N 0 (1 / 2 * Real.pi) i j k ∧
      s.nodes.val (i + j * N + k * N * N) = i + j * N + k * N * N ∧
      (i = N - 1 → s.nodes.val (S + (j * N + k * N * N)) = i + j * N + k * N * N)

theorem annFirst_spec {N S T : ℕ} (hN : 2 ≤ N) (hS : N * N * N ≤ S) (hT : N * N * N ≤ T) (jc : ℕ → ℕ → ℝ) (jn : ℕ → ℕ) :
    ∃ s, loopM N (fun k => loopM N fun j => loopM N fun i => annFirst N S k j i) ⟨0, ⟨T, jc⟩, ⟨2 * S, jn⟩⟩ = some s ∧
      AnnI N S T (N * N * N) s := by
  apply loopM3_spec (nk := N) (nj := N) (ni := N) (body := fun k j i => annFirst N S k j i) (AnnI N S T)
  · exact ⟨rfl, rfl, rfl, fun i _ j _ k _ h => absurd h (Nat.not_lt_zero _)⟩
  · rintro k j i ⟨c, ⟨cz, cv⟩, ⟨nz, nv⟩⟩ hk hj hi ⟨e1, e2, e3, e4⟩
    simp only [] at e1 e2 e3 e4
    subst e1 e2 e3
    have hlt := lex3_lt (n := N) (m := N) (l := N) hi hj hk
    set ii := i + j * N + k * N * N with hii
    have hsub : ii - i = j * N + k * N * N := by omega
    set nv1 := store nv (0 * S + ii) ii with hnv1
    set nv2 := (if i = N - 1 then store nv1 (1 * S + (ii - i)) ii else nv1) with hnv2
    refine ⟨⟨ii + 1, ⟨cz, store cv ii (annPoint N 0 (1 / 2 * Real.pi) i j k)⟩, ⟨2 * S, nv2⟩⟩, ?_, rfl, rfl, rfl, ?_⟩
    · unfold annFirst
      show ((⟨cz, cv⟩ : Arr (ℕ → ℝ)).set ii _).bind _ = _
      rw [Arr.set_lt _ (by show ii < cz; omega), Option.bind_some]
      show ((⟨2 * S, nv⟩ : Arr ℕ).set (0 * S + ii) ii).bind _ = _
      rw [Arr.set_lt _ (by show 0 * S + ii < 2 * S; omega), Option.bind_some]
      show (annShare N S i ii ii ⟨2 * S, nv1⟩).bind _ = _
      have hsh : annShare N S i ii ii ⟨2 * S, nv1⟩ = some ⟨2 * S, nv2⟩ := by
        unfold annShare
        by_cases hl : i = N - 1
        · rw [if_pos hl, Arr.set_lt _ (by show 1 * S + (ii - i) < 2 * S; omega), hnv2, if_pos hl]
        · rw [if_neg hl, hnv2, if_neg hl]
      rw [hsh, Option.bind_some]
      rfl
    · intro i' hi' j' hj' k' hk' hc
      simp only []
      have hlt' := lex3_lt (n := N) (m := N) (l := N) hi' hj' hk'
      by_cases heq : i' + j' * N + k' * N * N = ii
      · obtain ⟨rfl, rfl, rfl⟩ := lex3_inj hi' hj' hi hj (heq.trans hii)
        rw [store_same]
        refine ⟨rfl, ?_, ?_⟩
        · rw [hnv2]
          split
          · rw [store_ne _ _ (by omega), hnv1, Nat.zero_mul, Nat.zero_add, store_same]
          · rw [hnv1, Nat.zero_mul, Nat.zero_add, store_same]
        · intro hl
          rw [hnv2, if_pos hl, Nat.one_mul, hsub, store_same]
      · obtain ⟨g1, g2, g3⟩ := e4 i' hi' j' hj' k' hk' (by omega)
        rw [store_ne _ _ heq]
        refine ⟨g1, ?_, ?_⟩
        · rw [hnv2]
          split
          · rw [store_ne _ _ (by omega), hnv1, store_ne _ _ (by omega)]; exact g2
          · rw [hnv1, store_ne _ _ (by omega)]; exact g2
        · intro hl
          rw [hnv2]
          split
          · next hl2 =>
            rw [store_ne _ _ (by omega), hnv1, store_ne _ _ (by omega)]; exact g3 hl
          · rw [hnv1, store_ne _ _ (by omega)]; exact g3 hl

/-- State after `c` vertices of the second element. -/
def AnnJ (N S : ℕ) (T : ℕ) (c : ℕ) (s : Ann) : Prop :=
  s.cnt = N * N * N + c ∧ s.coords.size = T ∧ s.nodes.size = 2 * S ∧
    (∀ i < N, ∀ j < N, ∀ k < N,
      s.coords.val (i + j * N + k * N * N) = annPoint N 0 (1 / 2 * Real.pi) i j k ∧
      s.nodes.val (i + j * N + k * N * N) = i + j * N + k * N * N ∧
      (i = N - 1 → s.nodes.val (S + (j * N + k * N * N)) = i + j * N + k * N * N)) ∧
    ∀ i < N - 1, ∀ j < N, ∀ k < N, i + j * (N - 1) + k * (N - 1) * N < c →
      s.coords.val (N * N * N + (i + j * (N - 1) + k * (N - 1) * N)) = annPoint N (1 / 2 * Real.pi) Real.pi (i + 1) j k ∧
      s.nodes.val (S + (i + 1 + j * N + k * N * N)) = N * N * N + (i + j * (N - 1) + k * (N - 1) * N)

theorem annSecond_spec {N S T : ℕ} (hN : 2 ≤ N) (hS : N * N * N ≤ S) (hT : N * N * N + (N - 1) * N * N ≤ T) {s : Ann}
    (hs : AnnI N S T (N * N * N) s) :
    ∃ s', loopM N (fun k => loopM N fun j => loopM (N - 1) fun i => annSecond N S k j i) s = some s' ∧
      AnnJ N S T ((N - 1) * N * N) s' := by
  apply loopM3_spec (nk := N) (nj := N) (ni := N - 1) (body := fun k j i => annSecond N S k j i) (AnnJ N S T)
  · obtain ⟨h1, h2, h3, h4⟩ := hs
    exact ⟨by rw [h1]; rfl, h2, h3, fun i hi j hj k hk => h4 i hi j hj k hk (lex3_lt hi hj hk), fun i _ j _ k _ h => absurd h (Nat.not_lt_zero _)⟩
  · rintro k j i ⟨c, ⟨cz, cv⟩, ⟨nz, nv⟩⟩ hk hj hi ⟨e1, e2, e3, e4, e5⟩
    simp only [] at e1 e2 e3 e4 e5
    subst e1 e2 e3
    have hlt := lex3_lt (n := N - 1) (m := N) (l := N) hi hj hk
    have hlt2 := lex3_lt (n := N) (m := N) (l := N) (show i + 1 < N by omega) hj hk
    set t := i + j * (N - 1) + k * (N - 1) * N with ht
    set ii := i + 1 + j * N + k * N * N with hii
    refine ⟨⟨N * N * N + t + 1, ⟨cz, store cv (N * N * N + t) (annPoint N (1 / 2 * Real.pi) Real.pi (i + 1) j k)⟩,
      ⟨2 * S, store nv (1 * S + ii) (N * N * N + t)⟩⟩, ?_, rfl, rfl, rfl, ?_, ?_⟩
    · unfold annSecond
      show ((⟨cz, cv⟩ : Arr (ℕ → ℝ)).set (N * N * N + t) _).bind _ = _
      rw [Arr.set_lt _ (by show N * N * N + t < cz; omega), Option.bind_some]
      show ((⟨2 * S, nv⟩ : Arr ℕ).set (1 * S + ii) (N * N * N + t)).bind _ = _
      rw [Arr.set_lt _ (by show 1 * S + ii < 2 * S; omega), Option.bind_some]
      rfl
    · intro i' hi' j' hj' k' hk'
      simp only []
      have hlt' := lex3_lt (n := N) (m := N) (l := N) hi' hj' hk'
      obtain ⟨g1, g2, g3⟩ := e4 i' hi' j' hj' k' hk'
      rw [store_ne _ _ (by omega), store_ne _ _ (by omega)]
      refine ⟨g1, g2, fun hl => ?_⟩
      rw [store_ne _ _ ?_]
      · exact g3 hl
      · intro h
        have : 0 + j' * N + k' * N * N = i + 1 + j * N + k * N * N := by omega
        have := (lex3_inj (show 0 < N by omega) hj' (show i + 1 < N by omega) hj this).1
        omega
    · intro i' hi' j' hj' k' hk' hc
      simp only []
      by_cases heq : i' + j' * (N - 1) + k' * (N - 1) * N = t
      · obtain ⟨rfl, rfl, rfl⟩ := lex3_inj hi' hj' hi hj (heq.trans ht)
        rw [Nat.one_mul, store_same, store_same]
        exact ⟨rfl, rfl⟩
      · obtain ⟨g1, g2⟩ := e5 i' hi' j' hj' k' hk' (by omega)
        rw [store_ne _ _ (by omega), store_ne _ _ ?_]
        · exact ⟨g1, g2⟩
        · intro h
          have : i' + 1 + j' * N + k' * N * N = i + 1 + j * N + k * N * N := by omega
          obtain ⟨a, b, c⟩ := lex3_inj (show i' + 1 < N by omega) hj' (show i + 1 < N by omega) hj this
          apply heq
          rw [ht, b, c]
          omega

end Verif.DetJac
