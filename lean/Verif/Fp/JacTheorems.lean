import Verif.Fp.JacLemmas

/-!
# C97: Jacobians, determinants and inverses in rounded arithmetic
-/

namespace Verif.Fp.Geom
open Verif.Geometry Verif.RefElem Expr Finset

variable {R : Rounding}

/-- The mesh and the tables fit together: `N` vertices per element, whose nodes exist, `M` points per element with different global
numbers `gid e l` below `size`, which is what the routine looks up (`gid'`), and a row of the gradient table for each. -/
structure JacMesh (m : Mesh) (N : ℕ) (vm : ℕ → ℕ) (grad : Arr (ℕ → ℕ → ℝ)) (M size : ℕ) (gid : ℕ → ℕ → ℕ)
    (gid' : ℕ → ℕ → Option ℕ) : Prop where
  look : ∀ e < m.elems, ∀ l < M, gid' e l = some (gid e l)
  lt : ∀ e < m.elems, ∀ l < M, gid e l < size
  inj : ∀ e l e' l', e < m.elems → l < M → e' < m.elems → l' < M → gid e l = gid e' l' → e = e' ∧ l = l'
  verts : ∀ e < m.elems, ∀ v < N, e * m.gaussInElem + vm v < m.nodesInElem.size
  nodes : ∀ e < m.elems, ∀ v < N, m.nodesInElem.val (e * m.gaussInElem + vm v) < m.coords.size
  table : M ≤ grad.size

/-- Exact Jacobian matrix: sum of the reference gradients times the vertex positions. -/
noncomputable def exactJ (m : Mesh) (N : ℕ) (vm : ℕ → ℕ) (grad : Arr (ℕ → ℕ → ℝ)) (e l i j : ℕ) : ℝ :=
  ∑ v ∈ range N, grad.val l v j * m.coords.val (m.nodesInElem.val (e * m.gaussInElem + vm v)) i

/-- The same sum with all terms replaced by their moduli. -/
noncomputable def absJ (m : Mesh) (N : ℕ) (vm : ℕ → ℕ) (grad : Arr (ℕ → ℕ → ℝ)) (e l i j : ℕ) : ℝ :=
  ∑ v ∈ range N, |grad.val l v j| * |m.coords.val (m.nodesInElem.val (e * m.gaussInElem + vm v)) i|

variable {m : Mesh} {N : ℕ} {vm : ℕ → ℕ} {grad : Arr (ℕ → ℕ → ℝ)} {M size : ℕ} {gid : ℕ → ℕ → ℕ} {gid' : ℕ → ℕ → Option ℕ}

theorem run (h : JacMesh m N vm grad M size gid gid') (s : Jac) (hs : s.Sized size) :
    ∃ s', jacobian R m N vm grad M gid' s = some s' ∧ s'.Sized size ∧
      ∀ e < m.elems, ∀ l < M,
        PointFl R (fun i j => flDot R N (fun v => grad.val l v j) (fun v => vertPt m vm e v i)) s' (gid e l) :=
  jacobian_spec m N vm grad M size gid gid' h.look h.lt h.inj h.verts h.nodes h.table s hs

theorem entry_err (hu : R.u < 1) {s : Jac} {e l : ℕ}
    (h : PointFl R (fun i j => flDot R N (fun v => grad.val l v j) (fun v => vertPt m vm e v i)) s (gid e l)) {i j : ℕ} (hi : i < 3)
    (hj : j < 3) : |s.jac.val (gid e l) i j - exactJ m N vm grad e l i j| ≤
      (((1 - R.u) ^ (N + 1))⁻¹ - 1) * absJ m N vm grad e l i j := by
  rw [h.entries i hi j hj]
  exact flDot_err hu N _ _

/-- **C97 (matrices).**  After a Jacobian routine in rounded arithmetic, on any mesh and with any table of reference gradients, each entry of the
matrix of each point differs from the exact sum over the `N` vertices by at most `(N+1) u / (1 - (N+1) u)` times the sum of the moduli of its
terms. -/
theorem C97_entries (hu : (N + 1) * R.u < 1) (h : JacMesh m N vm grad M size gid gid') (s : Jac) (hs : s.Sized size) :
    ∃ s', jacobian R m N vm grad M gid' s = some s' ∧ ∀ e < m.elems, ∀ l < M, ∃ J, s'.jac.get (gid e l) = some J ∧
      ∀ i < 3, ∀ j < 3, |J i j - exactJ m N vm grad e l i j| ≤
        (N + 1) * R.u / (1 - (N + 1) * R.u) * absJ m N vm grad e l i j := by
  have hu1 : R.u < 1 := by
    have := R.u_nonneg
    have : (0 : ℝ) ≤ N * R.u := by positivity
    nlinarith
  obtain ⟨s', e1, e2, e3⟩ := run (R := R) h s hs
  refine ⟨s', e1, fun e he l hl => ⟨_, Arr.get_lt (by rw [e2.1]; exact h.lt e he l hl), ?_⟩⟩
  intro i hi j hj
  refine (entry_err hu1 (e3 e he l hl) hi hj).trans (mul_le_mul_of_nonneg_right ?_ ?_)
  · have := factor_le hu1 (k := N + 1) (by push_cast; exact hu)
    push_cast at this
    exact this
  · exact sum_nonneg fun v _ => by positivity

/-- **C97 (determinants).**  Let the exact Jacobian matrix of a point have entries of modulus at most `K i` in row `i` (the physical
direction `i`) and let `E i` bound the errors of the entries of that row (C97, matrices: `γ T i`, where `T i` bounds the sums of moduli).  Then the
stored determinant differs from the determinant of the exact matrix by at most
`6 ((1 + γ₅) (K 0 + E 0) (K 1 + E 1) (K 2 + E 2) - K 0 K 1 K 2)`, `γ₅ = 5 u / (1 - 5 u)`; so it is positive if the exact one
exceeds this. -/
theorem C97_det (hu : (N + 1) * R.u < 1) (hu5 : 5 * R.u < 1) (h : JacMesh m N vm grad M size gid gid') (s : Jac)
    (hs : s.Sized size) :
    ∃ s', jacobian R m N vm grad M gid' s = some s' ∧ ∀ e < m.elems, ∀ l < M, ∃ d, s'.det.get (gid e l) = some d ∧
      ∀ K T E : ℕ → ℝ, (∀ i < 3, ∀ j < 3, |exactJ m N vm grad e l i j| ≤ K i ∧ absJ m N vm grad e l i j ≤ T i) →
      (∀ i < 3, E i = (N + 1) * R.u / (1 - (N + 1) * R.u) * T i) →
      ∀ B, B = 6 * ((1 + 5 * R.u / (1 - 5 * R.u)) * ((K 0 + E 0) * (K 1 + E 1) * (K 2 + E 2)) - K 0 * K 1 * K 2) →
      |d - (Jacobian.mat 3 (exactJ m N vm grad e l)).det| ≤ B ∧
        (B < (Jacobian.mat 3 (exactJ m N vm grad e l)).det → 0 < d) := by
  have hu1 : R.u < 1 := by have := R.u_nonneg; linarith
  obtain ⟨s', e1, e2, e3⟩ := run (R := R) h s hs
  refine ⟨s', e1, fun e he l hl => ⟨_, Arr.get_lt (by rw [e2.2.2]; exact h.lt e he l hl), ?_⟩⟩
  intro K T E hKT hE B hB
  have hp := e3 e he l hl
  have hN := factor_le hu1 (k := N + 1) (by push_cast; exact hu)
  have h5 := factor_le hu1 (k := 5) (by exact_mod_cast hu5)
  push_cast at hN h5
  have err : ∀ i < 3, ∀ j < 3, |s'.jac.val (gid e l) i j - exactJ m N vm grad e l i j| ≤ E i := by
    intro i hi j hj
    rw [hE i hi]
    have a0 : 0 ≤ absJ m N vm grad e l i j := sum_nonneg fun v _ => by positivity
    refine (entry_err hu1 hp hi hj).trans ((mul_le_mul_of_nonneg_right hN a0).trans ?_)
    exact mul_le_mul_of_nonneg_left (hKT i hi j hj).2 ((err_nonneg hu1 (N + 1)).trans hN)
  have K0 : ∀ i < 3, 0 ≤ K i := fun i hi => (abs_nonneg _).trans (hKT i hi 0 (by omega)).1
  have E0 : ∀ i < 3, 0 ≤ E i := fun i hi => (abs_nonneg _).trans (err i hi 0 (by omega))
  have hJ : ∀ i < 3, ∀ j < 3, |s'.jac.val (gid e l) i j| ≤ K i + E i := by
    intro i hi j hj
    have := abs_add_le (s'.jac.val (gid e l) i j - exactJ m N vm grad e l i j) (exactJ m N vm grad e l i j)
    rw [sub_add_cancel] at this
    linarith [err i hi j hj, (hKT i hi j hj).1]
  have a := det_err (R := R) hu1 (K := fun i => K i + E i) hJ
  have b := det_diff (fun i hi j hj => (hKT i hi j hj).1) err
  have P0 : 0 ≤ (K 0 + E 0) * (K 1 + E 1) * (K 2 + E 2) := by
    have := K0 0 (by omega); have := K0 1 (by omega); have := K0 2 (by omega)
    have := E0 0 (by omega); have := E0 1 (by omega); have := E0 2 (by omega)
    positivity
  have c : |s'.det.val (gid e l) - (Jacobian.mat 3 (exactJ m N vm grad e l)).det| ≤ B := by
    rw [hp.det]
    have t := abs_add_le (det R (s'.jac.val (gid e l)) - (Jacobian.mat 3 (s'.jac.val (gid e l))).det)
      ((Jacobian.mat 3 (s'.jac.val (gid e l))).det - (Jacobian.mat 3 (exactJ m N vm grad e l)).det)
    rw [sub_add_sub_cancel] at t
    have a' := a.trans (mul_le_mul_of_nonneg_right h5 (by linarith))
    rw [hB]
    linarith
  exact ⟨c, fun hlt => by have := (abs_le.1 c).1; linarith⟩

/-- **C97 (inverses).**  Let `J` be the stored matrix of a point, `K i` a bound of its entries in row `i`, and `η` the possible relative error of
its determinant, `6 γ₅ K 0 K 1 K 2 ≤ η |det J|`.  If `η < 1`, the stored inverse differs from the inverse of `J` in entry `(i, j)` by at
most `2 K_a K_b / |det J| (γ₄ + η) / (1 - η)`, where `a`, `b` are the two rows other than `j`. -/
theorem C97_inverse (hu5 : 5 * R.u < 1) (h : JacMesh m N vm grad M size gid gid') (s : Jac) (hs : s.Sized size) :
    ∃ s', jacobian R m N vm grad M gid' s = some s' ∧ ∀ e < m.elems, ∀ l < M, ∃ J I, s'.jac.get (gid e l) = some J ∧
      s'.inv.get (gid e l) = some I ∧ ∀ (K : ℕ → ℝ) (η : ℝ), (∀ i < 3, ∀ j < 3, |J i j| ≤ K i) →
      (Jacobian.mat 3 J).det ≠ 0 → 5 * R.u / (1 - 5 * R.u) * (6 * (K 0 * K 1 * K 2)) ≤ η * |(Jacobian.mat 3 J).det| → η < 1 →
      ∀ i j : Fin 3, |I i j - (Jacobian.mat 3 J)⁻¹ i j| ≤
        2 * (K ((j + 1) % 3) * K ((j + 2) % 3)) / |(Jacobian.mat 3 J).det| *
          ((4 * R.u / (1 - 4 * R.u) + η) / (1 - η)) := by
  have u0 := R.u_nonneg
  have hu1 : R.u < 1 := by linarith
  obtain ⟨s', e1, e2, e3⟩ := run (R := R) h s hs
  refine ⟨s', e1, fun e he l hl => ⟨_, _, Arr.get_lt (by rw [e2.1]; exact h.lt e he l hl),
    Arr.get_lt (by rw [e2.2.1]; exact h.lt e he l hl), ?_⟩⟩
  intro K η hK hD hη hη1 i j
  have h5 := factor_le hu1 (k := 5) (by exact_mod_cast hu5)
  have h4 := factor_le hu1 (k := 4) (by push_cast; linarith)
  push_cast at h4 h5
  have K0 : ∀ i < 3, 0 ≤ K i := fun i hi => (abs_nonneg _).trans (hK i hi 0 (by omega))
  have P0 : 0 ≤ 6 * (K 0 * K 1 * K 2) := by
    have := K0 0 (by omega); have := K0 1 (by omega); have := K0 2 (by omega)
    positivity
  rw [(e3 e he l hl).inv]
  refine (matInverse_err hu1 hK ((mul_le_mul_of_nonneg_right h5 P0).trans hη) hη1 hD i j).trans ?_
  refine mul_le_mul_of_nonneg_left ?_ ?_
  · exact div_le_div_of_nonneg_right (by linarith) (by linarith)
  · have k1 := K0 ((j + 1) % 3) (Nat.mod_lt _ (by norm_num))
    have k2 := K0 ((j + 2) % 3) (Nat.mod_lt _ (by norm_num))
    positivity

/-! ### A case -/

/-- One trilinear element: the box of C96 far from the origin, whose volume `get_vol_hex` gets wrong (even its sign). -/
def farElem : Mesh :=
  ⟨1, 0, 8, 0, 0, ⟨8, fun a => a⟩, ⟨0, fun _ => 0⟩, ⟨0, fun _ => 0⟩, ⟨0, fun _ => 0⟩,
    ⟨8, fun n d => if d = 0 then ((536870911 + (n % 2 : ℕ) : ℕ) : ℝ) else if d = 1 then ((536870911 + (n / 2 % 2 : ℕ) : ℕ) : ℝ) else
      ((123456789 * (n / 4 % 2) : ℕ) : ℝ)⟩⟩

/-- Gradients of the trilinear basis functions at the centre of the reference element. -/
noncomputable def midGrad : Arr (ℕ → ℕ → ℝ) :=
  ⟨1, fun _ v j => if (if j = 0 then v % 2 else if j = 1 then v / 2 % 2 else v / 4 % 2) = 1 then 1 / 8 else -(1 / 8)⟩

theorem farElem_ok : JacMesh farElem 8 (fun v => v) midGrad 1 1 (fun _ _ => 0) (fun _ _ => some 0) :=
  ⟨fun _ _ _ _ => rfl, fun _ _ _ _ => Nat.one_pos, fun e l e' l' he hl he' hl' _ => by
      have : farElem.elems = 1 := rfl
      omega, fun e he v hv => by
      have : farElem.elems = 1 := rfl
      have h2 : farElem.gaussInElem = 8 := rfl
      have h3 : farElem.nodesInElem.size = 8 := rfl
      have : e = 0 := by omega
      subst this
      omega, fun e he v hv => by
      have : farElem.elems = 1 := rfl
      have h2 : farElem.gaussInElem = 8 := rfl
      have : e = 0 := by omega
      subst this
      show 0 * 8 + v < 8
      omega, le_refl _⟩

theorem farElem_J (i j : ℕ) (hi : i < 3) (hj : j < 3) : exactJ farElem 8 (fun v => v) midGrad 0 0 i j =
    if i = j then (if i = 2 then 123456789 / 2 else 1 / 2) else 0 := by
  interval_cases i <;> interval_cases j <;> norm_num [exactJ, farElem, midGrad, sum_range_succ]

/-- The hypotheses are met, and the determinant is right where `get_vol_hex` fails: positive in double precision. -/
theorem C97_far (s : Jac) (hs : s.Sized 1) :
    ∃ s', jacobian Rounding.binary64 farElem 8 (fun v => v) midGrad 1 (fun _ _ => some 0) s = some s' ∧
      ∃ d, s'.det.get 0 = some d ∧ |d - 123456789 / 8| ≤ 1000 ∧ 0 < d := by
  obtain ⟨s', e1, e2⟩ := C97_det (R := Rounding.binary64) (by rw [Rounding.binary64_u]; norm_num)
    (by rw [Rounding.binary64_u]; norm_num) farElem_ok s hs
  obtain ⟨d, d1, d2⟩ := e2 0 (by decide) 0 (by decide)
  have hdet : (Jacobian.mat 3 (exactJ farElem 8 (fun v => v) midGrad 0 0)).det = 123456789 / 8 := by
    rw [← det_mat]
    unfold Geometry.det
    simp only [farElem_J _ _ (show 0 < 3 by omega) (show 0 < 3 by omega), farElem_J _ _ (show 0 < 3 by omega) (show 1 < 3 by omega),
      farElem_J _ _ (show 0 < 3 by omega) (show 2 < 3 by omega), farElem_J _ _ (show 1 < 3 by omega) (show 0 < 3 by omega),
      farElem_J _ _ (show 1 < 3 by omega) (show 1 < 3 by omega), farElem_J _ _ (show 1 < 3 by omega) (show 2 < 3 by omega),
      farElem_J _ _ (show 2 < 3 by omega) (show 0 < 3 by omega), farElem_J _ _ (show 2 < 3 by omega) (show 1 < 3 by omega),
      farElem_J _ _ (show 2 < 3 by omega) (show 2 < 3 by omega)]
    norm_num
  have key := d2 (fun i => if i = 2 then 123456789 / 2 else 1 / 2) (fun i => if i = 2 then 123456789 / 2 else 536870912) _
    (by
      intro i hi j hj
      constructor
      · rw [farElem_J i j hi hj]
        interval_cases i <;> interval_cases j <;> norm_num
      · interval_cases i <;> interval_cases j <;> norm_num [absJ, farElem, midGrad, sum_range_succ])
    (fun _ _ => rfl) _ rfl
  rw [hdet, Rounding.binary64_u] at key
  refine ⟨s', e1, d, d1, key.1.trans ?_, key.2 ?_⟩
  · norm_num
  · norm_num

end Verif.Fp.Geom
