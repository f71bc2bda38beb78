import Verif.Fp.JacTheorems
import Verif.Geometry.VolTheorems
import Verif.Fp.RefineGridFp

/-!
# C98: `get_vol_jacobi` in rounded arithmetic
-/

namespace Verif.Fp.Geom
open Verif.Geometry Verif.RefElem Expr Finset

variable {R : Rounding}

theorem cornerSum_spec {m : Mesh} {r : RefElem.Ref} {detJ : Arr ℝ} {lid gid : ℕ} (h : CellOK m gid) {crn : ℕ → ℕ}
    (h1 : ∀ l < 8, gid * 8 + l < m.gaussInCell.size) (h2 : ∀ l < 8, m.gaussInCell.val (gid * 8 + l) < detJ.size)
    (h3 : ∀ l < 8, r.cornersInCell lid l = some (crn l)) (h4 : ∀ l < 8, crn l < r.cornerW.size) :
    ∃ t, cornerSum R m r detJ lid gid = some t ∧
      t.1 = flDot R 8 (fun l => detJ.val (m.gaussInCell.val (gid * 8 + l))) (fun l => r.cornerW.val (crn l)) := by
  unfold cornerSum
  refine loopM_spec (fun n (t : ℝ × (ℕ → ℝ)) =>
    t.1 = flDot R n (fun l => detJ.val (m.gaussInCell.val (gid * 8 + l))) (fun l => r.cornerW.val (crn l))) (by simp [flDot]) ?_
  rintro l ⟨t1, t2⟩ hl e1
  simp only [] at e1
  simp only [Option.bind_eq_bind]
  rw [Arr.get_lt (h1 l hl), Option.bind_some, h3 l hl, Option.bind_some, Arr.get_lt (h2 l hl), Option.bind_some,
    Arr.get_lt (h4 l hl), Option.bind_some, Arr.get_lt (h.size l hl), Option.bind_some, Arr.get_lt (h.nodes l hl),
    Option.bind_some]
  refine ⟨_, rfl, ?_⟩
  simp only [e1]
  unfold flDot
  rw [loop_succ]

/-- The rounded volume of cell `l` of element `e`. -/
noncomputable def cvolFl (R : Rounding) (m : Mesh) (r : RefElem.Ref) (detJ : Arr ℝ) (cid crn : ℕ → ℕ → ℕ) (e l : ℕ) : ℝ :=
  flDot R 8 (fun k => detJ.val (m.gaussInCell.val (cid e l * 8 + k))) (fun k => r.cornerW.val (crn l k))

theorem volCell_spec {m : Mesh} {r : RefElem.Ref} {detJ : Arr ℝ} {cid crn : ℕ → ℕ → ℕ} (h : VolMesh m r detJ cid crn)
    {e l : ℕ} (he : e < m.elems) (hl : l < m.cellsPerElem) (s : Vol × ℝ) (hs : s.1.Sized m) :
    ∃ s', volCell R m r detJ e l s = some s' ∧ s'.1.Sized m ∧ s'.2 = R.fl (s.2 + cvolFl R m r detJ cid crn e l) ∧
      s'.1.cell.val (cid e l) = cvolFl R m r detJ cid crn e l ∧ s'.1.elem = s.1.elem ∧
      (∀ c, c ≠ cid e l → s'.1.cell.val c = s.1.cell.val c) := by
  obtain ⟨c1, c2⟩ := h.cells e he l hl
  obtain ⟨s1, s2, s3⟩ := hs
  have hg := h.gaussSize
  obtain ⟨t, t1, t2⟩ := cornerSum_spec (R := R) (r := r) (detJ := detJ) (lid := l) (crn := crn l) (h.cellOK c2)
    (fun k hk => by rw [hg]; omega) (fun k hk => h.gauss _ (by omega)) (fun k hk => (h.corners l hl k hk).1)
    (fun k hk => (h.corners l hl k hk).2)
  obtain ⟨a, a1, a2⟩ := assign_some (R := R) (h.cellOK c2) (cc := s.1.coords) (by omega) 0 (R.fl (t.2 0 * (1 / 8)))
  obtain ⟨b, b1, b2⟩ := assign_some (R := R) (h.cellOK c2) (cc := a) (by omega) 1 (R.fl (t.2 1 * (1 / 8)))
  obtain ⟨d, d1, d2⟩ := assign_some (R := R) (h.cellOK c2) (cc := b) (by omega) 2 (R.fl (t.2 2 * (1 / 8)))
  unfold volCell
  simp only [Option.bind_eq_bind]
  rw [c1, Option.bind_some, t1, Option.bind_some, Arr.set_lt _ (by omega), Option.bind_some, a1, Option.bind_some, b1,
    Option.bind_some, d1, Option.bind_some]
  refine ⟨_, rfl, ⟨s1, by show d.size = _; omega, s3⟩, by simp only [t2]; rfl, by simp only [store_same, t2]; rfl, rfl, ?_⟩
  intro c hc
  simp only [store_ne _ _ hc]

theorem volJacobi_spec {m : Mesh} {r : RefElem.Ref} {detJ : Arr ℝ} {cid crn : ℕ → ℕ → ℕ} (h : VolMesh m r detJ cid crn)
    (s : Vol) (hs : s.Sized m) :
    ∃ s', volJacobi R m r detJ s = some s' ∧ s'.Sized m ∧
      ∀ e < m.elems, (∀ l < m.cellsPerElem, s'.cell.val (cid e l) = cvolFl R m r detJ cid crn e l) ∧
        s'.elem.val e = loop m.cellsPerElem (fun l p => R.fl (p + cvolFl R m r detJ cid crn e l)) 0 := by
  unfold volJacobi
  refine (loopM_spec (fun E s => Vol.Sized s m ∧
    ∀ e < E, (∀ l < m.cellsPerElem, s.cell.val (cid e l) = cvolFl R m r detJ cid crn e l) ∧
        s.elem.val e = loop m.cellsPerElem (fun l p => R.fl (p + cvolFl R m r detJ cid crn e l)) 0)
    ⟨hs, by intro e he; omega⟩ ?_)
  rintro E s hE ⟨hS, hI⟩
  obtain ⟨t, t1, t2, t3, t4, t5, t6⟩ := loopM_spec (n := m.cellsPerElem) (body := volCell R m r detJ E) (s := (s, 0))
    (fun n t => t.1.Sized m ∧ t.2 = loop n (fun l p => R.fl (p + cvolFl R m r detJ cid crn E l)) 0 ∧
      (∀ l < n, t.1.cell.val (cid E l) = cvolFl R m r detJ cid crn E l) ∧ t.1.elem = s.elem ∧
      ∀ e < E, ∀ l < m.cellsPerElem, t.1.cell.val (cid e l) = cvolFl R m r detJ cid crn e l)
    ⟨hS, by simp, by intro l hl; omega, rfl, fun e he l hl => (hI e he).1 l hl⟩
    (by
      rintro n t hn ⟨i1, i2, i3, i4, i5⟩
      obtain ⟨t', j1, j2, j3, j4, j5, j6⟩ := volCell_spec (R := R) h hE hn t i1
      refine ⟨t', j1, j2, by rw [j3, i2, loop_succ], ?_, by rw [j5, i4], ?_⟩
      · intro l hl
        by_cases hl' : l = n
        · subst hl'; exact j4
        · rw [j6 _ (fun hc => hl' (h.inj E l E n hE (by omega) hE hn hc).2)]
          exact i3 l (by omega)
      · intro e he l hl
        rw [j6 _ (fun hc => by have := (h.inj e l E n (by omega) hl hE hn hc).1; omega)]
        exact i5 e he l hl)
  obtain ⟨z1, z2, z3⟩ := t2
  refine ⟨⟨t.1.cell, t.1.coords, ⟨t.1.elem.size, store t.1.elem.val E t.2⟩⟩, ?_, ⟨z1, z2, z3⟩, ?_⟩
  · simp only [Option.bind_eq_bind]
    rw [t1, Option.bind_some, Arr.set_lt _ (by omega), Option.bind_some]
    rfl
  · intro e he
    by_cases hee : e = E
    · subst hee
      exact ⟨fun l hl => t4 l hl, by simp only [store_same]; exact t3⟩
    · refine ⟨fun l hl => t6 e (by omega) l hl, ?_⟩
      simp only [store_ne _ _ hee, t5]
      exact (hI e (by omega)).2

/-- Sums of errors. -/
theorem flSum_err (hu : R.u < 1) (n : ℕ) (x y M : ℕ → ℝ) (k : ℕ) (h : ∀ l < n, |x l - y l| ≤ (((1 - R.u) ^ k)⁻¹ - 1) * M l)
    (hM : ∀ l < n, |y l| ≤ M l) :
    |loop n (fun l p => R.fl (p + x l)) 0 - ∑ l ∈ range n, y l| ≤ (((1 - R.u) ^ (k + n))⁻¹ - 1) * ∑ l ∈ range n, M l := by
  induction n with
  | zero => simp
  | succ n ih =>
    have M0 : ∀ l < n + 1, 0 ≤ M l := fun l hl => (abs_nonneg _).trans (hM l hl)
    have ih := ih (fun l hl => h l (by omega)) (fun l hl => hM l (by omega))
    rw [loop_succ, sum_range_succ, sum_range_succ, ← Nat.add_assoc]
    refine fl_step hu ?_ ?_
    · rw [show loop n (fun l p => R.fl (p + x l)) 0 + x n - (∑ l ∈ range n, y l + y n) =
        (loop n (fun l p => R.fl (p + x l)) 0 - ∑ l ∈ range n, y l) + (x n - y n) by ring, mul_add]
      refine (abs_add_le _ _).trans (add_le_add ih ((h n (by omega)).trans ?_))
      exact mul_le_mul_of_nonneg_right (mono_err hu (by omega)) (M0 n (by omega))
    · refine (abs_add_le _ _).trans (add_le_add ((abs_sum_le_sum_abs _ _).trans (sum_le_sum fun l hl => hM l ?_)) (hM n (by omega)))
      have := mem_range.1 hl
      omega

/-- **C98.**  `get_vol_jacobi` in rounded arithmetic, on any mesh: the stored volume of cell `l` of element `e` differs from the sum of
determinant times weight over the eight corners by at most `9 u / (1 - 9 u)` times the sum of the moduli; the stored volume of the
element, with `n` cells, differs from the sum over all its corners by at most `(9 + n) u / (1 - (9 + n) u)` times the sum of the moduli. -/
theorem C98_volumes (m : Mesh) (r : RefElem.Ref) (detJ : Arr ℝ) (cid crn : ℕ → ℕ → ℕ) (h : VolMesh m r detJ cid crn)
    (hu : (9 + m.cellsPerElem) * R.u < 1) (s : Vol) (hs : s.Sized m) :
    ∃ s', volJacobi R m r detJ s = some s' ∧ ∀ e < m.elems,
      (∀ l < m.cellsPerElem, ∃ V, s'.cell.get (cid e l) = some V ∧
        |V - ∑ k ∈ range 8, detJ.val (m.gaussInCell.val (cid e l * 8 + k)) * r.cornerW.val (crn l k)| ≤
          9 * R.u / (1 - 9 * R.u) *
            ∑ k ∈ range 8, |detJ.val (m.gaussInCell.val (cid e l * 8 + k))| * |r.cornerW.val (crn l k)|) ∧
      ∃ W, s'.elem.get e = some W ∧
        |W - ∑ l ∈ range m.cellsPerElem, ∑ k ∈ range 8,
            detJ.val (m.gaussInCell.val (cid e l * 8 + k)) * r.cornerW.val (crn l k)| ≤
          (9 + m.cellsPerElem) * R.u / (1 - (9 + m.cellsPerElem) * R.u) * ∑ l ∈ range m.cellsPerElem, ∑ k ∈ range 8,
            |detJ.val (m.gaussInCell.val (cid e l * 8 + k))| * |r.cornerW.val (crn l k)| := by
  have u0 := R.u_nonneg
  have n0 : (0 : ℝ) ≤ m.cellsPerElem * R.u := by positivity
  have hu9 : 9 * R.u < 1 := by nlinarith
  have hu1 : R.u < 1 := by linarith
  obtain ⟨s', e1, e2, e3⟩ := volJacobi_spec (R := R) h s hs
  have cell : ∀ e l, |cvolFl R m r detJ cid crn e l -
      ∑ k ∈ range 8, detJ.val (m.gaussInCell.val (cid e l * 8 + k)) * r.cornerW.val (crn l k)| ≤
      (((1 - R.u) ^ 9)⁻¹ - 1) * ∑ k ∈ range 8, |detJ.val (m.gaussInCell.val (cid e l * 8 + k))| * |r.cornerW.val (crn l k)| :=
    fun e l => flDot_err hu1 8 _ _
  refine ⟨s', e1, fun e he => ⟨fun l hl => ⟨_, Arr.get_lt (by rw [e2.1]; exact (h.cells e he l hl).2), ?_⟩,
    _, Arr.get_lt (by rw [e2.2.2]; exact he), ?_⟩⟩
  · rw [(e3 e he).1 l hl]
    refine (cell e l).trans (mul_le_mul_of_nonneg_right ?_ (sum_nonneg fun k _ => by positivity))
    have := factor_le hu1 (k := 9) (by exact_mod_cast hu9)
    exact_mod_cast this
  · rw [(e3 e he).2]
    have a := flSum_err hu1 m.cellsPerElem (fun l => cvolFl R m r detJ cid crn e l) _ _ 9 (fun l _ => cell e l)
      (fun l _ => (abs_sum_le_sum_abs _ _).trans (le_of_eq (sum_congr rfl fun k _ => abs_mul _ _)))
    refine a.trans (mul_le_mul_of_nonneg_right ?_ (sum_nonneg fun l _ => sum_nonneg fun k _ => by positivity))
    have := factor_le hu1 (k := 9 + m.cellsPerElem) (by push_cast; exact hu)
    push_cast at this
    exact this

/-- **C98 (positive volumes).**  If all determinants and weights are positive, the stored volumes have a relative error of the same size and are positive. -/
theorem C98_positive (m : Mesh) (r : RefElem.Ref) (detJ : Arr ℝ) (cid crn : ℕ → ℕ → ℕ) (h : VolMesh m r detJ cid crn)
    (hu : 2 * ((9 + m.cellsPerElem) * R.u) < 1) (s : Vol) (hs : s.Sized m)
    (hd : ∀ e < m.elems, ∀ l < m.cellsPerElem, ∀ k < 8, 0 < detJ.val (m.gaussInCell.val (cid e l * 8 + k)))
    (hw : ∀ l < m.cellsPerElem, ∀ k < 8, 0 < r.cornerW.val (crn l k)) :
    ∃ s', volJacobi R m r detJ s = some s' ∧ ∀ e < m.elems,
      (∀ l < m.cellsPerElem, ∃ V, s'.cell.get (cid e l) = some V ∧ 0 < V) ∧
      ∃ W, s'.elem.get e = some W ∧ (0 < m.cellsPerElem → 0 < W) := by
  have u0 := R.u_nonneg
  have n0 : (0 : ℝ) ≤ m.cellsPerElem * R.u := by positivity
  have hu' : (9 + m.cellsPerElem) * R.u < 1 := by nlinarith
  obtain ⟨s', e1, e2⟩ := C98_volumes m r detJ cid crn h hu' s hs
  refine ⟨s', e1, fun e he => ⟨fun l hl => ?_, ?_⟩⟩
  · obtain ⟨V, v1, v2⟩ := (e2 e he).1 l hl
    refine ⟨V, v1, ?_⟩
    have ab : ∑ k ∈ range 8, |detJ.val (m.gaussInCell.val (cid e l * 8 + k))| * |r.cornerW.val (crn l k)| =
        ∑ k ∈ range 8, detJ.val (m.gaussInCell.val (cid e l * 8 + k)) * r.cornerW.val (crn l k) :=
      sum_congr rfl fun k hk => by
        rw [abs_of_pos (hd e he l hl k (mem_range.1 hk)), abs_of_pos (hw l hl k (mem_range.1 hk))]
    rw [ab] at v2
    have S0 : 0 < ∑ k ∈ range 8, detJ.val (m.gaussInCell.val (cid e l * 8 + k)) * r.cornerW.val (crn l k) :=
      sum_pos (fun k hk => mul_pos (hd e he l hl k (mem_range.1 hk)) (hw l hl k (mem_range.1 hk))) ⟨0, by simp⟩
    have g : 9 * R.u / (1 - 9 * R.u) < 1 := by rw [div_lt_one (by nlinarith)]; nlinarith
    have := (abs_le.1 v2).1
    nlinarith
  · obtain ⟨W, w1, w2⟩ := (e2 e he).2
    refine ⟨W, w1, fun hn => ?_⟩
    have ab : ∑ l ∈ range m.cellsPerElem, ∑ k ∈ range 8, |detJ.val (m.gaussInCell.val (cid e l * 8 + k))| * |r.cornerW.val (crn l k)| =
        ∑ l ∈ range m.cellsPerElem, ∑ k ∈ range 8, detJ.val (m.gaussInCell.val (cid e l * 8 + k)) * r.cornerW.val (crn l k) :=
      sum_congr rfl fun l hl => sum_congr rfl fun k hk => by
        rw [abs_of_pos (hd e he l (mem_range.1 hl) k (mem_range.1 hk)), abs_of_pos (hw l (mem_range.1 hl) k (mem_range.1 hk))]
    rw [ab] at w2
    have S0 : 0 < ∑ l ∈ range m.cellsPerElem, ∑ k ∈ range 8, detJ.val (m.gaussInCell.val (cid e l * 8 + k)) * r.cornerW.val (crn l k) :=
      sum_pos (fun l hl => sum_pos (fun k hk => mul_pos (hd e he l (mem_range.1 hl) k (mem_range.1 hk))
        (hw l (mem_range.1 hl) k (mem_range.1 hk))) ⟨0, by simp⟩) ⟨0, mem_range.2 hn⟩
    have g : (9 + m.cellsPerElem) * R.u / (1 - (9 + m.cellsPerElem) * R.u) < 1 := by
      rw [div_lt_one (by linarith)]; linarith
    have := (abs_le.1 w2).1
    nlinarith

/-- **C98 (order-`p` meshes in double precision).**  On a mesh of elements of order at most nine with the reference element `init` builds, positive
determinants give positive volumes of all cells and elements in double precision. -/
theorem C98_lattice (p : ℕ) (hp : p ≤ 9) (q : RefElem.Junk) (m : Mesh) (hm : LatticeMesh p m) (detJ : Arr ℝ)
    (hd : detJ.size = m.elems * RefElem.nodes1D p ^ 3) (hpos : ∀ g < m.elems * RefElem.nodes1D p ^ 3, 0 < detJ.val g)
    (s : Vol) (hs : s.Sized m) :
    ∃ r s', RefElem.init p q = some r ∧ volJacobi Rounding.binary64 m r detJ s = some s' ∧
      (∀ c < m.cells, ∃ V, s'.cell.get c = some V ∧ 0 < V) ∧ ∀ e < m.elems, ∃ W, s'.elem.get e = some W ∧ 0 < W := by
  obtain ⟨r, hr, w1, -⟩ := RefElem.C33_positive p hp q
  have V := hm.volMesh hr hd
  obtain ⟨r', h1, h2, -⟩ := RefElem.C32_corners p q
  obtain rfl : r' = r := Option.some.inj (h1.symm.trans hr)
  have hC : RefElem.cells1D p ≤ 18 := by
    have := RefElem.nodes_le hp
    unfold RefElem.cells1D; omega
  have hC0 : 0 < RefElem.cells1D p ^ 3 := by
    have := RefElem.two_le_nodes p
    have : 0 < RefElem.cells1D p := by unfold RefElem.cells1D; omega
    positivity
  have hC3 : RefElem.cells1D p ^ 3 ≤ 18 ^ 3 := Nat.pow_le_pow_left hC 3
  obtain ⟨s', e1, e2⟩ := C98_positive (R := Rounding.binary64) m r' detJ _ _ V (by
      rw [Rounding.binary64_u, hm.perElem]
      have : ((RefElem.cells1D p ^ 3 : ℕ) : ℝ) ≤ ((18 ^ 3 : ℕ) : ℝ) := by exact_mod_cast hC3
      norm_num at this ⊢
      linarith) s hs
    (fun e he l hl k hk => hpos _ (by
      rw [← hd]
      have c2 := (V.cells e he l hl).2
      exact V.gauss _ (by omega)))
    (fun l hl k hk => by
      rw [hm.perElem] at hl
      obtain ⟨c, hc, e⟩ := h2 l hl k hk
      have := w1 c hc
      unfold crnOf
      rw [e]
      exact this)
  refine ⟨r', s', hr, e1, ?_, ?_⟩
  · intro c hc
    rw [hm.cells] at hc
    have he : c / RefElem.cells1D p ^ 3 < m.elems := by rw [Nat.div_lt_iff_lt_mul hC0]; exact hc
    have := (e2 _ he).1 (c % RefElem.cells1D p ^ 3) (by rw [hm.perElem]; exact Nat.mod_lt _ hC0)
    simp only [Nat.div_add_mod'] at this
    exact this
  · intro e he
    obtain ⟨W, z1, z2⟩ := (e2 e he).2
    exact ⟨W, z1, z2 (by rw [hm.perElem]; exact hC0)⟩

/-- The hypotheses of C98 are met by the two-element mesh of `RefineGridFp`, refined to any order, with the determinant one everywhere. -/
example (p : ℕ) (hp : p ≤ 9) (N : ℕ) (q : RefElem.Junk) (j : Swage.Refine.Junk) : ∃ m : Mesh, m.elems = 2 ∧ LatticeMesh p m ∧
    ∃ s : Vol, s.Sized m ∧ ∃ r s', RefElem.init p q = some r ∧
      volJacobi Rounding.binary64 m r ⟨2 * RefElem.nodes1D p ^ 3, fun _ => 1⟩ s = some s' ∧
      ∀ c < m.cells, ∃ V, s'.cell.get c = some V ∧ 0 < V := by
  obtain ⟨r, -, h2, -, h4⟩ := C49_refined 2 N p _ _ j Swage.Refine.duo_distinct
  refine ⟨ofRefined r, h2, h4, ⟨⟨_, fun _ => 0⟩, ⟨_, fun _ _ => 0⟩, ⟨_, fun _ => 0⟩⟩, ⟨rfl, rfl, rfl⟩, ?_⟩
  obtain ⟨r', s', a, b, c, -⟩ := C98_lattice p hp q (ofRefined r) h4 ⟨2 * RefElem.nodes1D p ^ 3, fun _ => 1⟩ (by rw [h2])
    (fun _ _ => one_pos) ⟨⟨_, fun _ => 0⟩, ⟨_, fun _ _ => 0⟩, ⟨_, fun _ => 0⟩⟩ ⟨rfl, rfl, rfl⟩
  exact ⟨r', s', a, b, c⟩

end Verif.Fp.Geom

