import Verif.Golub.Exact
import Verif.Blas.Lemmas
import Mathlib.Analysis.Matrix.Spectrum

/-!
# C67: Gauss-Jacobi rules

The statements use only `∫ x in -1..1, f x * ((1 - x)^α * (1 + x)^β)`, the returned arrays and the contract of `dstev`.
-/

namespace Verif.Golub
open Polynomial Finset Verif.Blas Verif.Legendre

/-- The documented contract of LAPACK `dstev`, in exact arithmetic: `info` is zero, column `j` of `z` is an eigenvector of the symmetric
tridiagonal matrix for the `j`-th returned eigenvalue, the columns are orthonormal, and the eigenvalues are in ascending order. -/
def Stev.Correct (S : Stev) : Prop :=
  ∀ n d e, 0 < n → (S.run n d e).2.2 = 0 ∧
    (∀ j < n, ∀ i < n, ∑ k ∈ range n, tri d e i k * (S.run n d e).2.1 (k + n * j) = (S.run n d e).1 j * (S.run n d e).2.1 (i + n * j)) ∧
    (∀ j < n, ∀ j' < n, ∑ i ∈ range n, (S.run n d e).2.1 (i + n * j) * (S.run n d e).2.1 (i + n * j') = if j = j' then 1 else 0) ∧
    ∀ j j', j ≤ j' → j' < n → (S.run n d e).1 j ≤ (S.run n d e).1 j'

/-- The first `n` entries of the arrays are a quadrature rule exact for all polynomials of degree below `m` against the weight
`(1 - x)^α (1 + x)^β` on `[-1, 1]`. -/
def Exact (n m : ℕ) (α β : ℝ) (r : Rule) : Prop :=
  ∀ f : ℝ[X], f.natDegree < m →
    ∑ j ∈ range n, r.weights.val j * f.eval (r.points.val j) = ∫ x in (-1 : ℝ)..1, f.eval x * ((1 - x) ^ α * (1 + x) ^ β)

theorem fill1 {n : ℕ} {body : ℕ → Arr ℝ → Option (Arr ℝ)} {v : ℕ → ℝ} (a : Arr ℝ)
    (hb : ∀ k (b : Arr ℝ), k < n → b.size = a.size → body k b = some ⟨b.size, store b.val k (v k)⟩) :
    ∃ b, loopM n body a = some b ∧ b.size = a.size ∧ (∀ k < n, b.val k = v k) ∧ ∀ k, n ≤ k → b.val k = a.val k := by
  obtain ⟨b, e, h1, h2, h3⟩ := loopM_spec (n := n) (body := body) (s := a)
    (fun t (b : Arr ℝ) => b.size = a.size ∧ (∀ k < t, b.val k = v k) ∧ ∀ k, t ≤ k → b.val k = a.val k)
    ⟨rfl, fun k h => absurd h (by omega), fun k _ => rfl⟩
    (by
      intro k b hk ⟨a1, a2, a3⟩
      refine ⟨_, hb k b hk a1, a1, ?_, ?_⟩
      · intro k' hk'
        show store b.val k (v k) k' = _
        by_cases h : k' = k
        · subst h; exact store_same _ _ _
        · rw [store_ne _ _ h]; exact a2 k' (by omega)
      · intro k' hk'
        show store b.val k (v k) k' = _
        rw [store_ne _ _ (by omega)]; exact a3 k' (by omega))
  exact ⟨b, e, h1, h2, h3⟩

/-- What the routine computes for at least two points. -/
theorem run_spec (S : Stev) (hS : S.Correct) {n : ℕ} (hn : 1 < n) (α β : ℝ) (s : Rule) (jdiag jsub jvals jvecs jd : ℕ → ℝ)
    (hp : n ≤ s.points.size) (hw : n ≤ s.weights.size) :
    ∃ (r : Rule) (l : ℕ → ℝ) (Z : ℕ → ℕ → ℝ), gaussJacobi S n α β s jdiag jsub jvals jvecs jd = some r ∧
      r.points.size = s.points.size ∧ r.weights.size = s.weights.size ∧
      (∀ j < n, r.points.val j = l j) ∧
      (∀ j < n, r.weights.val j = Z j 0 * Z j 0 *
        (2 ^ (α + β + 1) * Real.Gamma (α + 1) * Real.Gamma (β + 1) / Real.Gamma (α + β + 2))) ∧
      (∀ j, n ≤ j → r.points.val j = s.points.val j ∧ r.weights.val j = s.weights.val j) ∧
      (∀ j < n, ∀ i < n, ∑ k ∈ range n, tri (dg α β) (sb α β) i k * Z j k = l j * Z j i) ∧
      (∀ j < n, ∀ j' < n, ∑ i ∈ range n, Z j i * Z j' i = if j = j' then 1 else 0) ∧
      ∀ j j', j ≤ j' → j' < n → l j ≤ l j' := by
  obtain ⟨d, e1, d1, d2, -⟩ := fill1 (n := n)
    (body := fun k (a : Arr ℝ) => a.set k (-jb α β (k + 1) / ja α β (k + 1))) (v := dg α β) ⟨n, jdiag⟩
    (by intro k b hk hb; exact Arr.set_lt _ (by rw [hb]; exact hk))
  obtain ⟨u, e2, u1, u2, -⟩ := fill1 (n := n - 1)
    (body := fun k (a : Arr ℝ) => a.set k (√(jc α β (k + 2) / (ja α β (k + 1) * ja α β (k + 2))))) (v := sb α β) ⟨n - 1, jsub⟩
    (by intro k b hk hb; exact Arr.set_lt _ (by rw [hb]; exact hk))
  simp only [] at d1 u1
  obtain ⟨c, e3, c1, c2, -⟩ := fill1 (n := d.size) (body := fun i (a : Arr ℝ) => do
      let v ← d.get i
      a.set i v) (v := d.val) ⟨d.size, jd⟩
    (by
      intro k b hk hb
      simp only [Option.bind_eq_bind]
      rw [Arr.get_lt hk, Option.bind_some]
      exact Arr.set_lt _ (by rw [hb]; exact hk))
  obtain ⟨-, k2, k3, k4⟩ := hS n c.val u.val (by omega)
  obtain ⟨vals, e4, v1, v2, -⟩ := fill1 (n := d.size) (body := fun i (a : Arr ℝ) => do
      let v ← (⟨d.size, (S.run d.size c.val u.val).1⟩ : Arr ℝ).get i
      a.set i v) (v := (S.run d.size c.val u.val).1) ⟨n, jvals⟩
    (by
      intro k b hk hb
      simp only [Option.bind_eq_bind]
      rw [Arr.get_lt (a := ⟨d.size, (S.run d.size c.val u.val).1⟩) hk, Option.bind_some]
      exact Arr.set_lt _ (by rw [hb]; rw [d1] at hk; exact hk))
  have eig : eigSymTri S d u ⟨n, jvals⟩ ⟨n, n, ⟨n * n, jvecs⟩⟩ jd =
      some ⟨d, ⟨u.size, S.left d.size c.val u.val⟩, vals, ⟨n, n, ⟨n * n, (S.run d.size c.val u.val).2.1⟩⟩, (S.run d.size c.val u.val).2.2⟩ := by
    unfold eigSymTri
    rw [if_pos ⟨by rw [d1, u1]; omega, d1.symm, rfl, rfl⟩]
    show (loopM _ _ _).bind _ = _
    rw [e3, Option.bind_some]
    show (loopM _ _ _).bind _ = _
    rw [e4]; rfl
  rw [d1] at eig v2
  obtain ⟨mu0, hmu⟩ : ∃ mu0 : ℝ, mu0 = 2 ^ (α + β + 1) * Real.Gamma (α + 1) * Real.Gamma (β + 1) / Real.Gamma (α + β + 2) := ⟨_, rfl⟩
  obtain ⟨r, e5, r1, r2, r3, r4⟩ := loopM_spec (n := n) (body := fun j (s : Rule) => do
      let x ← vals.get j
      let p ← s.points.set j x
      let q ← (Mat.mk n n ⟨n * n, (S.run n c.val u.val).2.1⟩).get j 0
      let w ← s.weights.set j (q * q * mu0)
      pure ⟨p, w⟩) (s := s)
    (fun t (r : Rule) => r.points.size = s.points.size ∧ r.weights.size = s.weights.size ∧
      (∀ j < t, r.points.val j = (S.run n c.val u.val).1 j ∧
        r.weights.val j = (S.run n c.val u.val).2.1 (0 + n * j) * (S.run n c.val u.val).2.1 (0 + n * j) * mu0) ∧
      ∀ j, t ≤ j → r.points.val j = s.points.val j ∧ r.weights.val j = s.weights.val j)
    ⟨rfl, rfl, fun j h => absurd h (by omega), fun j _ => ⟨rfl, rfl⟩⟩
    (by
      rintro j ⟨p, w⟩ hj ⟨a1, a2, a3, a4⟩
      simp only [] at a1 a2
      have hv : j < vals.size := by rw [v1]; exact hj
      have hjp : j < p.size := by omega
      have hjw : j < w.size := by omega
      have hq : j * n + 0 < n * n := by
        have : (j + 1) * n ≤ n * n := Nat.mul_le_mul_right _ hj
        rw [Nat.add_mul] at this; omega
      refine ⟨⟨⟨p.size, store p.val j (vals.val j)⟩, ⟨w.size, store w.val j ((S.run n c.val u.val).2.1 (j * n + 0) *
        (S.run n c.val u.val).2.1 (j * n + 0) * mu0)⟩⟩, ?_, a1, a2, ?_, ?_⟩
      · simp only [Option.bind_eq_bind]
        rw [Arr.get_lt hv, Option.bind_some, Arr.set_lt _ hjp, Option.bind_some]
        unfold Mat.get
        rw [Arr.get_lt (a := ⟨n * n, (S.run n c.val u.val).2.1⟩) hq, Option.bind_some, Arr.set_lt _ hjw, Option.bind_some]
        rfl
      · intro k hk
        show store p.val j (vals.val j) k = _ ∧ store w.val j _ k = _
        by_cases h : k = j
        · subst h
          rw [store_same, store_same, v2 k (by omega), mul_comm k n, add_comm]
          exact ⟨rfl, rfl⟩
        · rw [store_ne _ _ h, store_ne _ _ h]; exact a3 k (by omega)
      · intro k hk
        show store p.val j (vals.val j) k = _ ∧ store w.val j _ k = _
        rw [store_ne _ _ (by omega), store_ne _ _ (by omega)]; exact a4 k (by omega))
  refine ⟨r, (S.run n c.val u.val).1, fun j i => (S.run n c.val u.val).2.1 (i + n * j), ?_, r1, r2, fun j hj => (r3 j hj).1,
    fun j hj => by rw [← hmu]; exact (r3 j hj).2, r4, ?_, k3, k4⟩
  · unfold gaussJacobi
    rw [if_pos hn]
    show (loopM _ _ _).bind _ = _
    rw [e1, Option.bind_some]
    show (loopM _ _ _).bind _ = _
    rw [e2, Option.bind_some]
    show (eigSymTri _ _ _ _ _ _).bind _ = _
    rw [eig, Option.bind_some, ← hmu]
    exact e5
  · intro j hj i hi
    rw [← k2 j hj i hi]
    refine sum_congr rfl fun k hk => ?_
    have hk := mem_range.1 hk
    congr 1
    unfold tri
    split
    · rw [c2 i (by omega), d2 i hi]
    · split
      · rw [u2 i (by omega)]
      · split
        · rw [u2 k (by omega)]
        · rfl

/-- **C67 (two or more points).**  For every number of points from two on and all `α, β > -1` the returned rule integrates every
polynomial of degree at most `2 n - 1` exactly against `(1 - x)^α (1 + x)^β`; the weights are positive and the points are
inside the interval, in ascending order. -/
theorem C67_exact_partial (S : Stev) (hS : S.Correct) (n : ℕ) (hn : 2 ≤ n) (α β : ℝ) (hα : -1 < α) (hβ : -1 < β) (s : Rule)
    (jdiag jsub jvals jvecs jd : ℕ → ℝ) (hp : n ≤ s.points.size) (hw : n ≤ s.weights.size) :
    ∃ r : Rule, gaussJacobi S n α β s jdiag jsub jvals jvecs jd = some r ∧ Exact n (2 * n) α β r ∧
      (∀ j < n, 0 < r.weights.val j) ∧ (∀ j < n, -1 < r.points.val j ∧ r.points.val j < 1) ∧
      (∀ j j', j < j' → j' < n → r.points.val j < r.points.val j') ∧
      r.points.size = s.points.size ∧ r.weights.size = s.weights.size ∧
      ∀ j, n ≤ j → r.points.val j = s.points.val j ∧ r.weights.val j = s.weights.val j := by
  obtain ⟨r, l, Z, e, p1, w1, hl, hZ, rest, he, ho, hord⟩ := run_spec S hS hn α β s jdiag jsub jvals jvecs jd hp hw
  rw [← I_one hα hβ] at hZ
  have I1 : 0 < I α β 1 := I_pos hα hβ one_ne_zero fun x _ _ => by simp
  refine ⟨r, e, ?_, ?_, ?_, ?_, p1, w1, rest⟩
  · intro f hf
    show _ = I α β f
    rw [← gw_exact hα hβ (by omega) he ho f hf]
    refine sum_congr rfl fun j hj => ?_
    rw [hZ j (mem_range.1 hj), hl j (mem_range.1 hj)]
  · intro j hj
    rw [hZ j hj]
    have := gw_first hα hβ (by omega) he ho j hj
    exact mul_pos (mul_self_pos.2 this) I1
  · intro j hj
    rw [hl j hj]
    exact gw_inside hα hβ (by omega) he ho j hj
  · intro j j' h hj'
    have hj : j < n := by omega
    rw [hl j hj, hl j' hj']
    exact lt_of_le_of_ne (hord j j' h.le hj') fun he' => absurd (gw_distinct hα hβ (by omega) he ho j hj j' hj' he') h.ne

/-- The integral of the weight with equal exponents differs from two. -/
theorem I_one_ne {a : ℝ} (ha : -1 < a) (h0 : a ≠ 0) : I a a 1 ≠ 2 := by
  have split : ∀ f : ℝ → ℝ, IntervalIntegrable f MeasureTheory.volume (-1) 0 → IntervalIntegrable f MeasureTheory.volume 0 1 →
      (∀ x ∈ Set.Ioo (-1 : ℝ) 0, 0 < f x) → (∀ x ∈ Set.Ioo (0 : ℝ) 1, 0 < f x) → 0 < ∫ x in (-1 : ℝ)..1, f x := by
    intro f i1 i2 p1 p2
    rw [← intervalIntegral.integral_add_adjacent_intervals i1 i2]
    exact add_pos (intervalIntegral.intervalIntegral_pos_of_pos_on i1 p1 (by norm_num))
      (intervalIntegral.intervalIntegral_pos_of_pos_on i2 p2 (by norm_num))
  have hw := wt_intble ha ha
  have i1 : IntervalIntegrable (wt a a) MeasureTheory.volume (-1) 0 := hw.mono_set (by
    rw [Set.uIcc_of_le (by norm_num), Set.uIcc_of_le (by norm_num)]; exact Set.Icc_subset_Icc le_rfl (by norm_num))
  have i2 : IntervalIntegrable (wt a a) MeasureTheory.volume 0 1 := hw.mono_set (by
    rw [Set.uIcc_of_le (by norm_num), Set.uIcc_of_le (by norm_num)]; exact Set.Icc_subset_Icc (by norm_num) le_rfl)
  have two : ∫ x in (-1 : ℝ)..1, (1 : ℝ) = 2 := by rw [intervalIntegral.integral_const]; norm_num
  have hI : I a a 1 = ∫ x in (-1 : ℝ)..1, wt a a x := by unfold I; simp
  have c1 : ∀ b c : ℝ, IntervalIntegrable (fun _ => (1 : ℝ)) MeasureTheory.volume b c := fun b c => intervalIntegrable_const
  have hx : ∀ x : ℝ, -1 < x → x < 1 → wt a a x = (1 - x * x) ^ a := by
    intro x h1 h2
    unfold wt
    rw [← Real.mul_rpow (by linarith) (by linarith)]
    congr 1; ring
  rcases lt_or_gt_of_ne h0 with h | h
  · have : 0 < ∫ x in (-1 : ℝ)..1, (wt a a x - 1) := by
      have key : ∀ x : ℝ, -1 < x → x < 1 → x ≠ 0 → 0 < wt a a x - 1 := by
        intro x h1 h2 h3
        rw [hx x h1 h2]
        have := mul_self_pos.2 h3
        have := Real.one_lt_rpow_of_pos_of_lt_one_of_neg (x := 1 - x * x) (z := a) (by nlinarith) (by linarith) h
        linarith
      exact split _ (i1.sub (c1 _ _)) (i2.sub (c1 _ _)) (fun x hx => key x hx.1 (by linarith [hx.2]) hx.2.ne)
        (fun x hx => key x (by linarith [hx.1]) hx.2 hx.1.ne')
    rw [intervalIntegral.integral_sub hw (c1 _ _), two, ← hI] at this
    intro h; linarith
  · have : 0 < ∫ x in (-1 : ℝ)..1, (1 - wt a a x) := by
      have key : ∀ x : ℝ, -1 < x → x < 1 → x ≠ 0 → 0 < 1 - wt a a x := by
        intro x h1 h2 h3
        rw [hx x h1 h2]
        have := mul_self_pos.2 h3
        have := Real.rpow_lt_one (x := 1 - x * x) (z := a) (by nlinarith) (by linarith) h
        linarith
      exact split _ ((c1 _ _).sub i1) ((c1 _ _).sub i2) (fun x hx => key x hx.1 (by linarith [hx.2]) hx.2.ne)
        (fun x hx => key x (by linarith [hx.1]) hx.2 hx.1.ne')
    rw [intervalIntegral.integral_sub (c1 _ _) hw, two, ← hI] at this
    intro h; linarith

/-- **C67 (one point: the claim fails).**  With one point the routine always returns the point 0 and the weight 2, which is exact for
polynomials of degree at most one precisely when `α = β = 0`. -/
theorem C67_one_negation (S : Stev) (α β : ℝ) (hα : -1 < α) (hβ : -1 < β) (s : Rule) (jdiag jsub jvals jvecs jd : ℕ → ℝ)
    (hp : 1 ≤ s.points.size) (hw : 1 ≤ s.weights.size) :
    ∃ r : Rule, gaussJacobi S 1 α β s jdiag jsub jvals jvecs jd = some r ∧ (Exact 1 2 α β r ↔ α = 0 ∧ β = 0) := by
  refine ⟨⟨⟨s.points.size, store s.points.val 0 0⟩, ⟨s.weights.size, store s.weights.val 0 2⟩⟩, ?_, ?_⟩
  · unfold gaussJacobi
    rw [if_neg (by omega), if_pos rfl]
    simp only [Option.bind_eq_bind]
    rw [Arr.set_lt _ (by omega), Option.bind_some, Arr.set_lt _ (by omega), Option.bind_some]
    rfl
  have sm : ∀ f : ℝ[X], ∑ j ∈ range 1, store s.weights.val 0 2 j * f.eval (store s.points.val 0 0 j) = 2 * f.eval 0 := by
    intro f; rw [sum_range_one, store_same, store_same]
  constructor
  · intro h
    have h1 : 2 = I α β 1 := by
      have := h 1 (by simp)
      simp only [] at this
      rw [sm] at this
      unfold I wt
      rw [← this]; simp
    have hX : 0 = I α β X := by
      have := h X (by simp)
      simp only [] at this
      rw [sm] at this
      unfold I wt
      rw [← this]; simp
    have hj := I_jp hα hβ 0
    rw [jp_one, I_add hα hβ, I_C_mul, ← hX, show C (jb α β 1) = C (jb α β 1) * 1 by rw [mul_one], I_C_mul, ← h1] at hj
    have hab : α = β := by
      simp [jb] at hj
      linarith
    subst hab
    have : α = 0 := by
      by_contra hne
      exact I_one_ne hα hne h1.symm
    exact ⟨this, this⟩
  · rintro ⟨rfl, rfl⟩ f hf
    simp only []
    rw [sm]
    have e : f = C (f.coeff 1) * X + C (f.coeff 0) := eq_X_add_C_of_natDegree_le_one (by omega)
    rw [e]
    simp only [Real.rpow_zero, mul_one, eval_add, eval_mul, eval_C, eval_X]
    rw [intervalIntegral.integral_add (by apply Continuous.intervalIntegrable; fun_prop) (by apply Continuous.intervalIntegrable; fun_prop),
      intervalIntegral.integral_const_mul, integral_id, intervalIntegral.integral_const]
    norm_num

/-- **C67 (no points).**  Zero points fail the assertion. -/
theorem C67_zero (S : Stev) (α β : ℝ) (s : Rule) (jdiag jsub jvals jvecs jd : ℕ → ℝ) :
    gaussJacobi S 0 α β s jdiag jsub jvals jvecs jd = none := by
  unfold gaussJacobi
  rw [if_neg (by omega), if_neg (by omega)]

/-- A `dstev` meeting the contract exists, by the spectral theorem, whatever it leaves in the subdiagonal. -/
theorem stev_exists (left : ℕ → (ℕ → ℝ) → (ℕ → ℝ) → ℕ → ℝ) : ∃ S : Stev, S.Correct ∧ S.left = left := by
  classical
  have ex : ∀ n d e, ∃ l z : ℕ → ℝ, (∀ j < n, ∀ i < n, ∑ k ∈ range n, tri d e i k * z (k + n * j) = l j * z (i + n * j)) ∧
      (∀ j < n, ∀ j' < n, ∑ i ∈ range n, z (i + n * j) * z (i + n * j') = if j = j' then 1 else 0) ∧
      ∀ j j', j ≤ j' → j' < n → l j ≤ l j' := by
    intro n d e
    rcases Nat.eq_zero_or_pos n with rfl | hn
    · exact ⟨fun _ => 0, fun _ => 0, fun j hj => absurd hj (by omega), fun j hj => absurd hj (by omega),
        fun _ _ _ _ => le_rfl⟩
    let T : Matrix (Fin n) (Fin n) ℝ := fun i k => tri d e i k
    have hT : T.IsHermitian := by
      ext i k
      show (starRingEnd ℝ) (tri d e k i) = tri d e i k
      rw [conj_trivial]
      unfold tri
      split_ifs <;> first | rfl | omega | (rename_i h; rw [h])
    let σ := Tuple.sort hT.eigenvalues
    let b := fun j => hT.eigenvectorBasis (σ j)
    have e1 : ∀ (i j : Fin n), ((i : ℕ) + n * j) % n = i := fun i j => by rw [Nat.add_mul_mod_self_left, Nat.mod_eq_of_lt i.2]
    have e2 : ∀ (i j : Fin n), ((i : ℕ) + n * j) / n % n = j := fun i j => by
      rw [Nat.add_mul_div_left _ _ hn, Nat.div_eq_of_lt i.2, zero_add, Nat.mod_eq_of_lt j.2]
    let z : ℕ → ℝ := fun p => b ⟨p / n % n, Nat.mod_lt _ hn⟩ ⟨p % n, Nat.mod_lt _ hn⟩
    have hz : ∀ (i j : Fin n), z (i + n * j) = b j i := by
      intro i j
      show b ⟨((i : ℕ) + n * j) / n % n, _⟩ ⟨((i : ℕ) + n * j) % n, _⟩ = _
      simp only [e1, e2]
    refine ⟨fun j => if h : j < n then hT.eigenvalues (σ ⟨j, h⟩) else 0, z, ?_, ?_, ?_⟩
    · intro j hj i hi
      have h := congrFun (hT.mulVec_eigenvectorBasis (σ ⟨j, hj⟩)) ⟨i, hi⟩
      rw [Matrix.mulVec, dotProduct] at h
      beta_reduce
      rw [Finset.sum_range, dif_pos hj]
      have hzi := hz ⟨i, hi⟩ ⟨j, hj⟩
      simp only [] at hzi
      rw [hzi]
      refine Eq.trans (sum_congr rfl fun k _ => ?_) h
      have := hz k ⟨j, hj⟩
      simp only [] at this
      rw [this]
    · intro j hj j' hj'
      have h := orthonormal_iff_ite.1 hT.eigenvectorBasis.orthonormal (σ ⟨j, hj⟩) (σ ⟨j', hj'⟩)
      rw [Finset.sum_range]
      simp only [EmbeddingLike.apply_eq_iff_eq, Fin.mk.injEq] at h
      rw [← h, PiLp.inner_apply]
      refine sum_congr rfl fun i _ => ?_
      have a1 := hz i ⟨j, hj⟩
      have a2 := hz i ⟨j', hj'⟩
      simp only [] at a1 a2
      rw [a1, a2]
      show _ = _ * _
      rw [star_trivial, mul_comm]
    · intro j j' hjj hj'
      beta_reduce
      rw [dif_pos hj', dif_pos (show j < n by omega)]
      exact Tuple.monotone_sort hT.eigenvalues (show (⟨j, by omega⟩ : Fin n) ≤ ⟨j', hj'⟩ from hjj)
  exact ⟨⟨fun n d e => ((ex n d e).choose, (ex n d e).choose_spec.choose, 0), left⟩, fun n d e _ =>
    ⟨rfl, (ex n d e).choose_spec.choose_spec⟩, rfl⟩

/-! ## C85: `eig_sym_tri` -/

/-- **C85 (partial: `subdiag` is not preserved, see `C85_const_negation`).**  For every symmetric tridiagonal matrix, `eig_sym_tri` returns its eigenvalues in ascending order and, in the rows of
`eigvecs`, orthonormal eigenvectors in the same order; `diag` is unchanged. -/
theorem C85_eig_partial (S : Stev) (hS : S.Correct) {n : ℕ} (hn : 0 < n) (diag subdiag eigvals : Arr ℝ) (eigvecs : Mat) (jd : ℕ → ℝ)
    (h1 : diag.size = n) (h2 : subdiag.size = n - 1) (h3 : eigvals.size = n) (h4 : eigvecs.rows = n) (h5 : eigvecs.cols = n)
    (h6 : eigvecs.Ok) :
    ∃ r, eigSymTri S diag subdiag eigvals eigvecs jd = some r ∧ r.info = 0 ∧ r.diag = diag ∧
      r.eigvals.size = n ∧ r.eigvecs.rows = n ∧ r.eigvecs.cols = n ∧ r.eigvecs.Ok ∧
      (∀ j < n, ∀ i < n, ∑ k ∈ range n, tri diag.val subdiag.val i k * r.eigvecs.val j k = r.eigvals.val j * r.eigvecs.val j i) ∧
      (∀ j < n, ∀ j' < n, ∑ k ∈ range n, r.eigvecs.val j k * r.eigvecs.val j' k = if j = j' then 1 else 0) ∧
      ∀ j j', j ≤ j' → j' < n → r.eigvals.val j ≤ r.eigvals.val j' := by
  obtain ⟨c, e3, c1, c2, -⟩ := fill1 (n := diag.size) (body := fun i (a : Arr ℝ) => do
      let v ← diag.get i
      a.set i v) (v := diag.val) ⟨diag.size, jd⟩
    (by
      intro k b hk hb
      simp only [Option.bind_eq_bind]
      rw [Arr.get_lt hk, Option.bind_some]
      exact Arr.set_lt _ (by rw [hb]; exact hk))
  obtain ⟨vals, e4, v1, v2, -⟩ := fill1 (n := diag.size) (body := fun i (a : Arr ℝ) => do
      let v ← (⟨diag.size, (S.run diag.size c.val subdiag.val).1⟩ : Arr ℝ).get i
      a.set i v) (v := (S.run diag.size c.val subdiag.val).1) eigvals
    (by
      intro k b hk hb
      simp only [Option.bind_eq_bind]
      rw [Arr.get_lt (a := ⟨diag.size, (S.run diag.size c.val subdiag.val).1⟩) hk, Option.bind_some]
      exact Arr.set_lt _ (by rw [hb]; omega))
  have eig : eigSymTri S diag subdiag eigvals eigvecs jd =
      some ⟨diag, ⟨subdiag.size, S.left diag.size c.val subdiag.val⟩, vals,
        ⟨eigvecs.rows, eigvecs.cols, ⟨eigvecs.data.size, (S.run diag.size c.val subdiag.val).2.1⟩⟩,
        (S.run diag.size c.val subdiag.val).2.2⟩ := by
    unfold eigSymTri
    rw [if_pos ⟨by omega, by omega, by omega, by omega⟩]
    show (loopM _ _ _).bind _ = _
    rw [e3, Option.bind_some]
    show (loopM _ _ _).bind _ = _
    rw [e4]; rfl
  rw [h1] at eig v2 c2
  obtain ⟨k1, k2, k3, k4⟩ := hS n c.val subdiag.val hn
  have hcol : ∀ j k, (S.run n c.val subdiag.val).2.1 (j * eigvecs.cols + k) = (S.run n c.val subdiag.val).2.1 (k + n * j) := by
    intro j k; rw [h5, mul_comm j n, add_comm]
  refine ⟨_, eig, k1, rfl, by rw [v1, h3], h4, h5, h6, ?_, ?_, ?_⟩
  · intro j hj i hi
    show ∑ k ∈ range n, _ * (S.run n c.val subdiag.val).2.1 (j * eigvecs.cols + k) = vals.val j *
      (S.run n c.val subdiag.val).2.1 (j * eigvecs.cols + i)
    rw [v2 j hj, hcol, ← k2 j hj i hi]
    refine sum_congr rfl fun k hk => ?_
    have hk := mem_range.1 hk
    rw [hcol]
    congr 1
    unfold tri
    split
    · rw [c2 i hi]
    · rfl
  · intro j hj j' hj'
    show ∑ k ∈ range n, (S.run n c.val subdiag.val).2.1 (j * eigvecs.cols + k) *
      (S.run n c.val subdiag.val).2.1 (j' * eigvecs.cols + k) = _
    simp only [hcol]
    exact k3 j hj j' hj'
  · intro j j' h hj'
    show vals.val j ≤ vals.val j'
    rw [v2 j (by omega), v2 j' hj']
    exact k4 j j' h hj'

/-- **C85** fails for the input `subdiag`, which is declared `const`: with a LAPACK meeting its contract (which leaves zeros in its
argument, as the reference implementation does) the subdiagonal is lost. -/
theorem C85_const_negation : ∃ S : Stev, S.Correct ∧ ∃ (diag subdiag eigvals : Arr ℝ) (eigvecs : Mat) (jd : ℕ → ℝ) (r : Eig),
    eigSymTri S diag subdiag eigvals eigvecs jd = some r ∧ r.info = 0 ∧ subdiag.val 0 = 1 ∧ r.subdiag.val 0 = 0 := by
  obtain ⟨S, hS, hl⟩ := stev_exists (fun _ _ _ _ => 0)
  obtain ⟨r, e, hi, -⟩ := C85_eig_partial S hS (n := 2) (by norm_num) ⟨2, fun _ => 0⟩ ⟨1, fun _ => 1⟩ ⟨2, fun _ => 7⟩
    ⟨2, 2, ⟨4, fun _ => 7⟩⟩ (fun _ => 7) rfl rfl rfl rfl rfl rfl
  refine ⟨S, hS, _, _, _, _, _, r, e, hi, rfl, ?_⟩
  unfold eigSymTri at e
  rw [if_pos ⟨rfl, rfl, rfl, rfl⟩] at e
  obtain ⟨c, -, e⟩ := Option.bind_eq_some_iff.1 e
  obtain ⟨v, -, e⟩ := Option.bind_eq_some_iff.1 e
  rw [← Option.some.inj e]
  show S.left _ _ _ 0 = 0
  rw [hl]

/-- The theorem applies for instance to five Chebyshev points. -/
example (S : Stev) (hS : S.Correct) : ∃ r : Rule, gaussJacobi S 5 (-1 / 2) (-1 / 2) ⟨⟨5, fun _ => 0⟩, ⟨5, fun _ => 0⟩⟩
    (fun _ => 7) (fun _ => 7) (fun _ => 7) (fun _ => 7) (fun _ => 7) = some r ∧ Exact 5 10 (-1 / 2) (-1 / 2) r := by
  obtain ⟨r, e, h, -⟩ := C67_exact_partial S hS 5 (by norm_num) (-1 / 2) (-1 / 2) (by norm_num) (by norm_num)
    ⟨⟨5, fun _ => 0⟩, ⟨5, fun _ => 0⟩⟩ (fun _ => 7) (fun _ => 7) (fun _ => 7) (fun _ => 7) (fun _ => 7) le_rfl le_rfl
  exact ⟨r, e, h⟩

end Verif.Golub
