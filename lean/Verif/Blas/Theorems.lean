import Verif.Blas.Lemmas
import Mathlib.Tactic.IntervalCases

/-!
# C50: matrix-vector and matrix-matrix products; C66 (part): transposition
-/

namespace Verif.Blas
open Finset

/-- **C50 (`matvec`, square matrices and single columns).**  The product, whatever the uninitialised memory holds. -/
theorem C50_matvec_partial (A : Mat) (x y : Arr ℝ) (junk : ℕ → ℝ) (hA : A.Ok) (hx : x.size = A.cols) (hy : y.size = A.rows)
    (h0 : 0 < A.cols) (h1 : 0 < A.rows) (hs : A.rows = A.cols ∨ A.cols = 1) :
    ∃ y', matvec A x y junk = some y' ∧ y'.size = A.rows ∧ ∀ i < A.rows, y'.val i = ∑ j ∈ range A.cols, A.val i j * x.val j := by
  obtain ⟨a, e, hsz, h2⟩ := pack_good hA junk hs
  unfold matvec
  rw [if_pos ⟨hy, hx.symm⟩]
  show ∃ y', (pack A junk).bind _ = _ ∧ _
  rw [e, Option.bind_some]
  obtain ⟨y', e', h3, h4⟩ := gemv_spec (m := A.rows) (n := A.cols) (a := a) (lda := A.rows) (x := x) (y := y) h1 h0 le_rfl hy hx (by
    intro i hi j hj
    have := idx_lt hj hi; rw [hsz, mul_comm A.rows A.cols]; rw [mul_comm] at this; omega)
  refine ⟨y', e', h3, ?_⟩
  intro i hi
  rw [h4 i hi]
  refine sum_congr rfl fun j hj => ?_
  rw [h2 i hi j (mem_range.1 hj), mul_comm]

/-- **C50 (`matvec`, the claim fails).**  For every matrix with more columns than rows the packed copy is overrun; for every matrix
with more rows than columns and at least two columns, and every vector whose last entry is not zero, the result depends on
uninitialised memory and is wrong for some contents of it. -/
theorem C50_matvec_negation (A : Mat) (x y : Arr ℝ) (hA : A.Ok) (hx : x.size = A.cols) (hy : y.size = A.rows) (h1 : 1 ≤ A.rows) :
    (A.rows < A.cols → ∀ junk, matvec A x y junk = none) ∧
    (2 ≤ A.cols → A.cols < A.rows → x.val (A.cols - 1) ≠ 0 →
      ∃ junk y', matvec A x y junk = some y' ∧ y'.val (A.rows - 1) ≠ ∑ j ∈ range A.cols, A.val (A.rows - 1) j * x.val j) := by
  constructor
  · intro h junk
    unfold matvec
    rw [if_pos ⟨hy, hx.symm⟩]
    show (pack A junk).bind _ = _
    rw [pack_wide junk h1 h]; rfl
  · intro h2 h3 hne
    have run : ∀ junk : ℕ → ℝ, ∃ a y', matvec A x y junk = some y' ∧ pack A junk = some a ∧
        a.val (A.rows * A.cols - 1) = junk (A.rows * A.cols - 1) ∧
          y'.val (A.rows - 1) = ∑ j ∈ range A.cols, x.val j * a.val (A.rows - 1 + A.rows * j) := by
      intro junk
      obtain ⟨a, e, s1, s2, -⟩ := pack_tall hA junk (by omega)
      obtain ⟨y', e', -, h4⟩ := gemv_spec (m := A.rows) (n := A.cols) (a := a) (lda := A.rows) (x := x) (y := y) (by omega) (by omega) le_rfl hy hx (by
        intro i hi j hj
        have := idx_lt hj hi; rw [s1, mul_comm A.rows A.cols]; rw [mul_comm] at this; omega)
      refine ⟨a, y', ?_, e, s2 h2 h3, h4 _ (by omega)⟩
      unfold matvec
      rw [if_pos ⟨hy, hx.symm⟩]
      show (pack A junk).bind _ = _
      rw [e, Option.bind_some]; exact e'
    obtain ⟨a0, y0, m0, p0, v0, r0⟩ := run (fun _ => 0)
    obtain ⟨a1, y1, m1, p1, v1, r1⟩ := run (store (fun _ => 0) (A.rows * A.cols - 1) 1)
    obtain ⟨n, hn⟩ := Nat.exists_eq_succ_of_ne_zero (show A.cols ≠ 0 by omega)
    have e1 : A.cols - 1 = n := by omega
    have el : A.rows - 1 + A.rows * n = A.rows * A.cols - 1 := by rw [hn, Nat.mul_succ]; omega
    have diff : y1.val (A.rows - 1) = y0.val (A.rows - 1) + x.val (A.cols - 1) := by
      rw [r0, r1, e1, hn, sum_range_succ, sum_range_succ, el, v1, v0, store_same, mul_zero, add_zero, mul_one]
      congr 1
      refine sum_congr rfl fun j hj => ?_
      have hj := mem_range.1 hj
      rw [pack_det hA (by omega) p1 p0 (p := A.rows - 1 + A.rows * j) (store_ne _ _ (by
        have : A.rows * j < A.rows * n := (Nat.mul_lt_mul_left (by omega)).2 hj
        omega))]
    by_cases h : y0.val (A.rows - 1) = ∑ j ∈ range A.cols, A.val (A.rows - 1) j * x.val j
    · refine ⟨_, y1, m1, ?_⟩
      rw [diff, h]
      intro hc
      exact hne (by linarith)
    · exact ⟨_, y0, m0, h⟩

/-- **C50 (`matvec`, no columns).**  The product of a matrix without columns is the zero vector, but `dgemv` returns at once when a
dimension is 0, without applying `beta = 0`: the destination keeps whatever it held. -/
theorem C50_empty_negation (A : Mat) (x y : Arr ℝ) (junk : ℕ → ℝ) (hc : A.cols = 0) (h1 : 1 ≤ A.rows) (hx : x.size = 0)
    (hy : y.size = A.rows) :
    matvec A x y junk = some y ∧
      ((∃ i < A.rows, y.val i ≠ 0) → ¬ ∀ i < A.rows, y.val i = ∑ j ∈ range A.cols, A.val i j * x.val j) := by
  constructor
  · unfold matvec
    rw [if_pos ⟨hy, by rw [hc, hx]⟩]
    have e : ∀ m, loopM m (fun i => loopM A.cols fun j (a : Arr ℝ) => do
        let v ← A.get i j
        a.set (i + A.cols * j) v) (⟨A.rows * A.cols, junk⟩ : Arr ℝ) = some ⟨A.rows * A.cols, junk⟩ := by
      intro m
      induction m with
      | zero => rfl
      | succ m ih => rw [loopM_succ, ih, Option.bind_some, hc]; rfl
    show (pack A junk).bind _ = _
    rw [show pack A junk = some ⟨A.rows * A.cols, junk⟩ from e A.rows, Option.bind_some]
    unfold gemv
    rw [if_neg (by omega), if_pos (Or.inr hc)]
  · rintro ⟨i, hi, hn⟩ h
    exact hn (by rw [h i hi, hc]; simp)

/-- A 2 × 0 matrix: the old contents `(7, 7)` stay. -/
example : matvec ⟨2, 0, ⟨0, fun _ => 0⟩⟩ ⟨0, fun _ => 0⟩ ⟨2, fun _ => 7⟩ (fun _ => 0) = some ⟨2, fun _ => 7⟩ :=
  (C50_empty_negation ⟨2, 0, ⟨0, fun _ => 0⟩⟩ _ _ _ rfl (by norm_num) rfl rfl).1

/-- What the wrapper should compute. -/
def IsProd (A B C : Mat) : Prop :=
  ∀ i < A.rows, ∀ j < B.cols, C.val i j = ∑ l ∈ range A.cols, A.val i l * B.val l j

theorem unpack_spec {m n : ℕ} {c : Arr ℝ} {C : Mat} (hC : C.Ok) (hr : C.rows = m) (hc : C.cols = n)
    (hin : ∀ i < m, ∀ j < n, i + n * j < c.size) :
    ∃ C', loopM n (fun j => loopM m fun i (C : Mat) => do
      let v ← c.get (i + n * j)
      C.set i j v) C = some C' ∧ C'.rows = m ∧ C'.cols = n ∧ C'.Ok ∧ ∀ i < m, ∀ j < n, C'.val i j = c.val (i + n * j) := by
  obtain ⟨C', e, h1, h2, h3, h4⟩ := loopM2_spec (n := n) (w := m) (body := fun j i (C : Mat) => do
      let v ← c.get (i + n * j)
      C.set i j v) (s := C)
    (fun t (C' : Mat) => C'.rows = m ∧ C'.cols = n ∧ C'.Ok ∧ ∀ i < m, ∀ j < n, m * j + i < t → C'.val i j = c.val (i + n * j))
    ⟨hr, hc, hC, fun i _ j _ h => absurd h (by omega)⟩
    (by
      rintro j i ⟨r, k, d⟩ hj hi ⟨a1, a2, a3, a4⟩
      simp only [] at a1 a2
      subst a1 a2
      unfold Mat.Ok at a3
      simp only [] at a3
      have hp : i * k + j < d.size := by rw [a3]; exact idx_lt hi hj
      refine ⟨⟨r, k, ⟨d.size, store d.val (i * k + j) (c.val (i + k * j))⟩⟩, ?_, rfl, rfl, a3, ?_⟩
      · simp only [Option.bind_eq_bind]
        rw [Arr.get_lt (hin i hi j hj), Option.bind_some]
        unfold Mat.set
        simp only [Option.bind_eq_bind]
        rw [Arr.set_lt _ hp, Option.bind_some]; rfl
      · intro i' hi' j' hj' ht
        show store d.val _ _ (i' * k + j') = _
        by_cases h : i' = i ∧ j' = j
        · obtain ⟨rfl, rfl⟩ := h
          exact store_same _ _ _
        · rw [store_ne _ _ (fun he => h (idx_inj hj' hj he))]
          refine a4 i' hi' j' hj' ?_
          by_contra hge
          have hh : j' * r + i' = j * r + i := by rw [mul_comm j' r, mul_comm j r]; omega
          obtain ⟨q1, q2⟩ := idx_inj hi' hi hh
          exact h ⟨q2, q1⟩)
  refine ⟨C', e, h1, h2, h3, ?_⟩
  intro i hi j hj
  refine h4 i hi j hj ?_
  have := idx_lt hj hi
  rw [mul_comm m j, mul_comm m n]; exact this

/-- `matmul` when both packings stay in bounds and the result is not wider than tall. -/
theorem matmul_run {A B C : Mat} (ja jb jc : ℕ → ℝ) (hk : A.cols = B.rows) (hr : C.rows = A.rows) (hc : C.cols = B.cols) (hC : C.Ok)
    (h1 : 0 < A.rows) (h2 : 0 < B.cols) (h0 : 0 < A.cols) (h3 : B.cols ≤ A.rows) {a b : Arr ℝ} (ea : pack A ja = some a) (sa : a.size = A.rows * A.cols)
    (eb : pack B jb = some b) (sb : b.size = B.rows * B.cols) :
    ∃ (C' : Mat) (c : ℕ → ℝ), matmul A B C ja jb jc = some C' ∧ C'.rows = A.rows ∧ C'.cols = B.cols ∧
      (∀ i < A.rows, ∀ j < B.cols, C'.val i j = c (i + B.cols * j)) ∧
      ∀ i < A.rows, ∀ j < B.cols, c (i + A.rows * j) = ∑ l ∈ range A.cols, b.val (l + B.rows * j) * a.val (i + A.rows * l) := by
  obtain ⟨c, ec, sc, vc⟩ := gemm_spec (m := A.rows) (n := B.cols) (k := A.cols) (a := a) (lda := A.rows) (b := b) (ldb := B.rows)
    (c := ⟨A.rows * B.cols, jc⟩) h1 h2 h0 le_rfl hk.le rfl
    (by intro i hi l hl; have := idx_lt hl hi; rw [sa, mul_comm A.rows A.cols]; rw [mul_comm l] at this; omega)
    (by intro l hl j hj; rw [hk] at hl; have := idx_lt hj hl; rw [sb, mul_comm B.rows B.cols]; rw [mul_comm j] at this; omega)
  obtain ⟨C', eC, r1, r2, -, vC⟩ := unpack_spec (m := A.rows) (n := B.cols) (c := c) hC hr hc (by
    intro i hi j hj
    have := tall_bound hi hj h3
    rw [sc]; omega)
  refine ⟨C', c.val, ?_, r1, r2, vC, vc⟩
  unfold matmul
  rw [if_pos hk]
  show (pack A ja).bind _ = _
  rw [ea, Option.bind_some]
  show (pack B jb).bind _ = _
  rw [eb, Option.bind_some]
  show (gemm _ _ _ _ _ _ _ _ _).bind _ = _
  rw [ec, Option.bind_some]
  exact eC

/-- **C50 (`matmul`, square matrices and columns).**  The product of two square matrices, of a square matrix with a column, and of a
column with a one-by-one matrix, whatever the uninitialised memory holds. -/
theorem C50_matmul_partial (A B C : Mat) (ja jb jc : ℕ → ℝ) (hA : A.Ok) (hB : B.Ok) (hC : C.Ok) (hk : A.cols = B.rows)
    (hr : C.rows = A.rows) (hc : C.cols = B.cols) (h1 : 0 < A.rows) (h2 : 0 < B.cols)
    (hs : (A.rows = A.cols ∨ A.cols = 1) ∧ (B.cols = B.rows ∨ B.cols = 1) ∧ (B.cols = A.rows ∨ B.cols = 1)) :
    ∃ C', matmul A B C ja jb jc = some C' ∧ C'.rows = A.rows ∧ C'.cols = B.cols ∧ IsProd A B C' := by
  obtain ⟨a, ea, sa, va⟩ := pack_good hA ja hs.1
  obtain ⟨b, eb, sb, vb⟩ := pack_good hB jb (by rcases hs.2.1 with h | h; exacts [Or.inl h.symm, Or.inr h])
  obtain ⟨C', c, e, r1, r2, v1, v2⟩ := matmul_run ja jb jc hk hr hc hC h1 h2 (by omega) (by rcases hs.2.2 with h | h <;> omega) ea sa eb sb
  refine ⟨C', e, r1, r2, ?_⟩
  intro i hi j hj
  have : c (i + B.cols * j) = c (i + A.rows * j) := by
    rcases hs.2.2 with h | h
    · rw [h]
    · have : j = 0 := by omega
      subst this; simp
  rw [v1 i hi j hj, this, v2 i hi j hj]
  refine sum_congr rfl fun l hl => ?_
  have hl := mem_range.1 hl
  rw [va i hi l hl, vb l (by omega) j hj, mul_comm]

/-- **C50 (`matmul`, the claim fails).**  (1) If the first factor, the second factor or the result has more columns than rows, an
array is overrun.  (2) If the first factor has more rows than columns and at least two columns, then its product with any single column
whose last entry is not zero is wrong for some contents of the uninitialised memory.  (3) A square matrix times a matrix with fewer but at least
two columns is wrong already for the identity matrix. -/
theorem C50_matmul_negation (A B C : Mat) (hA : A.Ok) (hB : B.Ok) (hC : C.Ok) (hk : A.cols = B.rows) (hr : C.rows = A.rows)
    (hc : C.cols = B.cols) (h1 : 0 < A.rows) (h2 : 0 < B.cols) (h3 : 0 < A.cols) :
    (A.rows < A.cols ∨ B.rows < B.cols ∨ A.rows < B.cols → ∀ ja jb jc, matmul A B C ja jb jc = none) ∧
    (2 ≤ A.cols → A.cols < A.rows → B.cols = 1 → B.val (A.cols - 1) 0 ≠ 0 →
      ∃ ja jb jc C', matmul A B C ja jb jc = some C' ∧ ¬ IsProd A B C') ∧
    (A.rows = A.cols → (∀ i < A.rows, ∀ j < A.rows, A.val i j = if i = j then 1 else 0) → 2 ≤ B.cols → B.cols < B.rows →
      B.val B.cols 0 ≠ B.val 0 1 → ∀ ja jb jc, ∃ C', matmul A B C ja jb jc = some C' ∧ ¬ IsProd A B C') := by
  refine ⟨?_, ?_, ?_⟩
  · intro h ja jb jc
    unfold matmul
    rw [if_pos hk]
    show (pack A ja).bind _ = _
    rcases lt_or_ge A.rows A.cols with ha | ha
    · rw [pack_wide ja h1 ha]; rfl
    obtain ⟨a, ea, sa, -⟩ := pack_tall hA ja ha
    rw [ea, Option.bind_some]
    show (pack B jb).bind _ = _
    rcases lt_or_ge B.rows B.cols with hb | hb
    · rw [pack_wide jb (by omega) hb]; rfl
    obtain ⟨b, eb, sb, -⟩ := pack_tall hB jb hb
    exact absurd h (by omega)
  · intro h4 h5 h6 hne
    obtain ⟨b, eb, sb, vb⟩ := pack_good hB (fun _ => 0) (Or.inr h6)
    have run : ∀ junk : ℕ → ℝ, ∃ a C', matmul A B C junk (fun _ => 0) (fun _ => 0) = some C' ∧ pack A junk = some a ∧
        a.val (A.rows * A.cols - 1) = junk (A.rows * A.cols - 1) ∧
          C'.val (A.rows - 1) 0 = ∑ l ∈ range A.cols, B.val l 0 * a.val (A.rows - 1 + A.rows * l) := by
      intro junk
      obtain ⟨a, ea, sa, s2, -⟩ := pack_tall hA junk (by omega)
      obtain ⟨C', c, e, -, -, v1, v2⟩ := matmul_run junk (fun _ => 0) (fun _ => 0) hk hr hc hC h1 h2 (by omega) (by omega) ea sa eb sb
      refine ⟨a, C', e, ea, s2 h4 h5, ?_⟩
      rw [v1 _ (by omega) 0 h2, show A.rows - 1 + B.cols * 0 = A.rows - 1 + A.rows * 0 by simp, v2 _ (by omega) 0 h2]
      refine sum_congr rfl fun l hl => ?_
      have hl := mem_range.1 hl
      rw [vb l (by omega) 0 h2]
    obtain ⟨a0, C0, m0, p0, v0, r0⟩ := run (fun _ => 0)
    obtain ⟨a1, C1, m1, p1, v1, r1⟩ := run (store (fun _ => 0) (A.rows * A.cols - 1) 1)
    obtain ⟨n, hn⟩ := Nat.exists_eq_succ_of_ne_zero (show A.cols ≠ 0 by omega)
    have e1 : A.cols - 1 = n := by omega
    have el : A.rows - 1 + A.rows * n = A.rows * A.cols - 1 := by rw [hn, Nat.mul_succ]; omega
    have diff : C1.val (A.rows - 1) 0 = C0.val (A.rows - 1) 0 + B.val (A.cols - 1) 0 := by
      rw [r0, r1, e1, hn, sum_range_succ, sum_range_succ, el, v1, v0, store_same, mul_zero, add_zero, mul_one]
      congr 1
      refine sum_congr rfl fun j hj => ?_
      have hj := mem_range.1 hj
      rw [pack_det hA (by omega) p1 p0 (p := A.rows - 1 + A.rows * j) (store_ne _ _ (by
        have : A.rows * j < A.rows * n := (Nat.mul_lt_mul_left (by omega)).2 hj
        omega))]
    by_cases h : IsProd A B C0
    · refine ⟨_, _, _, C1, m1, fun hp => hne ?_⟩
      have a := h (A.rows - 1) (by omega) 0 h2
      have b := hp (A.rows - 1) (by omega) 0 h2
      rw [diff, a] at b
      linarith
    · exact ⟨_, _, _, C0, m0, h⟩
  · intro hsq hid h4 h5 hne ja jb jc
    obtain ⟨a, ea, sa, va⟩ := pack_good hA ja (Or.inl hsq)
    obtain ⟨b, eb, sb, -, vb⟩ := pack_tall hB jb (by omega)
    obtain ⟨C', c, e, -, -, v1, v2⟩ := matmul_run ja jb jc hk hr hc hC h1 h2 (by omega) (by omega) ea sa eb sb
    refine ⟨C', e, fun hp => hne ?_⟩
    have p := hp 0 h1 1 (by omega)
    have q : C'.val 0 1 = B.val B.cols 0 := by
      rw [v1 0 h1 1 (by omega), show 0 + B.cols * 1 = B.cols + A.rows * 0 by omega, v2 _ (by omega) 0 h2, ← hsq,
        sum_eq_single B.cols]
      · rw [va B.cols (by omega) B.cols (by omega), hid _ (by omega) _ (by omega), if_pos rfl, mul_one,
          show B.cols + B.rows * 0 = B.cols + B.cols * 0 by omega]
        refine vb B.cols h5 0 h2 ?_
        intro i' hi' j' hj' hlt heq
        have h0 : j' = 0 := by
          by_contra hz
          have : B.cols * 1 ≤ B.cols * j' := Nat.mul_le_mul_left _ (by omega)
          have hi0 : i' = 0 := by omega
          subst hi0
          have : B.cols * 2 ≤ B.cols * B.cols := Nat.mul_le_mul_left _ h4
          omega
        subst h0
        have : i' = B.cols := by omega
        subst this
        omega
      · intro l hl hne'
        have hl := mem_range.1 hl
        rw [va B.cols (by omega) l (by omega), hid _ (by omega) _ (by omega), if_neg (Ne.symm hne'), mul_zero]
      · intro h; exact absurd (mem_range.2 (by omega)) h
    have r : ∑ l ∈ range A.cols, A.val 0 l * B.val l 1 = B.val 0 1 := by
      rw [sum_eq_single 0]
      · rw [hid 0 h1 0 h1, if_pos rfl, one_mul]
      · intro l hl hl0
        have hl := mem_range.1 hl
        rw [hid 0 h1 l (by omega), if_neg (Ne.symm hl0), zero_mul]
      · intro h; exact absurd (mem_range.2 h3) h
    rw [← q, p, r]

/-- **C66 (transposition).**  For every shape `transpose` fills the transposed matrix. -/
theorem C66_transpose (A B : Mat) (hA : A.Ok) (hB : B.Ok) (h1 : B.rows = A.cols) (h2 : B.cols = A.rows) :
    ∃ B', transpose A B = some B' ∧ B'.rows = A.cols ∧ B'.cols = A.rows ∧ B'.Ok ∧ ∀ i < A.rows, ∀ j < A.cols, B'.val j i = A.val i j := by
  unfold transpose
  rw [if_pos ⟨h2.symm, h1.symm⟩]
  obtain ⟨B', e, r1, r2, r3, r4⟩ := loopM2_spec (n := A.rows) (w := A.cols) (body := fun i j (B : Mat) => do
      let v ← A.get i j
      B.set j i v) (s := B)
    (fun t (B' : Mat) => B'.rows = A.cols ∧ B'.cols = A.rows ∧ B'.Ok ∧
      ∀ i < A.rows, ∀ j < A.cols, A.cols * i + j < t → B'.val j i = A.val i j)
    ⟨h1, h2, hB, fun i _ j _ h => absurd h (by omega)⟩
    (by
      rintro i j ⟨r, k, d⟩ hi hj ⟨a1, a2, a3, a4⟩
      simp only [] at a1 a2
      subst a1 a2
      unfold Mat.Ok at a3
      simp only [] at a3
      have hp : j * A.rows + i < d.size := by rw [a3]; exact idx_lt hj hi
      refine ⟨⟨A.cols, A.rows, ⟨d.size, store d.val (j * A.rows + i) (A.val i j)⟩⟩, ?_, rfl, rfl, a3, ?_⟩
      · simp only [Option.bind_eq_bind]
        rw [Mat.get_eq hA hi hj, Option.bind_some]
        unfold Mat.set
        simp only [Option.bind_eq_bind]
        rw [Arr.set_lt _ hp, Option.bind_some]; rfl
      · intro i' hi' j' hj' ht
        show store d.val _ _ (j' * A.rows + i') = _
        by_cases h : j' = j ∧ i' = i
        · obtain ⟨rfl, rfl⟩ := h
          exact store_same _ _ _
        · rw [store_ne _ _ (fun he => h (idx_inj hi' hi he))]
          refine a4 i' hi' j' hj' ?_
          by_contra hge
          have hh : i' * A.cols + j' = i * A.cols + j := by rw [mul_comm i', mul_comm i]; omega
          obtain ⟨q1, q2⟩ := idx_inj hj' hj hh
          exact h ⟨q2, q1⟩)
  refine ⟨B', e, r1, r2, r3, ?_⟩
  intro i hi j hj
  refine r4 i hi j hj ?_
  have := idx_lt hi hj
  rw [mul_comm A.cols i, mul_comm A.cols A.rows]; exact this

/-- Concrete matrices meeting the hypotheses: 3 by 3 and 3 by 2 with distinct entries. -/
example : ∃ A B : Mat, A.Ok ∧ B.Ok ∧ A.rows = 3 ∧ A.cols = 3 ∧ A.cols = B.rows ∧ B.cols = 2 ∧ A.rows = A.cols ∧
    (∀ i < A.rows, ∀ j < A.rows, A.val i j = if i = j then 1 else 0) ∧ B.val B.cols 0 ≠ B.val 0 1 :=
  ⟨⟨3, 3, ⟨9, fun p => if p % 4 = 0 then 1 else 0⟩⟩, ⟨3, 2, ⟨6, fun p => p⟩⟩, rfl, rfl, rfl, rfl, rfl, rfl, rfl, by
    intro i hi j hj
    simp only [] at hi hj
    interval_cases i <;> interval_cases j <;> simp [Mat.val], by norm_num [Mat.val]⟩

end Verif.Blas
