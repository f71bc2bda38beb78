import Verif.Blas.Model
import Mathlib.Tactic.Linarith

/-!
# Lemmas on packing and on the reference BLAS loops
-/

namespace Verif.Blas
open Finset

/-- Two nested loops that each store one value: the last store to a position wins. -/
theorem scatter2 {n w : ℕ} {body : ℕ → ℕ → Arr ℝ → Option (Arr ℝ)} (P : ℕ → ℕ → ℕ) (V : ℕ → ℕ → ℝ) (a0 : Arr ℝ)
    (hb : ∀ c l a, c < n → l < w → a.size = a0.size → body c l a = some ⟨a0.size, store a.val (P c l) (V c l)⟩) :
    ∃ a', loopM n (fun c => loopM w (body c)) a0 = some a' ∧ a'.size = a0.size ∧
      (∀ p, (∀ c < n, ∀ l < w, P c l ≠ p) → a'.val p = a0.val p) ∧
      ∀ c < n, ∀ l < w, (∀ c' < n, ∀ l' < w, w * c + l < w * c' + l' → P c' l' ≠ P c l) → a'.val (P c l) = V c l := by
  obtain ⟨a', e, h1, h2, h3⟩ := loopM2_spec (n := n) (w := w) (body := body) (s := a0)
    (fun t (a : Arr ℝ) => a.size = a0.size ∧
      (∀ p, (∀ c < n, ∀ l < w, w * c + l < t → P c l ≠ p) → a.val p = a0.val p) ∧
      ∀ c < n, ∀ l < w, w * c + l < t → (∀ c' < n, ∀ l' < w, w * c' + l' < t → w * c + l < w * c' + l' → P c' l' ≠ P c l) →
        a.val (P c l) = V c l)
    ⟨rfl, fun p _ => rfl, fun c _ l _ h => absurd h (by omega)⟩
    (by
      intro c l a hc hl ⟨a1, a2, a3⟩
      refine ⟨_, hb c l a hc hl a1, rfl, ?_, ?_⟩
      · intro p hp
        show store a.val (P c l) (V c l) p = _
        rw [store_ne _ _ (fun h => hp c hc l hl (by omega) h.symm)]
        exact a2 p fun c' hc' l' hl' h => hp c' hc' l' hl' (by omega)
      · intro c' hc' l' hl' ht hn
        show store a.val (P c l) (V c l) (P c' l') = _
        by_cases h : w * c' + l' = w * c + l
        · have hcc : c' = c := by
            have e1 : (w * c' + l') / w = c' := by rw [Nat.mul_add_div (by omega), Nat.div_eq_of_lt hl', add_zero]
            have e2 : (w * c + l) / w = c := by rw [Nat.mul_add_div (by omega), Nat.div_eq_of_lt hl, add_zero]
            rw [← e1, ← e2, h]
          subst hcc
          have : l' = l := by omega
          subst this
          exact store_same _ _ _
        · rw [store_ne _ _ (fun h2 => hn c hc l hl (by omega) (by omega) h2.symm)]
          exact a3 c' hc' l' hl' (by omega) fun c'' hc'' l'' hl'' h4 h5 => hn c'' hc'' l'' hl'' (by omega) h5)
  refine ⟨a', e, h1, ?_, ?_⟩
  · intro p hp
    exact h2 p fun c hc l hl _ => hp c hc l hl
  · intro c hc l hl hn
    have : ∀ c < n, ∀ l < w, w * c + l < w * n := fun c hc l hl => calc
      w * c + l < w * c + w := by omega
      _ = w * (c + 1) := by ring
      _ ≤ w * n := Nat.mul_le_mul_left _ hc
    exact h3 c hc l hl (this c hc l hl) fun c' hc' l' hl' _ h => hn c' hc' l' hl' h

/-- `A(i, j)` -/
def Mat.val (A : Mat) (i j : ℕ) : ℝ := A.data.val (i * A.cols + j)
/-- The storage of the matrix matches its shape. -/
def Mat.Ok (A : Mat) : Prop := A.data.size = A.rows * A.cols

theorem idx_lt {i j r c : ℕ} (hi : i < r) (hj : j < c) : i * c + j < r * c := calc
  i * c + j < i * c + c := by omega
  _ = (i + 1) * c := by ring
  _ ≤ r * c := Nat.mul_le_mul_right _ hi

theorem Mat.get_eq {A : Mat} (h : A.Ok) {i j : ℕ} (hi : i < A.rows) (hj : j < A.cols) : A.get i j = some (A.val i j) :=
  Arr.get_lt (by rw [h]; exact idx_lt hi hj)

theorem idx_inj {c i j i' j' : ℕ} (hj : j < c) (hj' : j' < c) (h : i * c + j = i' * c + j') : i = i' ∧ j = j' := by
  have e1 : (i * c + j) / c = i := by rw [mul_comm, Nat.mul_add_div (by omega), Nat.div_eq_of_lt hj, add_zero]
  have e2 : (i' * c + j') / c = i' := by rw [mul_comm, Nat.mul_add_div (by omega), Nat.div_eq_of_lt hj', add_zero]
  have : i = i' := by rw [← e1, ← e2, h]
  subst this
  exact ⟨rfl, by omega⟩

theorem pack_spec {A : Mat} (h : A.Ok) (junk : ℕ → ℝ) (hin : ∀ i < A.rows, ∀ j < A.cols, i + A.cols * j < A.rows * A.cols) :
    ∃ a, pack A junk = some a ∧ a.size = A.rows * A.cols ∧
      (∀ p, (∀ i < A.rows, ∀ j < A.cols, i + A.cols * j ≠ p) → a.val p = junk p) ∧
      ∀ i < A.rows, ∀ j < A.cols, (∀ i' < A.rows, ∀ j' < A.cols, A.cols * i + j < A.cols * i' + j' → i' + A.cols * j' ≠ i + A.cols * j) →
        a.val (i + A.cols * j) = A.val i j := by
  refine scatter2 (n := A.rows) (w := A.cols) (fun i j => i + A.cols * j) (fun i j => A.val i j) ⟨A.rows * A.cols, junk⟩ ?_
  intro i j a hi hj ha
  simp only [Option.bind_eq_bind]
  simp only [] at ha
  rw [Mat.get_eq h hi hj, Option.bind_some, Arr.set_lt _ (by rw [ha]; exact hin i hi j hj), ha]

/-- Packing a square matrix, or a single column: column-major copy with leading dimension `rows`. -/
theorem pack_good {A : Mat} (h : A.Ok) (junk : ℕ → ℝ) (hs : A.rows = A.cols ∨ A.cols = 1) :
    ∃ a, pack A junk = some a ∧ a.size = A.rows * A.cols ∧ ∀ i < A.rows, ∀ j < A.cols, a.val (i + A.rows * j) = A.val i j := by
  obtain ⟨a, e, h1, -, h2⟩ := pack_spec h junk (by
    intro i hi j hj
    rcases hs with hs | hs
    · rw [← hs] at hj ⊢
      have := idx_lt hj hi; rw [mul_comm] at this; omega
    · rw [hs] at hj ⊢; omega)
  refine ⟨a, e, h1, ?_⟩
  intro i hi j hj
  have key := h2 i hi j hj
  rcases hs with hs | hs
  · rw [← hs] at key hj
    refine key fun i' hi' j' hj' hlt heq => ?_
    obtain ⟨h3, h4⟩ := idx_inj (c := A.rows) (i := j') (j := i') (i' := j) (j' := i) hi' hi (by rw [mul_comm, add_comm, heq]; ring)
    rw [h3, h4] at hlt
    omega
  · have hj0 : j = 0 := by omega
    subst hj0
    have := key fun i' hi' j' hj' hlt heq => by
      have : j' = 0 := by omega
      subst this
      simp at heq hlt
      rw [hs] at hlt; omega
    simpa using this

/-- A wide matrix overruns the packed array. -/
theorem pack_wide {A : Mat} (junk : ℕ → ℝ) (h1 : 1 ≤ A.rows) (h2 : A.rows < A.cols) : pack A junk = none := by
  unfold pack
  refine loopM_none (fun _ (a : Arr ℝ) => a.size = A.rows * A.cols) rfl ?_ (i := 0) (by omega) ?_
  · intro i a a' _ ha hb
    refine loopM_inv hb (fun _ (b : Arr ℝ) => b.size = A.rows * A.cols) ha ?_
    intro j b b' _ hb' e
    simp only [Option.bind_eq_bind] at e
    obtain ⟨v, -, e⟩ := Option.bind_eq_some_iff.1 e
    unfold Arr.set at e
    split_ifs at e
    cases e; exact hb'
  · intro a ha
    refine loopM_none (fun _ (b : Arr ℝ) => b.size = A.rows * A.cols) ha ?_ (i := A.cols - 1) (by omega) ?_
    · intro j b b' _ hb' e
      simp only [Option.bind_eq_bind] at e
      obtain ⟨v, -, e⟩ := Option.bind_eq_some_iff.1 e
      unfold Arr.set at e
      split_ifs at e
      cases e; exact hb'
    · intro b hb
      have : b.size ≤ 0 + A.cols * (A.cols - 1) := by
        rw [hb, zero_add, mul_comm]; exact Nat.mul_le_mul_left _ (by omega)
      simp only [Option.bind_eq_bind]
      cases A.get 0 (A.cols - 1) with
      | none => rfl
      | some v => rw [Option.bind_some, Arr.set_ge _ this]

theorem tall_bound {m n i j : ℕ} (hi : i < m) (hj : j < n) (h : n ≤ m) : i + n * j + (m - n) * (n - 1) < m * n := by
  obtain ⟨d, rfl⟩ := Nat.exists_eq_add_of_le h
  obtain ⟨r, rfl⟩ := Nat.exists_eq_add_of_le (show 1 ≤ n by omega)
  have : (1 + r) * j ≤ (1 + r) * r := Nat.mul_le_mul_left _ (by omega)
  rw [show 1 + r + d - (1 + r) = d by omega, show 1 + r - 1 = r by omega]
  nlinarith

/-- A tall matrix stays in bounds and leaves the last entry of the packed array unset. -/
theorem pack_tall {A : Mat} (h : A.Ok) (junk : ℕ → ℝ) (h2 : A.cols ≤ A.rows) :
    ∃ a, pack A junk = some a ∧ a.size = A.rows * A.cols ∧
      (2 ≤ A.cols → A.cols < A.rows → a.val (A.rows * A.cols - 1) = junk (A.rows * A.cols - 1)) ∧
      ∀ i < A.rows, ∀ j < A.cols, (∀ i' < A.rows, ∀ j' < A.cols, A.cols * i + j < A.cols * i' + j' → i' + A.cols * j' ≠ i + A.cols * j) →
        a.val (i + A.cols * j) = A.val i j := by
  have bound : ∀ i < A.rows, ∀ j < A.cols, i + A.cols * j + (A.rows - A.cols) * (A.cols - 1) < A.rows * A.cols := by
    exact fun i hi j hj => tall_bound hi hj h2
  obtain ⟨a, e, h3, h4, h5⟩ := pack_spec h junk (fun i hi j hj => by have := bound i hi j hj; omega)
  refine ⟨a, e, h3, ?_, h5⟩
  intro h6 h7
  refine h4 _ fun i hi j hj heq => ?_
  have := bound i hi j hj
  have : 1 ≤ (A.rows - A.cols) * (A.cols - 1) := Nat.mul_pos (by omega) (by omega)
  omega

theorem gemv_spec {m n : ℕ} {a : Arr ℝ} {lda : ℕ} {x y : Arr ℝ} (hm : 0 < m) (hn : 0 < n) (hlda : m ≤ lda) (hy : y.size = m) (hx : x.size = n)
    (ha : ∀ i < m, ∀ j < n, i + lda * j < a.size) :
    ∃ y', gemv m n a lda x y = some y' ∧ y'.size = m ∧ ∀ i < m, y'.val i = ∑ j ∈ range n, x.val j * a.val (i + lda * j) := by
  unfold gemv
  rw [if_neg (by omega), if_neg (by omega)]
  obtain ⟨y1, e1, z1, z2⟩ := loopM_spec (n := m) (body := fun i (y : Arr ℝ) => y.set i 0) (s := y)
    (fun k (y' : Arr ℝ) => y'.size = m ∧ ∀ i < k, y'.val i = 0) ⟨hy, fun i hi => absurd hi (by omega)⟩
    (by
      intro i s hi ⟨a1, a2⟩
      refine ⟨⟨s.size, store s.val i 0⟩, Arr.set_lt _ (by omega), a1, ?_⟩
      intro p hp
      show store s.val i 0 p = 0
      by_cases h : p = i
      · subst h; exact store_same _ _ _
      · rw [store_ne _ _ h]; exact a2 p (by omega))
  obtain ⟨y2, e2, w1, w2⟩ := loopM_spec (n := n) (body := fun j (y : Arr ℝ) => do
      let t ← x.get j
      loopM m (fun i y => do
        let v ← y.get i
        let c ← a.get (i + lda * j)
        y.set i (v + t * c)) y) (s := y1)
    (fun k (y' : Arr ℝ) => y'.size = m ∧ ∀ i < m, y'.val i = ∑ j ∈ range k, x.val j * a.val (i + lda * j))
    ⟨z1, fun i hi => by rw [z2 i hi]; simp⟩
    (by
      intro j s hj ⟨a1, a2⟩
      obtain ⟨s', e, b1, b2, -⟩ := loopM_spec (n := m) (body := fun i (y : Arr ℝ) => do
          let v ← y.get i
          let c ← a.get (i + lda * j)
          y.set i (v + x.val j * c)) (s := s)
        (fun k (y' : Arr ℝ) => y'.size = m ∧ (∀ i < k, y'.val i = s.val i + x.val j * a.val (i + lda * j)) ∧
          ∀ i, k ≤ i → y'.val i = s.val i)
        ⟨a1, fun i hi => absurd hi (by omega), fun i _ => rfl⟩
        (by
          intro i s' hi ⟨c1, c2, c3⟩
          refine ⟨⟨s'.size, store s'.val i (s'.val i + x.val j * a.val (i + lda * j))⟩, ?_, c1, ?_, ?_⟩
          · simp only [Option.bind_eq_bind]
            rw [Arr.get_lt (show i < s'.size by omega), Option.bind_some, Arr.get_lt (ha i hi j hj), Option.bind_some,
              Arr.set_lt _ (show i < s'.size by omega)]
          · intro p hp
            show store s'.val i _ p = _
            by_cases h : p = i
            · subst h; rw [store_same, c3 p le_rfl]
            · rw [store_ne _ _ h]; exact c2 p (by omega)
          · intro p hp
            show store s'.val i _ p = _
            rw [store_ne _ _ (by omega)]; exact c3 p (by omega))
      refine ⟨s', ?_, b1, ?_⟩
      · show (x.get j).bind _ = _
        rw [Arr.get_lt (show j < x.size by omega), Option.bind_some]; exact e
      · intro i hi
        rw [b2 i hi, a2 i hi, sum_range_succ])
  refine ⟨y2, ?_, w1, w2⟩
  show (loopM m _ y).bind _ = _
  rw [e1, Option.bind_some]; exact e2

theorem gemm_spec {m n k : ℕ} {a : Arr ℝ} {lda : ℕ} {b : Arr ℝ} {ldb : ℕ} {c : Arr ℝ} (hm : 0 < m) (hn : 0 < n)
    (hk : 0 < k) (hlda : m ≤ lda) (hldb : k ≤ ldb)
    (hc : c.size = m * n) (ha : ∀ i < m, ∀ l < k, i + lda * l < a.size) (hb : ∀ l < k, ∀ j < n, l + ldb * j < b.size) :
    ∃ c', gemm m n k a lda b ldb c m = some c' ∧ c'.size = m * n ∧
      ∀ i < m, ∀ j < n, c'.val (i + m * j) = ∑ l ∈ range k, b.val (l + ldb * j) * a.val (i + lda * l) := by
  unfold gemm
  rw [if_neg (by omega), if_neg (by omega)]
  have hpos : ∀ i < m, ∀ j < n, i + m * j < m * n := fun i hi j hj => by
    have := idx_lt hj hi; rw [mul_comm j m, mul_comm n m] at this; omega
  have hlt : ∀ i < m, ∀ j' j, j' < j → i + m * j' < m * j := fun i hi j' j h => calc
    i + m * j' < m + m * j' := by omega
    _ = m * (j' + 1) := by ring
    _ ≤ m * j := Nat.mul_le_mul_left _ h
  obtain ⟨c', e, h1, h2⟩ := loopM_spec (n := n) (body := fun j (c : Arr ℝ) => do
      let c ← loopM m (fun i c => c.set (i + m * j) 0) c
      loopM k (fun l c => do
        let t ← b.get (l + ldb * j)
        loopM m (fun i c => do
          let v ← c.get (i + m * j)
          let u ← a.get (i + lda * l)
          c.set (i + m * j) (v + t * u)) c) c) (s := c)
    (fun q (c' : Arr ℝ) => c'.size = m * n ∧
      ∀ i < m, ∀ j < q, c'.val (i + m * j) = ∑ l ∈ range k, b.val (l + ldb * j) * a.val (i + lda * l))
    ⟨hc, fun i _ j hj => absurd hj (by omega)⟩
    (by
      intro j s hj ⟨a1, a2⟩
      obtain ⟨s1, e1, z1, z2, z3⟩ := loopM_spec (n := m) (body := fun i (c : Arr ℝ) => c.set (i + m * j) 0) (s := s)
        (fun q (s' : Arr ℝ) => s'.size = m * n ∧ (∀ i < q, s'.val (i + m * j) = 0) ∧ ∀ p, p < m * j → s'.val p = s.val p)
        ⟨a1, fun i hi => absurd hi (by omega), fun p _ => rfl⟩
        (by
          intro i s' hi ⟨b1, b2, b3⟩
          refine ⟨⟨s'.size, store s'.val (i + m * j) 0⟩, Arr.set_lt _ (by rw [b1]; exact hpos i hi j hj), b1, ?_, ?_⟩
          · intro p hp
            show store s'.val _ 0 _ = 0
            by_cases h : p = i
            · subst h; exact store_same _ _ _
            · rw [store_ne _ _ (by omega)]; exact b2 p (by omega)
          · intro p hp
            show store s'.val _ 0 _ = _
            rw [store_ne _ _ (by omega)]; exact b3 p hp)
      obtain ⟨s2, e2, y1, y2, y3⟩ := loopM_spec (n := k) (body := fun l (c : Arr ℝ) => do
          let t ← b.get (l + ldb * j)
          loopM m (fun i c => do
            let v ← c.get (i + m * j)
            let u ← a.get (i + lda * l)
            c.set (i + m * j) (v + t * u)) c) (s := s1)
        (fun q (s' : Arr ℝ) => s'.size = m * n ∧
          (∀ i < m, s'.val (i + m * j) = ∑ l ∈ range q, b.val (l + ldb * j) * a.val (i + lda * l)) ∧
          ∀ p, p < m * j → s'.val p = s.val p)
        ⟨z1, fun i hi => by rw [z2 i hi]; simp, z3⟩
        (by
          intro l s' hl ⟨b1, b2, b3⟩
          obtain ⟨s'', e, d1, d2, -, d4⟩ := loopM_spec (n := m) (body := fun i (c : Arr ℝ) => do
              let v ← c.get (i + m * j)
              let u ← a.get (i + lda * l)
              c.set (i + m * j) (v + b.val (l + ldb * j) * u)) (s := s')
            (fun q (t : Arr ℝ) => t.size = m * n ∧
              (∀ i < q, t.val (i + m * j) = s'.val (i + m * j) + b.val (l + ldb * j) * a.val (i + lda * l)) ∧
              (∀ i, q ≤ i → t.val (i + m * j) = s'.val (i + m * j)) ∧ ∀ p, p < m * j → t.val p = s.val p)
            ⟨b1, fun i hi => absurd hi (by omega), fun i _ => rfl, b3⟩
            (by
              intro i t hi ⟨c1, c2, c3, c4⟩
              have hp : i + m * j < t.size := by rw [c1]; exact hpos i hi j hj
              refine ⟨⟨t.size, store t.val (i + m * j) (t.val (i + m * j) + b.val (l + ldb * j) * a.val (i + lda * l))⟩, ?_, c1, ?_, ?_, ?_⟩
              · simp only [Option.bind_eq_bind]
                rw [Arr.get_lt hp, Option.bind_some, Arr.get_lt (ha i hi l hl), Option.bind_some, Arr.set_lt _ hp]
              · intro p hp
                show store t.val _ _ _ = _
                by_cases h : p = i
                · subst h; rw [store_same, c3 p le_rfl]
                · rw [store_ne _ _ (by omega)]; exact c2 p (by omega)
              · intro p hp
                show store t.val _ _ _ = _
                rw [store_ne _ _ (by omega)]; exact c3 p (by omega)
              · intro p hp
                show store t.val _ _ _ = _
                rw [store_ne _ _ (by omega)]; exact c4 p hp)
          refine ⟨s'', ?_, d1, ?_, d4⟩
          · show (b.get (l + ldb * j)).bind _ = _
            rw [Arr.get_lt (hb l hl j hj), Option.bind_some]; exact e
          · intro i hi
            rw [d2 i hi, b2 i hi, sum_range_succ])
      refine ⟨s2, ?_, y1, ?_⟩
      · show (loopM m _ s).bind _ = _
        rw [e1, Option.bind_some]; exact e2
      · intro i hi j' hj'
        by_cases h : j' = j
        · subst h; exact y2 i hi
        · rw [y3 _ (hlt i hi j' j (by omega))]; exact a2 i hi j' (by omega))
  exact ⟨c', e, h1, h2⟩

/-- The packed array of a tall matrix depends on the old contents of a position only at that position. -/
theorem pack_det {A : Mat} (h : A.Ok) (h2 : A.cols ≤ A.rows) {j1 j2 : ℕ → ℝ} {a1 a2 : Arr ℝ} (e1 : pack A j1 = some a1)
    (e2 : pack A j2 = some a2) {p : ℕ} (hp : j1 p = j2 p) : a1.val p = a2.val p := by
  have hin : ∀ i < A.rows, ∀ j < A.cols, i + A.cols * j < A.rows * A.cols := fun i hi j hj => by
    have := tall_bound hi hj h2; omega
  obtain ⟨b1, f1, -, u1, w1⟩ := pack_spec h j1 hin
  obtain ⟨b2, f2, -, u2, w2⟩ := pack_spec h j2 hin
  rw [e1] at f1; rw [e2] at f2
  cases f1; cases f2
  by_cases hw : ∀ i < A.rows, ∀ j < A.cols, i + A.cols * j ≠ p
  · rw [u1 p hw, u2 p hw, hp]
  · push Not at hw
    obtain ⟨i0, hi0, j0, hj0, h0⟩ := hw
    obtain ⟨⟨i, j⟩, hm, hmax⟩ := Finset.exists_max_image (((range A.rows) ×ˢ (range A.cols)).filter fun q => q.1 + A.cols * q.2 = p)
      (fun q => A.cols * q.1 + q.2) ⟨(i0, j0), by simp [hi0, hj0, h0]⟩
    simp only [mem_filter, mem_product, mem_range] at hm hmax
    obtain ⟨⟨hi, hj⟩, hp'⟩ := hm
    have last : ∀ i' < A.rows, ∀ j' < A.cols, A.cols * i + j < A.cols * i' + j' → i' + A.cols * j' ≠ i + A.cols * j := by
      intro i' hi' j' hj' hlt heq
      have := hmax (i', j') ⟨⟨hi', hj'⟩, by simp only []; omega⟩
      simp only [] at this
      omega
    rw [← hp', w1 i hi j hj last, w2 i hi j hj last]

end Verif.Blas
