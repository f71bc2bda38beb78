import Verif.Fp.RefineModel
import Verif.Swage.RefineLattice

/-!
# Rounded `refine_mesh`: the run, and points of a common side
-/

namespace Verif.Fp.Rounding

/-- Rounding a rounded number does nothing. -/
def Idem (R : Rounding) : Prop := ∀ x, R.fl (R.fl x) = R.fl x

theorem none_idem (b : ℕ) : (none b).Idem := fun _ => rfl

theorem flPos_form (p : ℕ) {x : ℝ} (hx : 0 < x) : ∃ m e : ℤ, 0 < m ∧ m ≤ 2 ^ (p + 1) ∧ flPos p x = m * 2 ^ e := by
  obtain ⟨h1, h2⟩ := flPos_bounds p hx
  refine ⟨nearest (x / ulp p (Int.log 2 x)), Int.log 2 x - p, ?_, ?_, rfl⟩
  · have hpos := flPos_pos p hx
    unfold flPos at hpos
    have := (mul_pos_iff_of_pos_right (ulp_pos p (Int.log 2 x))).1 hpos
    exact_mod_cast this
  · unfold flPos at h2
    have hu := ulp_pos p (Int.log 2 x)
    have e : (2 : ℝ) ^ (Int.log 2 x + 1) = ((2 ^ (p + 1) : ℤ) : ℝ) * ulp p (Int.log 2 x) := by
      rw [zpow_add_one₀ (by norm_num), ← pow_ulp p (Int.log 2 x)]; push_cast; ring
    rw [e] at h2
    have := le_of_mul_le_mul_right h2 hu
    exact_mod_cast this

/-- Numbers rounded to `p + 1` bits have at most `p + 1` bits. -/
theorem toNearest_form (p : ℕ) (x : ℝ) : ∃ m e : ℤ, |m| ≤ 2 ^ (p + 1) ∧ (toNearest p).fl x = m * 2 ^ e := by
  show ∃ m e : ℤ, |m| ≤ 2 ^ (p + 1) ∧ flBits p x = m * 2 ^ e
  unfold flBits
  split_ifs with h h'
  · obtain ⟨m, e, h0, h1, h2⟩ := flPos_form p h
    exact ⟨m, e, by rw [abs_of_pos h0]; exact h1, h2⟩
  · obtain ⟨m, e, h0, h1, h2⟩ := flPos_form p (x := -x) (by linarith)
    refine ⟨-m, e, by rw [abs_neg, abs_of_pos h0]; exact h1, ?_⟩
    rw [h2]; push_cast; ring
  · exact ⟨0, 0, by positivity, by simp⟩

theorem toNearest_idem (p : ℕ) : (toNearest p).Idem := by
  intro x
  obtain ⟨m, e, h1, h2⟩ := toNearest_form p x
  rw [h2]
  exact (toNearest p).exact m e h1

theorem binary64_idem : binary64.Idem := toNearest_idem 52

end Verif.Fp.Rounding

namespace Verif.Swage.Refine
open Verif.Swage Verif.Fp

variable (R : Rounding)

/-! ### Points of a common side -/

/-- The rounded factor `1 ± t` of a basis function. -/
noncomputable def wR (t : ℝ) (b : ℕ) : ℝ := R.fl (1 + R.fl (t * if b = 1 then 1 else -1))

/-- The rounded product. -/
noncomputable def bR (a b c : ℝ) : ℝ := R.fl (R.fl (R.fl (R.fl (1 / 8) * a) * b) * c)

theorem basisR_eq (L : ℕ → ℝ) (i j k v : ℕ) (hv : v < 8) :
    basisR R L i j k v = bR R (wR R (L i) (v % 2)) (wR R (L j) (v / 2 % 2)) (wR R (L k) (v / 4)) := by
  unfold basisR tempPts refVert bR wR
  interval_cases v <;> simp

theorem fl_one (hb : 1 ≤ R.bits) : R.fl 1 = 1 := by
  have := R.fl_int 1 (by
    have : (2 : ℤ) ^ 0 ≤ 2 ^ R.bits := pow_le_pow_right₀ (by norm_num) (by omega)
    simpa using this)
  simpa using this

theorem fl_neg_one (hb : 1 ≤ R.bits) : R.fl (-1) = -1 := by
  have := R.fl_int (-1) (by
    have : (2 : ℤ) ^ 0 ≤ 2 ^ R.bits := pow_le_pow_right₀ (by norm_num) (by omega)
    simpa using this)
  simpa using this

theorem fl_two (hb : 1 ≤ R.bits) : R.fl 2 = 2 := by
  have := R.fl_int 2 (by
    have : (2 : ℤ) ^ 1 ≤ 2 ^ R.bits := pow_le_pow_right₀ (by norm_num) (by omega)
    simpa using this)
  simpa using this

theorem wR_end (hb : 1 ≤ R.bits) : wR R 1 1 = 2 ∧ wR R 1 0 = 0 ∧ wR R (-1) 1 = 0 ∧ wR R (-1) 0 = 2 := by
  unfold wR
  refine ⟨?_, ?_, ?_, ?_⟩
  · norm_num; rw [fl_one R hb]; norm_num; exact fl_two R hb
  · norm_num; rw [fl_neg_one R hb]; norm_num; exact R.fl_zero
  · norm_num; rw [fl_neg_one R hb]; norm_num; exact R.fl_zero
  · norm_num; rw [fl_one R hb]; norm_num; exact fl_two R hb

theorem bR_zero_left (b c : ℝ) : bR R 0 b c = 0 := by unfold bR; simp [R.fl_zero]
theorem bR_zero_mid (a c : ℝ) : bR R a 0 c = 0 := by unfold bR; simp [R.fl_zero]
theorem bR_zero_right (a b : ℝ) : bR R a b 0 = 0 := by unfold bR; simp [R.fl_zero]

/-- The accumulation of eight rounded products. -/
theorem gPointR_eq (b xs : ℕ → ℝ) : gPointR R b xs =
    R.fl (R.fl (R.fl (R.fl (R.fl (R.fl (R.fl (R.fl (0 + R.fl (b 0 * xs 0)) + R.fl (b 1 * xs 1)) + R.fl (b 2 * xs 2)) + R.fl (b 3 * xs 3))
      + R.fl (b 4 * xs 4)) + R.fl (b 5 * xs 5)) + R.fl (b 6 * xs 6)) + R.fl (b 7 * xs 7)) := rfl

/-- A point on the common side in direction 0 of two cells with corresponding vertices. -/
theorem swap0 (hI : R.Idem) (hb : 1 ≤ R.bits) (L : ℕ → ℝ) (i i' j k : ℕ) (h1 : L i = 1) (h2 : L i' = -1) (xs ys : ℕ → ℝ)
    (h : ∀ v < 8, v % 2 = 0 → xs (v + 1) = ys v) :
    gPointR R (basisR R L i j k) xs = gPointR R (basisR R L i' j k) ys := by
  obtain ⟨w1, w2, w3, w4⟩ := wR_end R hb
  rw [gPointR_eq, gPointR_eq]
  simp only [basisR_eq R L _ _ _ 0 (by omega), basisR_eq R L _ _ _ 1 (by omega), basisR_eq R L _ _ _ 2 (by omega),
    basisR_eq R L _ _ _ 3 (by omega), basisR_eq R L _ _ _ 4 (by omega), basisR_eq R L _ _ _ 5 (by omega),
    basisR_eq R L _ _ _ 6 (by omega), basisR_eq R L _ _ _ 7 (by omega), h1, h2, Nat.reduceMod, Nat.reduceDiv, w1, w2, w3, w4,
    bR_zero_left, zero_mul, R.fl_zero, add_zero, zero_add, hI _]
  have a0 := h 0 (by omega) rfl
  have a2 := h 2 (by omega) rfl
  have a4 := h 4 (by omega) rfl
  have a6 := h 6 (by omega) rfl
  simp only [Nat.reduceAdd] at a0 a2 a4 a6
  rw [a0, a2, a4, a6]

/-- The same in direction 1. -/
theorem swap1 (hI : R.Idem) (hb : 1 ≤ R.bits) (L : ℕ → ℝ) (i j j' k : ℕ) (h1 : L j = 1) (h2 : L j' = -1) (xs ys : ℕ → ℝ)
    (h : ∀ v < 8, v / 2 % 2 = 0 → xs (v + 2) = ys v) :
    gPointR R (basisR R L i j k) xs = gPointR R (basisR R L i j' k) ys := by
  obtain ⟨w1, w2, w3, w4⟩ := wR_end R hb
  rw [gPointR_eq, gPointR_eq]
  simp only [basisR_eq R L _ _ _ 0 (by omega), basisR_eq R L _ _ _ 1 (by omega), basisR_eq R L _ _ _ 2 (by omega),
    basisR_eq R L _ _ _ 3 (by omega), basisR_eq R L _ _ _ 4 (by omega), basisR_eq R L _ _ _ 5 (by omega),
    basisR_eq R L _ _ _ 6 (by omega), basisR_eq R L _ _ _ 7 (by omega), h1, h2, Nat.reduceMod, Nat.reduceDiv, w1, w2, w3, w4,
    bR_zero_mid, zero_mul, R.fl_zero, add_zero, zero_add, hI _]
  have a0 := h 0 (by omega) rfl
  have a1 := h 1 (by omega) rfl
  have a4 := h 4 (by omega) rfl
  have a5 := h 5 (by omega) rfl
  simp only [Nat.reduceAdd] at a0 a1 a4 a5
  rw [a0, a1, a4, a5]

/-- The same in direction 2. -/
theorem swap2 (hI : R.Idem) (hb : 1 ≤ R.bits) (L : ℕ → ℝ) (i j k k' : ℕ) (h1 : L k = 1) (h2 : L k' = -1) (xs ys : ℕ → ℝ)
    (h : ∀ v < 8, v / 4 = 0 → xs (v + 4) = ys v) :
    gPointR R (basisR R L i j k) xs = gPointR R (basisR R L i j k') ys := by
  obtain ⟨w1, w2, w3, w4⟩ := wR_end R hb
  rw [gPointR_eq, gPointR_eq]
  simp only [basisR_eq R L _ _ _ 0 (by omega), basisR_eq R L _ _ _ 1 (by omega), basisR_eq R L _ _ _ 2 (by omega),
    basisR_eq R L _ _ _ 3 (by omega), basisR_eq R L _ _ _ 4 (by omega), basisR_eq R L _ _ _ 5 (by omega),
    basisR_eq R L _ _ _ 6 (by omega), basisR_eq R L _ _ _ 7 (by omega), h1, h2, Nat.reduceMod, Nat.reduceDiv, w1, w2, w3, w4,
    bR_zero_right, zero_mul, R.fl_zero, add_zero, zero_add, hI _]
  have a0 := h 0 (by omega) rfl
  have a1 := h 1 (by omega) rfl
  have a2 := h 2 (by omega) rfl
  have a3 := h 3 (by omega) rfl
  simp only [Nat.reduceAdd] at a0 a1 a2 a3
  rw [a0, a1, a2, a3]

theorem gaussPointsR_spec (E n : ℕ) (nodes : ℕ → ℕ → ℕ) (x : ℕ → ℕ → ℝ) (L : ℕ → ℝ) (j0 : ℕ → ℕ → ℝ) :
    ∃ r, gaussPointsR R E n nodes x L ⟨E * n ^ 3, j0⟩ = some r ∧ r.2.size = E * n ^ 3 ∧
      ∀ e k j i, e < E → k < n → j < n → i < n →
        r.2.val (cellId n e k j i) = fun d => gPointR R (basisR R L i j k) (fun v => x (nodes e v) d) := by
  unfold gaussPointsR
  have hE : E * n ^ 3 = n * n * n * E := by ring
  obtain ⟨s, h1, -, h3, h4⟩ := loopM4_spec (n := E) (w := n) (σ := ℕ × Arr (ℕ → ℝ))
    (body := fun e k j i s => (do
      let a ← s.2.set s.1 (fun d => gPointR R (basisR R L i j k) (fun v => x (nodes e v) d))
      pure (s.1 + 1, a)))
    (s := (0, ⟨E * n ^ 3, j0⟩))
    (fun m s => s.1 = m ∧ s.2.size = E * n ^ 3 ∧
      ∀ e k j i, e < E → k < n → j < n → i < n → cellId n e k j i < m →
        s.2.val (cellId n e k j i) = fun d => gPointR R (basisR R L i j k) (fun v => x (nodes e v) d))
    ⟨rfl, rfl, fun e k j i _ _ _ _ h => absurd h (Nat.not_lt_zero _)⟩
    (by
      rintro e k j i ⟨c, ⟨z, u⟩⟩ he hk hj hi ⟨e1, e2, e3⟩
      simp only [] at e1 e2 e3
      have hc : i + j * n + k * n * n + n * n * n * e = cellId n e k j i := rfl
      rw [hc] at e1 e3 ⊢
      subst e1 e2
      have hlt := cellId_lt he hk hj hi
      refine ⟨(cellId n e k j i + 1, ⟨E * n ^ 3, store u (cellId n e k j i)
        (fun d => gPointR R (basisR R L i j k) (fun v => x (nodes e v) d))⟩), ?_, rfl, rfl, ?_⟩
      · simp only [Option.bind_eq_bind]
        rw [Arr.set_lt _ (by show _ < E * n ^ 3; rw [hE]; exact hlt)]
        rfl
      · intro e' k' j' i' he' hk' hj' hi' hm
        simp only []
        by_cases hq : cellId n e' k' j' i' = cellId n e k j i
        · obtain ⟨q1, q2, q3, q4⟩ := cellId_inj hk' hj' hi' hk hj hi hq
          subst q1 q2 q3 q4
          rw [store_same]
        · rw [store_ne _ _ hq]; exact e3 e' k' j' i' he' hk' hj' hi' (by omega))
  exact ⟨s, h1, h3, fun e k j i he hk hj hi => h4 e k j i he hk hj hi (cellId_lt he hk hj hi)⟩

/-! ### The run -/

/-- What the part of the function after the hash keys does. -/
structure Finished (E p : ℕ) (g : Arr (ℕ → ℝ)) (keys : ℕ → ℕ) (r : Refined) : Prop where
  counts : r.counts = initElement p 3 E
  gauss : r.gauss = g
  sizes : r.nig.size = E * pts1d p ^ 3 ∧ r.coords.size = r.numNodes
  num : r.numNodes = rank (sep keys) (pts1d p ^ 3 * E)
  nig : ∀ g < E * pts1d p ^ 3, r.nig.val g = (idOf (sep keys) g : ℤ)
  range : ∀ g < E * pts1d p ^ 3, 0 ≤ r.nig.val g ∧ r.nig.val g < r.numNodes
  iff : ∀ g < E * pts1d p ^ 3, ∀ g' < E * pts1d p ^ 3, r.nig.val g = r.nig.val g' ↔ g = g' ∨ (g ≠ 0 ∧ g' ≠ 0 ∧ keys g = keys g')
  coords : ∀ m < r.numNodes, ∃ g < E * pts1d p ^ 3, r.nig.val g = m ∧
    (∀ g' < E * pts1d p ^ 3, r.nig.val g' = m → g ≤ g') ∧ r.coords.val m = r.gauss.val g
  cells_size : r.cells.gauss.size = E * sub1d p ^ 3 * 8 ∧ r.cells.inElem.size = E * sub1d p ^ 3 ∧
    r.cells.elem.size = E * sub1d p ^ 3 ∧ r.nodes.size = E * sub1d p ^ 3 * 8
  cells : ∀ e k j i, e < E → k < sub1d p → j < sub1d p → i < sub1d p →
    (∀ l < 8, r.cells.gauss.val (cellId (sub1d p) e k j i * 8 + l) = corner (pts1d p) e k j i l) ∧
    r.cells.inElem.val (e * sub1d p ^ 3 + (i + j * sub1d p + k * sub1d p * sub1d p)) = cellId (sub1d p) e k j i ∧
    r.cells.elem.val (cellId (sub1d p) e k j i) = e ∧
    ∀ l < 8, r.nodes.val (cellId (sub1d p) e k j i * 8 + l) = r.nig.val (corner (pts1d p) e k j i l)

theorem finish_run (E p : ℕ) (g : Arr (ℕ → ℝ)) (hg2 : g.size = E * pts1d p ^ 3) (keys : ℕ → ℕ) (q : Junk) :
    ∃ r, finish E p g keys q = some r ∧ Finished E p g keys r := by
  have hK : pts1d p ^ 3 * E = E * pts1d p ^ 3 := Nat.mul_comm _ _
  obtain ⟨t, ht1, ht2, ht3⟩ := zeroTable_spec (pts1d p ^ 3 * E) (maxKey (pts1d p ^ 3 * E) keys + 10) keys
    (fun e he => by have := le_maxKey (pts1d p ^ 3 * E) keys e he; omega) q.table
  obtain ⟨w, hw1, hw2⟩ := walk_inv (pts1d p ^ 3 * E) _ keys
    (fun e he => by have := le_maxKey (pts1d p ^ 3 * E) keys e he; omega) t ht2 ht3 q.ntg q.nig
  have hnum := walk_numbering hw2
  have hM : w.numNodes ≤ pts1d p ^ 3 * E := by
    rw [hw2.2.2.2.1]; exact rank_le_self _ _
  obtain ⟨c, hc1, hc2, hc3⟩ := writeCoords_spec w.numNodes w.ntg g q.coords (by rw [hnum.sizes.1]; exact hM)
    (fun m hm => by rw [hg2, ← hK]; exact (hnum.first m hm).1)
  obtain ⟨s, hs1, hs2, hs3, hs4, hs5⟩ := cellLoop_spec E (sub1d p) (pts1d p) q.gic q.cie q.eic
  obtain ⟨nl, hn1, hn2, hn3, hn4⟩ := nodeLoop_spec E (sub1d p) (pts1d p) (sub_pts p) w.nig
    (by rw [hnum.sizes.2]; ring) q.nic
  refine ⟨⟨initElement p 3 E, g, w.numNodes, w.nig, c, s, nl.2⟩, ?_, ?_⟩
  · unfold finish
    simp only [Option.bind_eq_bind]
    rw [ht1]
    simp only [Option.bind_some]
    rw [gPts_eq, ← hK, hw1]
    simp only [Option.bind_some]
    rw [hc1]
    simp only [Option.bind_some]
    rw [cells_eq, hs1]
    simp only [Option.bind_some]
    rw [hn1]
    rfl
  · refine ⟨rfl, rfl, ⟨by rw [← hK]; exact hnum.sizes.2, hc2⟩, hw2.2.2.2.1, ?_, ?_, ?_, ?_, ⟨hs2, hs3, hs4, hn3⟩, ?_⟩
    · rw [← hK]; exact hw2.2.2.2.2.2.2.1
    · rw [← hK]; exact hnum.range
    · rw [← hK]; exact hnum.eq_iff
    · intro m hm
      obtain ⟨f1, f2, f3⟩ := hnum.first m hm
      rw [← hK]
      exact ⟨w.ntg.val m, f1, f2, f3, hc3 m hm⟩
    · intro e k j i he hk hj hi
      obtain ⟨r1, r2, r3⟩ := hs5 e k j i he hk hj hi
      exact ⟨r1, r2, r3, hn4 e k j i he hk hj hi⟩

/-- The exact function ends with the same part. -/
theorem refineMesh_finish (E N p : ℕ) (nodes : ℕ → ℕ → ℕ) (x : ℕ → ℕ → ℝ) (q : Junk)
    (hne : hashDist p (distMin E nodes x q.dist q.dist0) ≠ 0) :
    ∃ lob g r, Quad.lobatto_nodes_1D (pts1d p) ⟨pts1d p, q.lob⟩ = some lob ∧ g.size = E * pts1d p ^ 3 ∧
      (∀ e k j i, e < E → k < pts1d p → j < pts1d p → i < pts1d p →
        g.val (cellId (pts1d p) e k j i) = fun d => gPoint (basis lob.val i j k) (fun v => x (nodes e v) d)) ∧
      refineMesh E N p nodes x q = some r ∧
      Finished E p g (fun i => key N x (binSize E p nodes x q) (g.val i)) r := by
  obtain ⟨lob, hl⟩ := assign_some (pts1d p) q.lob
  obtain ⟨⟨gc, g⟩, hg1, hg2, hg3⟩ := gaussPoints_spec E (pts1d p) nodes x lob.val q.gauss
  simp only [] at hg2 hg3
  obtain ⟨r, hr, hf⟩ := finish_run E p g hg2 (fun i => key N x (binSize E p nodes x q) (g.val i)) q
  refine ⟨lob, g, r, hl, hg2, hg3, ?_, hf⟩
  rw [← hr]
  unfold refineMesh
  simp only [Option.bind_eq_bind]
  rw [hl]
  simp only [Option.bind_some]
  rw [hg1]
  simp only [Option.bind_some]
  rw [if_neg hne]
  rfl

/-- The tables of reference points of the orders 0 to 9. -/
theorem lobR_len {p : ℕ} (hp : p ≤ 9) : (lobNodesR R (pts1d p)).length = pts1d p := by
  have hp' : p = 0 ∨ p = 1 ∨ p = 2 ∨ p = 3 ∨ p = 4 ∨ p = 5 ∨ p = 6 ∨ p = 7 ∨ p = 8 ∨ p = 9 := by omega
  rcases hp' with rfl | rfl | rfl | rfl | rfl | rfl | rfl | rfl | rfl | rfl <;> rfl

/-- Facts about a rounded run. -/
structure RunR (E N p : ℕ) (nodes : ℕ → ℕ → ℕ) (x : ℕ → ℕ → ℝ) (q : Junk) (r : Refined) : Prop where
  size : r.gauss.size = E * pts1d p ^ 3
  gauss : ∀ e k j i, e < E → k < pts1d p → j < pts1d p → i < pts1d p → r.gauss.val (cellId (pts1d p) e k j i) = fun d =>
    gPointR R (basisR R (fun i => (lobNodesR R (pts1d p)).getD i 0) i j k) (fun v => x (nodes e v) d)
  fin : Finished E p r.gauss (fun i => keyR R N x (hashDistR R p (distMinR R E nodes x q.dist q.dist0)) (r.gauss.val i)) r

theorem basisR_congr {L L' : ℕ → ℝ} {i j k : ℕ} (hi : L i = L' i) (hj : L j = L' j) (hk : L k = L' k) :
    basisR R L i j k = basisR R L' i j k := by
  funext v; unfold basisR tempPts; simp [hi, hj, hk]

theorem refineR_run (E N p : ℕ) (hp : p ≤ 9) (nodes : ℕ → ℕ → ℕ) (x : ℕ → ℕ → ℝ) (q : Junk)
    (hne : hashDistR R p (distMinR R E nodes x q.dist q.dist0) ≠ 0) :
    ∃ r, refineMeshR R E N p nodes x q = some r ∧ RunR R E N p nodes x q r := by
  obtain ⟨lob, hl, -, hv⟩ := Quad.assign_spec (lobNodesR R (pts1d p)) ⟨pts1d p, q.lob⟩ (lobR_len R hp).le
  obtain ⟨⟨gc, g⟩, hg1, hg2, hg3⟩ := gaussPointsR_spec R E (pts1d p) nodes x lob.val q.gauss
  simp only [] at hg2 hg3
  obtain ⟨r, hr, hf⟩ := finish_run E p g hg2
    (fun i => keyR R N x (hashDistR R p (distMinR R E nodes x q.dist q.dist0)) (g.val i)) q
  refine ⟨r, ?_, ?_, ?_, ?_⟩
  · rw [← hr]
    unfold refineMeshR
    simp only [Option.bind_eq_bind]
    rw [hl]
    simp only [Option.bind_some]
    rw [hg1]
    simp only [Option.bind_some]
    rw [if_neg hne]
  · rw [hf.gauss]; exact hg2
  · intro e k j i he hk hj hi
    rw [hf.gauss, hg3 e k j i he hk hj hi]
    have hc : ∀ m < pts1d p, lob.val m = (lobNodesR R (pts1d p)).getD m 0 := fun m hm => by
      rw [hv, if_pos (by rw [lobR_len R hp]; exact hm)]
    rw [basisR_congr R (L := lob.val) (L' := fun i => (lobNodesR R (pts1d p)).getD i 0) (hc i hi) (hc j hj) (hc k hk)]
  · rw [hf.gauss]; exact hf

end Verif.Swage.Refine
