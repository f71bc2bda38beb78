import Verif.Swage.HighOrderHash

/-!
# C69 on box meshes, and concrete instances of the theorems
-/

namespace Verif.Swage.HighOrder
open Verif.Swage Verif.Swage.Refine LagrangeElement LagrangeElement.Spec

/-- A mesh of equal boxes of edge lengths `w` with origin `o`: element `e` at the integer position `pos e`, vertices
equally spaced. -/
structure Boxes (E N p : ℕ) (nodes : ℕ → ℕ → ℕ) (x : ℕ → ℕ → ℝ) (o w : ℕ → ℝ) (pos : ℕ → ℕ → ℤ) : Prop where
  ne : 0 < E
  valid : ∀ e < E, ∀ l < (p + 1) ^ 3, nodes e l < N
  wpos : ∀ d < 3, 0 < w d
  coords : ∀ e < E, ∀ i ≤ p, ∀ j ≤ p, ∀ k ≤ p, ∀ d < 3, x (nodes e (i + j * (p + 1) + k * (p + 1) ^ 2)) d =
    o d + w d * ((pos e d : ℝ) + (dig i j k d : ℝ) / p)

theorem gap_check2 : ∀ p ∈ ([1, 3, 4, 5, 6, 7, 8, 9] : List ℕ), ∀ i : ℕ, i < 2 * p →
    6 / (7 * ((p : ℚ) * p)) ≤ (Quad.lobNodesQ (2 * p + 1)).getD (i + 1) 0 - (Quad.lobNodesQ (2 * p + 1)).getD i 0 := by
  decide +kernel

theorem lob_gap {p : ℕ} (hp : 1 ≤ p) (hp9 : p ≤ 9) {a : ℕ → ℝ} {lob : Arr ℝ}
    (h : Quad.lobatto_nodes_1D (2 * p + 1) ⟨2 * p + 1, a⟩ = some lob) (i : ℕ) (hi : i + 1 < 2 * p + 1) :
    6 / (7 * ((p : ℝ) * p)) ≤ lob.val (i + 1) - lob.val i := by
  rw [lob_val (by omega) (by omega) h (i + 1) hi, lob_val (by omega) (by omega) h i (by omega)]
  by_cases h2 : p = 2
  · subst h2
    have hs : √21 ^ 2 = (21 : ℝ) := Real.sq_sqrt (by norm_num)
    have h0 : 0 < √21 := Real.sqrt_pos.2 (by norm_num)
    have h1 : √21 < 4.6 := by nlinarith
    have h3 : 4.5 < √21 := by nlinarith
    have hx : Quad.lobNodes (2 * 2 + 1) = [-1, -1/7*√21, 0, 1/7*√21, (1:ℝ)] := rfl
    rw [hx]
    have hi' : i < 4 := by omega
    interval_cases i <;> norm_num <;> linarith
  · have hm : p ∈ [1, 3, 4, 5, 6, 7, 8, 9] := by
      have : p = 1 ∨ p = 3 ∨ p = 4 ∨ p = 5 ∨ p = 6 ∨ p = 7 ∨ p = 8 ∨ p = 9 := by omega
      simpa using this
    have := gap_check2 p hm i (by omega)
    rw [Quad.lobNodes_eq (by omega), Quad.getD_map_cast, Quad.getD_map_cast]
    have h3 := (Rat.cast_le (K := ℝ)).2 this
    push_cast at h3
    exact h3

theorem sum_ell_one {p : ℕ} (hp : 1 ≤ p) (t : ℝ) : ∑ i ∈ Finset.range (p + 1), ell (p + 1) (equi p) i t = 1 := by
  have := ell_pow hp (Nat.zero_le p) t
  simpa using this

theorem isoMap_line {p : ℕ} (hp : 1 ≤ p) (c : ℕ → ℝ) (f : ℕ → ℝ) (d : ℕ) (hd : d < 3)
    (hc : ∀ i ≤ p, ∀ j ≤ p, ∀ k ≤ p, c (i + j * (p + 1) + k * (p + 1) ^ 2) = f (dig i j k d)) (a : ℕ → ℝ) :
    isoMap p c (pt (a 0) (a 1) (a 2)) = edgeMap p f (a d) := by
  rw [isoMap_nest]
  have e : ∀ k ∈ Finset.range (p + 1), ∀ j ∈ Finset.range (p + 1), ∀ i ∈ Finset.range (p + 1),
      c (i + j * (p + 1) + k * (p + 1) ^ 2) * ell (p + 1) (equi p) i (a 0) =
      f (dig i j k d) * ell (p + 1) (equi p) i (a 0) := by
    intro k hk j hj i hi
    rw [hc i (Nat.lt_succ_iff.1 (Finset.mem_range.1 hi)) j (Nat.lt_succ_iff.1 (Finset.mem_range.1 hj)) k
      (Nat.lt_succ_iff.1 (Finset.mem_range.1 hk))]
  rw [Finset.sum_congr rfl fun k hk => by
    rw [Finset.sum_congr rfl fun j hj => by rw [Finset.sum_congr rfl fun i hi => e k hk j hj i hi]]]
  unfold edgeMap
  interval_cases d
  · simp only [dig, if_true]
    simp only [← Finset.mul_sum]
    rw [sum_ell_one hp, sum_ell_one hp, mul_one, mul_one]
  · simp only [dig, if_true, one_ne_zero, if_false]
    simp only [← Finset.mul_sum]
    rw [sum_ell_one hp, sum_ell_one hp, mul_one]
    simp only [mul_one]
  · simp only [dig, OfNat.ofNat_ne_zero, OfNat.ofNat_ne_one, if_false]
    simp only [← Finset.mul_sum]
    rw [sum_ell_one hp, sum_ell_one hp]
    simp only [mul_one]

theorem edgeMap_affine {p : ℕ} (hp : 1 ≤ p) (A B t : ℝ) : edgeMap p (fun u => A + B * ((u : ℝ) / p)) t = A + B * ((1 + t) / 2) := by
  have h0 := sum_ell_one hp t
  have h1 := ell_pow hp hp t
  unfold edgeMap
  have : ∀ u : ℕ, (A + B * ((u : ℝ) / p)) * ell (p + 1) (equi p) u t =
      (A + B / 2) * ell (p + 1) (equi p) u t + B / 2 * (equi p u ^ 1 * ell (p + 1) (equi p) u t) := by
    intro u; unfold equi; ring
  rw [Finset.sum_congr rfl fun u _ => this u, Finset.sum_add_distrib, ← Finset.mul_sum, ← Finset.mul_sum, h0, h1]
  ring

/-- **C69 on box meshes (partial).**  For every order from 1 to 9, on every mesh of equal boxes with equally spaced
vertices, of x-width at most `7 p²` and at most three times the other widths, such that no other element touches the
first vertex of element 0: two Gauss points get the same node iff they coincide, and every node has the position of
all its Gauss points. -/
theorem C69_lattice_partial (E N p : ℕ) (hp : 1 ≤ p) (hp9 : p ≤ 9) (nodes : ℕ → ℕ → ℕ) (x : ℕ → ℕ → ℝ) (o w : ℕ → ℝ)
    (pos : ℕ → ℕ → ℤ) (hB : Boxes E N p nodes x o w pos) (hw : w 0 ≤ 7 * ((p : ℝ) * p)) (hw3 : ∀ d < 3, w 0 ≤ 3 * w d)
    (hfirst : ∀ e < E, 0 < e → ∃ d < 3, pos e d ≠ pos 0 d ∧ pos e d ≠ pos 0 d - 1) (q : Junk) :
    ∃ r, refineHighOrder E N p nodes x q = some r ∧
      (∀ g < E * (2 * p + 1) ^ 3, ∀ g' < E * (2 * p + 1) ^ 3, r.nig.val g = r.nig.val g' ↔
        ∀ d < 3, r.gauss.val g d = r.gauss.val g' d) ∧
      ∀ g < E * (2 * p + 1) ^ 3, ∃ y, r.coords.get (r.nig.val g).toNat = some y ∧ ∀ d < 3, y d = r.gauss.val g d := by
  have hp0 : (0 : ℝ) < p := by exact_mod_cast hp
  have hrow : ∀ e < E, ∀ i ≤ p, ∀ d < 3, x (nodes e i) d = o d + w d * ((pos e d : ℝ) + (dig i 0 0 d : ℝ) / p) := by
    intro e he i hi d hd
    have := hB.coords e he i hi 0 (by omega) 0 (by omega) d hd
    simpa using this
  have hf : FirstRows E p nodes x := by
    intro e he j i hji hip
    refine ⟨0, by omega, ?_⟩
    rw [hrow e he j (by omega) 0 (by omega), hrow e he i hip 0 (by omega)]
    simp only [dig, if_true]
    intro h
    have hw0 := hB.wpos 0 (by omega)
    have : w 0 * ((j : ℝ) / p) = w 0 * ((i : ℝ) / p) := by linarith
    have h2 := mul_left_cancel₀ hw0.ne' this
    have h3 : (j : ℝ) = i := by field_simp at h2; linarith
    have : j = i := by exact_mod_cast h3
    omega
  have hm : minDist E p nodes x ≤ w 0 / p := by
    refine (minDist_le nodes x hB.ne (show 0 < 1 by omega) hp).trans ?_
    rw [pairDist_eq]
    rw [hrow 0 hB.ne 0 (by omega) 0 (by omega), hrow 0 hB.ne 1 hp 0 (by omega), hrow 0 hB.ne 0 (by omega) 1 (by omega),
      hrow 0 hB.ne 1 hp 1 (by omega)]
    have hw0 := hB.wpos 0 (by omega)
    apply Real.sqrt_le_iff.2
    constructor
    · positivity
    · apply le_of_eq
      simp only [dig, if_true, one_ne_zero, if_false, Nat.cast_zero, Nat.cast_one]
      ring
  have hb : binSize E p nodes x ≤ w 0 / (7 * ((p : ℝ) * p)) := by
    unfold binSize hashDist
    calc minDist E p nodes x / (7 * (p : ℝ)) ≤ w 0 / p / (7 * (p : ℝ)) := div_le_div_of_nonneg_right hm (by positivity)
      _ = w 0 / (7 * ((p : ℝ) * p)) := by rw [div_div]; congr 1; ring
  have hb1 : binSize E p nodes x ≤ 1 := hb.trans (by rw [div_le_one (by positivity)]; exact hw)
  have hbs : ∀ d < 3, binSize E p nodes x ≤ w d * (3 / (7 * ((p : ℝ) * p))) := by
    intro d hd
    refine hb.trans ?_
    rw [mul_div_assoc']
    exact div_le_div_of_nonneg_right (by linarith [hw3 d hd]) (by positivity)
  obtain ⟨r, hr, H⟩ := C69_positions_partial E N p hp hp9 nodes x q hf hb1
  refine ⟨r, hr, ?_⟩
  obtain ⟨r', hr', R⟩ := high_run (N := N) hp hp9 nodes x q hf
  have : r' = r := by rw [hr] at hr'; exact (Option.some.inj hr').symm
  subst this
  obtain ⟨lob, hl, hg⟩ := R.gauss
  have hL := lob_sym hp hp9 hl
  set n := 2 * p + 1 with hn
  set t : ℕ → ℝ := fun i => (1 + lob.val i) / 2 with ht
  have ht0 : t 0 = 0 := by rw [ht]; simp only []; rw [hL.left]; norm_num
  have ht1 : t (n - 1) = 1 := by rw [ht]; simp only []; rw [show n - 1 = 2 * p by omega, hL.right]; norm_num
  have hγ : 0 < 3 / (7 * ((p : ℝ) * p)) := by positivity
  have hstep : ∀ i, i + 1 < n → 3 / (7 * ((p : ℝ) * p)) ≤ t (i + 1) - t i := by
    intro i hi
    have := lob_gap hp hp9 hl i hi
    rw [ht]; simp only []
    have e : 6 / (7 * ((p : ℝ) * p)) = 2 * (3 / (7 * ((p : ℝ) * p))) := by ring
    rw [e] at this
    linarith
  have hdig : ∀ i j k d, i < n → j < n → k < n → dig i j k d < n := by
    intro i j k d hi hj hk
    unfold dig; split
    · exact hi
    · split
      · exact hj
      · exact hk
  have hpos : ∀ e k j i, e < E → k < n → j < n → i < n → ∀ d < 3,
      r'.gauss.val (cellId n e k j i) d = o d + w d * ((pos e d : ℝ) + t (dig i j k d)) := by
    intro e k j i he hk hj hi d hd
    rw [hg e k j i he hk hj hi d hd]
    have h1 := isoMap_line hp (fun I => x (nodes e I) d) (fun u => (o d + w d * (pos e d : ℝ)) + w d * ((u : ℝ) / p)) d hd
      (fun i hi j hj k hk => by rw [hB.coords e he i hi j hj k hk d hd]; ring)
      (fun m => lob.val (dig i j k m))
    rw [edgeMap_affine hp] at h1
    simp only [dig, if_true, one_ne_zero, if_false, OfNat.ofNat_ne_zero, OfNat.ofNat_ne_one] at h1
    rw [h1]
    simp only [ht, dig]
    ring
  have hsurj : ∀ g < E * n ^ 3, ∃ e k j i, e < E ∧ k < n ∧ j < n ∧ i < n ∧ cellId n e k j i = g := by
    intro g hg
    exact cellId_surj (by rw [show n * n * n * E = E * n ^ 3 by ring]; exact hg)
  have hrange : ∀ i < n, 0 ≤ t i ∧ t i ≤ 1 := by
    intro i hi
    constructor
    · rcases Nat.eq_zero_or_pos i with h | h
      · rw [h, ht0]
      · have := mono_of_step hγ hstep h hi
        rw [ht0] at this; linarith
    · by_cases h : i = n - 1
      · rw [h, ht1]
      · have := mono_of_step hγ hstep (show i < n - 1 by omega) (by omega)
        rw [ht1] at this; linarith
  have hE := hB.ne
  apply H
  · intro g hg d hd
    obtain ⟨e, k, j, i, he, hk, hj, hi, rfl⟩ := hsurj g hg
    have hv : p + p * (p + 1) + p * (p + 1) ^ 2 < (p + 1) ^ 3 := by
      rw [show (p + 1) ^ 3 = p + p * (p + 1) + p * (p + 1) ^ 2 + 1 by ring]; omega
    refine ⟨nodes e 0, hB.valid e he 0 (by omega), nodes e (p + p * (p + 1) + p * (p + 1) ^ 2), hB.valid e he _ hv, ?_⟩
    rw [hB.coords e he p le_rfl p le_rfl p le_rfl d hd, hrow e he 0 (by omega) d hd, hpos _ _ _ _ he hk hj hi d hd]
    obtain ⟨a, b⟩ := hrange _ (hdig i j k d hi hj hk)
    have hd0 : dig 0 0 0 d = 0 := by unfold dig; split <;> [rfl; split <;> rfl]
    have hdp : dig p p p d = p := by unfold dig; split <;> [rfl; split <;> rfl]
    rw [hd0, hdp, div_self hp0.ne', Nat.cast_zero, zero_div]
    have hwd := hB.wpos d hd
    constructor
    · have := mul_le_mul_of_nonneg_left (show (pos e d : ℝ) + 0 ≤ pos e d + t (dig i j k d) by linarith) hwd.le
      linarith
    · have := mul_le_mul_of_nonneg_left (show (pos e d : ℝ) + t (dig i j k d) ≤ pos e d + 1 by linarith) hwd.le
      linarith
  · intro g hg g' hg'
    obtain ⟨e, k, j, i, he, hk, hj, hi, rfl⟩ := hsurj g hg
    obtain ⟨e', k', j', i', he', hk', hj', hi', rfl⟩ := hsurj g' hg'
    by_cases hall : ∀ d < 3, r'.gauss.val (cellId n e k j i) d = r'.gauss.val (cellId n e' k' j' i') d
    · exact Or.inl hall
    · right
      push Not at hall
      obtain ⟨d, hd, hne⟩ := hall
      refine ⟨d, hd, ?_⟩
      rw [hpos _ _ _ _ he hk hj hi d hd, hpos _ _ _ _ he' hk' hj' hi' d hd] at hne ⊢
      have hsd := hB.wpos d hd
      rcases line_sep (show 2 ≤ n by omega) hγ hstep ht0 ht1 (a := pos e d) (b := pos e' d) (hdig i j k d hi hj hk)
        (hdig i' j' k' d hi' hj' hk') with h | h
      · rw [h] at hne; exact absurd rfl hne
      · refine (hbs d hd).trans ?_
        rw [show o d + w d * ((pos e d : ℝ) + t (dig i j k d)) - (o d + w d * ((pos e' d : ℝ) + t (dig i' j' k' d)))
          = w d * ((pos e d : ℝ) + t (dig i j k d) - ((pos e' d : ℝ) + t (dig i' j' k' d))) by ring, abs_mul,
          abs_of_pos hsd]
        exact mul_le_mul_of_nonneg_left h hsd.le
  · intro g hg hg0
    obtain ⟨e, k, j, i, he, hk, hj, hi, rfl⟩ := hsurj g hg
    by_contra hcon
    push Not at hcon
    have hz : cellId n 0 0 0 0 = 0 := by simp [cellId]
    have heq : ∀ d < 3, (pos e d : ℝ) + t (dig i j k d) = pos 0 d := by
      intro d hd
      have := hcon d hd
      rw [← hz, hpos _ _ _ _ he hk hj hi d hd, hpos 0 0 0 0 hE (by omega) (by omega) (by omega) d hd] at this
      have hsd := hB.wpos d hd
      have hd0 : dig 0 0 0 d = 0 := by unfold dig; split <;> [rfl; split <;> rfl]
      rw [hd0, ht0, add_zero] at this
      have h3 : w d * ((pos e d : ℝ) + t (dig i j k d) - pos 0 d) = 0 := by linarith
      rcases mul_eq_zero.1 h3 with h | h
      · exact absurd h hsd.ne'
      · linarith
    -- the element touches the first vertex, so it is element 0
    have he0 : e = 0 := by
      by_contra hne
      obtain ⟨d, hd, n1, n2⟩ := hfirst e he (by omega)
      obtain ⟨a, b⟩ := hrange _ (hdig i j k d hi hj hk)
      have h1 := heq d hd
      have c1 : pos e d ≤ pos 0 d := by
        have : (pos e d : ℝ) ≤ pos 0 d := by linarith
        exact_mod_cast this
      have c2 : pos 0 d ≤ pos e d + 1 := by
        have : (pos 0 d : ℝ) ≤ pos e d + 1 := by linarith
        exact_mod_cast this
      omega
    subst he0
    have hzero : ∀ d < 3, dig i j k d = 0 := by
      intro d hd
      by_contra hne
      have := mono_of_step hγ hstep (show 0 < dig i j k d by omega) (hdig i j k d hi hj hk)
      have h1 := heq d hd
      rw [ht0] at this
      linarith
    have z0 : i = 0 := hzero 0 (by omega)
    have z1 : j = 0 := hzero 1 (by omega)
    have z2 : k = 0 := hzero 2 (by omega)
    subst z0 z1 z2
    simp [cellId] at hg0

/-! ### A concrete mesh: two boxes of order 2 side by side -/

/-- Vertex numbers. -/
def twoNodes (e l : ℕ) : ℕ := l % 3 + 2 * e + 5 * (l / 3 % 3) + 15 * (l / 9)
/-- Vertex positions. -/
def twoPos (n d : ℕ) : ℝ := ((dig (n % 5) (n / 5 % 3) (n / 15) d : ℕ) : ℝ)

theorem two_check : ∀ e : ℕ, e < 2 → ∀ i : ℕ, i < 3 → ∀ j : ℕ, j < 3 → ∀ k : ℕ, k < 3 → ∀ d : ℕ, d < 3 →
    dig (twoNodes e (i + j * 3 + k * 9) % 5) (twoNodes e (i + j * 3 + k * 9) / 5 % 3)
      (twoNodes e (i + j * 3 + k * 9) / 15) d = (if d = 0 then 2 * e else 0) + dig i j k d := by decide +kernel

theorem two_boxes : Boxes 2 45 2 twoNodes twoPos (fun _ => 0) (fun _ => 2) (fun e d => if d = 0 then (e : ℤ) else 0) where
  ne := by omega
  valid := by
    have : ∀ e : ℕ, e < 2 → ∀ l : ℕ, l < 27 → twoNodes e l < 45 := by decide +kernel
    exact this
  wpos := by intro d _; norm_num
  coords := by
    intro e he i hi j hj k hk d hd
    have := two_check e he i (by omega) j (by omega) k (by omega) d hd
    show ((dig _ _ _ d : ℕ) : ℝ) = _
    rw [show (2 + 1) ^ 2 = 9 from rfl, show 2 + 1 = 3 from rfl, this]
    by_cases h : d = 0
    · simp only [h, if_true]; push_cast; ring
    · simp only [h, if_false]; push_cast; ring

theorem two_rows : FirstRows 2 2 twoNodes twoPos := by
  have : ∀ e : ℕ, e < 2 → ∀ i : ℕ, i < 3 → ∀ j : ℕ, j < i →
      dig (twoNodes e j % 5) (twoNodes e j / 5 % 3) (twoNodes e j / 15) 0 ≠
      dig (twoNodes e i % 5) (twoNodes e i / 5 % 3) (twoNodes e i / 15) 0 := by decide +kernel
  intro e he j i hji hi
  refine ⟨0, by omega, ?_⟩
  show ((dig _ _ _ 0 : ℕ) : ℝ) ≠ ((dig _ _ _ 0 : ℕ) : ℝ)
  exact fun h => this e he i (by omega) j hji (by exact_mod_cast h)

/-- Non-vacuity of `C69_lattice_partial` (and of the hypotheses of `C69_positions_partial`, `C69_bins_partial`). -/
example (q : Junk) : ∃ r, refineHighOrder 2 45 2 twoNodes twoPos q = some r ∧
    ∀ g < 250, ∀ g' < 250, r.nig.val g = r.nig.val g' ↔ ∀ d < 3, r.gauss.val g d = r.gauss.val g' d := by
  obtain ⟨r, hr, h, -⟩ := C69_lattice_partial 2 45 2 (by omega) (by omega) _ _ _ _ _ two_boxes (by norm_num)
    (by intro d _; norm_num) (by
      intro e he h0
      obtain rfl : e = 1 := by omega
      exact ⟨0, by omega, by norm_num, by norm_num⟩) q
  exact ⟨r, hr, h⟩

/-- Non-vacuity of `C69_cells`, `C69_partition`, `C69_gauss`, `C69_vertex`, `C69_numbering_partial`. -/
example (q : Junk) : ∃ r, refineHighOrder 2 45 2 twoNodes twoPos q = some r ∧ r.counts.numCells = 128 ∧
    r.nig.size = 250 := by
  obtain ⟨r, hr, h, -⟩ := C69_partition 2 45 2 (by omega) (by omega) _ _ q two_rows
  obtain ⟨r', hr', -, h', -⟩ := C69_numbering_partial 2 45 2 (by omega) (by omega) _ _ q two_rows
  have : r' = r := by rw [hr] at hr'; exact (Option.some.inj hr').symm
  subst this
  exact ⟨r', hr, h, h'⟩

/-- Non-vacuity of `C69_conforming`: the common face of the two boxes. -/
example (q : Junk) : ∃ r, refineHighOrder 2 45 2 twoNodes twoPos q = some r ∧
    ∀ u ≤ 4, ∀ v ≤ 4, ∃ n, r.nig.get (faceIdx 4 0 1 u v) = some n ∧ r.nig.get (125 + faceIdx 4 0 0 u v) = some n := by
  obtain ⟨r, hr, h⟩ := C69_conforming 2 45 2 (by omega) (by omega) _ _ q two_rows
  refine ⟨r, hr, ?_⟩
  intro u hu v hv
  have hs : ∀ u : ℕ, u < 3 → ∀ v : ℕ, v < 3 → twoNodes 0 (faceIdx 2 0 1 u v) = twoNodes 1 (faceIdx 2 0 0 u v) := by decide +kernel
  obtain ⟨g, g', e, e', -, h3⟩ := h 0 (by omega) 1 (by omega) 0 1 0 0 (by omega) (by omega) false false false
    (fun u hu v hv => hs u (by omega) v (by omega)) u hu v hv
  have i1 : g = faceIdx 4 0 1 u v := by rw [e]; simp [gaussInElem]
  have i2 : g' = 125 + faceIdx 4 0 0 u v := by rw [e']; simp [gaussInElem, orient, mirror]
  have hne : faceIdx 4 0 1 u v ≠ 0 := by simp [faceIdx]
  obtain ⟨n, h4, h5⟩ := h3 (by rw [i1]; exact hne) (by rw [i2]; omega)
  rw [i1] at h4; rw [i2] at h5
  exact ⟨n, h4, h5⟩

/-- Component of a triple of reals. -/
def dig' (d : ℕ) (a b c : ℝ) : ℝ := if d = 0 then a else if d = 1 then b else c

/-- Non-vacuity of `C69_polynomial`: a curved element `(ξ + η², η, ζ)` of order 2. -/
example (q : Junk) : ∃ r lob, refineHighOrder 1 27 2 (fun _ l => l)
      (fun n d => dig' d (-1 + (n % 3 : ℕ) + (-1 + (n / 3 % 3 : ℕ)) ^ 2) (-1 + (n / 3 % 3 : ℕ)) (-1 + (n / 9 : ℕ))) q = some r ∧
    Quad.lobatto_nodes_1D 5 ⟨5, q.lob⟩ = some lob ∧ ∃ y, r.gauss.get 63 = some y ∧
      y 0 = lob.val 3 + lob.val 2 ^ 2 := by
  obtain ⟨r, lob, hr, hl, h⟩ := C69_polynomial 1 27 2 (by omega) (by omega) (fun _ l => l)
    (fun n d => dig' d (-1 + (n % 3 : ℕ) + (-1 + (n / 3 % 3 : ℕ)) ^ 2) (-1 + (n / 3 % 3 : ℕ)) (-1 + (n / 9 : ℕ))) q
    (by
      intro e he j i hji hi
      refine ⟨0, by omega, ?_⟩
      have : (j = 0 ∧ i = 1) ∨ (j = 0 ∧ i = 2) ∨ (j = 1 ∧ i = 2) := by omega
      rcases this with ⟨rfl, rfl⟩ | ⟨rfl, rfl⟩ | ⟨rfl, rfl⟩ <;> norm_num [dig'])
    0 (by omega) (fun d a b c => if d = 0 then (if (a, b, c) = (1, 0, 0) ∨ (a, b, c) = (0, 2, 0) then 1 else 0)
      else if d = 1 then (if (a, b, c) = (0, 1, 0) then 1 else 0) else (if (a, b, c) = (0, 0, 1) then 1 else 0))
    (by
      intro i hi j hj k hk d hd
      interval_cases d <;> interval_cases i <;> interval_cases j <;> interval_cases k <;>
        norm_num [polyMap, Finset.sum_range_succ, dig'])
  refine ⟨r, lob, hr, hl, ?_⟩
  obtain ⟨y, hy, hyd⟩ := h 2 (by omega) 2 (by omega) 3 (by omega)
  refine ⟨y, hy, ?_⟩
  rw [hyd 0 (by omega)]
  norm_num [polyMap, Finset.sum_range_succ]
  ring

end Verif.Swage.HighOrder
