import Verif.Fp.RefineTheorems

/-!
# C92: rectilinear grids in rounded arithmetic
-/

namespace Verif.Swage.Refine
open Verif.Swage Verif.Fp

theorem gap_check23 : ∀ p ∈ [0, 1, 3, 4, 5], ∀ i < pts1d p - 1,
    2.3 / (7 * (if p = 0 then 1 else (p : ℚ))) ≤ (Quad.lobNodesQ (pts1d p)).getD (i + 1) 0 - (Quad.lobNodesQ (pts1d p)).getD i 0 := by
  decide +kernel

/-- Up to order 5, neighbouring Lobatto points are at least 2.3 bins of a reference element apart. -/
theorem lob_gap23 {p : ℕ} (hp : p ≤ 5) {a : ℕ → ℝ} {lob : Arr ℝ}
    (h : Quad.lobatto_nodes_1D (pts1d p) ⟨pts1d p, a⟩ = some lob) (i : ℕ) (hi : i + 1 < pts1d p) :
    2.3 / (7 * (if p = 0 then 1 else (p : ℝ))) ≤ lob.val (i + 1) - lob.val i := by
  have n2 : 2 ≤ pts1d p := by unfold pts1d; split <;> omega
  have n20 : pts1d p ≤ 20 := by unfold pts1d; split <;> omega
  rw [lob_val n2 n20 h (i + 1) hi, lob_val n2 n20 h i (by omega)]
  by_cases h2 : p = 2
  · subst h2
    obtain ⟨-, h3, h1⟩ := sqrt21
    have hx : Quad.lobNodes (pts1d 2) = [-1, -1/7*√21, 0, 1/7*√21, (1:ℝ)] := rfl
    rw [hx]
    have hi' : i < 4 := by have : pts1d 2 = 5 := rfl; omega
    norm_num at h1 h3
    interval_cases i <;> norm_num <;> linarith
  · have hm : p ∈ [0, 1, 3, 4, 5] := by
      have : p = 0 ∨ p = 1 ∨ p = 3 ∨ p = 4 ∨ p = 5 := by omega
      simpa using this
    have := gap_check23 p hm i (by omega)
    have hne : pts1d p ≠ 4 ∧ pts1d p ≠ 5 ∧ pts1d p ≠ 6 := by unfold pts1d; split <;> omega
    rw [Quad.lobNodes_eq hne, Quad.getD_map_cast, Quad.getD_map_cast]
    have h3 := (Rat.cast_le (K := ℝ)).2 this
    push_cast at h3
    have e : (((if p = 0 then 1 else (p : ℚ)) : ℚ) : ℝ) = if p = 0 then 1 else (p : ℝ) := by split <;> simp
    rw [e] at h3
    exact h3

/-- The vertex distance of the last cell is at least its smallest thickness. -/
theorem grid_dist_ge {C N : ℕ} {nodes : ℕ → ℕ → ℕ} {x : ℕ → ℕ → ℝ} {X : ℕ → ℤ → ℝ} {pos : ℕ → ℕ → ℤ}
    (hL : Key.Grid C N nodes x X pos) {s : ℝ} (hs : ∀ d < 3, s ≤ X d (pos (C - 1) d + 1) - X d (pos (C - 1) d)) (hs64 : s ≤ 10 ^ 64)
    (junk : ℕ → ℝ) (j : ℝ) : s ≤ distMin C nodes x junk j := by
  have hC := hL.ne
  rw [distMin_last C nodes x junk j hC]
  unfold cellDist
  apply Key.le_loop_min _ _ _ _ hs64
  intro i hi
  rw [Key.distLoop_val _ junk i hi]
  obtain ⟨h1, h2⟩ := Key.pairs_lt i hi
  generalize (Key.pairs i).1 = a at h1 ⊢
  generalize (Key.pairs i).2.1 = b at h1 h2 ⊢
  have hbits : ∃ d < 3, Key.bit a d ≠ Key.bit b d := by
    have : ∀ b < 8, ∀ a < b, ∃ d < 3, Key.bit a d ≠ Key.bit b d := by decide
    exact this b h2 a h1
  obtain ⟨d, hd, hne⟩ := hbits
  have la := Key.bit_le a (by omega) d hd
  have lb := Key.bit_le b h2 d hd
  have hw := hs d hd
  have hcoord : ∀ l < 8, x (nodes (C - 1) l) d = X d (pos (C - 1) d) + (X d (pos (C - 1) d + 1) - X d (pos (C - 1) d)) * (Key.bit l d : ℝ) := by
    intro l hl
    rw [hL.coords (C - 1) (by omega) l hl d hd, Key.X_bit X d _ (Key.bit_le l hl d hd)]
  have hge : s ≤ |x (nodes (C - 1) b) d - x (nodes (C - 1) a) d| := by
    rw [hcoord a (by omega), hcoord b h2]
    have hc : (Key.bit a d = 0 ∧ Key.bit b d = 1) ∨ (Key.bit a d = 1 ∧ Key.bit b d = 0) := by omega
    rcases hc with ⟨e1, e2⟩ | ⟨e1, e2⟩
    · rw [e1, e2]; push_cast
      refine le_trans ?_ (le_abs_self _); linarith
    · rw [e1, e2]; push_cast
      refine le_trans ?_ (neg_le_abs _); linarith
  refine hge.trans ?_
  unfold Key.dist1
  refine le_trans ?_ (le_abs_self _)
  apply Real.le_sqrt_of_sq_le
  rw [sq_abs]
  have q0 := sq_nonneg (x (nodes (C - 1) b) 0 - x (nodes (C - 1) a) 0)
  have q1 := sq_nonneg (x (nodes (C - 1) b) 1 - x (nodes (C - 1) a) 1)
  have q2 := sq_nonneg (x (nodes (C - 1) b) 2 - x (nodes (C - 1) a) 2)
  interval_cases d <;> linarith

variable (R : Rounding)

/-- Rounded and exact Gauss points. -/
theorem gauss_near (hu : R.u ≤ 1 / 2 ^ 20) (hb : 1 ≤ R.bits) {p : ℕ} (hp : p ≤ 9) {a : ℕ → ℝ} {lob : Arr ℝ}
    (hl : Quad.lobatto_nodes_1D (pts1d p) ⟨pts1d p, a⟩ = some lob) {A : ℝ} (hA : 0 ≤ A) {xs : ℕ → ℝ} (hx : ∀ v < 8, |xs v| ≤ A)
    {i j k : ℕ} (hi : i < pts1d p) (hj : j < pts1d p) (hk : k < pts1d p) :
    |gPointR R (basisR R (fun i => (lobNodesR R (pts1d p)).getD i 0) i j k) xs - gPoint (basis lob.val i j k) xs| ≤ 140 * R.u * A ∧
      |gPoint (basis lob.val i j k) xs| ≤ A := by
  obtain ⟨lob', hl', g1, g2, g3, g4⟩ := good_nodes hp a
  have : lob' = lob := by rw [hl] at hl'; exact (Option.some.inj hl').symm
  subst this
  have n2 : 2 ≤ pts1d p := by unfold pts1d; split <;> omega
  have n20 : pts1d p ≤ 20 := by unfold pts1d; split <;> omega
  obtain ⟨hn, -, -⟩ := lobR_near R hu hb hp
  have near : ∀ m < pts1d p, |(lobNodesR R (pts1d p)).getD m 0 - lob'.val m| ≤ 2 * R.u := fun m hm => by
    rw [lob_val n2 n20 hl m hm]; exact hn m hm
  have h0 : ∀ v < 8, 0 ≤ basis lob'.val i j k v := by
    intro v hv
    rw [basis_eq _ _ _ _ _ hv]
    have a1 := g1 i hi
    have a2 := g1 j hj
    have a3 := g1 k hk
    apply mul_nonneg (mul_nonneg _ _) _ <;> split <;> linarith
  have h1 : ∑ v ∈ Finset.range 8, basis lob'.val i j k v = 1 := by
    rw [Finset.sum_congr rfl (fun v hv => basis_eq lob'.val i j k v (Finset.mem_range.1 hv))]
    simp only [Finset.sum_range_succ, Finset.sum_range_zero]
    norm_num
    ring
  refine ⟨gPointR_near R hu hA ?_ h0 h1 hx, ?_⟩
  · intro v hv
    rw [basisR_eq R _ _ _ _ _ hv, basis_eq _ _ _ _ _ hv]
    obtain ⟨a1, a2, a3⟩ := wR_near R hu (near i hi) (abs_le.2 (g1 i hi)) (v % 2)
    obtain ⟨b1, b2, b3⟩ := wR_near R hu (near j hj) (abs_le.2 (g1 j hj)) (v / 2 % 2)
    obtain ⟨c1, c2, c3⟩ := wR_near R hu (near k hk) (abs_le.2 (g1 k hk)) (v / 4)
    exact bR_near R hu hb a1 b1 c1 ⟨a2, a3⟩ ⟨b2, b3⟩ ⟨c2, c3⟩
  · rw [gPoint_eq]
    exact sum_abs_le hA h0 h1 hx 8 le_rfl

/-- **C92 on rectilinear grids (partial).**  On every mesh made of different cells of a rectilinear grid whose last cell is at most 3%
thicker than any other in each direction and at most 6.5 wide in some direction, for orders up to 5: if the mesh lies in a box of
half-width `A ≤ 10^15` and the last cell is at least `10^6 u (A + 1)` thick in every direction, the rounded `refine_mesh`
completes and makes the refined mesh of the exact function: the same number of nodes, the same node for every Gauss
point, the same cells; Gauss points coincide as floating-point numbers iff they coincide; positions are within `140 u A`. -/
theorem C92_grid_partial (hI : R.Idem) (hu : R.u ≤ 1 / 2 ^ 20) (hb : 1 ≤ R.bits) (E N p : ℕ) (hp : p ≤ 5) (nodes : ℕ → ℕ → ℕ)
    (x : ℕ → ℕ → ℝ) (X : ℕ → ℤ → ℝ) (pos : ℕ → ℕ → ℤ) (hL : Key.Grid E N nodes x X pos) (A s : ℝ) (hA : A ≤ 10 ^ 15)
    (hin : ∀ d < 3, ∀ n < N, |x n d| ≤ A) (hs : ∀ d < 3, s ≤ X d (pos (E - 1) d + 1) - X d (pos (E - 1) d))
    (hfine : 10 ^ 6 * R.u * (A + 1) ≤ s) (hwide : ∃ d < 3, X d (pos (E - 1) d + 1) - X d (pos (E - 1) d) ≤ 13 / 2) (q : Junk) :
    ∃ r r', refineMesh E N p nodes x q = some r ∧ refineMeshR R E N p nodes x q = some r' ∧
      r'.counts = r.counts ∧ r'.numNodes = r.numNodes ∧
      (∀ g < E * pts1d p ^ 3, ∃ n, r.nig.get g = some n ∧ r'.nig.get g = some n) ∧
      (∀ i < E * sub1d p ^ 3 * 8, ∃ n, r.nodes.get i = some n ∧ r'.nodes.get i = some n) ∧
      (∀ i < E * sub1d p ^ 3 * 8, ∃ n, r.cells.gauss.get i = some n ∧ r'.cells.gauss.get i = some n) ∧
      (∀ i < E * sub1d p ^ 3, ∃ n, r.cells.elem.get i = some n ∧ r'.cells.elem.get i = some n) ∧
      (∀ g < E * pts1d p ^ 3, ∀ g' < E * pts1d p ^ 3,
        (∀ d < 3, r.gauss.val g d = r.gauss.val g' d) ↔ ∀ d < 3, r'.gauss.val g d = r'.gauss.val g' d) ∧
      (∀ g < E * pts1d p ^ 3, ∃ y y', r.gauss.get g = some y ∧ r'.gauss.get g = some y' ∧ ∀ d < 3, |y' d - y d| ≤ 140 * R.u * A) ∧
      ∀ n < r.numNodes, ∃ y y', r.coords.get n = some y ∧ r'.coords.get n = some y' ∧ ∀ d < 3, |y' d - y d| ≤ 140 * R.u * A := by
  have u0 := R.u_nonneg
  obtain ⟨dm0, dms⟩ := grid_dist hL q.dist q.dist0
  have hE := hL.ne
  have hN : 0 < N := lt_of_le_of_lt (Nat.zero_le _) (hL.valid 0 hE 0 (by omega))
  have A0 : 0 ≤ A := (abs_nonneg _).trans (hin 0 (by omega) 0 hN)
  set sub : ℝ := if p = 0 then 1 else (p : ℝ) with hsub
  have sub1 : 1 ≤ sub := by
    rw [hsub]; split
    · exact le_rfl
    · next h => exact_mod_cast (show 1 ≤ p by omega)
  have sub5 : sub ≤ 5 := by
    rw [hsub]; split
    · norm_num
    · exact_mod_cast hp
  have hbz : binSize E p nodes x q = distMin E nodes x q.dist q.dist0 / (7 * sub) := rfl
  have hb0 : 0 < binSize E p nodes x q := by rw [hbz]; positivity
  have hbs : ∀ d < 3, binSize E p nodes x q ≤ (X d (pos (E - 1) d + 1) - X d (pos (E - 1) d)) * (1 / (7 * sub)) := by
    intro d hd
    rw [hbz, ← div_eq_mul_one_div]
    exact div_le_div_of_nonneg_right (dms d hd) (by positivity)
  have hb1 : binSize E p nodes x q ≤ 13 / 14 := by
    obtain ⟨d, hd, h7⟩ := hwide
    refine (hbs d hd).trans ?_
    rw [← div_eq_mul_one_div, div_le_iff₀ (by positivity)]
    linarith
  have hsA : s ≤ 2 * A := by
    have h1 := hs 0 (by omega)
    have c0 := hL.coords (E - 1) (by omega) 0 (by omega) 0 (by omega)
    have c1 := hL.coords (E - 1) (by omega) 1 (by omega) 0 (by omega)
    simp [Key.bit] at c0 c1
    rw [← c0, ← c1] at h1
    have i0 := abs_le.1 (hin 0 (by omega) _ (hL.valid (E - 1) (by omega) 0 (by omega)))
    have i1 := abs_le.1 (hin 0 (by omega) _ (hL.valid (E - 1) (by omega) 1 (by omega)))
    linarith
  have hdm : s ≤ distMin E nodes x q.dist q.dist0 := grid_dist_ge hL hs (hsA.trans (by norm_num at hA ⊢; linarith)) _ _
  have hbf : 10 ^ 4 * R.u * (A + 1) ≤ binSize E p nodes x q := by
    rw [hbz, le_div_iff₀ (by positivity)]
    have uA : 0 ≤ R.u * (A + 1) := mul_nonneg u0 (by linarith)
    have : 10 ^ 4 * R.u * (A + 1) * (7 * sub) ≤ 10 ^ 4 * R.u * (A + 1) * 35 :=
      mul_le_mul_of_nonneg_left (by linarith) (by linarith)
    linarith
  obtain ⟨-, hnear⟩ := hashDistR_near R hu E p hE nodes x q
  have hne' := hashDistR_pos R hu hE hb0.ne'
  set h := binSize E p nodes x q with hh
  set h' := hashDistR R p (distMinR R E nodes x q.dist q.dist0) with hh'
  have HS : Sizes R N x A h h' := ⟨hu, hN, A0, hA, hin, hb0, hbf, hb1, hnear⟩
  obtain ⟨lob, g, r, hl, hgs, hgv, hr, hF⟩ := refineMesh_finish E N p nodes x q hb0.ne'
  obtain ⟨r', hr', hF'⟩ := refineR_run R E N p (by omega) nodes x q hne'
  rw [← hh] at hF
  have n2 : 2 ≤ pts1d p := by unfold pts1d; split <;> omega
  have hsp : sub1d p + 1 = pts1d p := sub_pts p
  obtain ⟨S, hSn⟩ : ∃ S, pts1d p = S + 1 := ⟨pts1d p - 1, by omega⟩
  have hS : 0 < S := by omega
  -- exact points
  obtain ⟨lob', hl', gn1, gn2, gn3, gn4⟩ := good_nodes (p := p) (by omega) q.lob
  have : lob' = lob := by rw [hl] at hl'; exact (Option.some.inj hl').symm
  subst this
  obtain ⟨t, ht⟩ : ∃ t : ℕ → ℝ, t = fun i => (1 + lob'.val i) / 2 := ⟨_, rfl⟩
  have ht0 : t 0 = 0 := by rw [ht]; simp only []; rw [gn3]; norm_num
  have ht1 : t S = 1 := by rw [ht]; simp only []; rw [show S = pts1d p - 1 by omega, gn4]; norm_num
  have hγ : 0 < 1 / (7 * sub) := by positivity
  have hstep : ∀ i < S, 1.15 * (1 / (7 * sub)) ≤ t (i + 1) - t i := by
    intro i hi
    have := lob_gap23 hp hl i (by omega)
    rw [← hsub] at this
    rw [ht]; simp only []
    have e : 2.3 / (7 * sub) = 2.3 * (1 / (7 * sub)) := by ring
    rw [e] at this
    norm_num at this ⊢
    linarith
  have hfx : ∀ d < 3, ∀ z, 1.11 * h ≤ fineX S X t d (z + 1) - fineX S X t d z := by
    intro d hd z
    obtain ⟨i, hi, e⟩ := fineX_gap hS (X := X) ht0 ht1 d z
    rw [e]
    have hw := hL.incr d hd (z / S)
    calc 1.11 * h ≤ 1.11 * ((X d (pos (E - 1) d + 1) - X d (pos (E - 1) d)) * (1 / (7 * sub))) := by
          have := hbs d hd; norm_num at this ⊢; linarith
      _ ≤ 1.11 * ((1.03 * (X d (z / S + 1) - X d (z / S))) * (1 / (7 * sub))) := by
          have := mul_le_mul_of_nonneg_right (hL.last d hd (z / S)) hγ.le
          norm_num at this ⊢; linarith
      _ ≤ (X d (z / S + 1) - X d (z / S)) * (1.15 * (1 / (7 * sub))) := by
          have : 0 ≤ (X d (z / S + 1) - X d (z / S)) * (1 / (7 * sub)) := mul_nonneg (by linarith) hγ.le
          norm_num at this ⊢; linarith
      _ ≤ _ := mul_le_mul_of_nonneg_left (hstep i hi) (by linarith)
  have h11 : 0 < 1.11 * h := by norm_num; exact hb0
  have hpos : ∀ e k j i, e < E → k < pts1d p → j < pts1d p → i < pts1d p → ∀ d < 3,
      r.gauss.val (cellId (pts1d p) e k j i) d = fineX S X t d (pos e d * S + dig i j k d) := by
    intro e k j i he hk hj hi d hd
    rw [grid_gauss (by omega) hL hr hl he hk hj hi d hd,
      fineX_eq hS ht0 ht1 d (pos e d) (show dig i j k d ≤ S by have := dig_lt (d := d) hi hj hk; omega), ht]
  -- rounded points
  obtain ⟨-, l0, l1⟩ := lobR_near R hu hb (p := p) (by omega)
  have hpos' : ∀ e k j i, e < E → k < pts1d p → j < pts1d p → i < pts1d p → ∀ d < 3,
      r'.gauss.val (cellId (pts1d p) e k j i) d =
        gridPtR R (fun i => (lobNodesR R (pts1d p)).getD i 0) X (fun m => (pos e m * S + dig i j k m) / S)
          (((pos e 0 * S + dig i j k 0) % S).toNat) (((pos e 1 * S + dig i j k 1) % S).toNat) (((pos e 2 * S + dig i j k 2) % S).toNat) d := by
    intro e k j i he hk hj hi d hd
    rw [hF'.gauss e k j i he hk hj hi]
    have : gPointR R (basisR R (fun i => (lobNodesR R (pts1d p)).getD i 0) i j k) (fun v => x (nodes e v) d) =
        gridPtR R (fun i => (lobNodesR R (pts1d p)).getD i 0) X (pos e) i j k d := by
      unfold gridPtR
      exact gPointR_congr R _ fun v hv => hL.coords e he v hv d hd
    simp only []
    rw [this, gridPtR_normal R hI hb hS _ l0 (by rw [show S = pts1d p - 1 by omega]; exact l1) X (pos e) i j k (by omega) (by omega)
      (by omega) d hd]
    rfl
  have hsurj : ∀ g < E * pts1d p ^ 3, ∃ e k j i, e < E ∧ k < pts1d p ∧ j < pts1d p ∧ i < pts1d p ∧
      cellId (pts1d p) e k j i = g := by
    intro g hg
    exact cellId_surj (by rw [show pts1d p * pts1d p * pts1d p * E = E * pts1d p ^ 3 by ring]; exact hg)
  have hnearg : ∀ g < E * pts1d p ^ 3, ∀ d < 3, |r'.gauss.val g d - r.gauss.val g d| ≤ 140 * R.u * A ∧ |r.gauss.val g d| ≤ A := by
    intro g' hg' d hd
    obtain ⟨e, k, j, i, he, hk, hj, hi, rfl⟩ := hsurj g' hg'
    rw [hF'.gauss e k j i he hk hj hi, hF.gauss, hgv e k j i he hk hj hi]
    exact gauss_near R hu hb (by omega) hl A0 (fun v hv => hin d hd _ (hL.valid e he v hv)) hi hj hk
  have hbox := fun g hg d => gauss_box (p := p) (by omega) hL.valid hr g hg d
  -- lattice coordinates decide
  have hkey : ∀ g₁ < E * pts1d p ^ 3, ∀ g₂ < E * pts1d p ^ 3,
      (key N x h (r.gauss.val g₁) = key N x h (r.gauss.val g₂) ↔ keyR R N x h' (r'.gauss.val g₁) = keyR R N x h' (r'.gauss.val g₂)) ∧
      ((∀ d < 3, r.gauss.val g₁ d = r.gauss.val g₂ d) ↔ ∀ d < 3, r'.gauss.val g₁ d = r'.gauss.val g₂ d) := by
    intro g₁ hg₁ g₂ hg₂
    have b1 := fun d (_ : d < 3) => hbox g₁ hg₁ d
    have b2 := fun d (_ : d < 3) => hbox g₂ hg₂ d
    have k1 := key_iff_bin N x hb0 (hb1.trans (by norm_num)) (r.gauss.val g₁) (r.gauss.val g₂) b1 b2
    have k2 := keyR_iff R HS (fun d hd => (b1 d hd).2) (fun d hd => (b2 d hd).2) (fun d hd => (hnearg g₁ hg₁ d hd).2)
      (fun d hd => (hnearg g₂ hg₂ d hd).2) (fun d hd => (hnearg g₁ hg₁ d hd).1) (fun d hd => (hnearg g₂ hg₂ d hd).1)
    obtain ⟨e₁, c₁, j₁, i₁, he₁, hk₁, hj₁, hi₁, eg₁⟩ := hsurj g₁ hg₁
    obtain ⟨e₂, c₂, j₂, i₂, he₂, hk₂, hj₂, hi₂, eg₂⟩ := hsurj g₂ hg₂
    by_cases hz : ∀ d < 3, pos e₁ d * S + dig i₁ j₁ c₁ d = pos e₂ d * S + dig i₂ j₂ c₂ d
    · have q1 : ∀ d < 3, r.gauss.val g₁ d = r.gauss.val g₂ d := by
        intro d hd
        rw [← eg₁, ← eg₂, hpos _ _ _ _ he₁ hk₁ hj₁ hi₁ d hd, hpos _ _ _ _ he₂ hk₂ hj₂ hi₂ d hd, hz d hd]
      have q2 : ∀ d < 3, r'.gauss.val g₁ d = r'.gauss.val g₂ d := by
        intro d hd
        rw [← eg₁, ← eg₂, hpos' _ _ _ _ he₁ hk₁ hj₁ hi₁ d hd, hpos' _ _ _ _ he₂ hk₂ hj₂ hi₂ d hd,
          hz 0 (by omega), hz 1 (by omega), hz 2 (by omega)]
        unfold gridPtR
        apply gPointR_congr
        intro v _
        simp only []
        rw [hz d hd]
      exact ⟨⟨fun _ => keyR_congr R q2, fun _ => key_congr0 q1⟩, ⟨fun _ => q2, fun _ => q1⟩⟩
    · push Not at hz
      obtain ⟨d, hd, hz⟩ := hz
      have hsep : 1.11 * h ≤ |r.gauss.val g₁ d - r.gauss.val g₂ d| := by
        rw [← eg₁, ← eg₂, hpos _ _ _ _ he₁ hk₁ hj₁ hi₁ d hd, hpos _ _ _ _ he₂ hk₂ hj₂ hi₂ d hd]
        exact step_sep h11 (hfx d hd) hz
      have hidx : indexR R N x h' (r'.gauss.val g₁) d ≠ indexR R N x h' (r'.gauss.val g₂) d := by
        rcases le_total (r.gauss.val g₁ d) (r.gauss.val g₂ d) with hle | hle
        · rw [abs_of_nonpos (by linarith)] at hsep
          exact (indexR_lt R HS hd (hbox g₁ hg₁ d).1 (hnearg g₁ hg₁ d hd).2 (hnearg g₂ hg₂ d hd).2 (hnearg g₁ hg₁ d hd).1
            (hnearg g₂ hg₂ d hd).1 (by linarith)).ne
        · rw [abs_of_nonneg (by linarith)] at hsep
          exact (indexR_lt R HS hd (hbox g₂ hg₂ d).1 (hnearg g₂ hg₂ d hd).2 (hnearg g₁ hg₁ d hd).2 (hnearg g₂ hg₂ d hd).1
            (hnearg g₁ hg₁ d hd).1 (by linarith)).ne'
      have hbin : bin N x h (r.gauss.val g₁) d ≠ bin N x h (r.gauss.val g₂) d :=
        bin_ne hb0 (hbox g₁ hg₁ d).1 (hbox g₂ hg₂ d).1 (le_trans (by norm_num; linarith) hsep)
      have hg1 : ¬ ∀ d < 3, r.gauss.val g₁ d = r.gauss.val g₂ d := fun c => hbin (by unfold bin; rw [c d hd])
      have hg2 : ¬ ∀ d < 3, r'.gauss.val g₁ d = r'.gauss.val g₂ d := fun c => hidx (by unfold indexR; rw [c d hd])
      exact ⟨⟨fun c => absurd (k1.1 c d hd) hbin, fun c => absurd (k2.1 c d hd) hidx⟩, ⟨fun c => absurd c hg1, fun c => absurd c hg2⟩⟩
  have hK : pts1d p ^ 3 * E = E * pts1d p ^ 3 := Nat.mul_comm _ _
  obtain ⟨hrank, hid⟩ := kernel_congr (m := E * pts1d p ^ 3)
    (k := sep (fun i => key N x h (g.val i))) (k' := sep (fun i => keyR R N x h' (r'.gauss.val i))) (by
      intro a ha b hb'
      rw [sep_eq_iff, sep_eq_iff]
      have := (hkey a ha b hb').1
      rw [hF.gauss] at this
      simp only [this])
  have hnum : r'.numNodes = r.numNodes := by rw [hF'.fin.num, hF.num, hK, hrank]
  have hnig : ∀ g < E * pts1d p ^ 3, r'.nig.val g = r.nig.val g := fun g hg => by
    rw [hF'.fin.nig g hg, hF.nig g hg, hid g hg]
  have hcell : ∀ c < E * sub1d p ^ 3, ∃ e k j i, e < E ∧ k < sub1d p ∧ j < sub1d p ∧ i < sub1d p ∧ cellId (sub1d p) e k j i = c := by
    intro c hc
    exact cellId_surj (by rw [show sub1d p * sub1d p * sub1d p * E = E * sub1d p ^ 3 by ring]; exact hc)
  have gsz : r.gauss.size = E * pts1d p ^ 3 := by rw [hF.gauss]; exact hgs
  refine ⟨r, r', hr, hr', by rw [hF.counts, hF'.fin.counts], hnum, ?_, ?_, ?_, ?_, fun g hg g' hg' => (hkey g hg g' hg').2, ?_, ?_⟩
  · intro g hg
    refine ⟨_, Arr.get_lt (by rw [hF.sizes.1]; exact hg), ?_⟩
    rw [Arr.get_lt (by rw [hF'.fin.sizes.1]; exact hg), hnig g hg]
  · intro m hm
    refine ⟨_, Arr.get_lt (by rw [hF.cells_size.2.2.2]; exact hm), ?_⟩
    rw [Arr.get_lt (by rw [hF'.fin.cells_size.2.2.2]; exact hm)]
    obtain ⟨e, k, j, i, he, hk, hj, hi, hc⟩ := hcell (m / 8) (by omega)
    have hm' : m = cellId (sub1d p) e k j i * 8 + m % 8 := by omega
    rw [hm', (hF.cells e k j i he hk hj hi).2.2.2 _ (by omega), (hF'.fin.cells e k j i he hk hj hi).2.2.2 _ (by omega), hnig]
    exact lt_of_lt_of_eq (corner_lt hsp he hk hj hi (by omega)) (by ring)
  · intro m hm
    refine ⟨_, Arr.get_lt (by rw [hF.cells_size.1]; exact hm), ?_⟩
    rw [Arr.get_lt (by rw [hF'.fin.cells_size.1]; exact hm)]
    obtain ⟨e, k, j, i, he, hk, hj, hi, hc⟩ := hcell (m / 8) (by omega)
    have hm' : m = cellId (sub1d p) e k j i * 8 + m % 8 := by omega
    rw [hm', (hF.cells e k j i he hk hj hi).1 _ (by omega), (hF'.fin.cells e k j i he hk hj hi).1 _ (by omega)]
  · intro m hm
    refine ⟨_, Arr.get_lt (by rw [hF.cells_size.2.2.1]; exact hm), ?_⟩
    rw [Arr.get_lt (by rw [hF'.fin.cells_size.2.2.1]; exact hm)]
    obtain ⟨e, k, j, i, he, hk, hj, hi, hc⟩ := hcell m hm
    rw [← hc, (hF.cells e k j i he hk hj hi).2.2.1, (hF'.fin.cells e k j i he hk hj hi).2.2.1]
  · intro g hg
    exact ⟨_, _, Arr.get_lt (by rw [gsz]; exact hg), Arr.get_lt (by rw [hF'.size]; exact hg), fun d hd => (hnearg g hg d hd).1⟩
  · intro n hn
    obtain ⟨f, hf, f1, f2, f3⟩ := hF.coords n hn
    obtain ⟨f', hf', f1', f2', f3'⟩ := hF'.fin.coords n (by rw [hnum]; exact hn)
    have : f = f' := by
      have a1 := f2 f' hf' (by rw [← hnig f' hf']; exact f1')
      have a2 := f2' f hf (by rw [hnig f hf]; exact f1)
      omega
    subst this
    refine ⟨_, _, Arr.get_lt (by rw [hF.sizes.2]; exact hn), Arr.get_lt (by rw [hF'.fin.sizes.2, hnum]; exact hn), fun d hd => ?_⟩
    rw [f3, f3']
    exact (hnearg f hf d hd).1

theorem duo_inside (d : ℕ) (hd : d < 3) (n : ℕ) (hn : n < 12) : |Key.duoCoords 1 n d| ≤ 2 := by
  interval_cases d <;> interval_cases n <;> norm_num [Key.duoCoords]

/-- Non-vacuity: two unit cubes, order 3, double precision. -/
example (q : Junk) : ∃ r r', refineMesh 2 12 3 Key.duoNodes (Key.duoCoords 1) q = some r ∧
    refineMeshR Rounding.binary64 2 12 3 Key.duoNodes (Key.duoCoords 1) q = some r' ∧ r'.numNodes = r.numNodes ∧
    ∀ g < 2 * 343, ∃ n, r.nig.get g = some n ∧ r'.nig.get g = some n := by
  obtain ⟨r, r', h1, h2, -, h3, h4, -⟩ := C92_grid_partial Rounding.binary64 Rounding.binary64_idem (by rw [Rounding.binary64_u]; norm_num)
    (by rw [Rounding.binary64_bits]; norm_num) 2 12 3 (by omega) _ _ _ _ Key.duo_lattice.grid 2 1 (by norm_num)
    duo_inside (fun d _ => by push_cast; norm_num) (by rw [Rounding.binary64_u]; norm_num) ⟨0, by omega, by push_cast; norm_num⟩ q
  exact ⟨r, r', h1, h2, h3, h4⟩

theorem duo_distinct : DistinctVerts 2 Key.duoNodes (Key.duoCoords 1) := by
  refine ⟨by omega, fun a ha b hb hab => ?_⟩
  have : ∀ a < 8, ∀ b < 8, a ≠ b → ∃ d < 3, Key.bit a d ≠ Key.bit b d := by decide
  obtain ⟨d, hd, hne⟩ := this a ha b hb hab
  refine ⟨d, hd, fun h => hne ?_⟩
  have hL := Key.duo_lattice
  rw [hL.coords 1 (by omega) a ha d hd, hL.coords 1 (by omega) b hb d hd] at h
  simpa using h

open HighOrder in
/-- Non-vacuity of `C92_aligned`: the common face of two unit cubes, order 2, double precision. -/
example (q : Junk) : ∃ r, refineMeshR Rounding.binary64 2 12 2 Key.duoNodes (Key.duoCoords 1) q = some r ∧
    ∀ u ≤ 4, ∀ v ≤ 4, ∃ n, r.nig.get (faceIdx 4 0 1 u v) = some n ∧ r.nig.get (125 + faceIdx 4 0 0 u v) = some n := by
  obtain ⟨r, hr, h⟩ := C92_aligned Rounding.binary64 Rounding.binary64_idem (by rw [Rounding.binary64_u]; norm_num)
    (by rw [Rounding.binary64_bits]; norm_num) 2 12 2 (by omega) _ _ q duo_distinct
  refine ⟨r, hr, ?_⟩
  intro u hu v hv
  have hs : ∀ u : ℕ, u < 2 → ∀ v : ℕ, v < 2 → Key.duoNodes 0 (faceIdx 1 0 1 u v) = Key.duoNodes 1 (faceIdx 1 0 0 u v) := by
    decide +kernel
  obtain ⟨g, g', e, e', -, h3⟩ := h 0 (by omega) 1 (by omega) 0 (by omega) (fun u hu v hv => hs u (by omega) v (by omega)) u hu v hv
  have i1 : g = faceIdx 4 0 1 u v := by rw [e]; simp [gaussInElem, sub1d]
  have i2 : g' = 125 + faceIdx 4 0 0 u v := by rw [e']; simp [gaussInElem, sub1d, pts1d]
  rw [i1, i2] at h3
  exact h3 (by simp [faceIdx]) (by omega)

end Verif.Swage.Refine
