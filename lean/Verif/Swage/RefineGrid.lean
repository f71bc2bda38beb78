import Verif.Swage.RefineLattice

/-!
# The refined mesh of a rectilinear grid is a rectilinear grid

`refine_mesh` places the nodes of a box cell at the Lobatto points, so the cells of the refined mesh have different widths.  The
last cell is a corner cell of the last element and therefore one of the thinnest (up to 3%), which is what the patch keys need
(`Key.Grid`).
-/

namespace Verif.Swage.Refine
open Verif.Swage

theorem last_check : ∀ p ∈ [0, 1, 3, 4, 5], ∀ i < pts1d p - 1,
    (Quad.lobNodesQ (pts1d p)).getD (pts1d p - 1) 0 - (Quad.lobNodesQ (pts1d p)).getD (pts1d p - 2) 0 ≤
      (Quad.lobNodesQ (pts1d p)).getD (i + 1) 0 - (Quad.lobNodesQ (pts1d p)).getD i 0 := by
  decide +kernel

/-- Up to order 5, the last gap between Lobatto points is a smallest one. -/
theorem lob_last {p : ℕ} (hp : p ≤ 5) {a : ℕ → ℝ} {lob : Arr ℝ}
    (h : Quad.lobatto_nodes_1D (pts1d p) ⟨pts1d p, a⟩ = some lob) (i : ℕ) (hi : i + 1 < pts1d p) :
    lob.val (pts1d p - 1) - lob.val (pts1d p - 2) ≤ lob.val (i + 1) - lob.val i := by
  have n2 : 2 ≤ pts1d p := by unfold pts1d; split <;> omega
  have n20 : pts1d p ≤ 20 := by unfold pts1d; split <;> omega
  rw [lob_val n2 n20 h (i + 1) hi, lob_val n2 n20 h i (by omega), lob_val n2 n20 h (pts1d p - 1) (by omega),
    lob_val n2 n20 h (pts1d p - 2) (by omega)]
  by_cases h2 : p = 2
  · subst h2
    have hs : √21 ^ 2 = (21 : ℝ) := Real.sq_sqrt (by norm_num)
    have h0 : 0 < √21 := Real.sqrt_pos.2 (by norm_num)
    have h1 : √21 < 4.6 := by nlinarith
    have h3 : 4.5 < √21 := by nlinarith
    have hx : Quad.lobNodes (pts1d 2) = [-1, -1/7*√21, 0, 1/7*√21, (1:ℝ)] := rfl
    rw [hx]
    have h5 : pts1d 2 = 5 := rfl
    have hi' : i < 4 := by omega
    rw [h5]
    interval_cases i <;> norm_num <;> linarith
  · have hm : p ∈ [0, 1, 3, 4, 5] := by
      have : p = 0 ∨ p = 1 ∨ p = 3 ∨ p = 4 ∨ p = 5 := by omega
      simpa using this
    have := last_check p hm i (by omega)
    have hne : pts1d p ≠ 4 ∧ pts1d p ≠ 5 ∧ pts1d p ≠ 6 := by unfold pts1d; split <;> omega
    rw [Quad.lobNodes_eq hne, Quad.getD_map_cast, Quad.getD_map_cast, Quad.getD_map_cast, Quad.getD_map_cast]
    have h3 := (Rat.cast_le (K := ℝ)).2 this
    push_cast at h3
    exact h3

/-- Element of a cell. -/
def cellElem (S c : ℕ) : ℕ := c / (S * S * S)
/-- Position of a cell in its element. -/
def cellDig (S c d : ℕ) : ℕ :=
  dig (c % (S * S * S) % S) (c % (S * S * S) / S % S) (c % (S * S * S) / (S * S)) d

theorem cellElem_cellId {S e k j i : ℕ} (hk : k < S) (hj : j < S) (hi : i < S) : cellElem S (cellId S e k j i) = e := by
  have h1 := flat_lt hi hj hk
  have h3 : S ^ 3 = S * S * S := by ring
  unfold cellElem cellId
  rw [Nat.add_mul_div_left _ _ (by omega), Nat.div_eq_of_lt (by omega), zero_add]

theorem cellDig_cellId {S e k j i : ℕ} (hk : k < S) (hj : j < S) (hi : i < S) (d : ℕ) :
    cellDig S (cellId S e k j i) d = dig i j k d := by
  have h1 := flat_lt hi hj hk
  unfold cellDig cellId
  have e : (i + j * S + k * S * S + S * S * S * e) % (S * S * S) = i + j * S + k * S * S := by
    rw [Nat.add_mul_mod_self_left, Nat.mod_eq_of_lt h1]
  rw [e, digit0 hi, digit1 hi hj, ← Nat.div_div_eq_div_mul, digit2 hi hj]

/-- Position of a cell of the refined mesh in the refined grid: `S` planes for each plane of the original grid. -/
def finePos (S : ℕ) (pos : ℕ → ℕ → ℤ) (c d : ℕ) : ℤ := pos (cellElem S c) d * S + cellDig S c d

/-- `nodes_in_cell(c, l)` of the refined mesh. -/
def Refined.cellNode (r : Refined) (c l : ℕ) : ℕ := (r.nodes.val (c * 8 + l)).toNat
/-- `node_coords(n, d)` of the refined mesh. -/
def Refined.x (r : Refined) (n d : ℕ) : ℝ := r.coords.val n d

theorem bit_digs : ∀ l < 8, Key.bit l 0 = l % 2 ∧ Key.bit l 1 = l / 2 % 2 ∧ Key.bit l 2 = l / 4 := by decide

theorem dig_bit {l : ℕ} (hl : l < 8) (i j k : ℕ) {d : ℕ} (hd : d < 3) :
    dig (i + l % 2) (j + l / 2 % 2) (k + l / 4) d = dig i j k d + Key.bit l d := by
  obtain ⟨b0, b1, b2⟩ := bit_digs l hl
  unfold dig
  interval_cases d
  · simp [b0]
  · simp [b1]
  · simp [b2]

/-- The refined mesh of a grid mesh (under the conditions of `C42_grid_partial`): the run exists, the Gauss points on the same
position are one node, and the refined mesh is a rectilinear grid with the planes at the Lobatto points of the cells. -/
theorem refined_grid (E N p : ℕ) (hp : p ≤ 5) (nodes : ℕ → ℕ → ℕ) (x : ℕ → ℕ → ℝ) (X : ℕ → ℤ → ℝ)
    (pos : ℕ → ℕ → ℤ) (hL : Key.Grid E N nodes x X pos) (hsmall : ∃ d < 3, X d (pos (E - 1) d + 1) - X d (pos (E - 1) d) ≤ 7)
    (hfirst : ∀ c < E, ∀ l < 8, nodes c l = nodes 0 0 → c = 0 ∧ l = 0) (q : Junk) :
    ∃ r, refineMesh E N p nodes x q = some r ∧ Run E N p nodes x q r ∧
      ∃ t : ℕ → ℝ, (∀ i < pts1d p, t i = (1 + (Quad.lobNodes (pts1d p)).getD i 0) / 2) ∧ t 0 = 0 ∧ t (sub1d p) = 1 ∧ (∀ i < sub1d p, 1 / 35 ≤ t (i + 1) - t i) ∧
        (∀ e < E, ∀ k < pts1d p, ∀ j < pts1d p, ∀ i < pts1d p, ∀ d < 3,
          r.coords.val (r.nig.val (cellId (pts1d p) e k j i)).toNat d = fineX (sub1d p) X t d (pos e d * sub1d p + dig i j k d)) ∧
        Key.Grid (E * sub1d p ^ 3) r.numNodes r.cellNode r.x (fineX (sub1d p) X t) (finePos (sub1d p) pos) := by
  obtain ⟨r, hr, same, place⟩ := C42_grid_partial E N p hp nodes x X pos hL hsmall hfirst q
  obtain ⟨r', hr', R⟩ := refine_run E N p nodes x q (run_ne hr)
  obtain rfl : r' = r := Option.some.inj (hr'.symm.trans hr)
  refine ⟨r', hr, R, ?_⟩
  obtain ⟨lob, hl, gn1, gn2, gn3, gn4⟩ := good_nodes (p := p) (by omega) q.lob
  have hn := sub_pts p
  have hS : 0 < sub1d p := by unfold sub1d; split <;> omega
  set S := sub1d p with hSd
  set n := pts1d p with hnd
  have hS' : (0 : ℤ) < S := by exact_mod_cast hS
  obtain ⟨t, ht⟩ : ∃ t : ℕ → ℝ, t = fun i => (1 + lob.val i) / 2 := ⟨_, rfl⟩
  have t0 : t 0 = 0 := by rw [ht]; simp only []; rw [gn3]; norm_num
  have t1 : t S = 1 := by rw [ht]; simp only []; rw [show S = n - 1 by omega, gn4]; norm_num
  have hE := hL.ne
  have hC : 0 < E * S ^ 3 := by positivity
  have tgap : ∀ i < S, 1 / 35 ≤ t (i + 1) - t i := by
    intro i hi
    have := lob_gap hp hl i (by omega)
    have h2 : (2.06 : ℝ) / 35 ≤ 2.06 / (7 * (if p = 0 then 1 else (p : ℝ))) := by
      apply div_le_div_of_nonneg_left (by norm_num)
      · split
        · norm_num
        · have : (0 : ℝ) < p := by exact_mod_cast (by omega)
          linarith
      · split
        · norm_num
        · have : (p : ℝ) ≤ 5 := by exact_mod_cast hp
          linarith
    rw [ht]; simp only []
    norm_num at h2 this ⊢
    linarith
  have tlast : ∀ i < S, t S - t (S - 1) ≤ t (i + 1) - t i := by
    intro i hi
    have := lob_last hp hl i (by omega)
    rw [ht]; simp only []
    rw [show n - 1 = S by omega, show n - 2 = S - 1 by omega] at this
    linarith
  have hplace : ∀ e < E, ∀ k < n, ∀ j < n, ∀ i < n, ∀ d < 3,
      r'.coords.val (r'.nig.val (cellId n e k j i)).toNat d = fineX S X t d (pos e d * S + dig i j k d) := by
    intro e he k hk j hj i hi d hd
    have hid := cellId_lt he hk hj hi
    rw [place _ (by rw [show E * n ^ 3 = n * n * n * E by ring]; exact hid) d hd,
      grid_gauss (by omega) hL hr hl he hk hj hi d hd,
      fineX_eq hS t0 t1 d (pos e d) (show dig i j k d ≤ S by have := dig_lt (d := d) hi hj hk; omega), ht]
  have hnode : ∀ e < E, ∀ k < S, ∀ j < S, ∀ i < S, ∀ l < 8, r'.cellNode (cellId S e k j i) l =
      (r'.nig.val (cellId n e (k + l / 4) (j + l / 2 % 2) (i + l % 2))).toNat := by
    intro e he k hk j hj i hi l hl
    unfold Refined.cellNode
    rw [(R.cells e k j i he hk hj hi).2.2.2 l hl, corner_eq _ _ _ _ _ _ hl]
  have hsurj : ∀ c < E * S ^ 3, ∃ e k j i, e < E ∧ k < S ∧ j < S ∧ i < S ∧ cellId S e k j i = c := by
    intro c hc
    exact cellId_surj (by rw [show S * S * S * E = E * S ^ 3 by ring]; exact hc)
  have hcorner : ∀ e < E, ∀ k < S, ∀ j < S, ∀ i < S, ∀ l < 8,
      cellId n e (k + l / 4) (j + l / 2 % 2) (i + l % 2) < E * n ^ 3 := by
    intro e he k hk j hj i hi l hl
    rw [show E * n ^ 3 = n * n * n * E by ring]
    exact cellId_lt he (by omega) (by omega) (by omega)
  refine ⟨t, fun i hi => by rw [ht]; simp only []; rw [lob_val (by omega) (by rw [hnd]; unfold pts1d; split <;> omega) hl i hi], t0, t1, tgap, hplace, ⟨hC, ?_, ?_, ?_, ?_, ?_, ?_⟩⟩
  · intro c hc l hl
    obtain ⟨e, k, j, i, he, hk, hj, hi, rfl⟩ := hsurj c hc
    rw [hnode e he k hk j hj i hi l hl]
    have := R.nig_range _ (hcorner e he k hk j hj i hi l hl)
    omega
  · intro d hd z
    obtain ⟨i, hi, e⟩ := fineX_gap hS (X := X) t0 t1 d z
    have h1 := tgap i hi
    have h2 := hL.incr d hd (z / S)
    have : 0 < (X d (z / S + 1) - X d (z / S)) * (t (i + 1) - t i) := mul_pos (by linarith) (by linarith)
    linarith
  · intro d hd z
    obtain ⟨i, hi, e⟩ := fineX_gap hS (X := X) t0 t1 d z
    rw [e]
    have hlastc : E * S ^ 3 - 1 = cellId S (E - 1) (S - 1) (S - 1) (S - 1) := by
      obtain ⟨E', rfl⟩ : ∃ E', E = E' + 1 := ⟨E - 1, by omega⟩
      obtain ⟨S', hS''⟩ : ∃ S', S = S' + 1 := ⟨S - 1, by omega⟩
      rw [hS'']
      unfold cellId
      simp only [Nat.add_sub_cancel]
      have : (E' + 1) * (S' + 1) ^ 3 = S' + S' * (S' + 1) + S' * (S' + 1) * (S' + 1) + (S' + 1) * (S' + 1) * (S' + 1) * E' + 1 := by ring
      omega
    have hfp : finePos S pos (E * S ^ 3 - 1) d = pos (E - 1) d * S + (S - 1 : ℕ) := by
      unfold finePos
      rw [hlastc, cellElem_cellId (by omega) (by omega) (by omega), cellDig_cellId (by omega) (by omega) (by omega)]
      unfold dig
      split
      · rfl
      · split <;> rfl
    rw [hfp]
    have e1 := fineX_eq hS (X := X) t0 t1 d (pos (E - 1) d) (show S - 1 ≤ S by omega)
    have e2 := fineX_eq hS (X := X) t0 t1 d (pos (E - 1) d) (le_refl S)
    rw [show pos (E - 1) d * (S : ℤ) + (S - 1 : ℕ) + 1 = pos (E - 1) d * S + S by omega, e1, e2]
    have h1 := tlast i hi
    have h2 := hL.incr d hd (z / S)
    have h3 := tgap (S - 1) (by omega)
    rw [show S - 1 + 1 = S by omega] at h3
    calc X d (pos (E - 1) d) + (X d (pos (E - 1) d + 1) - X d (pos (E - 1) d)) * t S -
          (X d (pos (E - 1) d) + (X d (pos (E - 1) d + 1) - X d (pos (E - 1) d)) * t (S - 1)) =
          (X d (pos (E - 1) d + 1) - X d (pos (E - 1) d)) * (t S - t (S - 1)) := by ring
      _ ≤ 1.03 * (X d (z / S + 1) - X d (z / S)) * (t S - t (S - 1)) :=
          mul_le_mul_of_nonneg_right (hL.last d hd (z / S)) (by linarith)
      _ ≤ 1.03 * (X d (z / S + 1) - X d (z / S)) * (t (i + 1) - t i) :=
          mul_le_mul_of_nonneg_left h1 (by norm_num; linarith)
      _ = _ := by ring
  · intro c hc l hl d hd
    obtain ⟨e, k, j, i, he, hk, hj, hi, rfl⟩ := hsurj c hc
    unfold Refined.x
    rw [hnode e he k hk j hj i hi l hl, hplace e he _ (by omega) _ (by omega) _ (by omega) d hd]
    unfold finePos
    rw [cellElem_cellId hk hj hi, cellDig_cellId hk hj hi, dig_bit hl i j k hd]
    push_cast
    rw [add_assoc]
  · intro c hc l hl c' hc' l' hl' hx
    obtain ⟨e, k, j, i, he, hk, hj, hi, rfl⟩ := hsurj c hc
    obtain ⟨e', k', j', i', he', hk', hj', hi', rfl⟩ := hsurj c' hc'
    unfold Refined.x at hx
    rw [hnode e he k hk j hj i hi l hl, hnode e' he' k' hk' j' hj' i' hi' l' hl'] at hx ⊢
    have g1 := hcorner e he k hk j hj i hi l hl
    have g2 := hcorner e' he' k' hk' j' hj' i' hi' l' hl'
    congr 1
    refine (same _ g1 _ g2).2 fun d hd => ?_
    rw [← place _ g1 d hd, ← place _ g2 d hd]
    exact hx d hd
  · intro c hc c' hc' hx
    obtain ⟨e, k, j, i, he, hk, hj, hi, rfl⟩ := hsurj c hc
    obtain ⟨e', k', j', i', he', hk', hj', hi', rfl⟩ := hsurj c' hc'
    have key : ∀ d < 3, pos e d = pos e' d ∧ dig i j k d = dig i' j' k' d := by
      intro d hd
      have h := hx d hd
      unfold finePos at h
      rw [cellElem_cellId hk hj hi, cellDig_cellId hk hj hi, cellElem_cellId hk' hj' hi', cellDig_cellId hk' hj' hi'] at h
      have d1 := dig_lt (d := d) hi hj hk
      have d2 := dig_lt (d := d) hi' hj' hk'
      have a1 : (pos e d * S + (dig i j k d : ℤ)) / S = pos e d := by
        rw [add_comm, Int.add_mul_ediv_right _ _ hS'.ne', Int.ediv_eq_zero_of_lt (by omega) (by omega), zero_add]
      have a2 : (pos e' d * S + (dig i' j' k' d : ℤ)) / S = pos e' d := by
        rw [add_comm, Int.add_mul_ediv_right _ _ hS'.ne', Int.ediv_eq_zero_of_lt (by omega) (by omega), zero_add]
      have a3 : pos e d = pos e' d := by rw [← a1, ← a2, h]
      rw [a3] at h
      exact ⟨a3, by omega⟩
    have he' : e = e' := hL.inj e he e' he' fun d hd => (key d hd).1
    have k0 := (key 0 (by omega)).2
    have k1 := (key 1 (by omega)).2
    have k2 := (key 2 (by omega)).2
    simp [dig] at k0 k1 k2
    rw [he', k0, k1, k2]

end Verif.Swage.Refine
