import Verif.RefElem.Init

/-!
# C32, C33: index maps and corner weights of the reference element

All statements are for every polynomial order `p` and arbitrary contents `q` of fresh memory.
-/

namespace Verif.RefElem
open Finset

/-- **C32 (numbering).**  `node_rid`, `cell_rid` and `corner_rid` are bijections between the triples of a
`w × w × w` lattice and the numbers below `w³`. -/
theorem C32_rid (w : ℕ) : Set.BijOn (fun t : ℕ × ℕ × ℕ => rid w t.1 t.2.1 t.2.2)
    {t | t.1 < w ∧ t.2.1 < w ∧ t.2.2 < w} (Set.Iio (w ^ 3)) := by
  have hw : w ^ 3 = w * w * w := by ring
  rw [hw]
  refine ⟨?_, ?_, ?_⟩
  · rintro ⟨i, j, k⟩ ⟨hi, hj, hk⟩; exact rid_lt hi hj hk
  · rintro ⟨i, j, k⟩ ⟨hi, hj, hk⟩ ⟨i', j', k'⟩ ⟨hi', hj', hk'⟩ h
    obtain ⟨rfl, rfl, rfl⟩ := rid_inj hi hj hi' hj' h
    rfl
  · intro m hm
    obtain ⟨i, j, k, hi, hj, hk, rfl⟩ := rid_surj hm
    exact ⟨(i, j, k), ⟨hi, hj, hk⟩, rfl⟩

theorem get_of {α : Type} {a : Arr α} {i : ℕ} {x : α} (h : i < a.size) (hx : a.val i = x) : a.get i = some x := by
  rw [Arr.get_lt h, hx]

theorem bit_split {l : ℕ} (hl : l < 8) : l = rid 2 (l % 2) (l / 2 % 2) (l / 4) ∧ l % 2 < 2 ∧ l / 2 % 2 < 2 ∧ l / 4 < 2 := by
  unfold rid; omega

theorem nodesInCell_eq {p : ℕ} {q : Junk} {r : Ref} (h : InitSpec p q r) {i j k l : ℕ} (hi : i < cells1D p)
    (hj : j < cells1D p) (hk : k < cells1D p) (hl : l < 8) :
    r.nodesInCell (rid (cells1D p) i j k) l = some (rid (nodes1D p) (i + l % 2) (j + l / 2 % 2) (k + l / 4)) := by
  obtain ⟨part, -, h2⟩ := h.crn
  obtain ⟨e, a, b, c⟩ := bit_split hl
  have hb := rid_lt hi hj hk
  have hT : rid (cells1D p) i j k * 8 + rid 2 (l % 2) (l / 2 % 2) (l / 4) < 2 * cells1D p * (2 * cells1D p) * (2 * cells1D p) := by
    rw [← e, show 2 * cells1D p * (2 * cells1D p) * (2 * cells1D p) = cells1D p * cells1D p * cells1D p * 8 by ring]; omega
  have := h2.nodes i j k hi hj hk _ _ _ a b c hT
  rw [← e] at this hT
  unfold Ref.nodesInCell
  rw [Nat.add_comm l]
  exact get_of (by rw [h2.size2]; exact hT) this

theorem cornersInCell_eq {p : ℕ} {q : Junk} {r : Ref} (h : InitSpec p q r) {i j k l : ℕ} (hi : i < cells1D p)
    (hj : j < cells1D p) (hk : k < cells1D p) (hl : l < 8) :
    r.cornersInCell (rid (cells1D p) i j k) l =
      some (rid (2 * cells1D p) (2 * i + l % 2) (2 * j + l / 2 % 2) (2 * k + l / 4)) := by
  obtain ⟨part, -, h2⟩ := h.crn
  obtain ⟨e, a, b, c⟩ := bit_split hl
  have hb := rid_lt hi hj hk
  have hT : rid (cells1D p) i j k * 8 + rid 2 (l % 2) (l / 2 % 2) (l / 4) < 2 * cells1D p * (2 * cells1D p) * (2 * cells1D p) := by
    rw [← e, show 2 * cells1D p * (2 * cells1D p) * (2 * cells1D p) = cells1D p * cells1D p * cells1D p * 8 by ring]; omega
  have := h2.corners i j k hi hj hk _ _ _ a b c hT
  rw [← e] at this hT
  unfold Ref.cornersInCell
  rw [Nat.add_comm l]
  exact get_of (by rw [h2.size1]; exact hT) this

/-- **C32 (nodes of a cell).**  Local node `l = l0 + 2 l1 + 4 l2` of cell `(i, j, k)` is the lattice node
`(i + l0, j + l1, k + l2)`, in both tables. -/
theorem C32_nodes (p : ℕ) (q : Junk) : ∃ r, init p q = some r ∧
    ∀ i j k, i < cells1D p → j < cells1D p → k < cells1D p → ∀ l0 l1 l2, l0 < 2 → l1 < 2 → l2 < 2 →
      r.nodesInCell (i + j * cells1D p + k * cells1D p ^ 2) (l0 + 2 * l1 + 4 * l2) =
        some ((i + l0) + (j + l1) * nodes1D p + (k + l2) * nodes1D p ^ 2) ∧
      r.cellNodesInElem (i + j * cells1D p + k * cells1D p ^ 2) (l0 + 2 * l1 + 4 * l2) =
        some ((i + l0) + (j + l1) * nodes1D p + (k + l2) * nodes1D p ^ 2) := by
  obtain ⟨r, h1, h2⟩ := init_run p q
  refine ⟨r, h1, ?_⟩
  intro i j k hi hj hk l0 l1 l2 h0 h1 h2'
  have hl : l0 + 2 * l1 + 4 * l2 < 8 := by omega
  have e1 : i + j * cells1D p + k * cells1D p ^ 2 = rid (cells1D p) i j k := by unfold rid; ring
  have e2 : (i + l0) + (j + l1) * nodes1D p + (k + l2) * nodes1D p ^ 2 = rid (nodes1D p) (i + l0) (j + l1) (k + l2) := by
    unfold rid; ring
  have b := rid_lt hi hj hk
  rw [e1, e2]
  have a0 : (l0 + 2 * l1 + 4 * l2) % 2 = l0 := by omega
  have a1 : (l0 + 2 * l1 + 4 * l2) / 2 % 2 = l1 := by omega
  have a2 : (l0 + 2 * l1 + 4 * l2) / 4 = l2 := by omega
  have e3 := nodesInCell_eq h2 hi hj hk hl
  have e4 := h2.cellNodes i j k hi hj hk _ hl
  rw [a0, a1, a2] at e3 e4
  exact ⟨e3, get_of (by rw [h2.cnSize]; omega) e4⟩

/-- **C32 (corners).**  Every listed corner is a valid one, and every corner is listed by exactly one cell, in
exactly one place. -/
theorem C32_corners (p : ℕ) (q : Junk) : ∃ r, init p q = some r ∧
    (∀ x < cells1D p ^ 3, ∀ l < 8, ∃ c < corners1D p ^ 3, r.cornersInCell x l = some c) ∧
    ∀ c < corners1D p ^ 3, ∃! x : ℕ × ℕ, x.1 < cells1D p ^ 3 ∧ x.2 < 8 ∧ r.cornersInCell x.1 x.2 = some c := by
  obtain ⟨r, h1, h2⟩ := init_run p q
  refine ⟨r, h1, ?_, ?_⟩
  · intro x hx l hl
    rw [show cells1D p ^ 3 = cells1D p * cells1D p * cells1D p by ring] at hx
    obtain ⟨i, j, k, hi, hj, hk, rfl⟩ := rid_surj hx
    refine ⟨_, ?_, cornersInCell_eq h2 hi hj hk hl⟩
    rw [corners_eq, show (2 * cells1D p) ^ 3 = 2 * cells1D p * (2 * cells1D p) * (2 * cells1D p) by ring]
    exact rid_lt (by omega) (by omega) (by omega)
  intro c hc
  rw [corners_eq, show (2 * cells1D p) ^ 3 = 2 * cells1D p * (2 * cells1D p) * (2 * cells1D p) by ring] at hc
  rw [show cells1D p ^ 3 = cells1D p * cells1D p * cells1D p by ring]
  obtain ⟨a, b, d, ha, hb, hd, rfl⟩ := rid_surj hc
  refine ⟨(rid (cells1D p) (a / 2) (b / 2) (d / 2), a % 2 + 2 * (b % 2) + 4 * (d % 2)), ⟨?_, ?_, ?_⟩, ?_⟩
  · exact rid_lt (by omega) (by omega) (by omega)
  · simp only []; omega
  · simp only []
    rw [cornersInCell_eq h2 (by omega) (by omega) (by omega) (by omega)]
    congr 2 <;> omega
  · rintro ⟨x, l⟩ ⟨hx, hl, e⟩
    simp only [] at hx hl e
    obtain ⟨i, j, k, hi, hj, hk, rfl⟩ := rid_surj hx
    rw [cornersInCell_eq h2 hi hj hk hl, Option.some.injEq] at e
    obtain ⟨e1, e2, e3⟩ := rid_inj (by omega) (by omega) ha hb e
    rw [← e1, ← e2, ← e3]
    refine Prod.ext ?_ ?_
    · simp only []
      congr 1 <;> omega
    · simp only []; omega

/-- **C32 (zones).**  Every reference cell is in exactly one slot of exactly one zone. -/
theorem C32_zones (p : ℕ) (q : Junk) : ∃ r, init p q = some r ∧
    ∀ c < cells1D p ^ 3, ∃! x : ℕ × ℕ, x.1 < zones1D p ^ 3 ∧ x.2 < zoneRow p ∧ r.cellInZone (zoneRow p) x.1 x.2 = some c := by
  obtain ⟨r, h1, h2⟩ := init_run p q
  refine ⟨r, h1, ?_⟩
  intro c hc
  by_cases hp : p = 0
  · subst hp
    have e0 := h2.zone0 rfl
    have es := h2.zoneSize
    simp [zones1D, zoneRow, cells1D, nodes1D] at hc es
    subst hc
    refine ⟨(0, 0), ⟨by simp [zones1D], by simp [zoneRow], ?_⟩, ?_⟩
    · exact get_of (by rw [es]; simp) (by simpa using e0)
    · rintro ⟨x, l⟩ ⟨hx, hl, -⟩
      simp [zones1D, zoneRow] at hx hl
      rw [hx, hl]
  · have hw : zoneRow p = 8 := if_neg hp
    have hZ : cells1D p = 2 * zones1D p := by
      unfold cells1D zones1D nodes1D; rw [if_neg hp, if_neg hp]; omega
    have hz := h2.zone hp
    have hzs := h2.zoneSize
    rw [hw] at hzs ⊢
    rw [hZ] at hc hz
    rw [show (2 * zones1D p) ^ 3 = 2 * zones1D p * (2 * zones1D p) * (2 * zones1D p) by ring] at hc
    rw [show zones1D p ^ 3 = zones1D p * zones1D p * zones1D p by ring]
    obtain ⟨a, b, d, ha, hb, hd, rfl⟩ := rid_surj hc
    have key : ∀ i j k, i < zones1D p → j < zones1D p → k < zones1D p → ∀ l < 8,
        r.cellInZone 8 (rid (zones1D p) i j k) l =
          some (rid (2 * zones1D p) (2 * i + l % 2) (2 * j + l / 2 % 2) (2 * k + l / 4)) := by
      intro i j k hi hj hk l hl
      have := rid_lt hi hj hk
      exact get_of (by rw [hzs]; omega) (hz i j k hi hj hk l hl)
    refine ⟨(rid (zones1D p) (a / 2) (b / 2) (d / 2), a % 2 + 2 * (b % 2) + 4 * (d % 2)), ⟨?_, ?_, ?_⟩, ?_⟩
    · exact rid_lt (by omega) (by omega) (by omega)
    · simp only []; omega
    · simp only []
      rw [key _ _ _ (by omega) (by omega) (by omega) _ (by omega)]
      congr 2 <;> omega
    · rintro ⟨x, l⟩ ⟨hx, hl, e⟩
      simp only [] at hx hl e
      obtain ⟨i, j, k, hi, hj, hk, rfl⟩ := rid_surj hx
      rw [key i j k hi hj hk l hl, Option.some.injEq] at e
      obtain ⟨e1, e2, e3⟩ := rid_inj (by omega) (by omega) ha hb e
      rw [← e1, ← e2, ← e3]
      refine Prod.ext ?_ ?_
      · simp only []
        congr 1 <;> omega
      · simp only []; omega

/-- **C32 (blocks).**  Zone `(i, j, k)` consists of the `2 × 2 × 2` block of cells at `(2i, 2j, 2k)` (order 0: the only
cell), and the corners of cell `(i, j, k)` are the `2 × 2 × 2` block of corners at `(2i, 2j, 2k)`, both listed in i-j-k
order. -/
theorem C32_blocks (p : ℕ) (q : Junk) : ∃ r, init p q = some r ∧
    (∀ i j k, i < cells1D p → j < cells1D p → k < cells1D p → ∀ l0 l1 l2, l0 < 2 → l1 < 2 → l2 < 2 →
      r.cornersInCell (i + j * cells1D p + k * cells1D p ^ 2) (l0 + 2 * l1 + 4 * l2) =
        some ((2 * i + l0) + (2 * j + l1) * corners1D p + (2 * k + l2) * corners1D p ^ 2)) ∧
    (p = 0 → r.cellInZone 1 0 0 = some 0) ∧
    (p ≠ 0 → ∀ i j k, i < zones1D p → j < zones1D p → k < zones1D p → ∀ l0 l1 l2, l0 < 2 → l1 < 2 → l2 < 2 →
      r.cellInZone 8 (i + j * zones1D p + k * zones1D p ^ 2) (l0 + 2 * l1 + 4 * l2) =
        some ((2 * i + l0) + (2 * j + l1) * cells1D p + (2 * k + l2) * cells1D p ^ 2)) := by
  obtain ⟨r, h1, h2⟩ := init_run p q
  refine ⟨r, h1, ?_, ?_, ?_⟩
  · intro i j k hi hj hk l0 l1 l2 h0 h1 h2'
    have hl : l0 + 2 * l1 + 4 * l2 < 8 := by omega
    rw [show i + j * cells1D p + k * cells1D p ^ 2 = rid (cells1D p) i j k by unfold rid; ring,
      cornersInCell_eq h2 hi hj hk hl, corners_eq]
    rw [show (l0 + 2 * l1 + 4 * l2) % 2 = l0 by omega, show (l0 + 2 * l1 + 4 * l2) / 2 % 2 = l1 by omega,
      show (l0 + 2 * l1 + 4 * l2) / 4 = l2 by omega]
    congr 1
    unfold rid; ring
  · rintro rfl
    exact get_of (by rw [h2.zoneSize]; decide) (h2.zone0 rfl)
  · intro hp i j k hi hj hk l0 l1 l2 h0 h1 h2'
    have hl : l0 + 2 * l1 + 4 * l2 < 8 := by omega
    have hb := rid_lt hi hj hk
    have hw : zoneRow p = 8 := if_neg hp
    rw [show i + j * zones1D p + k * zones1D p ^ 2 = rid (zones1D p) i j k by unfold rid; ring]
    refine (get_of (by rw [h2.zoneSize, hw]; omega) (h2.zone hp i j k hi hj hk _ hl)).trans ?_
    rw [show (l0 + 2 * l1 + 4 * l2) % 2 = l0 by omega, show (l0 + 2 * l1 + 4 * l2) / 2 % 2 = l1 by omega,
      show (l0 + 2 * l1 + 4 * l2) / 4 = l2 by omega]
    congr 1
    unfold rid; ring

/-- Non-vacuity: order 2 has 4 cells, 5 nodes and 8 corners per direction and 2 zones. -/
example : cells1D 2 = 4 ∧ nodes1D 2 = 5 ∧ corners1D 2 = 8 ∧ zones1D 2 = 2 ∧ zoneRow 2 = 8 := by decide

/-! ### Corner weights -/

/-- `ref_corner_g_weights(corner)`, elements/elements.cpp:3128-3131. -/
noncomputable def Ref.cornerWeight (r : Ref) (c : ℕ) : ℝ := r.cornerW.val c
/-- `ref_node_g_weights(node)`, elements/elements.cpp:3123-3126. -/
noncomputable def Ref.nodeWeight (r : Ref) (m : ℕ) : ℝ := r.nodeW.val m

theorem cw1_sum {n : ℕ} (hn : 2 ≤ n) (w : ℕ → ℝ) {x : ℕ} (hx : x < n) :
    ∑ i ∈ range (n - 1), ∑ ii ∈ range 2, (if i + ii = x then cw1 n w (2 * i + ii) else 0) = w x := by
  have e : ∀ i ∈ range (n - 1), ∑ ii ∈ range 2, (if i + ii = x then cw1 n w (2 * i + ii) else 0) =
      (if i = x then cw1 n w (2 * x) else 0) + (if i + 1 = x then cw1 n w (2 * x - 1) else 0) := by
    intro i _
    rw [sum_range_succ, sum_range_one]
    congr 1
    · by_cases h : i = x
      · subst h; simp
      · rw [if_neg (by omega), if_neg h]
    · by_cases h : i + 1 = x
      · subst h; rw [if_pos rfl, if_pos rfl, show 2 * (i + 1) - 1 = 2 * i + 1 by omega]
      · rw [if_neg h, if_neg h]
  rw [sum_congr rfl e, sum_add_distrib]
  have s1 : ∑ i ∈ range (n - 1), (if i = x then cw1 n w (2 * x) else 0) = if x < n - 1 then cw1 n w (2 * x) else 0 := by
    rw [sum_ite_eq']; simp
  have s2 : ∑ i ∈ range (n - 1), (if i + 1 = x then cw1 n w (2 * x - 1) else 0) = if 0 < x then cw1 n w (2 * x - 1) else 0 := by
    by_cases h : 0 < x
    · rw [if_pos h]
      have : ∀ i ∈ range (n - 1), (if i + 1 = x then cw1 n w (2 * x - 1) else 0) = if i = x - 1 then cw1 n w (2 * x - 1) else 0 := by
        intro i _
        by_cases g : i + 1 = x
        · rw [if_pos g, if_pos (by omega)]
        · rw [if_neg g, if_neg (by omega)]
      rw [sum_congr rfl this, sum_ite_eq', if_pos (by rw [mem_range]; omega)]
    · rw [if_neg h]
      exact sum_eq_zero fun i _ => if_neg (by omega)
  rw [s1, s2]
  by_cases h0 : x = 0
  · subst h0
    rw [if_pos (by omega), if_neg (by omega), add_zero]
    unfold cw1; rw [if_pos rfl]
  · rw [if_pos (show 0 < x by omega)]
    by_cases hN : x = n - 1
    · subst hN
      rw [if_neg (by omega), zero_add]
      unfold cw1; rw [if_neg (by omega), if_pos rfl]
    · rw [if_pos (by omega)]
      unfold cw1
      rw [if_neg (by omega), if_neg (by omega), if_neg (by omega), if_neg (by omega), show (2 * x + 1) / 2 = x by omega,
        show (2 * x - 1 + 1) / 2 = x by omega]
      ring

/-- **C33 (split of a node).**  The weights of the corners at a node sum to the node's quadrature weight. -/
theorem C33_node (p : ℕ) (q : Junk) : ∃ r, init p q = some r ∧
    ∀ m < nodes1D p ^ 3, ∑ c ∈ range (cells1D p ^ 3), ∑ l ∈ range 8,
      (if r.nodesInCell c l = some m then ((r.cornersInCell c l).map r.cornerWeight).getD 0 else 0) = r.nodeWeight m := by
  obtain ⟨r, h1, h2⟩ := init_run p q
  refine ⟨r, h1, ?_⟩
  intro m hm
  have hn := two_le_nodes p
  have hC : nodes1D p - 1 = cells1D p := rfl
  rw [show nodes1D p ^ 3 = nodes1D p * nodes1D p * nodes1D p by ring] at hm
  rw [show cells1D p ^ 3 = cells1D p * cells1D p * cells1D p by ring]
  obtain ⟨x, y, z, hx, hy, hz, rfl⟩ := rid_surj hm
  have T := HexN.sum_triple (cells1D p) (fun c => ∑ l ∈ range 8,
      (if r.nodesInCell c l = some (rid (nodes1D p) x y z) then ((r.cornersInCell c l).map r.cornerWeight).getD 0 else 0))
    (fun i => ∑ ii ∈ range 2, if i + ii = x then cw1 (nodes1D p) r.lobw.val (2 * i + ii) else 0)
    (fun j => ∑ jj ∈ range 2, if j + jj = y then cw1 (nodes1D p) r.lobw.val (2 * j + jj) else 0)
    (fun k => ∑ kk ∈ range 2, if k + kk = z then cw1 (nodes1D p) r.lobw.val (2 * k + kk) else 0)
    (by
      intro i hi j hj k hk
      refine HexN.sum_triple 2 _ (fun ii => if i + ii = x then cw1 (nodes1D p) r.lobw.val (2 * i + ii) else 0)
        (fun jj => if j + jj = y then cw1 (nodes1D p) r.lobw.val (2 * j + jj) else 0)
        (fun kk => if k + kk = z then cw1 (nodes1D p) r.lobw.val (2 * k + kk) else 0) ?_
      intro ii hii jj hjj kk hkk
      have hl : ii + jj * 2 + kk * 2 * 2 < 8 := by omega
      have b0 : (ii + jj * 2 + kk * 2 * 2) % 2 = ii := by omega
      have b1 : (ii + jj * 2 + kk * 2 * 2) / 2 % 2 = jj := by omega
      have b2 : (ii + jj * 2 + kk * 2 * 2) / 4 = kk := by omega
      have en := nodesInCell_eq h2 hi hj hk hl
      have ec := cornersInCell_eq h2 hi hj hk hl
      rw [b0, b1, b2] at en ec
      have en' : r.nodesInCell (i + j * cells1D p + k * cells1D p * cells1D p) (ii + jj * 2 + kk * 2 * 2) = _ := en
      have ec' : r.cornersInCell (i + j * cells1D p + k * cells1D p * cells1D p) (ii + jj * 2 + kk * 2 * 2) = _ := ec
      simp only [en', ec', Option.map_some, Option.getD_some, Option.some.injEq, Ref.cornerWeight]
      rw [h2.cornerW _ _ _ (by omega) (by omega) (by omega)]
      by_cases a : i + ii = x
      · by_cases b : j + jj = y
        · by_cases c : k + kk = z
          · rw [if_pos (by rw [a, b, c]), if_pos a, if_pos b, if_pos c]
          · rw [if_neg, if_neg c, mul_zero]
            intro e; exact c (rid_inj (by omega) (by omega) hx hy e).2.2
        · rw [if_neg, if_neg b, mul_zero, zero_mul]
          intro e; exact b (rid_inj (by omega) (by omega) hx hy e).2.1
      · rw [if_neg, if_neg a, zero_mul, zero_mul]
        intro e; exact a (rid_inj (by omega) (by omega) hx hy e).1)
  rw [T, ← hC, cw1_sum hn _ hx, cw1_sum hn _ hy, cw1_sum hn _ hz]
  exact (h2.nodeW x y z hx hy hz).symm

theorem sum_double (C : ℕ) (f : ℕ → ℝ) : ∑ a ∈ range (2 * C), f a = ∑ i ∈ range C, ∑ ii ∈ range 2, f (2 * i + ii) := by
  induction C with
  | zero => simp
  | succ C ih =>
    rw [show 2 * (C + 1) = 2 * C + 1 + 1 by ring, sum_range_succ, sum_range_succ, ih, sum_range_succ]
    simp [sum_range_succ, add_assoc]

theorem cw1_total {n : ℕ} (hn : 2 ≤ n) (w : ℕ → ℝ) :
    ∑ a ∈ range (2 * (n - 1)), cw1 n w a = ∑ x ∈ range n, w x := by
  have e : ∑ x ∈ range n, w x = ∑ x ∈ range n, ∑ i ∈ range (n - 1), ∑ ii ∈ range 2,
      (if i + ii = x then cw1 n w (2 * i + ii) else 0) :=
    sum_congr rfl (fun x hx => (cw1_sum hn w (mem_range.1 hx)).symm)
  rw [sum_double, e, sum_comm (s := range n)]
  refine sum_congr rfl fun i hi => ?_
  rw [sum_comm (s := range n)]
  refine sum_congr rfl fun ii hii => ?_
  rw [mem_range] at hi hii
  rw [sum_ite_eq, if_pos (by rw [mem_range]; omega)]

/-- **C33 (total).**  The corner weights and the node weights have the same total, the cube of the total 1-D
weight. -/
theorem C33_total (p : ℕ) (q : Junk) : ∃ r, init p q = some r ∧
    r.cornerW.size = corners1D p ^ 3 ∧ r.nodeW.size = nodes1D p ^ 3 ∧
    ∑ c ∈ range (corners1D p ^ 3), r.cornerWeight c = ∑ m ∈ range (nodes1D p ^ 3), r.nodeWeight m ∧
    ∑ m ∈ range (nodes1D p ^ 3), r.nodeWeight m = (∑ i ∈ range (nodes1D p), r.lobw.val i) ^ 3 := by
  obtain ⟨r, h1, h2⟩ := init_run p q
  have hn := two_le_nodes p
  have hC : nodes1D p - 1 = cells1D p := rfl
  have e1 := HexN.sum_triple (nodes1D p) r.nodeWeight r.lobw.val r.lobw.val r.lobw.val
    (fun i hi j hj k hk => h2.nodeW i j k hi hj hk)
  have e2 := HexN.sum_triple (2 * cells1D p) r.cornerWeight (cw1 (nodes1D p) r.lobw.val) (cw1 (nodes1D p) r.lobw.val)
    (cw1 (nodes1D p) r.lobw.val) (fun i hi j hj k hk => h2.cornerW i j k hi hj hk)
  rw [← hC, cw1_total hn] at e2
  refine ⟨r, h1, by rw [h2.cwSize, corners_eq]; ring, by rw [h2.wSize]; ring, ?_, ?_⟩
  · rw [corners_eq, show (2 * cells1D p) ^ 3 = 2 * cells1D p * (2 * cells1D p) * (2 * cells1D p) by ring,
      show nodes1D p ^ 3 = nodes1D p * nodes1D p * nodes1D p by ring, e1, ← hC, e2]
  · rw [show nodes1D p ^ 3 = nodes1D p * nodes1D p * nodes1D p by ring, e1]; ring

theorem nodes_le {p : ℕ} (hp : p ≤ 9) : nodes1D p ≤ 19 := by unfold nodes1D; split <;> omega

/-- **C33 (positivity).**  For the orders with a tabulated rule every corner weight is positive, and the total is
the volume of the reference cube up to the accuracy of the table. -/
theorem C33_positive (p : ℕ) (hp : p ≤ 9) (q : Junk) : ∃ r, init p q = some r ∧
    (∀ c < corners1D p ^ 3, 0 < r.cornerWeight c) ∧
    |∑ i ∈ range (nodes1D p), r.lobw.val i - 2| ≤ 1 / 10 ^ 23 := by
  obtain ⟨r, h1, h2⟩ := init_run p q
  have hn := two_le_nodes p
  have hC : nodes1D p - 1 = cells1D p := rfl
  obtain ⟨x, w, e1, e2, g, -, -⟩ := Quad.C30_lobatto (nodes1D p) hn (by have := nodes_le hp; omega) q.lob q.lobw
  have : w = r.lobw := by have := h2.lobw; rw [e2] at this; exact Option.some.inj this
  subst this
  refine ⟨r, h1, ?_, ?_⟩
  · intro c hc
    rw [corners_eq, show (2 * cells1D p) ^ 3 = 2 * cells1D p * (2 * cells1D p) * (2 * cells1D p) by ring] at hc
    obtain ⟨i, j, k, hi, hj, hk, rfl⟩ := rid_surj hc
    have hp : ∀ a < 2 * cells1D p, 0 < cw1 (nodes1D p) r.lobw.val a := by
      intro a ha
      unfold cw1
      split
      · exact g.positive _ (by omega)
      split
      · exact g.positive _ (by omega)
      · have := g.positive ((a + 1) / 2) (by omega)
        linarith
    unfold Ref.cornerWeight
    rw [h2.cornerW i j k hi hj hk]
    exact mul_pos (mul_pos (hp i hi) (hp j hj)) (hp k hk)
  · have h12 : nodes1D p ≠ 12 := by unfold nodes1D; split <;> omega
    have := g.accurate (Polynomial.C 1) (by simp; omega)
    rw [if_neg h12] at this
    have hs : ∑ k ∈ range (2 * nodes1D p - 2), |(Polynomial.C (1 : ℝ)).coeff k| = 1 := by
      rw [sum_eq_single_of_mem 0 (by rw [mem_range]; omega)]
      · simp
      · intro b _ hb; rw [Polynomial.coeff_C_of_ne_zero hb]; simp
    rw [hs, mul_one] at this
    have hq : Quad.quad (nodes1D p) x.val r.lobw.val (Polynomial.C (1 : ℝ)).eval = ∑ i ∈ range (nodes1D p), r.lobw.val i := by
      unfold Quad.quad; simp
    have hi : ∫ t in (-1 : ℝ)..1, (Polynomial.C (1 : ℝ)).eval t = 2 := by simp; norm_num
    rw [hq, hi] at this
    exact this

/-- Non-vacuity: order 1 (three nodes per direction, weights 1/3, 4/3, 1/3). -/
example (q : Junk) : ∃ r, init 1 q = some r ∧ (∀ c < 64, 0 < r.cornerWeight c) := by
  obtain ⟨r, h, h2, -⟩ := C33_positive 1 (by norm_num) q
  exact ⟨r, h, by simpa [corners1D, nodes1D] using h2⟩

end Verif.RefElem
