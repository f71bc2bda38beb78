import Verif.Average.GridConverge
import Mathlib.Order.Interval.Finset.Nat
import Mathlib.Data.Int.Interval

/-!
# C87: the steady field of a slab
-/

namespace Verif.Average
open Finset Verif.Swage Verif.Swage.Refine

/-- The `x`-coordinates of the nodes. -/
noncomputable def Mesh.xs (m : Mesh) : Finset ℝ := (range m.nodes).image fun k => m.coords.val k 0
/-- Number of planes of nodes to the left of node `n`: different `x`-coordinates of nodes below that of `n`. -/
noncomputable def Mesh.planesLeft (m : Mesh) (n : ℕ) : ℕ := (m.xs.filter fun y => y < m.coords.val n 0).card
/-- 10 on the first plane of nodes, 0 on the last, and linear in the number of the plane in between. -/
noncomputable def Mesh.profile (m : Mesh) (n : ℕ) : ℝ := 10 * (1 - (m.planesLeft n : ℝ) / ((m.xs.card : ℝ) - 1))

section
variable {m : Mesh} {X : ℕ → ℤ → ℝ} {pos : ℕ → ℕ → ℤ} {a b : ℤ}

theorem row_left (h : RowsFrom m.cells pos a) : ∀ (k : ℕ) (c : ℕ), c < m.cells → pos c 0 = a + k → ∀ z, a ≤ z → z ≤ pos c 0 →
    ∃ c' < m.cells, pos c' 0 = z := by
  intro k
  induction k with
  | zero => intro c hc hp z h1 h2; exact ⟨c, hc, by push_cast at hp; omega⟩
  | succ k ih =>
    intro c hc hp z h1 h2
    by_cases e : z = pos c 0
    · exact ⟨c, hc, e.symm⟩
    obtain ⟨c', hc', q, -, -⟩ := (h c hc).2 (by omega)
    exact ih c' hc' (by rw [q, hp]; push_cast; ring) z h1 (by omega)

theorem row_right (h : RowsTo m.cells pos b) : ∀ (k : ℕ) (c : ℕ), c < m.cells → pos c 0 = b - 1 - k → ∀ z, z < b → pos c 0 ≤ z →
    ∃ c' < m.cells, pos c' 0 = z := by
  intro k
  induction k with
  | zero => intro c hc hp z h1 h2; exact ⟨c, hc, by push_cast at hp; omega⟩
  | succ k ih =>
    intro c hc hp z h1 h2
    by_cases e : z = pos c 0
    · exact ⟨c, hc, e.symm⟩
    obtain ⟨c', hc', q, -, -⟩ := (h c hc).2 (by omega)
    exact ih c' hc' (by rw [q, hp]; push_cast; ring) z h1 (by omega)

theorem row_all (hG : Key.Grid m.cells m.nodes m.node m.coords.val X pos) (h1 : RowsFrom m.cells pos a) (h2 : RowsTo m.cells pos b) {z : ℤ}
    (ha : a ≤ z) (hb : z < b) : ∃ c < m.cells, pos c 0 = z := by
  have p1 := h1 0 hG.ne
  have p2 := h2 0 hG.ne
  by_cases e : z ≤ pos 0 0
  · exact row_left h1 (pos 0 0 - a).toNat 0 hG.ne (by omega) z ha e
  · exact row_right h2 (b - 1 - pos 0 0).toNat 0 hG.ne (by omega) z hb (by omega)

theorem bit_vals : Key.bit 0 0 = 0 ∧ Key.bit 1 0 = 1 ∧ Key.bit 2 0 = 0 ∧ Key.bit 3 0 = 1 ∧ Key.bit 4 0 = 0 ∧ Key.bit 5 0 = 1 ∧
    Key.bit 6 0 = 0 ∧ Key.bit 7 0 = 1 := by decide

theorem grid_in_cell (hm : m.Ready) {n : ℕ} (hn : n < m.nodes) : ∃ c < m.cells, ∃ l < 8, m.node c l = n := by
  obtain ⟨c, hmem⟩ := List.exists_mem_of_ne_nil _ (hm.noIsolated n hn)
  obtain ⟨hc, l, hl, e⟩ := mem_cellsOf.1 hmem
  exact ⟨c, hc, l, hl, e⟩

/-- The planes of nodes of a slab. -/
theorem xs_eq (hm : m.Ready) (hG : Key.Grid m.cells m.nodes m.node m.coords.val X pos) (h1 : RowsFrom m.cells pos a) (h2 : RowsTo m.cells pos b) :
    m.xs = (Icc a b).image (X 0) := by
  ext y
  unfold Mesh.xs
  simp only [mem_image, mem_range, mem_Icc]
  constructor
  · rintro ⟨n, hn, rfl⟩
    obtain ⟨c, hc, l, hl, rfl⟩ := grid_in_cell hm hn
    refine ⟨pos c 0 + Key.bit l 0, ⟨?_, ?_⟩, (hG.coords c hc l hl 0 (by omega)).symm⟩
    · have := (h1 c hc).1; omega
    · have := (h2 c hc).1
      have := Key.bit_le l hl 0 (by omega)
      omega
  · rintro ⟨z, ⟨z1, z2⟩, rfl⟩
    have hab : a < b := by have := (h1 0 hG.ne).1; have := (h2 0 hG.ne).1; omega
    obtain ⟨b0, b1, -⟩ := bit_vals
    by_cases e : z < b
    · obtain ⟨c, hc, hp⟩ := row_all hG h1 h2 z1 e
      refine ⟨m.node c 0, hG.valid c hc 0 (by omega), ?_⟩
      rw [hG.coords c hc 0 (by omega) 0 (by omega), hp, b0]; simp
    · obtain ⟨c, hc, hp⟩ := row_all hG h1 h2 (z := b - 1) (by omega) (by omega)
      refine ⟨m.node c 1, hG.valid c hc 1 (by omega), ?_⟩
      rw [hG.coords c hc 1 (by omega) 0 (by omega), hp, b1]
      congr 1
      push_cast; omega

theorem X_injective (hG : Key.Grid m.cells m.nodes m.node m.coords.val X pos) : Function.Injective (X 0) := fun _ _ h => hG.X_inj (by omega) h

theorem xs_card (hm : m.Ready) (hG : Key.Grid m.cells m.nodes m.node m.coords.val X pos) (h1 : RowsFrom m.cells pos a)
    (h2 : RowsTo m.cells pos b) : (m.xs.card : ℤ) = b - a + 1 := by
  have : a < b := by have := (h1 0 hG.ne).1; have := (h2 0 hG.ne).1; omega
  rw [xs_eq hm hG h1 h2, card_image_of_injective _ (X_injective hG), Int.card_Icc]
  omega

theorem planesLeft_eq (hm : m.Ready) (hG : Key.Grid m.cells m.nodes m.node m.coords.val X pos) (h1 : RowsFrom m.cells pos a)
    (h2 : RowsTo m.cells pos b) {c l : ℕ} (hc : c < m.cells) (hl : l < 8) :
    (m.planesLeft (m.node c l) : ℤ) = pos c 0 + Key.bit l 0 - a := by
  have q1 := (h1 c hc).1
  have q2 := (h2 c hc).1
  have q3 := Key.bit_le l hl 0 (by omega)
  have : (m.xs.filter fun y => y < m.coords.val (m.node c l) 0) = (Ico a (pos c 0 + Key.bit l 0)).image (X 0) := by
    ext y
    rw [xs_eq hm hG h1 h2, mem_filter, mem_image, mem_image, hG.coords c hc l hl 0 (by omega)]
    constructor
    · rintro ⟨⟨z, hz, rfl⟩, hlt⟩
      refine ⟨z, mem_Ico.2 ⟨(mem_Icc.1 hz).1, ?_⟩, rfl⟩
      by_contra hge
      rcases lt_or_eq_of_le (not_lt.1 hge) with h | h
      · exact absurd hlt (not_lt.2 (hG.X_lt (show 0 < 3 by omega) h).le)
      · rw [← h] at hlt; exact lt_irrefl _ hlt
    · rintro ⟨z, hz, rfl⟩
      obtain ⟨z1, z2⟩ := mem_Ico.1 hz
      exact ⟨⟨z, mem_Icc.2 ⟨z1, by omega⟩, rfl⟩, hG.X_lt (by omega) z2⟩
  unfold Mesh.planesLeft
  rw [this, card_image_of_injective _ (X_injective hG), Int.card_Ico]
  omega

theorem profile_eq (hm : m.Ready) (hG : Key.Grid m.cells m.nodes m.node m.coords.val X pos) (h1 : RowsFrom m.cells pos a)
    (h2 : RowsTo m.cells pos b) {c l : ℕ} (hc : c < m.cells) (hl : l < 8) :
    m.profile (m.node c l) = 10 * (1 - ((pos c 0 : ℝ) + Key.bit l 0 - a) / (b - a)) := by
  have e1 := planesLeft_eq hm hG h1 h2 hc hl
  have e2 := xs_card hm hG h1 h2
  have e3 : (m.planesLeft (m.node c l) : ℝ) = (pos c 0 : ℝ) + Key.bit l 0 - a := by exact_mod_cast e1
  have e4 : (m.xs.card : ℝ) = b - a + 1 := by exact_mod_cast e2
  unfold Mesh.profile
  rw [e3, e4]
  congr 3
  ring

theorem cellMean_profile (hm : m.Ready) (hG : Key.Grid m.cells m.nodes m.node m.coords.val X pos) (h1 : RowsFrom m.cells pos a)
    (h2 : RowsTo m.cells pos b) {c : ℕ} (hc : c < m.cells) :
    m.cellMean m.profile c = 10 * (1 - ((pos c 0 : ℝ) + 1 / 2 - a) / (b - a)) := by
  have e : ∀ l ∈ range 8, m.profile (m.nodesInCell.val (c * 8 + l)) = 10 * (1 - ((pos c 0 : ℝ) + Key.bit l 0 - a) / (b - a)) :=
    fun l hl => profile_eq hm hG h1 h2 hc (mem_range.1 hl)
  obtain ⟨b0, b1, b2, b3, b4, b5, b6, b7⟩ := bit_vals
  unfold Mesh.cellMean
  rw [sum_congr rfl e]
  simp only [sum_range_succ, sum_range_zero, b0, b1, b2, b3, b4, b5, b6, b7]
  push_cast
  ring

theorem incidences_nodup (C : ℕ) (nodes : ℕ → ℕ → ℕ) (n : ℕ) : (incidences C 8 nodes n).Nodup := by
  have h := incidences_flat C 8 (by omega) nodes n
  have h2 : ((incidences C 8 nodes n).map fun p => 8 * p.1 + p.2).Nodup := by
    rw [← h]; exact List.nodup_range.filter _
  exact h2.of_map

theorem grid_local (hG : Key.Grid m.cells m.nodes m.node m.coords.val X pos) {c l l' : ℕ} (hc : c < m.cells) (hl : l < 8) (hl' : l' < 8)
    (h : m.node c l = m.node c l') : l = l' := by
  have q := (grid_node_eq hG hc hl hc hl').1 h
  have q0 := q 0 (by omega)
  have q1 := q 1 (by omega)
  have q2 := q 2 (by omega)
  obtain ⟨e0, e1, e2⟩ := bit_digs l hl
  obtain ⟨f0, f1, f2⟩ := bit_digs l' hl'
  omega

theorem cellsOf_nodup (hG : Key.Grid m.cells m.nodes m.node m.coords.val X pos) (n : ℕ) : (m.cellsOf n).Nodup := by
  unfold Mesh.cellsOf
  refine List.Nodup.map_on ?_ (incidences_nodup _ _ n)
  rintro ⟨c, l⟩ h ⟨c', l'⟩ h' e
  obtain ⟨p1, p2, p3⟩ := mem_incidences.1 h
  obtain ⟨p1', p2', p3'⟩ := mem_incidences.1 h'
  simp only at e p1 p2 p3 p1' p2' p3'
  subst e
  rw [grid_local hG p1 p2 p2' (p3.trans p3'.symm)]

theorem bit_flip : ∀ l < 8, (Key.bit l 0 = 0 → l + 1 < 8 ∧ Key.bit (l + 1) 0 = 1 ∧ Key.bit (l + 1) 1 = Key.bit l 1 ∧ Key.bit (l + 1) 2 = Key.bit l 2) ∧
    (Key.bit l 0 = 1 → l - 1 < 8 ∧ Key.bit (l - 1) 0 = 0 ∧ Key.bit (l - 1) 1 = Key.bit l 1 ∧ Key.bit (l - 1) 2 = Key.bit l 2) := by decide

/-- The mirror cell with respect to a node plane inside the slab. -/
theorem mirror (hG : Key.Grid m.cells m.nodes m.node m.coords.val X pos) (h1 : RowsFrom m.cells pos a) (h2 : RowsTo m.cells pos b)
    {c l : ℕ} (hc : c < m.cells) (hl : l < 8) (ha : a < pos c 0 + Key.bit l 0) (hb : pos c 0 + Key.bit l 0 < b) :
    ∃ c' < m.cells, (∃ l' < 8, m.node c' l' = m.node c l) ∧ pos c' 0 = pos c 0 + 2 * Key.bit l 0 - 1 ∧ pos c' 1 = pos c 1 ∧ pos c' 2 = pos c 2 := by
  have hbit := Key.bit_le l hl 0 (by omega)
  have : Key.bit l 0 = 0 ∨ Key.bit l 0 = 1 := by omega
  rcases this with h0 | h0
  · obtain ⟨f0, f1, f2, f3⟩ := (bit_flip l hl).1 h0
    rw [h0] at ha hb ⊢
    obtain ⟨c', hc', q0, q1, q2⟩ := (h1 c hc).2 (by push_cast at ha; omega)
    refine ⟨c', hc', ⟨l + 1, f0, ?_⟩, by rw [q0]; push_cast; ring, q1, q2⟩
    refine (grid_node_eq hG hc' f0 hc hl).2 (forall_dim ?_ ?_ ?_)
    · rw [f1, h0, q0]; push_cast; ring
    · rw [f2, q1]
    · rw [f3, q2]
  · obtain ⟨f0, f1, f2, f3⟩ := (bit_flip l hl).2 h0
    rw [h0] at ha hb ⊢
    obtain ⟨c', hc', q0, q1, q2⟩ := (h2 c hc).2 (by push_cast at hb; omega)
    refine ⟨c', hc', ⟨l - 1, f0, ?_⟩, by rw [q0]; push_cast; ring, q1, q2⟩
    refine (grid_node_eq hG hc' f0 hc hl).2 (forall_dim ?_ ?_ ?_)
    · rw [f1, h0, q0]; push_cast; ring
    · rw [f2, q1]
    · rw [f3, q2]

open Classical in
theorem nodeMean_profile (hm : m.Ready) (hG : Key.Grid m.cells m.nodes m.node m.coords.val X pos) (h1 : RowsFrom m.cells pos a)
    (h2 : RowsTo m.cells pos b) {c l : ℕ} (hc : c < m.cells) (hl : l < 8) (ha : a < pos c 0 + Key.bit l 0) (hb : pos c 0 + Key.bit l 0 < b) :
    m.nodeMean (m.cellMean m.profile) (m.node c l) = m.profile (m.node c l) := by
  set n := m.node c l with hn
  set z : ℤ := pos c 0 + Key.bit l 0 with hz
  have hab : (b : ℝ) - a ≠ 0 := by
    have : (a : ℝ) < b := by exact_mod_cast (show a < b by omega)
    linarith
  -- every cell of the node lies left or right of it, and has a mirror cell
  have hmir : ∀ c' ∈ (m.cellsOf n).toFinset, ∃ c'' ∈ (m.cellsOf n).toFinset, pos c'' 0 = 2 * z - 1 - pos c' 0 ∧ pos c'' 1 = pos c' 1 ∧ pos c'' 2 = pos c' 2 := by
    intro c' hc'
    obtain ⟨g1, l', g2, g3⟩ := mem_cellsOf.1 (List.mem_toFinset.1 hc')
    have g4 := (grid_node_eq hG g1 g2 hc hl).1 g3 0 (by omega)
    obtain ⟨c'', k1, k2, k3, k4, k5⟩ := mirror hG h1 h2 g1 g2 (by omega) (by omega)
    refine ⟨c'', List.mem_toFinset.2 (mem_cellsOf.2 ⟨k1, ?_⟩), by rw [k3]; omega, k4, k5⟩
    obtain ⟨l'', w1, w2⟩ := k2
    exact ⟨l'', w1, w2.trans g3⟩
  choose! g gm g0 g1 g2 using hmir
  have hval : ∀ c' ∈ (m.cellsOf n).toFinset, m.cellMean m.profile c' - m.profile n = 10 * ((z : ℝ) - pos c' 0 - 1 / 2) / (b - a) := by
    intro c' hc'
    rw [cellMean_profile hm hG h1 h2 (mem_cellsOf.1 (List.mem_toFinset.1 hc')).1, hn, profile_eq hm hG h1 h2 hc hl, hz]
    push_cast
    field_simp
    ring
  have hsum : ∑ c' ∈ (m.cellsOf n).toFinset, (m.cellMean m.profile c' - m.profile n) = 0 := by
    refine sum_involution (fun c' _ => g c') ?_ ?_ (fun c' hc' => gm c' hc') ?_
    · intro c' hc'
      rw [hval c' hc', hval _ (gm c' hc'), g0 c' hc']
      push_cast
      ring
    · intro c' hc' _ e
      have := g0 c' hc'
      rw [e] at this
      omega
    · intro c' hc'
      refine hG.inj _ (mem_cellsOf.1 (List.mem_toFinset.1 (gm _ (gm c' hc')))).1 _ (mem_cellsOf.1 (List.mem_toFinset.1 hc')).1 (forall_dim ?_ ?_ ?_)
      · rw [g0 _ (gm c' hc'), g0 c' hc']; ring
      · rw [g1 _ (gm c' hc'), g1 c' hc']
      · rw [g2 _ (gm c' hc'), g2 c' hc']
  have hnd := cellsOf_nodup hG n
  have hcard : (m.cellsOf n).toFinset.card = (m.cellsOf n).length := List.toFinset_card_of_nodup hnd
  have hpos : (0 : ℝ) < (m.cellsOf n).length := by
    have hne := hm.noIsolated n (hG.valid c hc l hl)
    exact_mod_cast List.length_pos_iff.2 hne
  rw [sum_sub_distrib, sum_const, hcard, nsmul_eq_mul, List.sum_toFinset _ hnd] at hsum
  unfold Mesh.nodeMean
  rw [div_eq_iff hpos.ne']
  linarith

/-- The steady field of a slab between the planes of sets 0 and 3. -/
theorem profile_steady (hm : m.Ready) (hG : Key.Grid m.cells m.nodes m.node m.coords.val X pos) (h1 : RowsFrom m.cells pos a)
    (h2 : RowsTo m.cells pos b) (hs0 : ∀ n, m.OnSet 0 n ↔ n < m.nodes ∧ m.coords.val n 0 = X 0 a)
    (hs3 : ∀ n, m.OnSet 3 n ↔ n < m.nodes ∧ m.coords.val n 0 = X 0 b) : m.Steady m.profile := by
  intro n hn
  obtain ⟨c, hc, l, hl, rfl⟩ := grid_in_cell hm hn
  have q1 := (h1 c hc).1
  have q2 := (h2 c hc).1
  have q3 := Key.bit_le l hl 0 (by omega)
  have hab : (b : ℝ) - a ≠ 0 := by
    have : (a : ℝ) < b := by exact_mod_cast (show a < b by omega)
    linarith
  have hx := hG.coords c hc l hl 0 (by omega)
  have o0 : m.OnSet 0 (m.node c l) ↔ pos c 0 + Key.bit l 0 = a := by
    rw [hs0, hx]
    exact ⟨fun h => hG.X_inj (by omega) h.2, fun h => ⟨hn, by rw [h]⟩⟩
  have o3 : m.OnSet 3 (m.node c l) ↔ pos c 0 + Key.bit l 0 = b := by
    rw [hs3, hx]
    exact ⟨fun h => hG.X_inj (by omega) h.2, fun h => ⟨hn, by rw [h]⟩⟩
  rw [o0, o3, profile_eq hm hG h1 h2 hc hl]
  refine ⟨fun h => ?_, fun h _ => ?_, fun n3 n0 => ?_⟩
  · have : (pos c 0 : ℝ) + Key.bit l 0 = a := by exact_mod_cast h
    rw [this]; simp
  · have : (pos c 0 : ℝ) + Key.bit l 0 = b := by exact_mod_cast h
    rw [this, div_self hab]; simp
  · rw [nodeMean_profile hm hG h1 h2 hc hl (by omega) (by omega), profile_eq hm hG h1 h2 hc hl]

end
end Verif.Average
