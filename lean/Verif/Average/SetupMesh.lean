import Verif.Average.SetupLemmas
import Verif.Average.Driver
import Verif.Swage.GridPlane

/-!
# Setup of the Average example: the refined mesh
-/

namespace Verif.Average
open Verif.Swage Verif.Swage.Refine

section
variable {E N p : ℕ} {nodes : ℕ → ℕ → ℕ} {x : ℕ → ℕ → ℝ} {q : Junk} {r : Refined}

theorem sub_pos (p : ℕ) : 0 < sub1d p := by unfold sub1d; split <;> omega

theorem run_counts (R : Refine.Run E N p nodes x q r) : r.counts.numCells = E * sub1d p ^ 3 ∧ r.counts.cells = sub1d p ^ 3 ∧
    r.counts.nodes = pts1d p ^ 3 ∧ r.counts.gPts = pts1d p ^ 3 := by
  rw [R.counts]
  unfold initElement sub1d pts1d
  by_cases h : p = 0
  · subst h; simp
  · simp only [if_neg h]; exact ⟨by ring, by ring, by simp, by simp⟩

/-- The local nodes of the cells. -/
theorem cellNode_eq (R : Refine.Run E N p nodes x q r) {e k j i l : ℕ} (he : e < E) (hk : k < sub1d p) (hj : j < sub1d p)
    (hi : i < sub1d p) (hl : l < 8) : r.cellNode (cellId (sub1d p) e k j i) l =
      (r.nig.val (cellId (pts1d p) e (k + l / 4) (j + l / 2 % 2) (i + l % 2))).toNat := by
  unfold Refined.cellNode
  rw [(R.cells e k j i he hk hj hi).2.2.2 l hl, corner_eq _ _ _ _ _ _ hl]

/-- `cells_in_elem` lists the cells in order. -/
theorem inElem_eq (R : Refine.Run E N p nodes x q r) {c : ℕ} (hc : c < E * sub1d p ^ 3) : r.cells.inElem.val c = c := by
  obtain ⟨e, k, j, i, he, hk, hj, hi, rfl⟩ := cellId_surj (S := sub1d p) (E := E) (c := c) (by
    rw [show sub1d p * sub1d p * sub1d p * E = E * sub1d p ^ 3 by ring]; exact hc)
  have h := (R.cells e k j i he hk hj hi).2.1
  have e1 : e * sub1d p ^ 3 + (i + j * sub1d p + k * sub1d p * sub1d p) = cellId (sub1d p) e k j i := by
    unfold cellId; ring
  rw [e1] at h
  exact h

/-- Every Gauss point is a node of a cell. -/
theorem gauss_cell (R : Refine.Run E N p nodes x q r) {g : ℕ} (hg : g < E * pts1d p ^ 3) :
    ∃ c < E * sub1d p ^ 3, ∃ l < 8, r.cellNode c l = (r.nig.val g).toNat := by
  obtain ⟨e, k, j, i, he, hk, hj, hi, rfl⟩ := cellId_surj (S := pts1d p) (E := E) (c := g) (by
    rw [show pts1d p * pts1d p * pts1d p * E = E * pts1d p ^ 3 by ring]; exact hg)
  have hn := sub_pts p
  have hS := sub_pos p
  have split : ∀ m < pts1d p, ∃ a < sub1d p, ∃ b < 2, a + b = m := by
    intro m hm
    by_cases h : m < sub1d p
    · exact ⟨m, h, 0, by omega, by omega⟩
    · exact ⟨m - 1, by omega, 1, by omega, by omega⟩
  obtain ⟨a0, ha0, b0, hb0, rfl⟩ := split i hi
  obtain ⟨a1, ha1, b1, hb1, rfl⟩ := split j hj
  obtain ⟨a2, ha2, b2, hb2, rfl⟩ := split k hk
  refine ⟨cellId (sub1d p) e a2 a1 a0, ?_, b0 + 2 * b1 + 4 * b2, by omega, ?_⟩
  · have := cellId_lt he ha2 ha1 ha0
    rw [show E * sub1d p ^ 3 = sub1d p * sub1d p * sub1d p * E by ring]; exact this
  · rw [cellNode_eq R he ha2 ha1 ha0 (by omega), show (b0 + 2 * b1 + 4 * b2) / 4 = b2 by omega,
      show (b0 + 2 * b1 + 4 * b2) / 2 % 2 = b1 by omega, show (b0 + 2 * b1 + 4 * b2) % 2 = b0 by omega]

/-- If two elements of the initial mesh share a node, two cells of the refined mesh do. -/
theorem fine_share {X : ℕ → ℤ → ℝ} {pos : ℕ → ℕ → ℤ} (hL : Key.Grid E N nodes x X pos) {t : ℕ → ℝ}
    (hG : Key.Grid (E * sub1d p ^ 3) r.numNodes r.cellNode r.x (fineX (sub1d p) X t) (finePos (sub1d p) pos))
    (hshare : ∃ c < E, ∃ c' < E, c' ≠ c ∧ Share 8 nodes c c') :
    ∃ c < E * sub1d p ^ 3, ∃ c' < E * sub1d p ^ 3, c' ≠ c ∧ Share 8 r.cellNode c c' := by
  obtain ⟨e, he, e', he', hne, l, hl, l', hl', hn⟩ := hshare
  have hS := sub_pos p
  set S := sub1d p with hSd
  have hcell : ∀ e < E, ∀ l < 8, ∃ c < E * S ^ 3, cellElem S c = e ∧ ∀ d < 3,
      r.x (r.cellNode c l) d = fineX S X t d ((pos e d + Key.bit l d) * S) := by
    intro e he l hl
    obtain ⟨b0, b1, b2⟩ := bit_digs l hl
    have hb : ∀ b : ℕ, b ≤ 1 → b * (S - 1) < S := by
      intro b hb
      have : b = 0 ∨ b = 1 := by omega
      rcases this with rfl | rfl <;> omega
    have h0 := hb (Key.bit l 0) (Key.bit_le l hl 0 (by omega))
    have h1 := hb (Key.bit l 1) (Key.bit_le l hl 1 (by omega))
    have h2 := hb (Key.bit l 2) (Key.bit_le l hl 2 (by omega))
    have hc : cellId S e (Key.bit l 2 * (S - 1)) (Key.bit l 1 * (S - 1)) (Key.bit l 0 * (S - 1)) < E * S ^ 3 := by
      rw [show E * S ^ 3 = S * S * S * E by ring]; exact cellId_lt he h2 h1 h0
    refine ⟨_, hc, cellElem_cellId h2 h1 h0, fun d hd => ?_⟩
    rw [hG.coords _ hc l hl d hd]
    congr 1
    unfold finePos
    rw [cellElem_cellId h2 h1 h0, cellDig_cellId h2 h1 h0]
    have hdig : dig (Key.bit l 0 * (S - 1)) (Key.bit l 1 * (S - 1)) (Key.bit l 2 * (S - 1)) d = Key.bit l d * (S - 1) := by
      unfold dig
      have : d = 0 ∨ d = 1 ∨ d = 2 := by omega
      rcases this with rfl | rfl | rfl <;> simp
    rw [hdig]
    have hbd := Key.bit_le l hl d hd
    have : Key.bit l d = 0 ∨ Key.bit l d = 1 := by omega
    obtain ⟨S', hS'⟩ : ∃ S', S = S' + 1 := ⟨S - 1, by omega⟩
    rw [hS']
    rcases this with h | h <;> rw [h] <;> push_cast <;> simp; ring
  obtain ⟨c, hc, c1, c2⟩ := hcell e he l hl
  obtain ⟨c', hc', c1', c2'⟩ := hcell e' he' l' hl'
  refine ⟨c, hc, c', hc', fun h => hne (by rw [← c1, ← c1', h]), l, hl, l', hl', ?_⟩
  refine hG.conform c hc l hl c' hc' l' hl' fun d hd => ?_
  rw [c2 d hd, c2' d hd]
  have h1 := hL.coords e he l hl d hd
  have h2 := hL.coords e' he' l' hl' d hd
  rw [hn, h2] at h1
  have h5 : pos e' d + (Key.bit l' d : ℤ) = pos e d + (Key.bit l d : ℤ) := hL.X_inj hd h1
  rw [h5]

end

/-- The members of the mesh built by the setup. -/
theorem mesh_ready {E N p : ℕ} {nodes : ℕ → ℕ → ℕ} {x : ℕ → ℕ → ℝ} {q : Junk} {r : Refined} (R : Refine.Run E N p nodes x q r)
    (hv : ∀ c < E * sub1d p ^ 3, ∀ l < 8, r.cellNode c l < r.numNodes) (c : CellConn) (el : ElemConn) (b : BdySets)
    (hc : ∀ n < r.numNodes, c.nodeCell.numCellsInNode n = some (incidences (E * sub1d p ^ 3) 8 r.cellNode n).length ∧
        (List.range (incidences (E * sub1d p ^ 3) 8 r.cellNode n).length).map (fun l => c.nodeCell.cellsInNode n l) =
          (incidences (E * sub1d p ^ 3) 8 r.cellNode n).map (fun p => some p.1))
    (he : ∀ e < E, ∀ g < pts1d p ^ 3, el.nodesInElem e g = (r.nig.val (e * pts1d p ^ 3 + g)).toNat) :
    (meshOf E r c el b).Ok ∧ (meshOf E r c el b).ElemOk ∧ (meshOf E r c el b).Covered ∧
      (∀ n < (meshOf E r c el b).nodes, (meshOf E r c el b).cellsOf n ≠ []) := by
  obtain ⟨q1, q2, q3, q4⟩ := run_counts R
  have hG : 0 < pts1d p ^ 3 := by have := sub_pts p; have : 0 < pts1d p := by omega
                                  positivity
  have hnode : ∀ y < E * pts1d p ^ 3, (meshOf E r c el b).nodesInElem.val y = (r.nig.val y).toNat := by
    intro y hy
    show el.nodesInElem (y / r.counts.nodes) (y % r.counts.nodes) = _
    rw [q3, he _ (Nat.div_lt_of_lt_mul (by rw [Nat.mul_comm]; exact hy)) _ (Nat.mod_lt _ hG), Nat.div_add_mod' y (pts1d p ^ 3)]
  have hof : ∀ n, (meshOf E r c el b).cellsOf n = (incidences (E * sub1d p ^ 3) 8 r.cellNode n).map Prod.fst := by
    intro n
    show (incidences r.counts.numCells 8 r.cellNode n).map Prod.fst = _
    rw [q1]
  refine ⟨⟨?_, ?_, ?_, ?_⟩, ⟨?_, ?_, ?_, ?_⟩, ⟨?_, ?_⟩, ?_⟩
  · show r.nodes.size = r.counts.numCells * 8
    rw [q1]; exact R.cells_size.2.2.2
  · show ∀ i < r.counts.numCells * 8, _
    rw [q1]
    intro i hi
    have := hv (i / 8) (by omega) (i % 8) (by omega)
    unfold Refined.cellNode at this
    rw [show i / 8 * 8 + i % 8 = i by omega] at this
    exact this
  · intro n hn
    rw [hof, List.length_map]
    exact (hc n hn).1
  · intro n hn
    rw [hof, List.length_map, List.map_map]
    exact (hc n hn).2
  · show r.cells.inElem.size = E * r.counts.cells
    rw [q2]; exact R.cells_size.2.1
  · show ∀ y < E * r.counts.cells, r.cells.inElem.val y < r.counts.numCells
    rw [q2, q1]
    intro y hy
    rw [inElem_eq R hy]; exact hy
  · rfl
  · show ∀ y < E * r.counts.nodes, _
    rw [q3]
    intro y hy
    rw [hnode y hy]
    show _ < r.numNodes
    have := R.nig_range y hy
    omega
  · show ∀ y < r.counts.numCells, ∃ z < E * r.counts.cells, r.cells.inElem.val z = y
    rw [q2, q1]
    intro y hy
    exact ⟨y, hy, inElem_eq R hy⟩
  · show ∀ n < r.numNodes, ∃ z < E * r.counts.nodes, _
    rw [q3]
    intro n hn
    obtain ⟨g, hg, e1, -⟩ := R.coords n hn
    refine ⟨g, hg, ?_⟩
    rw [hnode g hg, e1, Int.toNat_natCast]
  · intro n hn h0
    obtain ⟨g, hg, e1, -⟩ := R.coords n hn
    obtain ⟨cc, hcc, l, hl, e2⟩ := gauss_cell R hg
    rw [e1, Int.toNat_natCast] at e2
    have : cc ∈ (meshOf E r c el b).cellsOf n := mem_cellsOf.2 ⟨by show cc < r.counts.numCells; rw [q1]; exact hcc, l, hl, e2⟩
    rw [h0] at this
    simp at this

end Verif.Average
