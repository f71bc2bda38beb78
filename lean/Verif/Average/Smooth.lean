import Verif.Average.Model
import Verif.Swage.NodeCellTheorems
import Mathlib.Algebra.BigOperators.Field
import Mathlib.Algebra.Order.BigOperators.Group.List
import Mathlib.Tactic.Linarith
import Mathlib.Tactic.FieldSimp

/-!
# C54: smoothing
-/

namespace Verif.Average
open Finset Verif.Swage

/-- The cells of node `n`, once for every local node that is `n`. -/
def Mesh.cellsOf (m : Mesh) (n : ℕ) : List ℕ := (incidences m.cells 8 (fun c l => m.nodesInCell.val (c * 8 + l)) n).map Prod.fst

/-- A mesh with valid cells whose node-to-cell lists are those of C35. -/
structure Mesh.Ok (m : Mesh) : Prop where
  size : m.nodesInCell.size = m.cells * 8
  lt : ∀ i < m.cells * 8, m.nodesInCell.val i < m.nodes
  num : ∀ n < m.nodes, m.conn.numCellsInNode n = some (m.cellsOf n).length
  list : ∀ n < m.nodes, (List.range (m.cellsOf n).length).map (fun l => m.conn.cellsInNode n l) = (m.cellsOf n).map some

/-- Mean of the nodal values over the nodes of a cell. -/
noncomputable def Mesh.cellMean (m : Mesh) (f : ℕ → ℝ) (c : ℕ) : ℝ := (∑ l ∈ range 8, f (m.nodesInCell.val (c * 8 + l))) / 8
/-- Mean of the cell values over the cells of a node (zero if there is none). -/
noncomputable def Mesh.nodeMean (m : Mesh) (g : ℕ → ℝ) (n : ℕ) : ℝ := ((m.cellsOf n).map g).sum / (m.cellsOf n).length

theorem mem_cellsOf {m : Mesh} {n c : ℕ} : c ∈ m.cellsOf n ↔ c < m.cells ∧ ∃ l < 8, m.nodesInCell.val (c * 8 + l) = n := by
  unfold Mesh.cellsOf
  rw [List.mem_map]
  constructor
  · rintro ⟨p, hp, rfl⟩
    obtain ⟨h1, h2, h3⟩ := mem_incidences.1 hp
    exact ⟨h1, p.2, h2, h3⟩
  · rintro ⟨h1, l, h2, h3⟩
    exact ⟨(c, l), mem_incidences.2 ⟨h1, h2, h3⟩, rfl⟩

theorem cellAverage_spec {m : Mesh} (h : m.Ok) {node : Arr ℝ} (hn : node.size = m.nodes) {c : ℕ} (hc : c < m.cells) :
    cellAverage m node c = some (m.cellMean node.val c) := by
  obtain ⟨r, e, hr⟩ := loopM_spec (n := 8) (body := fun l t => do
      let n ← m.nodesInCell.get (c * 8 + l)
      let v ← node.get n
      pure (t + v / 8)) (s := (0 : ℝ))
    (fun k t => t = ∑ l ∈ range k, node.val (m.nodesInCell.val (c * 8 + l)) / 8) (by simp) (by
      intro l t hl ht
      have h1 : c * 8 + l < m.cells * 8 := by omega
      refine ⟨t + node.val (m.nodesInCell.val (c * 8 + l)) / 8, ?_, ?_⟩
      · simp only [Option.bind_eq_bind]
        rw [Arr.get_lt (by rw [h.size]; exact h1), Option.bind_some, Arr.get_lt (by rw [hn]; exact h.lt _ h1)]
        rfl
      · rw [sum_range_succ, ht])
  unfold cellAverage Mesh.cellMean
  rw [e, hr, sum_div]

theorem nodeAverage_spec {m : Mesh} (h : m.Ok) {cell : Arr ℝ} (hc : cell.size = m.cells) {n : ℕ} (hn : n < m.nodes) :
    nodeAverage m cell n = some (m.nodeMean cell.val n) := by
  unfold nodeAverage Mesh.nodeMean
  rw [h.num n hn]
  simp only [Option.bind_eq_bind, Option.bind_some]
  have hl := h.list n hn
  have hmem : ∀ c ∈ m.cellsOf n, c < m.cells := fun c hc => (mem_cellsOf.1 hc).1
  generalize m.cellsOf n = L at hl hmem ⊢
  obtain ⟨r, e, hr⟩ := loopM_spec (n := L.length) (body := fun l t => (m.conn.cellsInNode n l).bind fun c =>
      (cell.get c).bind fun v => pure (t + v / (L.length : ℝ))) (s := (0 : ℝ))
    (fun k t => t = ((L.take k).map cell.val).sum / L.length) (by simp) (by
      intro l t hl' ht
      have e1 : m.conn.cellsInNode n l = some L[l] := by
        have := congrArg (fun z => z[l]?) hl
        simpa [hl'] using this
      refine ⟨t + cell.val L[l] / L.length, ?_, ?_⟩
      · rw [e1, Option.bind_some, Arr.get_lt (by rw [hc]; exact hmem _ (List.getElem_mem hl'))]
        rfl
      · rw [List.take_succ_eq_append_getElem hl', List.map_append, List.sum_append, ht]
        simp only [List.map_cons, List.map_nil, List.sum_cons, List.sum_nil]
        ring)
  rw [e, hr, List.take_length]

/-- All entries lie in `[lo, hi]`. -/
def Within (lo hi : ℝ) (a : Arr ℝ) : Prop := ∀ i < a.size, lo ≤ a.val i ∧ a.val i ≤ hi

theorem cellMean_within {m : Mesh} (h : m.Ok) {lo hi : ℝ} {f : ℕ → ℝ} (hf : ∀ n < m.nodes, lo ≤ f n ∧ f n ≤ hi) {c : ℕ} (hc : c < m.cells) :
    lo ≤ m.cellMean f c ∧ m.cellMean f c ≤ hi := by
  have e : ∀ l ∈ range 8, lo ≤ f (m.nodesInCell.val (c * 8 + l)) ∧ f (m.nodesInCell.val (c * 8 + l)) ≤ hi := by
    intro l hl
    have := mem_range.1 hl
    exact hf _ (h.lt _ (by omega))
  have h1 := card_nsmul_le_sum (range 8) (fun l => f (m.nodesInCell.val (c * 8 + l))) lo fun l hl => (e l hl).1
  have h2 := sum_le_card_nsmul (range 8) (fun l => f (m.nodesInCell.val (c * 8 + l))) hi fun l hl => (e l hl).2
  rw [card_range, nsmul_eq_mul] at h1 h2
  unfold Mesh.cellMean
  push_cast at h1 h2
  constructor <;> linarith

theorem nodeMean_within {m : Mesh} {lo hi : ℝ} {g : ℕ → ℝ} (hg : ∀ c < m.cells, lo ≤ g c ∧ g c ≤ hi) {n : ℕ}
    (hn : m.cellsOf n ≠ []) : lo ≤ m.nodeMean g n ∧ m.nodeMean g n ≤ hi := by
  unfold Mesh.nodeMean
  have hmem : ∀ c ∈ m.cellsOf n, c < m.cells := fun c hc => (mem_cellsOf.1 hc).1
  generalize m.cellsOf n = L at hn hmem ⊢
  have hpos : (0 : ℝ) < L.length := by exact_mod_cast List.length_pos_iff.2 hn
  have h1 := List.card_nsmul_le_sum (L.map g) lo (by
    intro x hx
    obtain ⟨c, hc, rfl⟩ := List.mem_map.1 hx
    exact (hg c (hmem c hc)).1)
  have h2 := List.sum_le_card_nsmul (L.map g) hi (by
    intro x hx
    obtain ⟨c, hc, rfl⟩ := List.mem_map.1 hx
    exact (hg c (hmem c hc)).2)
  rw [List.length_map, nsmul_eq_mul] at h1 h2
  rw [le_div_iff₀ hpos, div_le_iff₀ hpos]
  constructor <;> linarith

/-- **C54 (values).**  `smooth_cells` never fails and sets every cell to the mean of its eight nodal values and then every
node to the mean of the new values of its cells. -/
theorem C54_value (m : Mesh) (h : m.Ok) (s : State) (h1 : s.node.size = m.nodes) (h2 : s.cell.size = m.cells) :
    ∃ s', smoothCells m s = some s' ∧ s'.node.size = m.nodes ∧ s'.cell.size = m.cells ∧
      (∀ c < m.cells, s'.cell.get c = some (m.cellMean s.node.val c)) ∧
      ∀ n < m.nodes, s'.node.get n = some (m.nodeMean (m.cellMean s.node.val) n) := by
  obtain ⟨cell, e1, c1, c2⟩ := loopM_spec (n := m.cells) (body := fun c cell => do
      let t ← cellAverage m s.node c
      Arr.set cell c t) (s := s.cell)
    (fun k cell => cell.size = m.cells ∧ ∀ c < k, cell.val c = m.cellMean s.node.val c) ⟨h2, by intro c hc; omega⟩ (by
      rintro c ⟨N, v⟩ hc ⟨g1, g2⟩
      simp only [] at g1 g2
      subst g1
      refine ⟨⟨m.cells, store v c (m.cellMean s.node.val c)⟩, ?_, ?_, ?_⟩
      · simp only [Option.bind_eq_bind]
        rw [cellAverage_spec h h1 hc, Option.bind_some, Arr.set_lt _ (show c < m.cells from hc)]
      · rfl
      · intro c' hc'
        show store v c _ c' = _
        by_cases e : c' = c
        · subst e; rw [store_same]
        · rw [store_ne _ _ e]; exact g2 c' (by omega))
  have hmean : ∀ n, m.nodeMean cell.val n = m.nodeMean (m.cellMean s.node.val) n := by
    intro n
    unfold Mesh.nodeMean
    rw [List.map_congr_left fun c hc => c2 c (mem_cellsOf.1 hc).1]
  obtain ⟨node, e2, n1, n2⟩ := loopM_spec (n := m.nodes) (body := fun n node => do
      let t ← nodeAverage m cell n
      Arr.set node n t) (s := s.node)
    (fun k node => node.size = m.nodes ∧ ∀ n < k, node.val n = m.nodeMean (m.cellMean s.node.val) n) ⟨h1, by intro c hc; omega⟩ (by
      rintro n ⟨N, v⟩ hn ⟨g1, g2⟩
      simp only [] at g1 g2
      subst g1
      refine ⟨⟨m.nodes, store v n (m.nodeMean cell.val n)⟩, ?_, ?_, ?_⟩
      · simp only [Option.bind_eq_bind]
        rw [nodeAverage_spec h c1 hn, Option.bind_some, Arr.set_lt _ (show n < m.nodes from hn)]
      · rfl
      · intro n' hn'
        show store v n _ n' = _
        by_cases e : n' = n
        · subst e; rw [store_same, hmean]
        · rw [store_ne _ _ e]; exact g2 n' (by omega))
  refine ⟨⟨node, cell⟩, ?_, n1, c1, ?_, ?_⟩
  · unfold smoothCells
    show (loopM m.cells _ s.cell).bind _ = _
    rw [e1, Option.bind_some]
    show (loopM m.nodes _ s.node).bind _ = _
    rw [e2]; rfl
  · intro c hc; rw [Arr.get_lt (show c < cell.size by omega), c2 c hc]
  · intro n hn; rw [Arr.get_lt (show n < node.size by omega), n2 n hn]

/-- **C54 (maximum principle, `smooth_cells`).**  On a mesh without isolated nodes, if the nodal values lie in `[lo, hi]`
then after any number of smoothing passes all nodal values, and all cell values once there was a pass, lie in `[lo, hi]`.
With `lo = hi`: constants are preserved. -/
theorem C54_maximum (m : Mesh) (h : m.Ok) (hiso : ∀ n < m.nodes, m.cellsOf n ≠ []) (lo hi : ℝ) (s : State)
    (h1 : s.node.size = m.nodes) (h2 : s.cell.size = m.cells) (hs : Within lo hi s.node) (k : ℕ) :
    ∃ s', loopM k (fun _ s => smoothCells m s) s = some s' ∧ s'.node.size = m.nodes ∧ s'.cell.size = m.cells ∧
      Within lo hi s'.node ∧ (0 < k → Within lo hi s'.cell) := by
  refine loopM_spec (fun k (s' : State) => s'.node.size = m.nodes ∧ s'.cell.size = m.cells ∧ Within lo hi s'.node ∧ (0 < k → Within lo hi s'.cell))
    ⟨h1, h2, hs, by omega⟩ ?_
  rintro i s - ⟨g1, g2, g3, -⟩
  obtain ⟨s', e, z1, z2, v1, v2⟩ := C54_value m h s g1 g2
  have hb : ∀ c < m.cells, lo ≤ m.cellMean s.node.val c ∧ m.cellMean s.node.val c ≤ hi := fun c hc =>
    cellMean_within h (fun n hn => g3 n (by omega)) hc
  refine ⟨s', e, z1, z2, ?_, fun _ => ?_⟩
  · intro n hn
    have := (Arr.get_eq_some (v2 n (by omega))).2
    rw [this]
    exact nodeMean_within hb (hiso n (by omega))
  · intro c hc
    have := (Arr.get_eq_some (v1 c (by omega))).2
    rw [this]
    exact hb c (by omega)

end Verif.Average
