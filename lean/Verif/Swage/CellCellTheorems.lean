import Verif.Swage.CellCellLemmas

/-!
# C37: cell-to-cell connectivity
-/

namespace Verif.Swage
open Finset

/-- Specification: cells `c` and `c'` share at least one node. -/
def Share (w : ℕ) (nodes : ℕ → ℕ → ℕ) (c c' : ℕ) : Prop :=
  ∃ l < w, ∃ l' < w, nodes c l = nodes c' l'

/-- The node lists left by `build_node_cell_connectivity`. -/
theorem nodeLists_of_build (C N : ℕ) (nodes : ℕ → ℕ → ℕ) (hv : ∀ c < C, ∀ l < 8, nodes c l < N)
    (m0 m : NodeCell) (hn : m0.num.size = N) (hs : m0.start.size = N + 1) (saved0 list0 : ℕ → ℕ)
    (hm : buildNodeCell C N nodes m0 saved0 list0 = some m) :
    NodeListsOk N m (fun n => (incidences C 8 nodes n).map Prod.fst) := by
  obtain ⟨r, h1, h2⟩ := C35_node_cells C N nodes hv m0 hn hs saved0 list0
  rw [hm] at h1; cases h1
  intro n hn'
  obtain ⟨e1, e2⟩ := h2 n hn'
  refine ⟨by rw [e1, List.length_map], fun i hi => ?_⟩
  rw [List.length_map] at hi
  have := congrArg (fun L => L[i]?) e2
  simpa [hi] using this

theorem mem_visits (C w : ℕ) (nodes : ℕ → ℕ → ℕ) (c c' : ℕ) :
    c' ∈ visits w nodes (fun n => (incidences C w nodes n).map Prod.fst) c ↔
      c' < C ∧ Share w nodes c c' := by
  unfold visits Share
  simp only [List.mem_flatMap, List.mem_map, List.mem_range, mem_incidences]
  constructor
  · rintro ⟨l, hl, p, ⟨h1, h2, h3⟩, rfl⟩
    exact ⟨h1, l, hl, p.2, h2, h3.symm⟩
  · rintro ⟨h1, l, hl, l', hl', h⟩
    exact ⟨l, hl, (c', l'), ⟨h1, hl', h.symm⟩, rfl⟩

/-- Everything up to the allocation of the final list. -/
theorem cellCell_prefix (C w N : ℕ) (nodes : ℕ → ℕ → ℕ) (m : NodeCell) (nb : ℕ → List ℕ)
    (hm : NodeListsOk N m nb) (hv : Valid C w N nodes) (num start : Arr ℕ)
    (hn : num.size = C) (hs : start.size = C + 1) (ssz : ℕ) (hssz : C ≤ ssz) (saved0 temp0 : ℕ → ℕ) :
    ∃ s p st r, clear2 C num ⟨ssz, saved0⟩ = some s ∧ pairLoop C w nodes m s.1 = some p ∧
      startLoop C p.2 start = some st ∧ saveLoop C w nodes m st ⟨⟨p.1, temp0⟩, s.2, 0⟩ = some r ∧
      p.2.size = C ∧ st.size = C + 1 ∧
      (∀ c ≤ C, st.val c = ∑ i ∈ range c, others i (visits w nodes nb i)) ∧
      r.temp.size = ∑ i ∈ range C, others i (visits w nodes nb i) ∧ r.saved.size = ssz ∧
      (∀ c < C, r.saved.val c = (record c (visits w nodes nb c)).length ∧
        ∀ j < (record c (visits w nodes nb c)).length,
          r.temp.val ((∑ i ∈ range c, others i (visits w nodes nb i)) + j) =
            (record c (visits w nodes nb c)).getD j 0) ∧
      r.actual = ∑ c ∈ range C, (record c (visits w nodes nb c)).length ∧
      (∀ c < C, p.2.val c = others c (visits w nodes nb c)) := by
  obtain ⟨s, a1, a2, a3, a4, a5⟩ := clear2_spec C num ⟨ssz, saved0⟩ (by omega) hssz
  obtain ⟨p, b1, b2, b3, b4⟩ := pairLoop_spec C w N nodes m nb hm hv s.1 (by omega) a4
  obtain ⟨st, c1, c2, c3⟩ := startLoop_spec C p.2 start hs b2
  have c4 : ∀ c ≤ C, st.val c = ∑ i ∈ range c, others i (visits w nodes nb i) := fun c hc => by
    rw [c3 c hc]; exact sum_congr rfl fun i hi => b3 i (by have := mem_range.1 hi; omega)
  obtain ⟨r, d1, d2, d3, d4, d5⟩ := saveLoop_spec C w N nodes m nb hm hv st (by omega) c4
    ⟨⟨p.1, temp0⟩, s.2, 0⟩ b4 (by simp only [a3]; exact hssz) a5 rfl
  exact ⟨s, p, st, r, a1, b1, c1, d1, b2, c2, c4, by rw [d2]; exact b4, by rw [d3]; exact a3, d4, d5, b3⟩

theorem buildCellCell_spec (C w N : ℕ) (nodes : ℕ → ℕ → ℕ) (m : NodeCell) (nb : ℕ → List ℕ)
    (hm : NodeListsOk N m nb) (hv : Valid C w N nodes) (k : CellCell) (hn : k.num.size = C)
    (hs : k.start.size = C + 1) (saved0 temp0 list0 : ℕ → ℕ)
    (hpos : 0 < ∑ c ∈ range C, (record c (visits w nodes nb c)).length) :
    ∃ r, buildCellCell C w nodes m k saved0 temp0 list0 = some r ∧
      ∀ c < C, r.num.get c = some (record c (visits w nodes nb c)).length ∧
        (List.range (record c (visits w nodes nb c)).length).map (fun l => r.cellsInCell c l) =
          (record c (visits w nodes nb c)).map some := by
  obtain ⟨s, p, st, r, a1, b1, c1, d1, b2, c2, c4, d2, d3, d4, d5, -⟩ :=
    cellCell_prefix C w N nodes m nb hm hv k.num k.start hn hs C le_rfl saved0 temp0
  have smono : ∀ a b, a ≤ b → ∑ i ∈ range a, others i (visits w nodes nb i) ≤
      ∑ i ∈ range b, others i (visits w nodes nb i) := fun a b h =>
    Finset.sum_le_sum_of_subset (range_mono h)
  obtain ⟨f, f1, f2, f3, f4, f5⟩ := compactLoop_spec C (fun c => record c (visits w nodes nb c))
    (fun c => ∑ i ∈ range c, others i (visits w nodes nb i)) r.temp r.saved (by omega)
    (fun c hc => (d4 c hc).1)
    (fun c hc => by
      have := record_le c (visits w nodes nb c)
      have h2 := smono (c + 1) C (by omega)
      rw [sum_range_succ] at h2; omega)
    (fun c hc => (d4 c hc).2) ⟨p.2, st, ⟨r.actual, store list0 0 0⟩⟩ b2 (by simp only []; omega)
    (fun c hc => c4 c (by omega)) d5
  refine ⟨f.1, ?_, fun c hc => ?_⟩
  · unfold buildCellCell
    simp only [Option.bind_eq_bind]
    rw [a1, Option.bind_some, b1, Option.bind_some, c1, Option.bind_some, d1, Option.bind_some,
      Arr.set_lt _ (by simp only [d5]; exact hpos), Option.bind_some, f1]
    rfl
  · obtain ⟨g1, g2, g3⟩ := f5 c hc
    refine ⟨by rw [Arr.get_lt (by omega), g1], ?_⟩
    refine List.ext_getElem (by simp) fun j h1 h2 => ?_
    have hj : j < (record c (visits w nodes nb c)).length := by simpa using h2
    simp only [List.getElem_map, List.getElem_range]
    unfold CellCell.cellsInCell
    simp only [Option.bind_eq_bind]
    rw [Arr.get_lt (by rw [f3]; simp only [c2]; omega), Option.bind_some, g2]
    have h3 : (∑ i ∈ range c, (record i (visits w nodes nb i)).length) +
        (record c (visits w nodes nb c)).length ≤ ∑ i ∈ range C, (record i (visits w nodes nb i)).length := by
      rw [← sum_range_succ]; exact Finset.sum_le_sum_of_subset (range_mono (by omega))
    rw [Arr.get_lt (by rw [f4]; simp only [d5]; omega), g3 j hj, getD_lt hj]

theorem record_pos_iff (C w : ℕ) (nodes : ℕ → ℕ → ℕ) :
    0 < ∑ c ∈ range C, (record c (visits w nodes (fun n => (incidences C w nodes n).map Prod.fst)
      c)).length ↔ ∃ c < C, ∃ c' < C, c' ≠ c ∧ Share w nodes c c' := by
  rw [Nat.pos_iff_ne_zero, Ne, sum_eq_zero_iff]
  push Not
  constructor
  · rintro ⟨c, hc, h⟩
    obtain ⟨c', hc'⟩ := List.exists_mem_of_length_pos (Nat.pos_of_ne_zero h)
    obtain ⟨h1, h2⟩ := (mem_record _ _ _).1 hc'
    obtain ⟨h3, h4⟩ := (mem_visits C w nodes c c').1 h1
    exact ⟨c, mem_range.1 hc, c', h3, h2, h4⟩
  · rintro ⟨c, hc, c', hc', hne, hsh⟩
    refine ⟨c, mem_range.2 hc, ?_⟩
    have := (mem_record c _ c').2 ⟨(mem_visits C w nodes c c').2 ⟨hc', hsh⟩, hne⟩
    exact (List.length_pos_of_mem this).ne'

/-- C37 (partial): for every valid mesh in which at least two different cells share a node,
`build_cell_cell_connectivity` (run on the lists of `build_node_cell_connectivity`) performs no
out-of-bounds access and, for every cell `c`, the list `cells_in_cell(c, 0..num_cells_in_cell(c)-1)` has
no duplicates and contains exactly the other cells that share a node with `c`.
Missing: meshes without such a pair (for instance a single cell), for which the builder writes outside its
list, see `C37_negation`. -/
theorem C37_cells_partial (C N : ℕ) (nodes : ℕ → ℕ → ℕ) (hv : ∀ c < C, ∀ l < 8, nodes c l < N)
    (m0 m : NodeCell) (hn : m0.num.size = N) (hs : m0.start.size = N + 1) (saved1 list1 : ℕ → ℕ)
    (hm : buildNodeCell C N nodes m0 saved1 list1 = some m)
    (k : CellCell) (hkn : k.num.size = C) (hks : k.start.size = C + 1) (saved0 temp0 list0 : ℕ → ℕ)
    (hshare : ∃ c < C, ∃ c' < C, c' ≠ c ∧ Share 8 nodes c c') :
    ∃ r, buildCellCell C 8 nodes m k saved0 temp0 list0 = some r ∧
      ∀ c < C, ∃ D : List ℕ, r.num.get c = some D.length ∧
        (List.range D.length).map (fun l => r.cellsInCell c l) = D.map some ∧ D.Nodup ∧
        ∀ c', c' ∈ D ↔ c' < C ∧ c' ≠ c ∧ Share 8 nodes c c' := by
  have hl := nodeLists_of_build C N nodes hv m0 m hn hs saved1 list1 hm
  obtain ⟨r, h1, h2⟩ := buildCellCell_spec C 8 N nodes m _ hl hv k hkn hks saved0 temp0 list0
    ((record_pos_iff C 8 nodes).2 hshare)
  refine ⟨r, h1, fun c hc => ⟨_, (h2 c hc).1, (h2 c hc).2, record_nodup _ _, fun c' => ?_⟩⟩
  rw [mem_record, mem_visits]
  tauto

/-- C37: the neighbour relation is symmetric. -/
theorem C37_symmetric (w : ℕ) (nodes : ℕ → ℕ → ℕ) (c c' : ℕ) (h : Share w nodes c c') :
    Share w nodes c' c := by
  obtain ⟨l, hl, l', hl', e⟩ := h
  exact ⟨l', hl', l, hl, e.symm⟩

/-- C37 negation: for every valid mesh in which no two different cells share a node (in particular every
mesh of one cell), `build_cell_cell_connectivity` writes entry 0 of a list of length 0. -/
theorem C37_negation (C N : ℕ) (nodes : ℕ → ℕ → ℕ) (hv : ∀ c < C, ∀ l < 8, nodes c l < N)
    (m0 m : NodeCell) (hn : m0.num.size = N) (hs : m0.start.size = N + 1) (saved1 list1 : ℕ → ℕ)
    (hm : buildNodeCell C N nodes m0 saved1 list1 = some m)
    (k : CellCell) (hkn : k.num.size = C) (hks : k.start.size = C + 1) (saved0 temp0 list0 : ℕ → ℕ)
    (hno : ¬ ∃ c < C, ∃ c' < C, c' ≠ c ∧ Share 8 nodes c c') :
    buildCellCell C 8 nodes m k saved0 temp0 list0 = none := by
  have hl := nodeLists_of_build C N nodes hv m0 m hn hs saved1 list1 hm
  obtain ⟨s, p, st, r, a1, b1, c1, d1, -, -, -, -, -, -, d5, -⟩ :=
    cellCell_prefix C 8 N nodes m _ hl hv k.num k.start hkn hks C le_rfl saved0 temp0
  have hz : r.actual = 0 := by
    rw [d5]
    by_contra h
    exact hno ((record_pos_iff C 8 nodes).1 (Nat.pos_of_ne_zero h))
  unfold buildCellCell
  simp only [Option.bind_eq_bind]
  rw [a1, Option.bind_some, b1, Option.bind_some, c1, Option.bind_some, d1, Option.bind_some,
    Arr.set_ge _ (by simp only [hz]; omega)]
  rfl

/-- Non-vacuity of the two cases: the two-cell mesh shares nodes 4..7; a single cell shares nothing. -/
example : (∃ c < 2, ∃ c' < 2, c' ≠ c ∧ Share 8 twoCells c c') ∧
    ¬ ∃ c < 1, ∃ c' < 1, c' ≠ c ∧ Share 8 twoCells c c' :=
  ⟨⟨0, by omega, 1, by omega, by omega, 4, by omega, 0, by omega, rfl⟩, by
    rintro ⟨c, hc, c', hc', hne, -⟩; omega⟩

end Verif.Swage
