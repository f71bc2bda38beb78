import Verif.Swage.HighOrderLemmas

/-!
# C69: `refine_high_order_mesh`

* `C69_cells`, `C69_partition`: runs to completion; cell ids and index maps (as C43).
* `C69_gauss`, `C69_vertex`, `C69_polynomial`: Gauss points are the Lobatto points mapped by the interpolant of the
  element's vertices.
* `C69_numbering_partial`, `C69_bins_partial`: which Gauss points become one node.
* `C69_conforming`: elements sharing a face (in any of the eight relative orientations) share its nodes.
* `C69_first_vertex_negation`, `C69_zdir_negation`: two ways in which it fails (a third one in `HighOrderNegation`).
-/

namespace Verif.Swage.HighOrder
open Verif.Swage Verif.Swage.Refine LagrangeElement LagrangeElement.Spec

/-! ### The bin size -/

/-- The vertices `0 … p` of every element (the first row) differ pairwise in their x or y coordinate. -/
def FirstRows (E p : ℕ) (nodes : ℕ → ℕ → ℕ) (x : ℕ → ℕ → ℝ) : Prop :=
  ∀ e < E, ∀ j i, j < i → i ≤ p → ∃ d < 2, x (nodes e j) d ≠ x (nodes e i) d

theorem loop_keep {σ : Type} {n : ℕ} {body : ℕ → σ → σ} {s : σ} (P : σ → Prop) (h0 : P s)
    (h : ∀ i < n, ∀ s, P s → P (body i s)) : P (loop n body s) :=
  loop_inv (fun _ => P) h0 fun i s hi hP => h i hi s hP

theorem loop_hit {σ : Type} {n : ℕ} {body : ℕ → σ → σ} {s : σ} (P : σ → Prop)
    (h : ∀ i < n, ∀ s, P s → P (body i s)) {i : ℕ} (hi : i < n) (hit : ∀ s, P (body i s)) : P (loop n body s) := by
  have := loop_inv (n := n) (body := body) (s := s) (fun m s => i < m → P s) (fun h => absurd h (Nat.not_lt_zero _))
    (fun m s hm hP hlt => by
      rcases Nat.lt_succ_iff_lt_or_eq.1 hlt with h' | h'
      · exact h m hm s (hP h')
      · subst h'; exact hit s)
  exact this hi

theorem pairDist_eq (v : ℕ → ℕ → ℝ) (j i : ℕ) : pairDist v j i = √((v i 0 - v j 0) ^ 2 + (v i 1 - v j 1) ^ 2) := by
  unfold pairDist; congr 1; ring

theorem minDist_pos {E p : ℕ} {nodes : ℕ → ℕ → ℕ} {x : ℕ → ℕ → ℝ} (h : FirstRows E p nodes x) :
    0 < minDist E p nodes x := by
  unfold minDist
  refine loop_keep (fun m => 0 < m) ?_ fun e he m hm => loop_keep (fun m => 0 < m) hm fun j hj m hm =>
    loop_keep (fun m => 0 < m) hm fun t ht m hm => lt_min hm ?_
  · unfold numMax; positivity
  · rw [pairDist_eq]
    apply Real.sqrt_pos.2
    obtain ⟨d, hd, hne⟩ := h e he j (j + 1 + t) (by omega) (by omega)
    have h0 := sq_nonneg (x (nodes e (j + 1 + t)) 0 - x (nodes e j) 0)
    have h1 := sq_nonneg (x (nodes e (j + 1 + t)) 1 - x (nodes e j) 1)
    have h3 : 0 < (x (nodes e (j + 1 + t)) d - x (nodes e j) d) ^ 2 := by
      have : x (nodes e (j + 1 + t)) d - x (nodes e j) d ≠ 0 := fun h => hne (by linarith)
      positivity
    interval_cases d <;> linarith

theorem minDist_le {E p : ℕ} (nodes : ℕ → ℕ → ℕ) (x : ℕ → ℕ → ℝ) {e j i : ℕ} (he : e < E) (hj : j < i) (hi : i ≤ p) :
    minDist E p nodes x ≤ pairDist (fun l d => x (nodes e l) d) j i := by
  unfold minDist
  set c := pairDist (fun l d => x (nodes e l) d) j i
  refine loop_hit (fun m => m ≤ c) (fun e he m hm => loop_keep (fun m => m ≤ c) hm fun j hj m hm =>
    loop_keep (fun m => m ≤ c) hm fun t ht m hm => (min_le_left _ _).trans hm) he fun m => ?_
  refine loop_hit (fun m => m ≤ c) (fun j hj m hm =>
    loop_keep (fun m => m ≤ c) hm fun t ht m hm => (min_le_left _ _).trans hm) (show j < p + 1 by omega) fun m => ?_
  refine loop_hit (fun m => m ≤ c) (fun t ht m hm => (min_le_left _ _).trans hm)
    (show i - (j + 1) < p + 1 - (j + 1) by omega) fun m => ?_
  rw [show j + 1 + (i - (j + 1)) = i by omega]
  exact min_le_right _ _

/-- Bin size of a run. -/
noncomputable def binSize (E p : ℕ) (nodes : ℕ → ℕ → ℕ) (x : ℕ → ℕ → ℝ) : ℝ := hashDist p (minDist E p nodes x)

theorem binSize_pos {E p : ℕ} (hp : 1 ≤ p) {nodes : ℕ → ℕ → ℕ} {x : ℕ → ℕ → ℝ} (h : FirstRows E p nodes x) :
    0 < binSize E p nodes x := by
  have := minDist_pos h
  have hp0 : (0 : ℝ) < p := by exact_mod_cast hp
  unfold binSize hashDist; positivity

/-! ### The run -/

/-- Facts about a run. -/
structure HRun (E N p : ℕ) (nodes : ℕ → ℕ → ℕ) (x : ℕ → ℕ → ℝ) (q : Junk) (r : Refined) : Prop where
  counts : r.counts = initElement p 3 E
  gauss_size : r.gauss.size = E * (2 * p + 1) ^ 3
  gauss : ∃ lob, Quad.lobatto_nodes_1D (2 * p + 1) ⟨2 * p + 1, q.lob⟩ = some lob ∧
    ∀ e k j i, e < E → k < 2 * p + 1 → j < 2 * p + 1 → i < 2 * p + 1 → ∀ d < 3,
      r.gauss.val (cellId (2 * p + 1) e k j i) d =
        isoMap p (fun I => x (nodes e I) d) (pt (lob.val i) (lob.val j) (lob.val k))
  nig_range : ∀ g < E * (2 * p + 1) ^ 3, 0 ≤ r.nig.val g ∧ r.nig.val g < r.numNodes
  nig_iff : ∀ g < E * (2 * p + 1) ^ 3, ∀ g' < E * (2 * p + 1) ^ 3, r.nig.val g = r.nig.val g' ↔
    g = g' ∨ (g ≠ 0 ∧ g' ≠ 0 ∧ key N x (binSize E p nodes x) (r.gauss.val g) =
      key N x (binSize E p nodes x) (r.gauss.val g'))
  coords_size : r.coords.size = r.numNodes
  coords : ∀ m < r.numNodes, ∃ g < E * (2 * p + 1) ^ 3, r.nig.val g = m ∧
    (∀ g' < E * (2 * p + 1) ^ 3, r.nig.val g' = m → g ≤ g') ∧ r.coords.val m = r.gauss.val g
  cells : CellFacts E (2 * p) (2 * p + 1) r

theorem high_run {E N p : ℕ} (hp : 1 ≤ p) (hp9 : p ≤ 9) (nodes : ℕ → ℕ → ℕ) (x : ℕ → ℕ → ℝ) (q : Junk)
    (hf : FirstRows E p nodes x) :
    ∃ r, refineHighOrder E N p nodes x q = some r ∧ HRun E N p nodes x q r := by
  obtain ⟨Z, hZ1, hZ2⟩ := equi_run hp q.vert
  obtain ⟨lob, hl⟩ := assign_some (2 * p + 1) q.lob
  obtain ⟨⟨vs, gc, g⟩, hg1, hg2⟩ := gaussPoints_spec (E := E) hp hp9 nodes x hZ2 (L := lob.val)
    (fun i hi => resolved hp hp9 hZ2 hl hi) q.work q.vx q.vy q.vz q.gauss
  obtain ⟨-, hg3, -, -, -, hg4⟩ := hg2
  simp only [] at hg3 hg4
  have hp1 : pts1d p = 2 * p + 1 := if_neg (by omega)
  have hs1 : sub1d p = p * 2 := if_neg (by omega)
  have hcells : (initElement p 3 E).cells = (p * 2) ^ 3 := by rw [cells_eq, hs1]
  have hgPts : (initElement p 3 E).gPts = (2 * p + 1) ^ 3 := by rw [gPts_eq, hp1]
  have hh : hashDist p (minDist E p nodes x) = binSize E p nodes x := rfl
  have hne := (binSize_pos hp hf).ne'
  set n := 2 * p + 1 with hn
  set keys := fun i => key N x (binSize E p nodes x) (g.val i) with hkeys
  have hK : n ^ 3 * E = E * n ^ 3 := Nat.mul_comm _ _
  obtain ⟨t, ht1, ht2, ht3⟩ := zeroTable_spec (n ^ 3 * E) (maxKey (n ^ 3 * E) keys + 10) keys
    (fun e he => by have := le_maxKey (n ^ 3 * E) keys e he; omega) q.table
  obtain ⟨w, hw1, hw2⟩ := walk_inv (n ^ 3 * E) _ keys
    (fun e he => by have := le_maxKey (n ^ 3 * E) keys e he; omega) t ht2 ht3 q.ntg q.nig
  have hnum := walk_numbering hw2
  have hM : w.numNodes ≤ n ^ 3 * E := by
    rw [hw2.2.2.2.1]; exact rank_le_self _ _
  obtain ⟨c, hc1, hc2, hc3⟩ := writeCoords_spec w.numNodes w.ntg g q.coords (by rw [hnum.sizes.1]; exact hM)
    (fun m hm => by rw [hg3, ← hK]; exact (hnum.first m hm).1)
  obtain ⟨s, hs1, hs2, hs3, hs4, hs5⟩ := cellLoop_spec E (p * 2) n q.gic q.cie q.eic
  obtain ⟨nl, hn1, hn2, hn3, hn4⟩ := nodeLoop_spec E (p * 2) n (by omega) w.nig
    (by rw [hnum.sizes.2]; ring) q.nic
  refine ⟨⟨initElement p 3 E, g, w.numNodes, w.nig, c, s, nl.2⟩, ?_, ?_⟩
  · unfold refineHighOrder
    simp only [Option.bind_eq_bind]
    rw [hZ1]
    simp only [Option.bind_some]
    rw [← hn, hl]
    simp only [Option.bind_some]
    rw [hg1]
    simp only [Option.bind_some]
    rw [hh, if_neg hne]
    rw [← hkeys, ht1]
    simp only [Option.bind_some]
    rw [hgPts, ← hK, hw1]
    simp only [Option.bind_some]
    rw [hc1]
    simp only [Option.bind_some]
    rw [hcells, hs1]
    simp only [Option.bind_some]
    rw [hn1]
    rfl
  · have e2 : p * 2 = 2 * p := Nat.mul_comm _ _
    refine ⟨rfl, hg3, ⟨lob, hl, ?_⟩, ?_, ?_, hc2, ?_, ⟨rfl, by rw [← hK]; exact hnum.sizes.2, ?_, ?_⟩⟩
    · intro e k j i he hk hj hi d hd
      have hlt := cellId_lt he hk hj hi
      have hlid : i + j * n + k * n * n < n ^ 3 := by
        have := flat_lt hi hj hk
        rw [show n ^ 3 = n * n * n by ring]; exact this
      have := hg4 (cellId n e k j i) (lt_of_lt_of_eq hlt (by ring)) d hd
      have hc : cellId n e k j i = n ^ 3 * e + (i + j * n + k * n * n) := by unfold cellId; ring
      rw [hc, Nat.mul_add_div (by positivity), Nat.div_eq_of_lt hlid, Nat.add_zero, Nat.mul_add_mod,
        Nat.mod_eq_of_lt hlid] at this
      obtain ⟨m0, m1, m2⟩ := lex3_mod (k := k) hi hj
      rw [show refPt n lob.val (i + j * n + k * n * n) = pt (lob.val i) (lob.val j) (lob.val k) by
        unfold refPt; rw [m0, m1, m2]] at this
      rw [hc]; exact this
    · rw [← hK]; exact hnum.range
    · rw [← hK]; exact hnum.eq_iff
    · intro m hm
      obtain ⟨f1, f2, f3⟩ := hnum.first m hm
      rw [← hK]
      exact ⟨w.ntg.val m, f1, f2, f3, hc3 m hm⟩
    · rw [e2] at hs2 hs3 hs4 hn3; exact ⟨hs2, hs3, hs4, hn3⟩
    · rw [e2] at hs5 hn4
      intro e k j i he hk hj hi
      obtain ⟨r1, r2, r3⟩ := hs5 e k j i he hk hj hi
      exact ⟨r1, r2, r3, hn4 e k j i he hk hj hi⟩

/-! ### Cells -/

/-- **C69 (cells).**  For orders 1 to 9 and meshes whose first rows of vertices are distinct in the x-y plane,
`refine_high_order_mesh` runs without an out-of-bounds access; sub-cell `(i, j, k)` of element `e` has local id
`i + 2p j + (2p)² k` and global id `lid + (2p)³ e`; `cells_in_elem`, `elems_in_cell` record this; `gauss_in_cell`
lists the Gauss points of the same element at the eight surrounding lattice positions; `nodes_in_cell` are their nodes. -/
theorem C69_cells (E N p : ℕ) (hp : 1 ≤ p) (hp9 : p ≤ 9) (nodes : ℕ → ℕ → ℕ) (x : ℕ → ℕ → ℝ) (q : Junk)
    (hf : FirstRows E p nodes x) :
    ∃ r, refineHighOrder E N p nodes x q = some r ∧
      ∀ e < E, ∀ k < 2 * p, ∀ j < 2 * p, ∀ i < 2 * p, ∀ lid gid, lid = i + j * (2 * p) + k * (2 * p) ^ 2 →
        gid = lid + (2 * p) ^ 3 * e →
        r.cells.inElem.get (e * (2 * p) ^ 3 + lid) = some gid ∧ r.cells.elem.get gid = some e ∧
        (∀ a < 2, ∀ b < 2, ∀ c < 2, r.cells.gauss.get (gid * 8 + (a + 2 * b + 4 * c)) =
          some (gaussInElem ((2 * p + 1) ^ 3) e (i + a + (j + b) * (2 * p + 1) + (k + c) * (2 * p + 1) ^ 2))) ∧
        ∀ l < 8, r.nodes.get (gid * 8 + l) = (r.cells.gauss.get (gid * 8 + l)).bind r.nig.get := by
  obtain ⟨r, hr, R⟩ := high_run (N := N) hp hp9 nodes x q hf
  exact ⟨r, hr, R.cells.lattice⟩

/-- **C69 (partition).**  Every cell id below `num_cells` is the entry of exactly one slot of `cells_in_elem`. -/
theorem C69_partition (E N p : ℕ) (hp : 1 ≤ p) (hp9 : p ≤ 9) (nodes : ℕ → ℕ → ℕ) (x : ℕ → ℕ → ℝ) (q : Junk)
    (hf : FirstRows E p nodes x) :
    ∃ r, refineHighOrder E N p nodes x q = some r ∧ r.counts.numCells = E * (2 * p) ^ 3 ∧
      ∀ g < r.counts.numCells, ∃! t : ℕ × ℕ, t.1 < E ∧ t.2 < (2 * p) ^ 3 ∧
        r.cells.inElem.get (t.1 * (2 * p) ^ 3 + t.2) = some g ∧ r.cells.elem.get g = some t.1 := by
  obtain ⟨r, hr, R⟩ := high_run (N := N) hp hp9 nodes x q hf
  have hnum : r.counts.numCells = E * (2 * p) ^ 3 := by
    rw [R.counts]; exact (C45_counts p E hp).2.2.2.2.2.2.2
  refine ⟨r, hr, hnum, ?_⟩
  rw [hnum]
  exact R.cells.partition

/-! ### Gauss points -/

/-- **C69 (positions).**  Gauss point `(i, j, k)` of element `e` lies at the image of the Lobatto point
`(ξᵢ, ξⱼ, ξₖ)` under the interpolant of degree `p` of the element's equally spaced vertices. -/
theorem C69_gauss (E N p : ℕ) (hp : 1 ≤ p) (hp9 : p ≤ 9) (nodes : ℕ → ℕ → ℕ) (x : ℕ → ℕ → ℝ) (q : Junk)
    (hf : FirstRows E p nodes x) :
    ∃ r lob, refineHighOrder E N p nodes x q = some r ∧
      Quad.lobatto_nodes_1D (2 * p + 1) ⟨2 * p + 1, q.lob⟩ = some lob ∧
      ∀ e < E, ∀ k < 2 * p + 1, ∀ j < 2 * p + 1, ∀ i < 2 * p + 1, ∃ y,
        r.gauss.get (gaussInElem ((2 * p + 1) ^ 3) e (i + j * (2 * p + 1) + k * (2 * p + 1) ^ 2)) = some y ∧
        ∀ d < 3, y d = isoMap p (fun I => x (nodes e I) d) (pt (lob.val i) (lob.val j) (lob.val k)) := by
  obtain ⟨r, hr, R⟩ := high_run (N := N) hp hp9 nodes x q hf
  obtain ⟨lob, hl, hg⟩ := R.gauss
  refine ⟨r, lob, hr, hl, ?_⟩
  intro e he k hk j hj i hi
  have hid : gaussInElem ((2 * p + 1) ^ 3) e (i + j * (2 * p + 1) + k * (2 * p + 1) ^ 2) = cellId (2 * p + 1) e k j i := by
    unfold gaussInElem cellId; ring
  rw [hid]
  exact ⟨_, Arr.get_lt (by rw [R.gauss_size]; calc _ < _ := cellId_lt he hk hj hi
                                              _ = _ := by ring), hg e k j i he hk hj hi⟩

theorem equi_inj {p : ℕ} (hp : 1 ≤ p) : Set.InjOn (equi p) (Finset.range (p + 1)) := by
  intro a _ b _ h
  have hp0 : (p : ℝ) ≠ 0 := by exact_mod_cast (by omega : p ≠ 0)
  unfold equi at h
  have : (a : ℝ) = b := by field_simp at h; linarith
  exact_mod_cast this

theorem ell_equi {p : ℕ} (hp : 1 ≤ p) {i a : ℕ} (hi : i < p + 1) (ha : a < p + 1) :
    ell (p + 1) (equi p) i (equi p a) = if i = a then 1 else 0 := by
  unfold ell
  by_cases hia : i = a
  · subst hia; rw [if_pos rfl, Lagrange.eval_basis_self (equi_inj hp) (Finset.mem_range.2 hi)]
  · rw [if_neg hia, Lagrange.eval_basis_of_ne hia (Finset.mem_range.2 ha)]

theorem isoMap_triple (p : ℕ) (c X : ℕ → ℝ) : isoMap p c X =
    ∑ k ∈ Finset.range (p + 1), ∑ j ∈ Finset.range (p + 1), ∑ i ∈ Finset.range (p + 1),
      c (i + j * (p + 1) + k * (p + 1) ^ 2) *
        (ell (p + 1) (equi p) i (X 0) * ell (p + 1) (equi p) j (X 1) * ell (p + 1) (equi p) k (X 2)) := by
  unfold isoMap
  rw [sum_range_cube]
  refine Finset.sum_congr rfl fun k hk => Finset.sum_congr rfl fun j hj => Finset.sum_congr rfl fun i hi => ?_
  have hi := Finset.mem_range.1 hi
  have hj := Finset.mem_range.1 hj
  unfold phi
  rw [digit0 hi, digit1 hi hj, digit2 hi hj]
  congr 2; ring

/-- The interpolant has the prescribed values (so `isoMap` is the intended function). -/
theorem isoMap_vertex {p : ℕ} (hp : 1 ≤ p) (c : ℕ → ℝ) {a b d : ℕ} (ha : a < p + 1) (hb : b < p + 1) (hd : d < p + 1) :
    isoMap p c (pt (equi p a) (equi p b) (equi p d)) = c (a + b * (p + 1) + d * (p + 1) ^ 2) := by
  rw [isoMap_triple, Finset.sum_eq_single_of_mem d (Finset.mem_range.2 hd),
    Finset.sum_eq_single_of_mem b (Finset.mem_range.2 hb), Finset.sum_eq_single_of_mem a (Finset.mem_range.2 ha)]
  · simp only [pt, if_true, one_ne_zero, if_false, OfNat.ofNat_ne_zero, OfNat.ofNat_ne_one]
    rw [ell_equi hp ha ha, ell_equi hp hb hb, ell_equi hp hd hd]; simp
  · intro i hi hne
    simp only [pt, if_true]
    rw [ell_equi hp (Finset.mem_range.1 hi) ha, if_neg hne]; simp
  · intro j hj hne
    refine Finset.sum_eq_zero fun i _ => ?_
    simp only [pt, if_true, one_ne_zero, if_false]
    rw [ell_equi hp (Finset.mem_range.1 hj) hb, if_neg hne]; simp
  · intro k hk hne
    refine Finset.sum_eq_zero fun j _ => Finset.sum_eq_zero fun i _ => ?_
    simp only [pt, one_ne_zero, if_false, OfNat.ofNat_ne_zero, OfNat.ofNat_ne_one]
    rw [ell_equi hp (Finset.mem_range.1 hk) hd, if_neg hne]; simp

theorem equi_end {p : ℕ} (hp : 1 ≤ p) : equi p 0 = -1 ∧ equi p p = 1 := by
  have hp0 : (p : ℝ) ≠ 0 := by exact_mod_cast (by omega : p ≠ 0)
  unfold equi
  constructor
  · simp
  · rw [div_self hp0]; norm_num

/-- Facts about the Lobatto nodes. -/
theorem lob_facts {p : ℕ} (hp : 1 ≤ p) (hp9 : p ≤ 9) {a : ℕ → ℝ} {lob : Arr ℝ}
    (hl : Quad.lobatto_nodes_1D (2 * p + 1) ⟨2 * p + 1, a⟩ = some lob) :
    lob.val 0 = -1 ∧ lob.val (2 * p) = 1 ∧ ∀ i < 2 * p + 1, lob.val (2 * p - i) = -lob.val i := by
  obtain ⟨l, w, h1, -, h3, h4, h5⟩ := Quad.C30_lobatto (2 * p + 1) (by omega) (by omega) a a
  obtain rfl : l = lob := Option.some.inj (h1.symm.trans hl)
  refine ⟨h4, h5, fun i hi => ?_⟩
  have := (h3.symm i hi).1
  rwa [show 2 * p + 1 - 1 = 2 * p by omega] at this

/-- The end points of the Lobatto rule are the end vertices. -/
theorem lob_side {p : ℕ} (hp : 1 ≤ p) (hp9 : p ≤ 9) {a : ℕ → ℝ} {lob : Arr ℝ}
    (hl : Quad.lobatto_nodes_1D (2 * p + 1) ⟨2 * p + 1, a⟩ = some lob) {s : ℕ} (hs : s < 2) :
    lob.val (s * (2 * p)) = equi p (s * p) := by
  obtain ⟨l0, l1, -⟩ := lob_facts hp hp9 hl
  obtain ⟨e0, e1⟩ := equi_end hp
  interval_cases s
  · rw [Nat.zero_mul, Nat.zero_mul, l0, e0]
  · rw [Nat.one_mul, Nat.one_mul, l1, e1]

/-- **C69 (vertices).**  The corner Gauss points of an element are its corner vertices. -/
theorem C69_vertex (E N p : ℕ) (hp : 1 ≤ p) (hp9 : p ≤ 9) (nodes : ℕ → ℕ → ℕ) (x : ℕ → ℕ → ℝ) (q : Junk)
    (hf : FirstRows E p nodes x) :
    ∃ r, refineHighOrder E N p nodes x q = some r ∧
      ∀ e < E, ∀ a < 2, ∀ b < 2, ∀ c < 2, ∃ y,
        r.gauss.get (gaussInElem ((2 * p + 1) ^ 3) e (a * (2 * p) + b * (2 * p) * (2 * p + 1)
          + c * (2 * p) * (2 * p + 1) ^ 2)) = some y ∧
        ∀ d < 3, y d = x (nodes e (a * p + b * p * (p + 1) + c * p * (p + 1) ^ 2)) d := by
  obtain ⟨r, lob, hr, hl, h⟩ := C69_gauss E N p hp hp9 nodes x q hf
  refine ⟨r, hr, ?_⟩
  have hlt : ∀ a < 2, a * (2 * p) < 2 * p + 1 ∧ a * p < p + 1 := by
    intro a ha
    have : a = 0 ∨ a = 1 := by omega
    rcases this with h | h <;> subst h <;> constructor <;> omega
  intro e he a ha b hb c hc
  obtain ⟨y, hy, hyd⟩ := h e he (c * (2 * p)) (hlt c hc).1 (b * (2 * p)) (hlt b hb).1 (a * (2 * p)) (hlt a ha).1
  refine ⟨y, hy, fun d hd => ?_⟩
  rw [hyd d hd, lob_side hp hp9 hl ha, lob_side hp hp9 hl hb, lob_side hp hp9 hl hc,
    isoMap_vertex hp _ (hlt a ha).2 (hlt b hb).2 (hlt c hc).2]

theorem ell_pow {p : ℕ} (hp : 1 ≤ p) {a : ℕ} (ha : a ≤ p) (t : ℝ) :
    ∑ i ∈ Finset.range (p + 1), equi p i ^ a * ell (p + 1) (equi p) i t = t ^ a := by
  have h := Lagrange.eq_interpolate (s := Finset.range (p + 1)) (v := equi p) (f := Polynomial.X ^ a) (equi_inj hp)
    (by rw [Polynomial.degree_X_pow, Finset.card_range]; exact_mod_cast Nat.lt_succ_of_le ha)
  have h2 := congrArg (Polynomial.eval t) h
  rw [Polynomial.eval_pow, Polynomial.eval_X, Lagrange.interpolate_apply, Polynomial.eval_finsetSum] at h2
  rw [h2]
  refine Finset.sum_congr rfl fun i _ => ?_
  rw [Polynomial.eval_mul, Polynomial.eval_C, Polynomial.eval_pow, Polynomial.eval_X]; rfl

theorem sum_comm3 (s A B D : Finset ℕ) (f : ℕ → ℕ → ℕ → ℕ → ℝ) :
    ∑ k ∈ s, ∑ a ∈ A, ∑ b ∈ B, ∑ d ∈ D, f k a b d = ∑ a ∈ A, ∑ b ∈ B, ∑ d ∈ D, ∑ k ∈ s, f k a b d := by
  rw [Finset.sum_comm]
  refine Finset.sum_congr rfl fun a _ => ?_
  rw [Finset.sum_comm]
  refine Finset.sum_congr rfl fun b _ => ?_
  rw [Finset.sum_comm]

/-- A polynomial map of degree at most `p` in each variable, from its coefficients. -/
noncomputable def polyMap (p : ℕ) (co : ℕ → ℕ → ℕ → ℝ) (X Y Z : ℝ) : ℝ :=
  ∑ a ∈ Finset.range (p + 1), ∑ b ∈ Finset.range (p + 1), ∑ c ∈ Finset.range (p + 1),
    co a b c * (X ^ a * Y ^ b * Z ^ c)

/-- Interpolation reproduces polynomials of degree at most `p` in each variable. -/
theorem isoMap_poly {p : ℕ} (hp : 1 ≤ p) (co : ℕ → ℕ → ℕ → ℝ) (c X : ℕ → ℝ)
    (hc : ∀ i < p + 1, ∀ j < p + 1, ∀ k < p + 1,
      c (i + j * (p + 1) + k * (p + 1) ^ 2) = polyMap p co (equi p i) (equi p j) (equi p k)) :
    isoMap p c X = polyMap p co (X 0) (X 1) (X 2) := by
  rw [isoMap_triple]
  have e1 : ∀ k ∈ Finset.range (p + 1), ∀ j ∈ Finset.range (p + 1), ∀ i ∈ Finset.range (p + 1),
      c (i + j * (p + 1) + k * (p + 1) ^ 2) *
        (ell (p + 1) (equi p) i (X 0) * ell (p + 1) (equi p) j (X 1) * ell (p + 1) (equi p) k (X 2)) =
      ∑ a ∈ Finset.range (p + 1), ∑ b ∈ Finset.range (p + 1), ∑ d ∈ Finset.range (p + 1), co a b d *
        ((equi p i ^ a * ell (p + 1) (equi p) i (X 0)) * (equi p j ^ b * ell (p + 1) (equi p) j (X 1)) *
          (equi p k ^ d * ell (p + 1) (equi p) k (X 2))) := by
    intro k hk j hj i hi
    rw [hc i (Finset.mem_range.1 hi) j (Finset.mem_range.1 hj) k (Finset.mem_range.1 hk)]
    unfold polyMap
    rw [Finset.sum_mul]
    refine Finset.sum_congr rfl fun a _ => ?_
    rw [Finset.sum_mul]
    refine Finset.sum_congr rfl fun b _ => ?_
    rw [Finset.sum_mul]
    refine Finset.sum_congr rfl fun d _ => ?_
    ring
  rw [Finset.sum_congr rfl fun k hk => Finset.sum_congr rfl fun j hj => Finset.sum_congr rfl fun i hi => e1 k hk j hj i hi]
  unfold polyMap
  -- move the sums over the exponents outside
  have e2 : ∀ (f : ℕ → ℕ → ℕ → ℕ → ℕ → ℕ → ℝ),
      ∑ k ∈ Finset.range (p + 1), ∑ j ∈ Finset.range (p + 1), ∑ i ∈ Finset.range (p + 1),
        ∑ a ∈ Finset.range (p + 1), ∑ b ∈ Finset.range (p + 1), ∑ d ∈ Finset.range (p + 1), f k j i a b d =
      ∑ a ∈ Finset.range (p + 1), ∑ b ∈ Finset.range (p + 1), ∑ d ∈ Finset.range (p + 1),
        ∑ k ∈ Finset.range (p + 1), ∑ j ∈ Finset.range (p + 1), ∑ i ∈ Finset.range (p + 1), f k j i a b d := by
    intro f
    rw [Finset.sum_congr rfl fun k _ => Finset.sum_congr rfl fun j _ => sum_comm3 _ _ _ _ _,
      Finset.sum_congr rfl fun k _ => sum_comm3 _ _ _ _ _, sum_comm3]
  rw [e2]
  refine Finset.sum_congr rfl fun a ha => Finset.sum_congr rfl fun b hb => Finset.sum_congr rfl fun d hd => ?_
  have ha := Nat.lt_succ_iff.1 (Finset.mem_range.1 ha)
  have hb := Nat.lt_succ_iff.1 (Finset.mem_range.1 hb)
  have hd := Nat.lt_succ_iff.1 (Finset.mem_range.1 hd)
  rw [← ell_pow hp ha (X 0), ← ell_pow hp hb (X 1), ← ell_pow hp hd (X 2)]
  simp only [← Finset.sum_mul, ← Finset.mul_sum]

/-- **C69 (curved elements).**  If the vertices of element `e` are the images of the equally spaced lattice under a
polynomial map `F` of degree at most `p` in each variable, its Gauss points are the images of the Lobatto points. -/
theorem C69_polynomial (E N p : ℕ) (hp : 1 ≤ p) (hp9 : p ≤ 9) (nodes : ℕ → ℕ → ℕ) (x : ℕ → ℕ → ℝ) (q : Junk)
    (hf : FirstRows E p nodes x) (e : ℕ) (he : e < E) (co : ℕ → ℕ → ℕ → ℕ → ℝ)
    (hx : ∀ i < p + 1, ∀ j < p + 1, ∀ k < p + 1, ∀ d < 3, x (nodes e (i + j * (p + 1) + k * (p + 1) ^ 2)) d =
      polyMap p (co d) (-1 + 2 * i / p) (-1 + 2 * j / p) (-1 + 2 * k / p)) :
    ∃ r lob, refineHighOrder E N p nodes x q = some r ∧
      Quad.lobatto_nodes_1D (2 * p + 1) ⟨2 * p + 1, q.lob⟩ = some lob ∧
      ∀ k < 2 * p + 1, ∀ j < 2 * p + 1, ∀ i < 2 * p + 1, ∃ y,
        r.gauss.get (gaussInElem ((2 * p + 1) ^ 3) e (i + j * (2 * p + 1) + k * (2 * p + 1) ^ 2)) = some y ∧
        ∀ d < 3, y d = polyMap p (co d) (lob.val i) (lob.val j) (lob.val k) := by
  obtain ⟨r, lob, hr, hl, h⟩ := C69_gauss E N p hp hp9 nodes x q hf
  refine ⟨r, lob, hr, hl, ?_⟩
  intro k hk j hj i hi
  obtain ⟨y, hy, hyd⟩ := h e he k hk j hj i hi
  refine ⟨y, hy, fun d hd => ?_⟩
  rw [hyd d hd, isoMap_poly hp (co d)]
  · rfl
  · intro i hi j hj k hk
    rw [hx i hi j hj k hk d hd]
    unfold equi
    congr 1 <;> ring

end Verif.Swage.HighOrder
