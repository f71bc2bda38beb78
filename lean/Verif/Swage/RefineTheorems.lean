import Verif.Swage.RefineLemmas
import Verif.Swage.PatchKeyTheorems
import Verif.Fill
import Verif.Swage.Elem
import Mathlib.Tactic.Positivity
import Mathlib.Tactic.IntervalCases
import Mathlib.Tactic.FieldSimp

/-!
# C42 - C45: `refine_mesh`

* C43 `C43_cells`, `C43_partition`: cell ids and the index maps.
* C44 `C44_convex`, `C44_vertex`, `C44_affine`: positions of the Gauss points.
* C45 `C45_counts`, `C45_order0`: the counts.
* C42 `C42_numbering_partial`, `C42_bins_partial`, `C42_lattice_partial`: merging of coincident points, and
  `C42_first_vertex_negation`, `C42_wide_negation`, `C42_order6_negation`: the three ways it fails.
-/

namespace Verif.Swage.Refine
open Verif.Swage

/-! ### C45 -/

/-- **C45 (orders `p ≥ 1`).** -/
theorem C45_counts (p E : ℕ) (hp : 1 ≤ p) :
    (initElement p 3 E).gPts = (2 * p + 1) ^ 3 ∧ (initElement p 3 E).nodes = (2 * p + 1) ^ 3 ∧
    (initElement p 3 E).cells = (2 * p) ^ 3 ∧ (initElement p 3 E).zones = p ^ 3 ∧
    (initElement p 3 E).cells = (initElement p 3 E).zones * (initElement p 3 E).cellsInZone ∧
    (initElement p 3 E).patches = 3 * (2 * p) ^ 2 * (2 * p + 1) ∧
    (initElement p 3 E).numElem = E ∧ (initElement p 3 E).numCells = E * (2 * p) ^ 3 := by
  have h0 : ¬ p = 0 := by omega
  have h2 : 2 * p / 2 = p := by omega
  simp only [initElement, pts1d, if_neg h0, Nat.add_sub_cancel, h2]
  refine ⟨trivial, trivial, trivial, trivial, ?_, ?_, trivial, trivial⟩ <;> ring

/-- **C45 (order 0).** Eight Gauss points and nodes, one cell, one zone, six patches per element.  The number
of cells per zone is still reported as 8, although there is one cell. -/
theorem C45_order0 (E : ℕ) :
    (initElement 0 3 E).gPts = 8 ∧ (initElement 0 3 E).nodes = 8 ∧ (initElement 0 3 E).cells = 1 ∧
    (initElement 0 3 E).zones = 1 ∧ (initElement 0 3 E).patches = 6 ∧ (initElement 0 3 E).numElem = E ∧
    (initElement 0 3 E).numCells = E ∧ (initElement 0 3 E).cellsInZone = 8 := by
  simp [initElement, pts1d]

/-- Non-vacuity: second order. -/
example : (initElement 2 3 10).gPts = 125 ∧ (initElement 2 3 10).cells = 64 ∧ (initElement 2 3 10).patches = 240 := by
  decide

/-! ### The function runs to completion -/

theorem cellDist_bounds (v : ℕ → ℕ → ℝ) (junk : ℕ → ℝ) :
    cellDist v junk ≤ Key.cellDistMin v junk ∧ min (10 ^ 64) (Key.cellDistMin v junk) ≤ cellDist v junk := by
  have h := Key.loop_min_le 28 (Key.distLoop v junk).2 (10 ^ 64)
  constructor
  · exact Key.le_loop_min _ _ _ _ (h.2 0 (by omega)) h.2
  · have h2 := Key.loop_min_le 28 (Key.distLoop v junk).2 ((Key.distLoop v junk).2 0)
    exact Key.le_loop_min _ _ _ _ (min_le_left _ _) fun i hi => (min_le_right _ _).trans (h2.2 i hi)

theorem distMin_last (C : ℕ) (nodes : ℕ → ℕ → ℕ) (x : ℕ → ℕ → ℝ) (junk : ℕ → ℝ) (j : ℝ) (hC : 0 < C) :
    distMin C nodes x junk j = cellDist (fun l d => x (nodes (C - 1) l) d) junk := by
  obtain ⟨m, rfl⟩ : ∃ m, C = m + 1 := ⟨C - 1, by omega⟩
  unfold distMin
  rw [loop_succ]; simp

/-- Input meshes with at least one cell, whose last cell has eight different vertices. -/
def DistinctVerts (E : ℕ) (nodes : ℕ → ℕ → ℕ) (x : ℕ → ℕ → ℝ) : Prop :=
  0 < E ∧ ∀ a < 8, ∀ b < 8, a ≠ b → ∃ d < 3, x (nodes (E - 1) a) d ≠ x (nodes (E - 1) b) d

theorem dist1_pos {v : ℕ → ℕ → ℝ} {a b : ℕ} (h : ∃ d < 3, v a d ≠ v b d) : 0 < Key.dist1 v a b := by
  obtain ⟨d, hd, hne⟩ := h
  unfold Key.dist1
  refine abs_pos.2 (Real.sqrt_pos.2 ?_).ne'
  have h0 := sq_nonneg (v b 0 - v a 0)
  have h1 := sq_nonneg (v b 1 - v a 1)
  have h2 := sq_nonneg (v b 2 - v a 2)
  have h3 : 0 < (v b d - v a d) ^ 2 := by
    have : v b d - v a d ≠ 0 := fun h => hne (by linarith)
    positivity
  interval_cases d <;> linarith

theorem distMin_pos {E : ℕ} {nodes : ℕ → ℕ → ℕ} {x : ℕ → ℕ → ℝ} (h : DistinctVerts E nodes x) (junk : ℕ → ℝ) (j : ℝ) :
    0 < distMin E nodes x junk j := by
  rw [distMin_last E nodes x junk j h.1]
  set v : ℕ → ℕ → ℝ := fun l d => x (nodes (E - 1) l) d with hv
  refine lt_of_lt_of_le (lt_min (by norm_num) ?_) (cellDist_bounds v junk).2
  have all : ∀ i < 28, 0 < (Key.distLoop v junk).2 i := by
    intro i hi
    rw [Key.distLoop_val v junk i hi]
    obtain ⟨h1, h2⟩ := Key.pairs_lt i hi
    exact dist1_pos (h.2 _ (by omega) _ h2 (by omega))
  unfold Key.cellDistMin
  have : ∀ m ≤ 28, 0 < loop m (fun i m => min ((Key.distLoop v junk).2 i) m) ((Key.distLoop v junk).2 0) := by
    intro m
    induction m with
    | zero => intro _; exact all 0 (by omega)
    | succ m ih => intro hm; rw [loop_succ]; exact lt_min (all m (by omega)) (ih (by omega))
  exact this 28 le_rfl

theorem hash_ne {E : ℕ} {nodes : ℕ → ℕ → ℕ} {x : ℕ → ℕ → ℝ} (h : DistinctVerts E nodes x) (p : ℕ) (junk : ℕ → ℝ) (j : ℝ) :
    hashDist p (distMin E nodes x junk j) ≠ 0 := by
  have h0 := distMin_pos h junk j
  unfold hashDist
  have : (0 : ℝ) < if p = 0 then 1 else (p : ℝ) := by
    split
    · norm_num
    · next hp => exact_mod_cast Nat.pos_of_ne_zero hp
  positivity

theorem sub_pts (p : ℕ) : sub1d p + 1 = pts1d p := by
  unfold sub1d pts1d; split <;> omega

theorem cells_eq (p E : ℕ) : (initElement p 3 E).cells = sub1d p ^ 3 := by
  unfold initElement sub1d pts1d
  by_cases h : p = 0
  · simp [h]
  · simp only [if_neg h]; ring

theorem gPts_eq (p E : ℕ) : (initElement p 3 E).gPts = pts1d p ^ 3 := rfl

/-- The hash keys of the run. -/
noncomputable def runKey (E N p : ℕ) (nodes : ℕ → ℕ → ℕ) (x : ℕ → ℕ → ℝ) (q : Junk) (r : Refined) (g : ℕ) : ℕ :=
  key N x (hashDist p (distMin E nodes x q.dist q.dist0)) (r.gauss.val g)

/-- Facts about a run, in terms of the lattice indices. -/
structure Run (E N p : ℕ) (nodes : ℕ → ℕ → ℕ) (x : ℕ → ℕ → ℝ) (q : Junk) (r : Refined) : Prop where
  counts : r.counts = initElement p 3 E
  gauss_size : r.gauss.size = E * pts1d p ^ 3
  gauss : ∃ lob, Quad.lobatto_nodes_1D (pts1d p) ⟨pts1d p, q.lob⟩ = some lob ∧
    ∀ e k j i, e < E → k < pts1d p → j < pts1d p → i < pts1d p →
      r.gauss.val (cellId (pts1d p) e k j i) = fun d => gPoint (basis lob.val i j k) (fun v => x (nodes e v) d)
  nig_size : r.nig.size = E * pts1d p ^ 3
  nig_range : ∀ g < E * pts1d p ^ 3, 0 ≤ r.nig.val g ∧ r.nig.val g < r.numNodes
  nig_iff : ∀ g < E * pts1d p ^ 3, ∀ g' < E * pts1d p ^ 3, r.nig.val g = r.nig.val g' ↔
    g = g' ∨ (g ≠ 0 ∧ g' ≠ 0 ∧ runKey E N p nodes x q r g = runKey E N p nodes x q r g')
  coords_size : r.coords.size = r.numNodes
  coords : ∀ m < r.numNodes, ∃ g < E * pts1d p ^ 3, r.nig.val g = m ∧
    (∀ g' < E * pts1d p ^ 3, r.nig.val g' = m → g ≤ g') ∧ r.coords.val m = r.gauss.val g
  cells_size : r.cells.gauss.size = E * sub1d p ^ 3 * 8 ∧ r.cells.inElem.size = E * sub1d p ^ 3 ∧
    r.cells.elem.size = E * sub1d p ^ 3 ∧ r.nodes.size = E * sub1d p ^ 3 * 8
  cells : ∀ e k j i, e < E → k < sub1d p → j < sub1d p → i < sub1d p →
    (∀ l < 8, r.cells.gauss.val (cellId (sub1d p) e k j i * 8 + l) = corner (pts1d p) e k j i l) ∧
    r.cells.inElem.val (e * sub1d p ^ 3 + (i + j * sub1d p + k * sub1d p * sub1d p)) = cellId (sub1d p) e k j i ∧
    r.cells.elem.val (cellId (sub1d p) e k j i) = e ∧
    ∀ l < 8, r.nodes.val (cellId (sub1d p) e k j i * 8 + l) = r.nig.val (corner (pts1d p) e k j i l)

theorem assign_some (num : ℕ) (a : ℕ → ℝ) : ∃ b, Quad.lobatto_nodes_1D num ⟨num, a⟩ = some b := by
  by_cases h : num = 0 ∨ 20 < num
  · exact ⟨_, (Quad.C30_untabulated num ⟨num, a⟩).1 h |>.1⟩
  · by_cases h1 : num = 1
    · subst h1
      obtain ⟨b, hb, -⟩ := Quad.assign_spec (Quad.lobNodes 1) ⟨1, a⟩ (by
        rw [Quad.lobNodes_eq (by decide), List.length_map]; exact le_refl 1)
      exact ⟨b, hb⟩
    · obtain ⟨x, w, hx, -⟩ := Quad.C30_lobatto num (by omega) (by omega) a a
      exact ⟨x, hx⟩

theorem refine_run (E N p : ℕ) (nodes : ℕ → ℕ → ℕ) (x : ℕ → ℕ → ℝ) (q : Junk)
    (hne : hashDist p (distMin E nodes x q.dist q.dist0) ≠ 0) :
    ∃ r, refineMesh E N p nodes x q = some r ∧ Run E N p nodes x q r := by
  obtain ⟨lob, hl⟩ := assign_some (pts1d p) q.lob
  obtain ⟨⟨gc, g⟩, hg1, hg2, hg3⟩ := gaussPoints_spec E (pts1d p) nodes x lob.val q.gauss
  simp only [] at hg2 hg3
  set h := hashDist p (distMin E nodes x q.dist q.dist0) with hh
  set keys := fun i => key N x h (g.val i) with hkeys
  have hK : pts1d p ^ 3 * E = E * pts1d p ^ 3 := Nat.mul_comm _ _
  obtain ⟨t, ht1, ht2, ht3⟩ := zeroTable_spec (pts1d p ^ 3 * E) (maxKey (pts1d p ^ 3 * E) keys + 10) keys
    (fun e he => by have := le_maxKey (pts1d p ^ 3 * E) keys e he; omega) q.table
  obtain ⟨w, hw1, hw2⟩ := walk_inv (pts1d p ^ 3 * E) _ keys
    (fun e he => by have := le_maxKey (pts1d p ^ 3 * E) keys e he; omega) t ht2 ht3 q.ntg q.nig
  have hnum := walk_numbering hw2
  have hM : w.numNodes ≤ pts1d p ^ 3 * E := by
    rw [hw2.2.2.2.1]; exact rank_le_self _ _
  obtain ⟨c, hc1, hc2, hc3⟩ := writeCoords_spec w.numNodes w.ntg g q.coords (by rw [hnum.sizes.1]; exact hM)
    (fun m hm => by rw [hg2, ← hK]; exact (hnum.first m hm).1)
  obtain ⟨s, hs1, hs2, hs3, hs4, hs5⟩ := cellLoop_spec E (sub1d p) (pts1d p) q.gic q.cie q.eic
  obtain ⟨nl, hn1, hn2, hn3, hn4⟩ := nodeLoop_spec E (sub1d p) (pts1d p) (sub_pts p) w.nig
    (by rw [hnum.sizes.2]; ring) q.nic
  refine ⟨⟨initElement p 3 E, g, w.numNodes, w.nig, c, s, nl.2⟩, ?_, ?_⟩
  · unfold refineMesh
    simp only [Option.bind_eq_bind]
    rw [hl]
    simp only [Option.bind_some]
    rw [hg1]
    simp only [Option.bind_some]
    rw [← hh, if_neg hne]
    rw [← hkeys, ht1]
    simp only [Option.bind_some]
    rw [gPts_eq, ← hK, hw1]
    simp only [Option.bind_some]
    rw [hc1]
    simp only [Option.bind_some]
    rw [cells_eq, hs1]
    simp only [Option.bind_some]
    rw [hn1]
    rfl
  · refine ⟨rfl, hg2, ⟨lob, hl, hg3⟩, by rw [← hK]; exact hnum.sizes.2, ?_, ?_, hc2, ?_, ⟨hs2, hs3, hs4, hn3⟩, ?_⟩
    · rw [← hK]; exact hnum.range
    · rw [← hK]; exact hnum.eq_iff
    · intro m hm
      obtain ⟨f1, f2, f3⟩ := hnum.first m hm
      rw [← hK]
      exact ⟨w.ntg.val m, f1, f2, f3, hc3 m hm⟩
    · intro e k j i he hk hj hi
      obtain ⟨r1, r2, r3⟩ := hs5 e k j i he hk hj hi
      exact ⟨r1, r2, r3, hn4 e k j i he hk hj hi⟩

/-! ### C43 -/

/-- Contents of the cell arrays of a refined mesh with `S` sub-cells and `n` Gauss points per direction. -/
structure CellFacts (E S n : ℕ) (r : Refined) : Prop where
  sn : S + 1 = n
  nig_size : r.nig.size = E * n ^ 3
  size : r.cells.gauss.size = E * S ^ 3 * 8 ∧ r.cells.inElem.size = E * S ^ 3 ∧
    r.cells.elem.size = E * S ^ 3 ∧ r.nodes.size = E * S ^ 3 * 8
  cells : ∀ e k j i, e < E → k < S → j < S → i < S →
    (∀ l < 8, r.cells.gauss.val (cellId S e k j i * 8 + l) = corner n e k j i l) ∧
    r.cells.inElem.val (e * S ^ 3 + (i + j * S + k * S * S)) = cellId S e k j i ∧
    r.cells.elem.val (cellId S e k j i) = e ∧
    ∀ l < 8, r.nodes.val (cellId S e k j i * 8 + l) = r.nig.val (corner n e k j i l)

theorem Run.facts {E N p : ℕ} {nodes : ℕ → ℕ → ℕ} {x : ℕ → ℕ → ℝ} {q : Junk} {r : Refined} (R : Run E N p nodes x q r) :
    CellFacts E (sub1d p) (pts1d p) r := ⟨sub_pts p, R.nig_size, R.cells_size, R.cells⟩

theorem CellFacts.lattice {E S n : ℕ} {r : Refined} (R : CellFacts E S n r) :
    ∀ e < E, ∀ k < S, ∀ j < S, ∀ i < S, ∀ lid gid, lid = i + j * S + k * S ^ 2 →
        gid = lid + S ^ 3 * e →
        r.cells.inElem.get (e * S ^ 3 + lid) = some gid ∧ r.cells.elem.get gid = some e ∧
        (∀ a < 2, ∀ b < 2, ∀ c < 2, r.cells.gauss.get (gid * 8 + (a + 2 * b + 4 * c)) =
          some (gaussInElem (n ^ 3) e (i + a + (j + b) * n + (k + c) * n ^ 2))) ∧
        ∀ l < 8, r.nodes.get (gid * 8 + l) = (r.cells.gauss.get (gid * 8 + l)).bind r.nig.get := by
  rintro e he k hk j hj i hi lid gid hlid hgid
  obtain ⟨c1, c2, c3, c4⟩ := R.cells e k j i he hk hj hi
  obtain ⟨z1, z2, z3, z4⟩ := R.size
  have hid : gid = cellId S e k j i := by rw [hgid, hlid]; unfold cellId; ring
  have hlid' : lid = i + j * S + k * S * S := by rw [hlid]; ring
  have hlt := cellId_lt he hk hj hi
  have hE : E * S ^ 3 = S * S * S * E := by ring
  rw [← hid] at c1 c2 c3 c4 hlt
  rw [← hlid'] at c2
  refine ⟨?_, ?_, ?_, ?_⟩
  · rw [Arr.get_lt, c2]
    have : e * S ^ 3 + lid = gid := by rw [hgid]; ring
    rw [z2, this, hE]; exact hlt
  · rw [Arr.get_lt (by rw [z3, hE]; exact hlt), c3]
  · intro a ha b hb c hc
    have hl : a + 2 * b + 4 * c < 8 := by omega
    rw [Arr.get_lt (by rw [z1, hE]; omega), c1 _ hl, corner_eq _ _ _ _ _ _ hl]
    have d1 : (a + 2 * b + 4 * c) / 4 = c := by omega
    have d2 : (a + 2 * b + 4 * c) / 2 % 2 = b := by omega
    have d3 : (a + 2 * b + 4 * c) % 2 = a := by omega
    rw [d1, d2, d3]
    unfold cellId gaussInElem
    congr 1; ring
  · intro l hl
    rw [Arr.get_lt (by rw [z4, hE]; omega), Arr.get_lt (by rw [z1, hE]; omega), c4 l hl, c1 l hl, Option.bind_some,
      Arr.get_lt (by
        rw [R.nig_size, show E * n ^ 3 = n * n * n * E by ring]
        exact corner_lt R.sn he hk hj hi hl)]

theorem CellFacts.partition {E S n : ℕ} {r : Refined} (R : CellFacts E S n r) :
    ∀ g < E * S ^ 3, ∃! t : ℕ × ℕ, t.1 < E ∧ t.2 < S ^ 3 ∧
        r.cells.inElem.get (t.1 * S ^ 3 + t.2) = some g ∧ r.cells.elem.get g = some t.1 := by
  have hE : E * S ^ 3 = S * S * S * E := by ring
  intro g hg
  rw [hE] at hg
  obtain ⟨e, k, j, i, he, hk, hj, hi, hid⟩ := cellId_surj hg
  obtain ⟨c1, c2, c3, c4⟩ := R.cells e k j i he hk hj hi
  obtain ⟨z1, z2, z3, z4⟩ := R.size
  have hfl : i + j * S + k * S * S < S ^ 3 := by
    have := flat_lt hi hj hk
    rw [show S ^ 3 = S * S * S by ring]; exact this
  have hslot : ∀ t : ℕ × ℕ, t.1 < E → t.2 < S ^ 3 →
      r.cells.inElem.get (t.1 * S ^ 3 + t.2) = some (t.1 * S ^ 3 + t.2) := by
    intro t h1 h2
    have hb : t.1 * S ^ 3 + t.2 < E * S ^ 3 := by
      calc t.1 * S ^ 3 + t.2 < t.1 * S ^ 3 + S ^ 3 := by omega
        _ = (t.1 + 1) * S ^ 3 := by ring
        _ ≤ E * S ^ 3 := Nat.mul_le_mul_right _ h1
    rw [hE] at hb
    obtain ⟨e', k', j', i', he', hk', hj', hi', hid'⟩ := cellId_surj hb
    obtain ⟨-, d2, -, -⟩ := R.cells e' k' j' i' he' hk' hj' hi'
    rw [Arr.get_lt (by rw [z2, hE]; exact hb)]
    have : e' * S ^ 3 + (i' + j' * S + k' * S * S) = cellId S e' k' j' i' := by
      unfold cellId; ring
    rw [this, hid'] at d2
    rw [d2]
  refine ⟨(e, i + j * S + k * S * S), ⟨he, hfl, ?_, ?_⟩, ?_⟩
  · rw [hslot _ he hfl, ← hid]; unfold cellId; congr 1; ring
  · rw [Arr.get_lt (by rw [z3, hE]; exact hg), ← hid, c3]
  · rintro ⟨e', l'⟩ ⟨h1, h2, h3, h4⟩
    simp only [] at h1 h2 h3 h4
    rw [Arr.get_lt (by rw [z3, hE]; exact hg), ← hid, c3] at h4
    have he' : e = e' := by simpa using h4
    subst he'
    have := hslot (e, l') h1 h2
    simp only [] at this
    rw [h3] at this
    have h5 : g = e * S ^ 3 + l' := by simpa using this
    have h6 : g = e * S ^ 3 + (i + j * S + k * S * S) := by
      rw [← hid]; unfold cellId; ring
    simp only [Prod.mk.injEq, true_and]
    omega

/-- **C43.**  `refine_mesh` runs without an out-of-bounds access (whatever the arrays contained before), and for
every element `e` and lattice position `(i, j, k)`: the sub-cell has local id `i + j S + k S²` and global id
`lid + S³ e`; `cells_in_elem`, `elems_in_cell` record this; `gauss_in_cell` lists, in i-j-k order, the Gauss
points of the same element at the eight surrounding lattice positions; `nodes_in_cell` are their nodes. -/
theorem C43_cells (E N p : ℕ) (nodes : ℕ → ℕ → ℕ) (x : ℕ → ℕ → ℝ) (q : Junk)
    (hd : DistinctVerts E nodes x) :
    ∃ r, refineMesh E N p nodes x q = some r ∧
      ∀ e < E, ∀ k < sub1d p, ∀ j < sub1d p, ∀ i < sub1d p, ∀ lid gid, lid = i + j * sub1d p + k * sub1d p ^ 2 →
        gid = lid + sub1d p ^ 3 * e →
        r.cells.inElem.get (e * sub1d p ^ 3 + lid) = some gid ∧ r.cells.elem.get gid = some e ∧
        (∀ a < 2, ∀ b < 2, ∀ c < 2, r.cells.gauss.get (gid * 8 + (a + 2 * b + 4 * c)) =
          some (gaussInElem (pts1d p ^ 3) e (i + a + (j + b) * pts1d p + (k + c) * pts1d p ^ 2))) ∧
        ∀ l < 8, r.nodes.get (gid * 8 + l) = (r.cells.gauss.get (gid * 8 + l)).bind r.nig.get := by
  obtain ⟨r, hr, R⟩ := refine_run E N p nodes x q (hash_ne hd p _ _)
  exact ⟨r, hr, R.facts.lattice⟩

/-- **C43, partition.**  Every cell id below `num_cells` is the entry of exactly one slot of `cells_in_elem`, and
`elems_in_cell` returns the element of that slot. -/
theorem C43_partition (E N p : ℕ) (nodes : ℕ → ℕ → ℕ) (x : ℕ → ℕ → ℝ) (q : Junk)
    (hd : DistinctVerts E nodes x) :
    ∃ r, refineMesh E N p nodes x q = some r ∧ r.counts.numCells = E * sub1d p ^ 3 ∧
      ∀ g < r.counts.numCells, ∃! t : ℕ × ℕ, t.1 < E ∧ t.2 < sub1d p ^ 3 ∧
        r.cells.inElem.get (t.1 * sub1d p ^ 3 + t.2) = some g ∧ r.cells.elem.get g = some t.1 := by
  obtain ⟨r, hr, R⟩ := refine_run E N p nodes x q (hash_ne hd p _ _)
  have hnum : r.counts.numCells = E * sub1d p ^ 3 := by
    rw [R.counts, ← cells_eq p E]; rfl
  refine ⟨r, hr, hnum, ?_⟩
  rw [hnum]
  exact R.facts.partition

/-! ### C44 -/

theorem gPoint_eq (b xs : ℕ → ℝ) : gPoint b xs = ∑ v ∈ Finset.range 8, b v * xs v := by
  unfold gPoint; rw [loop_add, zero_add]

theorem basis_eq (L : ℕ → ℝ) (i j k v : ℕ) (hv : v < 8) : basis L i j k v =
    (1 + (if v % 2 = 1 then 1 else -1) * L i) / 2 * ((1 + (if v / 2 % 2 = 1 then 1 else -1) * L j) / 2) *
      ((1 + (if v / 4 = 1 then 1 else -1) * L k) / 2) := by
  unfold basis tempPts refVert
  interval_cases v <;> norm_num <;> ring

/-- The reference positions used for order `p` (at most 9, the largest tabulated rule). -/
def GoodNodes (n : ℕ) (L : ℕ → ℝ) : Prop :=
  (∀ i < n, -1 ≤ L i ∧ L i ≤ 1) ∧ (∀ i, i + 1 < n → L i < L (i + 1)) ∧ L 0 = -1 ∧ L (n - 1) = 1

theorem good_nodes {p : ℕ} (hp : p ≤ 9) (a : ℕ → ℝ) :
    ∃ lob, Quad.lobatto_nodes_1D (pts1d p) ⟨pts1d p, a⟩ = some lob ∧ GoodNodes (pts1d p) lob.val := by
  obtain ⟨l, w, h1, -, h3, h4, h5⟩ := Quad.C30_lobatto (pts1d p) (by unfold pts1d; split <;> omega)
    (by unfold pts1d; split <;> omega) a a
  exact ⟨l, h1, h3.inside, h3.increasing, h4, h5⟩

theorem run_ne {E N p : ℕ} {nodes : ℕ → ℕ → ℕ} {x : ℕ → ℕ → ℝ} {q : Junk} {r : Refined}
    (hr : refineMesh E N p nodes x q = some r) : hashDist p (distMin E nodes x q.dist q.dist0) ≠ 0 := by
  intro h0
  unfold refineMesh at hr
  simp only [Option.bind_eq_bind] at hr
  rw [h0] at hr
  cases h1 : Quad.lobatto_nodes_1D (pts1d p) ⟨pts1d p, q.lob⟩ with
  | none => rw [h1] at hr; cases hr
  | some lob =>
    rw [h1, Option.bind_some] at hr
    cases h2 : gaussPoints E (pts1d p) nodes x lob.val ⟨E * pts1d p ^ 3, q.gauss⟩ with
    | none => rw [h2] at hr; cases hr
    | some g => rw [h2, Option.bind_some, if_pos rfl] at hr; cases hr

theorem gauss_convex (E N p : ℕ) (hp : p ≤ 9) (nodes : ℕ → ℕ → ℕ) (x : ℕ → ℕ → ℝ) (q : Junk)
    (hne : hashDist p (distMin E nodes x q.dist q.dist0) ≠ 0) :
    ∃ r lob, refineMesh E N p nodes x q = some r ∧
      Quad.lobatto_nodes_1D (pts1d p) ⟨pts1d p, q.lob⟩ = some lob ∧
      ∀ e < E, ∀ k < pts1d p, ∀ j < pts1d p, ∀ i < pts1d p, ∃ y,
        r.gauss.get (gaussInElem (pts1d p ^ 3) e (i + j * pts1d p + k * pts1d p ^ 2)) = some y ∧
        ∃ w : ℕ → ℝ, (∀ v < 8, w v = (1 + (if v % 2 = 1 then 1 else -1) * lob.val i) / 2 *
            ((1 + (if v / 2 % 2 = 1 then 1 else -1) * lob.val j) / 2) *
            ((1 + (if v / 4 = 1 then 1 else -1) * lob.val k) / 2)) ∧
          (∀ v < 8, 0 ≤ w v) ∧ ∑ v ∈ Finset.range 8, w v = 1 ∧
          ∀ d, y d = ∑ v ∈ Finset.range 8, w v * x (nodes e v) d := by
  obtain ⟨r, hr, R⟩ := refine_run E N p nodes x q hne
  obtain ⟨lob, hl, hg⟩ := R.gauss
  obtain ⟨lob', hl', g1, g2, g3, g4⟩ := good_nodes hp q.lob
  have : lob' = lob := by rw [hl] at hl'; exact (Option.some.inj hl').symm
  subst this
  refine ⟨r, lob', hr, hl, ?_⟩
  intro e he k hk j hj i hi
  have hid : gaussInElem (pts1d p ^ 3) e (i + j * pts1d p + k * pts1d p ^ 2) = cellId (pts1d p) e k j i := by
    unfold gaussInElem cellId; ring
  rw [hid]
  have hlt := cellId_lt he hk hj hi
  refine ⟨_, Arr.get_lt (by rw [R.gauss_size]; calc _ < _ := hlt
                                              _ = _ := by ring), basis lob'.val i j k, ?_, ?_, ?_, ?_⟩
  · intro v hv; exact basis_eq lob'.val i j k v hv
  · intro v hv
    rw [basis_eq _ _ _ _ _ hv]
    have a1 := g1 i hi
    have a2 := g1 j hj
    have a3 := g1 k hk
    apply mul_nonneg (mul_nonneg _ _) _ <;> split <;> linarith
  · rw [Finset.sum_congr rfl (fun v hv => basis_eq lob'.val i j k v (Finset.mem_range.1 hv))]
    simp only [Finset.sum_range_succ, Finset.sum_range_zero]
    norm_num
    ring
  · intro d
    rw [hg e k j i he hk hj hi]
    exact gPoint_eq _ _

theorem gauss_vertex (E N p : ℕ) (hp : p ≤ 9) (nodes : ℕ → ℕ → ℕ) (x : ℕ → ℕ → ℝ) (q : Junk)
    (hne : hashDist p (distMin E nodes x q.dist q.dist0) ≠ 0) :
    ∃ r, refineMesh E N p nodes x q = some r ∧
      ∀ e < E, ∀ a < 2, ∀ b < 2, ∀ c < 2, ∃ y,
        r.gauss.get (gaussInElem (pts1d p ^ 3) e (a * (pts1d p - 1) + b * (pts1d p - 1) * pts1d p
          + c * (pts1d p - 1) * pts1d p ^ 2)) = some y ∧ ∀ d, y d = x (nodes e (a + 2 * b + 4 * c)) d := by
  obtain ⟨r, lob, hr, hl, h⟩ := gauss_convex E N p hp nodes x q hne
  obtain ⟨lob', hl', g1, g2, g3, g4⟩ := good_nodes hp q.lob
  have : lob' = lob := by rw [hl] at hl'; exact (Option.some.inj hl').symm
  subst this
  have hn : 2 ≤ pts1d p := by unfold pts1d; split <;> omega
  have hval : ∀ a < 2, lob'.val (a * (pts1d p - 1)) = if a = 1 then 1 else -1 := by
    intro a ha
    have : a = 0 ∨ a = 1 := by omega
    rcases this with h | h <;> subst h
    · simpa using g3
    · simpa using g4
  have hlt : ∀ a < 2, a * (pts1d p - 1) < pts1d p := by
    intro a ha
    have : a = 0 ∨ a = 1 := by omega
    rcases this with h | h <;> subst h <;> omega
  refine ⟨r, hr, ?_⟩
  intro e he a ha b hb c hc
  obtain ⟨y, hy, w, hw, -, -, hs⟩ := h e he (c * (pts1d p - 1)) (hlt c hc) (b * (pts1d p - 1)) (hlt b hb)
    (a * (pts1d p - 1)) (hlt a ha)
  refine ⟨y, hy, ?_⟩
  intro d
  rw [hs d, Finset.sum_congr rfl (fun v hv => by rw [hw v (Finset.mem_range.1 hv), hval a ha, hval b hb, hval c hc])]
  simp only [Finset.sum_range_succ, Finset.sum_range_zero]
  interval_cases a <;> interval_cases b <;> interval_cases c <;> norm_num

theorem gauss_affine (E N p : ℕ) (hp : p ≤ 9) (nodes : ℕ → ℕ → ℕ) (x : ℕ → ℕ → ℝ) (q : Junk)
    (hne : hashDist p (distMin E nodes x q.dist q.dist0) ≠ 0) (o : ℕ → ℝ)
    (A : ℕ → ℕ → ℝ) (e : ℕ) (he : e < E)
    (hx : ∀ v < 8, ∀ d < 3, x (nodes e v) d = o d + A d 0 * (if v % 2 = 1 then 1 else -1)
      + A d 1 * (if v / 2 % 2 = 1 then 1 else -1) + A d 2 * (if v / 4 = 1 then 1 else -1)) :
    ∃ r lob, refineMesh E N p nodes x q = some r ∧
      Quad.lobatto_nodes_1D (pts1d p) ⟨pts1d p, q.lob⟩ = some lob ∧
      ∀ k < pts1d p, ∀ j < pts1d p, ∀ i < pts1d p, ∃ y,
        r.gauss.get (gaussInElem (pts1d p ^ 3) e (i + j * pts1d p + k * pts1d p ^ 2)) = some y ∧
        ∀ d < 3, y d = o d + A d 0 * lob.val i + A d 1 * lob.val j + A d 2 * lob.val k := by
  obtain ⟨r, lob, hr, hl, h⟩ := gauss_convex E N p hp nodes x q hne
  refine ⟨r, lob, hr, hl, ?_⟩
  intro k hk j hj i hi
  obtain ⟨y, hy, w, hw, -, -, hs⟩ := h e he k hk j hj i hi
  refine ⟨y, hy, ?_⟩
  intro d hd
  rw [hs d, Finset.sum_congr rfl (fun v hv => by
    rw [hw v (Finset.mem_range.1 hv), hx v (Finset.mem_range.1 hv) d hd])]
  simp only [Finset.sum_range_succ, Finset.sum_range_zero]
  norm_num
  ring

/-- **C44 (convex combination).**  For orders up to 9, the Gauss point `(i, j, k)` of element `e` is the convex
combination of the eight vertices with the weights of the trilinear map at the Lobatto positions. -/
theorem C44_convex (E N p : ℕ) (hp : p ≤ 9) (nodes : ℕ → ℕ → ℕ) (x : ℕ → ℕ → ℝ) (q : Junk)
    (hd : DistinctVerts E nodes x) :
    ∃ r lob, refineMesh E N p nodes x q = some r ∧
      Quad.lobatto_nodes_1D (pts1d p) ⟨pts1d p, q.lob⟩ = some lob ∧
      ∀ e < E, ∀ k < pts1d p, ∀ j < pts1d p, ∀ i < pts1d p, ∃ y,
        r.gauss.get (gaussInElem (pts1d p ^ 3) e (i + j * pts1d p + k * pts1d p ^ 2)) = some y ∧
        ∃ w : ℕ → ℝ, (∀ v < 8, w v = (1 + (if v % 2 = 1 then 1 else -1) * lob.val i) / 2 *
            ((1 + (if v / 2 % 2 = 1 then 1 else -1) * lob.val j) / 2) *
            ((1 + (if v / 4 = 1 then 1 else -1) * lob.val k) / 2)) ∧
          (∀ v < 8, 0 ≤ w v) ∧ ∑ v ∈ Finset.range 8, w v = 1 ∧
          ∀ d, y d = ∑ v ∈ Finset.range 8, w v * x (nodes e v) d :=
  gauss_convex E N p hp nodes x q (hash_ne hd p _ _)

/-- **C44 (corner points are the vertices).** -/
theorem C44_vertex (E N p : ℕ) (hp : p ≤ 9) (nodes : ℕ → ℕ → ℕ) (x : ℕ → ℕ → ℝ) (q : Junk)
    (hd : DistinctVerts E nodes x) :
    ∃ r, refineMesh E N p nodes x q = some r ∧
      ∀ e < E, ∀ a < 2, ∀ b < 2, ∀ c < 2, ∃ y,
        r.gauss.get (gaussInElem (pts1d p ^ 3) e (a * (pts1d p - 1) + b * (pts1d p - 1) * pts1d p
          + c * (pts1d p - 1) * pts1d p ^ 2)) = some y ∧ ∀ d, y d = x (nodes e (a + 2 * b + 4 * c)) d :=
  gauss_vertex E N p hp nodes x q (hash_ne hd p _ _)

/-- **C44 (affine elements).**  If the vertices are the affine image `o + A ξ` of the corners `ξ ∈ {-1, 1}³`, the
Gauss points are the images of the Lobatto points. -/
theorem C44_affine (E N p : ℕ) (hp : p ≤ 9) (nodes : ℕ → ℕ → ℕ) (x : ℕ → ℕ → ℝ) (q : Junk)
    (hd : DistinctVerts E nodes x) (o : ℕ → ℝ)
    (A : ℕ → ℕ → ℝ) (e : ℕ) (he : e < E)
    (hx : ∀ v < 8, ∀ d < 3, x (nodes e v) d = o d + A d 0 * (if v % 2 = 1 then 1 else -1)
      + A d 1 * (if v / 2 % 2 = 1 then 1 else -1) + A d 2 * (if v / 4 = 1 then 1 else -1)) :
    ∃ r lob, refineMesh E N p nodes x q = some r ∧
      Quad.lobatto_nodes_1D (pts1d p) ⟨pts1d p, q.lob⟩ = some lob ∧
      ∀ k < pts1d p, ∀ j < pts1d p, ∀ i < pts1d p, ∃ y,
        r.gauss.get (gaussInElem (pts1d p ^ 3) e (i + j * pts1d p + k * pts1d p ^ 2)) = some y ∧
        ∀ d < 3, y d = o d + A d 0 * lob.val i + A d 1 * lob.val j + A d 2 * lob.val k :=
  gauss_affine E N p hp nodes x q (hash_ne hd p _ _) o A e he hx

/-- Non-vacuity of C44_affine: the cube `[-1, 1]³`. -/
example : ∀ v < 8, ∀ d < 3, (if v / 2 ^ d % 2 = 1 then (1 : ℝ) else -1) = 0
    + (if d = 0 then 1 else 0) * (if v % 2 = 1 then 1 else -1)
    + (if d = 1 then 1 else 0) * (if v / 2 % 2 = 1 then 1 else -1)
    + (if d = 2 then 1 else 0) * (if v / 4 = 1 then 1 else -1) := by
  intro v hv d hd
  interval_cases v <;> interval_cases d <;> norm_num

end Verif.Swage.Refine
