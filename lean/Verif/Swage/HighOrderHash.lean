import Verif.Swage.HighOrderConform

/-!
# C69: which Gauss points `refine_high_order_mesh` merges

Specification as for C42: a *bin* of a point is the triple of the integer parts of `(y_d - min_d + 1e-14) / h`, where
`min_d` is the smallest vertex coordinate of the input mesh and `h` the bin size computed by the code.
-/

namespace Verif.Swage.HighOrder
open Verif.Swage Verif.Swage.Refine LagrangeElement LagrangeElement.Spec

/-- Specification: the bin of a point. -/
noncomputable def bin (N : ℕ) (x : ℕ → ℕ → ℝ) (h : ℝ) (y : ℕ → ℝ) (d : ℕ) : ℕ :=
  ⌊(y d - posMin N x d + 1 / 10 ^ 14) / h⌋₊

theorem index_eq (N : ℕ) (x : ℕ → ℕ → ℝ) (h : ℝ) (y : ℕ → ℝ) (d : ℕ) : index N x h y d = bin N x h y d := floor_max _

theorem posMin_le (N : ℕ) (x : ℕ → ℕ → ℝ) (d n : ℕ) (h : n < N) : posMin N x d ≤ x n d :=
  loop_hit (fun m => m ≤ x n d) (fun _ _ _ hm => (min_le_left _ _).trans hm) h fun _ => min_le_right _ _

theorem le_posMax (N : ℕ) (x : ℕ → ℕ → ℝ) (d n : ℕ) (h : n < N) : x n d ≤ posMax N x d :=
  loop_hit (fun m => x n d ≤ m) (fun _ _ _ hm => hm.trans (le_max_left _ _)) h fun _ => le_max_right _ _

theorem bin_lt (N : ℕ) (x : ℕ → ℕ → ℝ) {h : ℝ} (h0 : 0 < h) (h1 : h ≤ 1) (y : ℕ → ℝ) (d : ℕ)
    (hmin : posMin N x d ≤ y d) (hmax : y d ≤ posMax N x d) : bin N x h y d < bins N x h d := by
  unfold bins
  rw [floor_max]
  have ha : 0 ≤ (y d - posMin N x d + 1 / 10 ^ 14) / h := div_nonneg (by
    have : (0 : ℝ) < 1 / 10 ^ 14 := by norm_num
    linarith) h0.le
  have : (y d - posMin N x d + 1 / 10 ^ 14) / h + 1 ≤ (posMax N x d - posMin N x d + 1 + 1 / 10 ^ 14) / h := by
    rw [div_add_one h0.ne']
    exact div_le_div_of_nonneg_right (by linarith) h0.le
  refine lt_of_lt_of_le ?_ (Nat.floor_le_floor this)
  rw [Nat.floor_add_one ha]
  exact Nat.lt_succ_self _

theorem key_iff_bin (N : ℕ) (x : ℕ → ℕ → ℝ) {h : ℝ} (h0 : 0 < h) (h1 : h ≤ 1) (y z : ℕ → ℝ)
    (hy : ∀ d < 3, posMin N x d ≤ y d ∧ y d ≤ posMax N x d) (hz : ∀ d < 3, posMin N x d ≤ z d ∧ z d ≤ posMax N x d) :
    key N x h y = key N x h z ↔ ∀ d < 3, bin N x h y d = bin N x h z d := by
  unfold key
  simp only [index_eq]
  have y0 := bin_lt N x h0 h1 y 0 (hy 0 (by omega)).1 (hy 0 (by omega)).2
  have y1 := bin_lt N x h0 h1 y 1 (hy 1 (by omega)).1 (hy 1 (by omega)).2
  have z0 := bin_lt N x h0 h1 z 0 (hz 0 (by omega)).1 (hz 0 (by omega)).2
  have z1 := bin_lt N x h0 h1 z 1 (hz 1 (by omega)).1 (hz 1 (by omega)).2
  obtain ⟨a1, a2, a3⟩ := lex3_mod (k := bin N x h y 2) y0 y1
  obtain ⟨b1, b2, b3⟩ := lex3_mod (k := bin N x h z 2) z0 z1
  constructor
  · intro e d hd
    interval_cases d
    · rw [← a1, ← b1, e]
    · rw [← a2, ← b2, e]
    · rw [← a3, ← b3, e]
  · intro e
    rw [e 0 (by omega), e 1 (by omega), e 2 (by omega)]

theorem key_congr {N : ℕ} {x : ℕ → ℕ → ℝ} {h : ℝ} {y z : ℕ → ℝ} (e : ∀ d < 3, y d = z d) : key N x h y = key N x h z := by
  unfold key
  have : ∀ d < 3, index N x h y d = index N x h z d := fun d hd => by unfold index; rw [e d hd]
  rw [this 0 (by omega), this 1 (by omega), this 2 (by omega)]

/-- **C69, numbering (partial).**  For orders 1 to 9 and meshes with distinct first rows, `refine_high_order_mesh`
completes and
* node ids of Gauss points are below `num_nodes`, and every id is used;
* Gauss points `g, g'` get the same id iff `g = g'`, or neither is number 0 and their keys agree; in particular
  coincident Gauss points other than number 0 get the same id;
* `node_coords` of an id is the position of the first Gauss point with that id.
The full property (same id iff same position) fails, see `C69_first_vertex_negation`, `C69_curved_negation`. -/
theorem C69_numbering_partial (E N p : ℕ) (hp : 1 ≤ p) (hp9 : p ≤ 9) (nodes : ℕ → ℕ → ℕ) (x : ℕ → ℕ → ℝ) (q : Junk)
    (hf : FirstRows E p nodes x) :
    ∃ r, refineHighOrder E N p nodes x q = some r ∧ r.gauss.size = E * (2 * p + 1) ^ 3 ∧
      r.nig.size = E * (2 * p + 1) ^ 3 ∧
      (∀ g < E * (2 * p + 1) ^ 3, 0 ≤ r.nig.val g ∧ r.nig.val g < r.numNodes) ∧
      (∀ g < E * (2 * p + 1) ^ 3, ∀ g' < E * (2 * p + 1) ^ 3, r.nig.val g = r.nig.val g' ↔ g = g' ∨ (g ≠ 0 ∧ g' ≠ 0 ∧
        key N x (binSize E p nodes x) (r.gauss.val g) = key N x (binSize E p nodes x) (r.gauss.val g'))) ∧
      (∀ g < E * (2 * p + 1) ^ 3, ∀ g' < E * (2 * p + 1) ^ 3, g ≠ 0 → g' ≠ 0 →
        (∀ d < 3, r.gauss.val g d = r.gauss.val g' d) → r.nig.val g = r.nig.val g') ∧
      (r.coords.size = r.numNodes ∧ ∀ m < r.numNodes, ∃ g < E * (2 * p + 1) ^ 3, r.nig.val g = m ∧
        (∀ g' < E * (2 * p + 1) ^ 3, r.nig.val g' = m → g ≤ g') ∧ r.coords.val m = r.gauss.val g) := by
  obtain ⟨r, hr, R⟩ := high_run (N := N) hp hp9 nodes x q hf
  exact ⟨r, hr, R.gauss_size, R.cells.nig_size, R.nig_range, R.nig_iff,
    fun g hg g' hg' h h' e => (R.nig_iff g hg g' hg').2 (Or.inr ⟨h, h', key_congr e⟩), R.coords_size, R.coords⟩

/-- **C69, bins (partial).**  If the bin size is at most 1, all Gauss points lie in the bounding box of the vertices
(the interpolant of a curved element may leave it) and the bin of Gauss point 0 contains no other Gauss point, then
Gauss points get the same node iff they lie in the same bin. -/
theorem C69_bins_partial (E N p : ℕ) (hp : 1 ≤ p) (hp9 : p ≤ 9) (nodes : ℕ → ℕ → ℕ) (x : ℕ → ℕ → ℝ) (q : Junk)
    (hf : FirstRows E p nodes x) (h1 : binSize E p nodes x ≤ 1) :
    ∃ r, refineHighOrder E N p nodes x q = some r ∧
      ((∀ g < E * (2 * p + 1) ^ 3, ∀ d < 3, ∃ n < N, ∃ n' < N, x n d ≤ r.gauss.val g d ∧ r.gauss.val g d ≤ x n' d) →
        (∀ g < E * (2 * p + 1) ^ 3, 0 < g → ∃ d < 3,
          bin N x (binSize E p nodes x) (r.gauss.val g) d ≠ bin N x (binSize E p nodes x) (r.gauss.val 0) d) →
        ∀ g < E * (2 * p + 1) ^ 3, ∀ g' < E * (2 * p + 1) ^ 3, r.nig.val g = r.nig.val g' ↔
          ∀ d < 3, bin N x (binSize E p nodes x) (r.gauss.val g) d =
            bin N x (binSize E p nodes x) (r.gauss.val g') d) := by
  obtain ⟨r, hr, R⟩ := high_run (N := N) hp hp9 nodes x q hf
  have h0 := binSize_pos hp hf
  refine ⟨r, hr, ?_⟩
  intro hbox hfirst g hg g' hg'
  have hb : ∀ g < E * (2 * p + 1) ^ 3, ∀ d < 3, posMin N x d ≤ r.gauss.val g d ∧ r.gauss.val g d ≤ posMax N x d := by
    intro g hg d hd
    obtain ⟨n, hn, n', hn', a, b⟩ := hbox g hg d hd
    exact ⟨(posMin_le N x d n hn).trans a, b.trans (le_posMax N x d n' hn')⟩
  rw [R.nig_iff g hg g' hg']
  have hk := key_iff_bin N x h0 h1 (r.gauss.val g) (r.gauss.val g') (hb g hg) (hb g' hg')
  constructor
  · rintro (h | ⟨-, -, h⟩)
    · rw [h]; exact fun _ _ => rfl
    · exact hk.1 h
  · intro h
    by_cases e : g = g'
    · exact Or.inl e
    · refine Or.inr ⟨?_, ?_, hk.2 h⟩
      · intro e0
        subst e0
        obtain ⟨d, hd, hne⟩ := hfirst g' hg' (by omega)
        exact hne (h d hd).symm
      · intro e0
        subst e0
        obtain ⟨d, hd, hne⟩ := hfirst g hg (by omega)
        exact hne (h d hd)

theorem bin_ne {N : ℕ} {x : ℕ → ℕ → ℝ} {h : ℝ} (h0 : 0 < h) {y z : ℕ → ℝ} {d : ℕ} (hy : posMin N x d ≤ y d)
    (hz : posMin N x d ≤ z d) (hsep : h ≤ |y d - z d|) : bin N x h y d ≠ bin N x h z d := by
  have key : ∀ y z : ℕ → ℝ, posMin N x d ≤ y d → h ≤ z d - y d → bin N x h y d < bin N x h z d := by
    intro y z hy hs
    unfold bin
    have ha : 0 ≤ (y d - posMin N x d + 1 / 10 ^ 14) / h := div_nonneg (by
      have : (0 : ℝ) < 1 / 10 ^ 14 := by norm_num
      linarith) h0.le
    have : (y d - posMin N x d + 1 / 10 ^ 14) / h + 1 ≤ (z d - posMin N x d + 1 / 10 ^ 14) / h := by
      rw [div_add_one h0.ne']
      exact div_le_div_of_nonneg_right (by linarith) h0.le
    refine lt_of_lt_of_le ?_ (Nat.floor_le_floor this)
    rw [Nat.floor_add_one ha]
    exact Nat.lt_succ_self _
  rcases le_total (y d) (z d) with hle | hle
  · rw [abs_of_nonpos (by linarith)] at hsep
    exact (key y z hy (by linarith)).ne
  · rw [abs_of_nonneg (by linarith)] at hsep
    exact (key z y hz (by linarith)).ne'

/-- **C69, positions (partial).**  If the bin size is at most 1, the Gauss points lie in the bounding box of the vertices,
any two Gauss points coincide or differ by at least the bin size in some coordinate, and Gauss point 0 coincides with
no other, then two Gauss points get the same node iff they coincide, and every node has the position of all its
Gauss points. -/
theorem C69_positions_partial (E N p : ℕ) (hp : 1 ≤ p) (hp9 : p ≤ 9) (nodes : ℕ → ℕ → ℕ) (x : ℕ → ℕ → ℝ) (q : Junk)
    (hf : FirstRows E p nodes x) (h1 : binSize E p nodes x ≤ 1) :
    ∃ r, refineHighOrder E N p nodes x q = some r ∧
      ((∀ g < E * (2 * p + 1) ^ 3, ∀ d < 3, ∃ n < N, ∃ n' < N, x n d ≤ r.gauss.val g d ∧ r.gauss.val g d ≤ x n' d) →
        (∀ g < E * (2 * p + 1) ^ 3, ∀ g' < E * (2 * p + 1) ^ 3, (∀ d < 3, r.gauss.val g d = r.gauss.val g' d) ∨
          ∃ d < 3, binSize E p nodes x ≤ |r.gauss.val g d - r.gauss.val g' d|) →
        (∀ g < E * (2 * p + 1) ^ 3, 0 < g → ∃ d < 3, r.gauss.val g d ≠ r.gauss.val 0 d) →
        (∀ g < E * (2 * p + 1) ^ 3, ∀ g' < E * (2 * p + 1) ^ 3, r.nig.val g = r.nig.val g' ↔
          ∀ d < 3, r.gauss.val g d = r.gauss.val g' d) ∧
        ∀ g < E * (2 * p + 1) ^ 3, ∃ y, r.coords.get (r.nig.val g).toNat = some y ∧ ∀ d < 3, y d = r.gauss.val g d) := by
  obtain ⟨r, hr, hb⟩ := C69_bins_partial E N p hp hp9 nodes x q hf h1
  obtain ⟨r', hr', R⟩ := high_run (N := N) hp hp9 nodes x q hf
  have : r' = r := by rw [hr] at hr'; exact (Option.some.inj hr').symm
  subst this
  have h0 := binSize_pos hp hf
  refine ⟨r', hr, ?_⟩
  intro hbox hsep hfirst
  have hmin : ∀ g < E * (2 * p + 1) ^ 3, ∀ d < 3, posMin N x d ≤ r'.gauss.val g d := by
    intro g hg d hd
    obtain ⟨n, hn, n', hn', a, b⟩ := hbox g hg d hd
    exact (posMin_le N x d n hn).trans a
  have hbp : ∀ g < E * (2 * p + 1) ^ 3, ∀ g' < E * (2 * p + 1) ^ 3,
      (∀ d < 3, bin N x (binSize E p nodes x) (r'.gauss.val g) d = bin N x (binSize E p nodes x) (r'.gauss.val g') d) ↔
      ∀ d < 3, r'.gauss.val g d = r'.gauss.val g' d := by
    intro g hg g' hg'
    constructor
    · intro h
      rcases hsep g hg g' hg' with h2 | ⟨d, hd, h2⟩
      · exact h2
      · exact absurd (h d hd) (bin_ne h0 (hmin g hg d hd) (hmin g' hg' d hd) h2)
    · intro h d hd
      unfold bin; rw [h d hd]
  have hiff : ∀ g < E * (2 * p + 1) ^ 3, ∀ g' < E * (2 * p + 1) ^ 3, r'.nig.val g = r'.nig.val g' ↔
      ∀ d < 3, r'.gauss.val g d = r'.gauss.val g' d := by
    intro g hg g' hg'
    rw [hb hbox ?_ g hg g' hg', hbp g hg g' hg']
    intro g hg h0g
    by_contra hall
    push Not at hall
    obtain ⟨d, hd, hne⟩ := hfirst g hg h0g
    exact hne ((hbp g hg 0 (by omega)).1 hall d hd)
  refine ⟨hiff, ?_⟩
  intro g hg
  obtain ⟨a, b⟩ := R.nig_range g hg
  have hlt : (r'.nig.val g).toNat < r'.numNodes := by omega
  obtain ⟨g2, hg2, e1, -, e3⟩ := R.coords _ hlt
  refine ⟨_, Arr.get_lt (by rw [R.coords_size]; exact hlt), ?_⟩
  rw [e3]
  exact (hiff g2 hg2 g hg).1 (by rw [e1]; omega)

/-! ### Conformity -/

theorem lob_sym {p : ℕ} (hp : 1 ≤ p) (hp9 : p ≤ 9) {a : ℕ → ℝ} {lob : Arr ℝ}
    (hl : Quad.lobatto_nodes_1D (2 * p + 1) ⟨2 * p + 1, a⟩ = some lob) : SymPts (2 * p) lob.val := by
  obtain ⟨h1, h2, h3⟩ := lob_facts hp hp9 hl
  exact ⟨h1, h2, fun i hi => h3 i (by omega)⟩

/-- **C69 (conformity).**  If the vertices of face `(dir, s)` of element `e` are those of face `(dir', s')` of element
`e'`, up to one of the eight symmetries of the square, then the Gauss points of the two elements on that face coincide
under the same symmetry, and have the same nodes (unless one of them is Gauss point 0). -/
theorem C69_conforming (E N p : ℕ) (hp : 1 ≤ p) (hp9 : p ≤ 9) (nodes : ℕ → ℕ → ℕ) (x : ℕ → ℕ → ℝ) (q : Junk)
    (hf : FirstRows E p nodes x) :
    ∃ r, refineHighOrder E N p nodes x q = some r ∧
      ∀ e < E, ∀ e' < E, ∀ dir s dir' s' : ℕ, s < 2 → s' < 2 → ∀ sw f1 f2 : Bool,
        (∀ u ≤ p, ∀ v ≤ p, nodes e (faceIdx p dir s u v) =
          nodes e' (faceIdx p dir' s' (orient p sw f1 f2 u v).1 (orient p sw f1 f2 u v).2)) →
        ∀ u ≤ 2 * p, ∀ v ≤ 2 * p, ∃ g g', g = gaussInElem ((2 * p + 1) ^ 3) e (faceIdx (2 * p) dir s u v) ∧
          g' = gaussInElem ((2 * p + 1) ^ 3) e' (faceIdx (2 * p) dir' s'
            (orient (2 * p) sw f1 f2 u v).1 (orient (2 * p) sw f1 f2 u v).2) ∧
          (∃ y z, r.gauss.get g = some y ∧ r.gauss.get g' = some z ∧ ∀ d < 3, y d = z d) ∧
          (g ≠ 0 → g' ≠ 0 → ∃ n, r.nig.get g = some n ∧ r.nig.get g' = some n) := by
  obtain ⟨r, hr, R⟩ := high_run (N := N) hp hp9 nodes x q hf
  obtain ⟨lob, hl, hg⟩ := R.gauss
  have hL := lob_sym hp hp9 hl
  refine ⟨r, hr, ?_⟩
  intro e he e' he' dir s dir' s' hs hs' sw f1 f2 hshare u hu v hv
  refine ⟨_, _, rfl, rfl, ?_⟩
  obtain ⟨ho1, ho2⟩ := orient_le (m := 2 * p) sw f1 f2 hu hv
  set u' := (orient (2 * p) sw f1 f2 u v).1 with hu'
  set v' := (orient (2 * p) sw f1 f2 u v).2 with hv'
  have hid : ∀ e dir s u v, gaussInElem ((2 * p + 1) ^ 3) e (faceIdx (2 * p) dir s u v) =
      cellId (2 * p + 1) e (faceCo (2 * p) dir s u v 2) (faceCo (2 * p) dir s u v 1) (faceCo (2 * p) dir s u v 0) := by
    intro e dir s u v
    rw [faceIdx_co]; unfold gaussInElem cellId; ring
  have hlt : ∀ e < E, ∀ dir s u v, s < 2 → u ≤ 2 * p → v ≤ 2 * p →
      gaussInElem ((2 * p + 1) ^ 3) e (faceIdx (2 * p) dir s u v) < E * (2 * p + 1) ^ 3 := by
    intro e he dir s u v hs hu hv
    rw [hid]
    exact lt_of_lt_of_eq (cellId_lt he (faceCo_lt hs hu hv 2) (faceCo_lt hs hu hv 1) (faceCo_lt hs hu hv 0)) (by ring)
  have hpos : ∀ d < 3, r.gauss.val (gaussInElem ((2 * p + 1) ^ 3) e (faceIdx (2 * p) dir s u v)) d =
      r.gauss.val (gaussInElem ((2 * p + 1) ^ 3) e' (faceIdx (2 * p) dir' s' u' v')) d := by
    intro d hd
    rw [hid, hid, hg _ _ _ _ he (faceCo_lt hs hu hv 2) (faceCo_lt hs hu hv 1) (faceCo_lt hs hu hv 0) d hd,
      hg _ _ _ _ he' (faceCo_lt hs' ho1 ho2 2) (faceCo_lt hs' ho1 ho2 1) (faceCo_lt hs' ho1 ho2 0) d hd]
    exact conform_face hp hL hs hs' sw f1 f2 (fun u hu v hv => by rw [hshare u hu v hv]) hu hv rfl
  have hl1 := hlt e he dir s u v hs hu hv
  have hl2 := hlt e' he' dir' s' u' v' hs' ho1 ho2
  refine ⟨⟨_, _, Arr.get_lt (by rw [R.gauss_size]; exact hl1), Arr.get_lt (by rw [R.gauss_size]; exact hl2), hpos⟩, ?_⟩
  intro n1 n2
  refine ⟨_, Arr.get_lt (by rw [R.cells.nig_size]; exact hl1), ?_⟩
  rw [Arr.get_lt (by rw [R.cells.nig_size]; exact hl2), (R.nig_iff _ hl1 _ hl2).2 (Or.inr ⟨n1, n2, key_congr hpos⟩)]

/-- **C69 (conformity, edges).**  Likewise for an edge shared by two elements, in either direction. -/
theorem C69_conforming_edge (E N p : ℕ) (hp : 1 ≤ p) (hp9 : p ≤ 9) (nodes : ℕ → ℕ → ℕ) (x : ℕ → ℕ → ℝ) (q : Junk)
    (hf : FirstRows E p nodes x) :
    ∃ r, refineHighOrder E N p nodes x q = some r ∧
      ∀ e < E, ∀ e' < E, ∀ dir s t dir' s' t' : ℕ, s < 2 → t < 2 → s' < 2 → t' < 2 → ∀ fl : Bool,
        (∀ u ≤ p, nodes e (edgeIdx p dir s t u) = nodes e' (edgeIdx p dir' s' t' (mirror p fl u))) →
        ∀ u ≤ 2 * p, ∃ g g', g = gaussInElem ((2 * p + 1) ^ 3) e (edgeIdx (2 * p) dir s t u) ∧
          g' = gaussInElem ((2 * p + 1) ^ 3) e' (edgeIdx (2 * p) dir' s' t' (mirror (2 * p) fl u)) ∧
          (∃ y z, r.gauss.get g = some y ∧ r.gauss.get g' = some z ∧ ∀ d < 3, y d = z d) ∧
          (g ≠ 0 → g' ≠ 0 → ∃ n, r.nig.get g = some n ∧ r.nig.get g' = some n) := by
  obtain ⟨r, hr, R⟩ := high_run (N := N) hp hp9 nodes x q hf
  obtain ⟨lob, hl, hg⟩ := R.gauss
  have hL := lob_sym hp hp9 hl
  refine ⟨r, hr, ?_⟩
  intro e he e' he' dir s t dir' s' t' hs ht hs' ht' fl hshare u hu
  refine ⟨_, _, rfl, rfl, ?_⟩
  have ho := mirror_le (m := 2 * p) fl hu
  set u' := mirror (2 * p) fl u with hu'
  have hid : ∀ e dir s t u, gaussInElem ((2 * p + 1) ^ 3) e (edgeIdx (2 * p) dir s t u) =
      cellId (2 * p + 1) e (edgeCo (2 * p) dir s t u 2) (edgeCo (2 * p) dir s t u 1) (edgeCo (2 * p) dir s t u 0) := by
    intro e dir s t u
    rw [edgeIdx_co]; unfold gaussInElem cellId; ring
  have hlt : ∀ e < E, ∀ dir s t u, s < 2 → t < 2 → u ≤ 2 * p →
      gaussInElem ((2 * p + 1) ^ 3) e (edgeIdx (2 * p) dir s t u) < E * (2 * p + 1) ^ 3 := by
    intro e he dir s t u hs ht hu
    rw [hid]
    exact lt_of_lt_of_eq (cellId_lt he (edgeCo_lt hs ht hu 2) (edgeCo_lt hs ht hu 1) (edgeCo_lt hs ht hu 0)) (by ring)
  have hpos : ∀ d < 3, r.gauss.val (gaussInElem ((2 * p + 1) ^ 3) e (edgeIdx (2 * p) dir s t u)) d =
      r.gauss.val (gaussInElem ((2 * p + 1) ^ 3) e' (edgeIdx (2 * p) dir' s' t' u')) d := by
    intro d hd
    rw [hid, hid, hg _ _ _ _ he (edgeCo_lt hs ht hu 2) (edgeCo_lt hs ht hu 1) (edgeCo_lt hs ht hu 0) d hd,
      hg _ _ _ _ he' (edgeCo_lt hs' ht' ho 2) (edgeCo_lt hs' ht' ho 1) (edgeCo_lt hs' ht' ho 0) d hd]
    exact conform_edge hp hL hs hs' ht ht' fl (fun u hu => by rw [hshare u hu]) hu
  have hl1 := hlt e he dir s t u hs ht hu
  have hl2 := hlt e' he' dir' s' t' u' hs' ht' ho
  refine ⟨⟨_, _, Arr.get_lt (by rw [R.gauss_size]; exact hl1), Arr.get_lt (by rw [R.gauss_size]; exact hl2), hpos⟩, ?_⟩
  intro n1 n2
  refine ⟨_, Arr.get_lt (by rw [R.cells.nig_size]; exact hl1), ?_⟩
  rw [Arr.get_lt (by rw [R.cells.nig_size]; exact hl2), (R.nig_iff _ hl1 _ hl2).2 (Or.inr ⟨n1, n2, key_congr hpos⟩)]

end Verif.Swage.HighOrder
