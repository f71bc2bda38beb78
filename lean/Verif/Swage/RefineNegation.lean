import Verif.Swage.RefineLattice

/-!
# C42: the three ways in which `refine_mesh` misnumbers nodes

Concrete meshes and general circumstances under which coincident Gauss points get different nodes, or distant Gauss
points get the same node.
-/

namespace Verif.Swage.Refine
open Verif.Swage

/-! ### Degenerate cells -/

/-- **C42/C43 fail (degenerate last cell).**  If two vertices of the last cell coincide, the bin size is 0 and the
bin numbers are conversions of infinite numbers to `int`, which is undefined. -/
theorem C42_degenerate_negation (E N p : ℕ) (nodes : ℕ → ℕ → ℕ) (x : ℕ → ℕ → ℝ) (q : Junk) (hE : 0 < E) (a b : ℕ)
    (ha : a < b) (hb : b < 8) (hsame : ∀ d < 3, x (nodes (E - 1) a) d = x (nodes (E - 1) b) d) :
    refineMesh E N p nodes x q = none := by
  have h0 : distMin E nodes x q.dist q.dist0 = 0 := by
    rw [distMin_last E nodes x q.dist q.dist0 hE]
    set v : ℕ → ℕ → ℝ := fun l d => x (nodes (E - 1) l) d with hv
    have hd : Key.dist1 v a b = 0 := by
      unfold Key.dist1
      have e0 : v b 0 = v a 0 := (hsame 0 (by omega)).symm
      have e1 : v b 1 = v a 1 := (hsame 1 (by omega)).symm
      have e2 : v b 2 = v a 2 := (hsame 2 (by omega)).symm
      rw [e0, e1, e2]; simp
    obtain ⟨c1, c2⟩ := cellDist_bounds v q.dist
    have u := Key.cellDistMin_le v q.dist a b hb ha
    have l := Key.le_cellDistMin v q.dist 0 (fun b _ a _ => by unfold Key.dist1; exact abs_nonneg _)
    have l2 : (0 : ℝ) ≤ min (10 ^ 64) (Key.cellDistMin v q.dist) := le_min (by norm_num) l
    linarith
  by_contra hne
  obtain ⟨r, hr⟩ := Option.ne_none_iff_exists'.1 hne
  apply run_ne hr
  unfold hashDist; rw [h0, zero_div]

/-- Non-vacuity: a wedge stored as a hexahedron with vertices 6, 7 repeated as 4, 5. -/
example (q : Junk) : refineMesh 1 8 2 (fun _ l => if l < 6 then l else l - 2)
    (fun n d => ((n / 2 ^ d % 2 : ℕ) : ℝ)) q = none :=
  C42_degenerate_negation 1 8 2 _ _ q (by omega) 4 6 (by omega) (by omega) (by intro d _; rfl)

theorem distinct_int {t : ℕ → ℕ → ℤ} (h : ∀ a < 8, ∀ b < 8, a ≠ b → ∃ d < 3, t a d ≠ t b d) :
    DistinctVerts 1 (fun _ l => l) (fun n d => (t n d : ℝ)) := by
  refine ⟨by omega, fun a ha b hb hab => ?_⟩
  obtain ⟨d, hd, hne⟩ := h a ha b hb hab
  exact ⟨d, hd, fun h => hne (Int.cast_injective h)⟩

/-! ### Gauss point 0 is never merged -/

/-- **C42 fails (first vertex).**  On every mesh in which the first vertex of cell 0 also belongs to another cell (as
local vertex `a + 2 b + 4 c'`), the corner Gauss point of that cell coincides with Gauss point 0 but gets a different
node, so the refined mesh is cut open there. -/
theorem C42_first_vertex_negation (E N p : ℕ) (hp : p ≤ 9) (nodes : ℕ → ℕ → ℕ) (x : ℕ → ℕ → ℝ) (q : Junk)
    (hd : DistinctVerts E nodes x) (e : ℕ) (he0 : 0 < e) (he : e < E) (a b c : ℕ) (ha : a < 2) (hb : b < 2) (hc : c < 2)
    (hshare : nodes e (a + 2 * b + 4 * c) = nodes 0 0) :
    ∃ r, refineMesh E N p nodes x q = some r ∧ ∃ g, 0 < g ∧ g < E * pts1d p ^ 3 ∧
      (∀ d, r.gauss.val g d = r.gauss.val 0 d) ∧ r.nig.val g ≠ r.nig.val 0 := by
  obtain ⟨r, hr, hv⟩ := C44_vertex E N p hp nodes x q hd
  obtain ⟨r', hr', R⟩ := refine_run E N p nodes x q (hash_ne hd p _ _)
  have : r' = r := by rw [hr] at hr'; exact (Option.some.inj hr').symm
  subst this
  obtain ⟨y, hy, hyv⟩ := hv e he a ha b hb c hc
  obtain ⟨y0, hy0, hyv0⟩ := hv 0 (by omega) 0 (by omega) 0 (by omega) 0 (by omega)
  obtain ⟨hlt, hye⟩ := Arr.get_eq_some hy
  obtain ⟨-, hye0⟩ := Arr.get_eq_some hy0
  set g := gaussInElem (pts1d p ^ 3) e (a * (pts1d p - 1) + b * (pts1d p - 1) * pts1d p
          + c * (pts1d p - 1) * pts1d p ^ 2) with hg
  have hz : gaussInElem (pts1d p ^ 3) 0 (0 * (pts1d p - 1) + 0 * (pts1d p - 1) * pts1d p
          + 0 * (pts1d p - 1) * pts1d p ^ 2) = 0 := by simp [gaussInElem]
  rw [hz] at hye0
  rw [R.gauss_size] at hlt
  have hn : 2 ≤ pts1d p := by unfold pts1d; split <;> omega
  have hg0 : 0 < g := by
    rw [hg]; unfold gaussInElem
    have : 0 < e * pts1d p ^ 3 := by positivity
    omega
  have hsame : ∀ d, r'.gauss.val g d = r'.gauss.val 0 d := by
    intro d
    rw [hye, hye0, hyv d, hyv0 d, hshare]
  have hne : r'.nig.val g ≠ r'.nig.val 0 := by
    intro h
    rcases (R.nig_iff g hlt 0 (by omega)).1 h with h | ⟨-, h, -⟩
    · omega
    · exact h rfl
  exact ⟨r', hr, g, hg0, hlt, hsame, hne⟩

/-- Non-vacuity: two unit cubes side by side, the left one listed second. -/
example (q : Junk) : ∃ r,
    refineMesh 2 12 1 (fun c l => l % 2 + (1 - c) + 3 * (l / 2 % 2) + 6 * (l / 4))
      (fun n d => (([n % 3, n / 3 % 2, n / 6].getD d 0 : ℕ) : ℝ)) q = some r ∧ ∃ g, 0 < g ∧ g < 54 ∧
      (∀ d, r.gauss.val g d = r.gauss.val 0 d) ∧ r.nig.val g ≠ r.nig.val 0 :=
  C42_first_vertex_negation 2 12 1 (by omega) _ _ q (by
    refine ⟨by omega, fun a ha b hb hab => ?_⟩
    have : ∀ a < 8, ∀ b < 8, a ≠ b → ∃ d < 3, ([(a % 2 + (1 - (2 - 1)) + 3 * (a / 2 % 2) + 6 * (a / 4)) % 3,
      (a % 2 + (1 - (2 - 1)) + 3 * (a / 2 % 2) + 6 * (a / 4)) / 3 % 2,
      (a % 2 + (1 - (2 - 1)) + 3 * (a / 2 % 2) + 6 * (a / 4)) / 6] : List ℕ).getD d 0 ≠
      [(b % 2 + (1 - (2 - 1)) + 3 * (b / 2 % 2) + 6 * (b / 4)) % 3,
      (b % 2 + (1 - (2 - 1)) + 3 * (b / 2 % 2) + 6 * (b / 4)) / 3 % 2,
      (b % 2 + (1 - (2 - 1)) + 3 * (b / 2 % 2) + 6 * (b / 4)) / 6].getD d 0 := by decide +kernel
    obtain ⟨d, hd, hne⟩ := this a ha b hb hab
    exact ⟨d, hd, fun h => hne (Nat.cast_injective h)⟩) 1 (by omega) (by omega) 1 0 0 (by omega) (by omega) (by omega) (by decide)

/-! ### Integer coordinates -/

theorem posMin_int (N : ℕ) (t : ℕ → ℕ → ℤ) (d : ℕ) :
    posMin N (fun n d => (t n d : ℝ)) d = ((loop N (fun n m => min m (t n d)) (10 ^ 16) : ℤ) : ℝ) := by
  unfold posMin
  induction N with
  | zero => norm_num [loop_zero]
  | succ N ih => rw [loop_succ, loop_succ, ih]; push_cast; rfl

theorem posMax_int (N : ℕ) (t : ℕ → ℕ → ℤ) (d : ℕ) :
    posMax N (fun n d => (t n d : ℝ)) d = ((loop N (fun n m => max m (t n d)) (-10 ^ 16) : ℤ) : ℝ) := by
  unfold posMax
  induction N with
  | zero => norm_num [loop_zero]
  | succ N ih => rw [loop_succ, loop_succ, ih]; push_cast; rfl

/-- Smallest vertex distance of a cell with integer coordinates. -/
theorem cellDist_int (t : ℕ → ℕ → ℤ) (junk : ℕ → ℝ) (m : ℤ) (hm : 0 < m) (hm2 : m ≤ 10 ^ 64)
    (hall : ∀ b < 8, ∀ a < b, m ^ 2 ≤ (t b 0 - t a 0) ^ 2 + (t b 1 - t a 1) ^ 2 + (t b 2 - t a 2) ^ 2)
    (hex : ∃ b < 8, ∃ a < b, m ^ 2 = (t b 0 - t a 0) ^ 2 + (t b 1 - t a 1) ^ 2 + (t b 2 - t a 2) ^ 2) :
    cellDist (fun l d => (t l d : ℝ)) junk = m := by
  have hmr : (0 : ℝ) < m := by exact_mod_cast hm
  have hdist : ∀ a b, Key.dist1 (fun l d => (t l d : ℝ)) a b =
      √((((t b 0 - t a 0) ^ 2 + (t b 1 - t a 1) ^ 2 + (t b 2 - t a 2) ^ 2 : ℤ)) : ℝ) := by
    intro a b
    unfold Key.dist1
    rw [abs_of_nonneg (Real.sqrt_nonneg _)]
    push_cast; rfl
  obtain ⟨c1, c2⟩ := cellDist_bounds (fun l d => (t l d : ℝ)) junk
  apply le_antisymm
  · obtain ⟨b, hb, a, ha, h⟩ := hex
    refine c1.trans ((Key.cellDistMin_le _ junk a b hb ha).trans ?_)
    rw [hdist, ← h]; push_cast
    rw [Real.sqrt_sq hmr.le]
  · refine le_trans (le_min ?_ ?_) c2
    · exact_mod_cast hm2
    · apply Key.le_cellDistMin
      intro b hb a ha
      rw [hdist]
      apply Real.le_sqrt_of_sq_le
      exact_mod_cast hall b hb a ha

/-! ### Bins wider than 1 -/

/-- The vertices of a prism of height 70 over the parallelogram (0,15), (70,0), (0,85), (70,70). -/
def wide (n d : ℕ) : ℤ :=
  (([[0, 15, 0], [70, 0, 0], [0, 85, 0], [70, 70, 0], [0, 15, 70], [70, 0, 70], [0, 85, 70], [70, 70, 70]] :
    List (List ℤ)).getD n []).getD d 0

/-- **C42 fails (bins wider than 1).**  A mesh of one convex cell with edges of length 70 and more, refined with order 1:
the two Gauss points at the ends of an edge, at `x = 0` and `x = 70`, become one node, because `num_bins`
is the number of bins of the bounding box plus `1 / h`, which is no whole bin. -/
theorem C42_wide_negation (q : Junk) :
    ∃ r, refineMesh 1 8 1 (fun _ l => l) (fun n d => (wide n d : ℝ)) q = some r ∧
      r.nig.val 18 = r.nig.val 20 ∧ r.gauss.val 18 0 = 0 ∧ r.gauss.val 20 0 = 70 := by
  obtain ⟨r, hr, hv⟩ := C44_vertex 1 8 1 (by omega) (fun _ l => l) (fun n d => (wide n d : ℝ)) q
    (distinct_int (by decide +kernel))
  obtain ⟨r', hr', R⟩ := refine_run 1 8 1 (fun _ l => l) (fun n d => (wide n d : ℝ)) q
    (hash_ne (distinct_int (by decide +kernel)) 1 _ _)
  have : r' = r := by rw [hr] at hr'; exact (Option.some.inj hr').symm
  subst this
  obtain ⟨y, hy, hyv⟩ := hv 0 (by omega) 0 (by omega) 0 (by omega) 1 (by omega)
  obtain ⟨z, hz, hzv⟩ := hv 0 (by omega) 1 (by omega) 0 (by omega) 1 (by omega)
  obtain ⟨-, hye⟩ := Arr.get_eq_some hy
  obtain ⟨-, hze⟩ := Arr.get_eq_some hz
  have i1 : gaussInElem (pts1d 1 ^ 3) 0 (0 * (pts1d 1 - 1) + 0 * (pts1d 1 - 1) * pts1d 1
          + 1 * (pts1d 1 - 1) * pts1d 1 ^ 2) = 18 := by decide
  have i2 : gaussInElem (pts1d 1 ^ 3) 0 (1 * (pts1d 1 - 1) + 0 * (pts1d 1 - 1) * pts1d 1
          + 1 * (pts1d 1 - 1) * pts1d 1 ^ 2) = 20 := by decide
  rw [i1] at hye; rw [i2] at hze
  have y0 : y 0 = 0 := by rw [hyv]; norm_num [wide]
  have y1 : y 1 = 15 := by rw [hyv]; norm_num [wide]
  have y2 : y 2 = 70 := by rw [hyv]; norm_num [wide]
  have z0 : z 0 = 70 := by rw [hzv]; norm_num [wide]
  have z1 : z 1 = 0 := by rw [hzv]; norm_num [wide]
  have z2 : z 2 = 70 := by rw [hzv]; norm_num [wide]
  refine ⟨r', hr, ?_, by rw [hye, y0], by rw [hze, z0]⟩
  have hlt : (20 : ℕ) < 1 * pts1d 1 ^ 3 := by decide
  rw [R.nig_iff 18 (by omega) 20 hlt]
  refine Or.inr ⟨by omega, by omega, ?_⟩
  unfold runKey
  rw [distMin_last _ _ _ _ _ (by omega)]
  rw [cellDist_int wide q.dist 70 (by norm_num) (by norm_num) (by decide +kernel) (by decide +kernel)]
  have hh : hashDist 1 ((70 : ℤ) : ℝ) = 10 := by unfold hashDist; norm_num
  rw [hh, hye, hze]
  have m0 : posMin 8 (fun n d => (wide n d : ℝ)) 0 = 0 := by
    rw [posMin_int]; rw [show loop 8 (fun n m => min m (wide n 0)) (10 ^ 16) = 0 by decide +kernel]; simp
  have m1 : posMin 8 (fun n d => (wide n d : ℝ)) 1 = 0 := by
    rw [posMin_int]; rw [show loop 8 (fun n m => min m (wide n 1)) (10 ^ 16) = 0 by decide +kernel]; simp
  have m2 : posMin 8 (fun n d => (wide n d : ℝ)) 2 = 0 := by
    rw [posMin_int]; rw [show loop 8 (fun n m => min m (wide n 2)) (10 ^ 16) = 0 by decide +kernel]; simp
  have M0 : posMax 8 (fun n d => (wide n d : ℝ)) 0 = 70 := by
    rw [posMax_int]; rw [show loop 8 (fun n m => max m (wide n 0)) (-10 ^ 16) = 70 by decide +kernel]; simp
  have B0 : bins 8 (fun n d => (wide n d : ℝ)) 10 0 = 7 := by
    unfold bins
    rw [floor_max, m0, M0, Nat.floor_eq_iff (by norm_num)]; norm_num
  unfold key
  simp only [index_eq]
  have ky0 : bin 8 (fun n d => (wide n d : ℝ)) 10 y 0 = 0 := by
    unfold bin; rw [m0, y0, Nat.floor_eq_iff (by norm_num)]; norm_num
  have ky1 : bin 8 (fun n d => (wide n d : ℝ)) 10 y 1 = 1 := by
    unfold bin; rw [m1, y1, Nat.floor_eq_iff (by norm_num)]; norm_num
  have kz0 : bin 8 (fun n d => (wide n d : ℝ)) 10 z 0 = 7 := by
    unfold bin; rw [m0, z0, Nat.floor_eq_iff (by norm_num)]; norm_num
  have kz1 : bin 8 (fun n d => (wide n d : ℝ)) 10 z 1 = 0 := by
    unfold bin; rw [m1, z1, Nat.floor_eq_iff (by norm_num)]; norm_num
  have k2 : bin 8 (fun n d => (wide n d : ℝ)) 10 y 2 = bin 8 (fun n d => (wide n d : ℝ)) 10 z 2 := by
    unfold bin; rw [y2, z2]
  rw [ky0, ky1, kz0, kz1, k2, B0]

/-! ### The unit cube -/

/-- Vertices of the unit cube. -/
def cube (n d : ℕ) : ℤ := (Key.bit n d : ℤ)

theorem cube_lattice : Key.Lattice 1 8 (fun _ l => l) (fun n d => (cube n d : ℝ)) (fun _ => 0) (fun _ => 1)
    (fun _ _ => 0) where
  ne := by omega
  valid := by intro c _ l hl; exact hl
  hpos := by intro d _; norm_num
  coords := by intro c _ l _ d _; simp [cube]
  conform := by
    intro c _ l hl c' _ l' hl' h
    have h0 := h 0 (by omega)
    have h1 := h 1 (by omega)
    have h2 := h 2 (by omega)
    simp only [cube, Int.cast_natCast, Nat.cast_inj] at h0 h1 h2
    simp only [Key.bit] at h0 h1 h2
    omega
  inj := by intro c hc c' hc' _; omega

/-- Non-vacuity of `C42_lattice_partial`, `C42_positions_partial` and `C42_bins_partial`: the unit cube. -/
example (q : Junk) : ∃ r, refineMesh 1 8 3 (fun _ l => l) (fun n d => (cube n d : ℝ)) q = some r ∧
    ∀ g < 343, ∀ g' < 343, r.nig.val g = r.nig.val g' ↔ ∀ d < 3, r.gauss.val g d = r.gauss.val g' d := by
  obtain ⟨r, hr, h, -⟩ := C42_lattice_partial 1 8 3 (by omega) (fun _ l => l) _ _ _ _ cube_lattice
    ⟨0, by omega, by norm_num⟩ (by intro c hc l _ h; exact ⟨by omega, h⟩) q
  exact ⟨r, hr, h⟩

/-- **C42 fails (order 6).**  On the unit cube with order 6 the first two of the 13 Lobatto points of an edge fall into
one bin, and become one node although they do not coincide. -/
theorem C42_order6_negation (q : Junk) :
    ∃ r, refineMesh 1 8 6 (fun _ l => l) (fun n d => (cube n d : ℝ)) q = some r ∧
      r.nig.val 156 = r.nig.val 157 ∧ r.gauss.val 156 0 = 0 ∧ 1 / 50 ≤ r.gauss.val 157 0 := by
  obtain ⟨r, hr, R⟩ := refine_run 1 8 6 (fun _ l => l) (fun n d => (cube n d : ℝ)) q
    (hash_ne (distinct_int (by decide +kernel)) 6 _ _)
  obtain ⟨lob, hl, -⟩ := good_nodes (p := 6) (by omega) q.lob
  have hp6 : pts1d 6 = 13 := by decide
  have L0 : lob.val 0 = -1 := by
    rw [lob_val (by decide) (by decide) hl 0 (by decide), hp6, Quad.lobNodes_eq (by decide), Quad.getD_map_cast]
    rw [show (Quad.lobNodesQ 13).getD 0 0 = -1 by decide +kernel]; norm_num
  have L1 : -0.954 < lob.val 1 ∧ lob.val 1 < -0.953 := by
    rw [lob_val (by decide) (by decide) hl 1 (by decide), hp6, Quad.lobNodes_eq (by decide), Quad.getD_map_cast]
    have h : (-954/1000 : ℚ) < (Quad.lobNodesQ 13).getD 1 0 ∧ (Quad.lobNodesQ 13).getD 1 0 < -953/1000 := by
      decide +kernel
    constructor
    · have := (Rat.cast_lt (K := ℝ)).2 h.1; push_cast at this; norm_num at this ⊢; exact this
    · have := (Rat.cast_lt (K := ℝ)).2 h.2; push_cast at this; norm_num at this ⊢; exact this
  have i1 : cellId (pts1d 6) 0 0 12 0 = 156 := by decide
  have i2 : cellId (pts1d 6) 0 0 12 1 = 157 := by decide
  have g1 : ∀ d < 3, r.gauss.val 156 d = 0 + 1 * (((0 : ℤ) : ℝ) + (1 + lob.val (dig 0 12 0 d)) / 2) := fun d hd => by
    rw [← i1]
    exact lattice_gauss (by omega) cube_lattice hr hl (by omega) (by decide) (by decide) (by decide) d hd
  have g2 : ∀ d < 3, r.gauss.val 157 d = 0 + 1 * (((0 : ℤ) : ℝ) + (1 + lob.val (dig 1 12 0 d)) / 2) := fun d hd => by
    rw [← i2]
    exact lattice_gauss (by omega) cube_lattice hr hl (by omega) (by decide) (by decide) (by decide) d hd
  have a0 : r.gauss.val 156 0 = 0 := by
    rw [g1 0 (by omega), show dig 0 12 0 0 = 0 from rfl, L0]; norm_num
  have b0 : r.gauss.val 157 0 = (1 + lob.val 1) / 2 := by
    rw [g2 0 (by omega), show dig 1 12 0 0 = 1 from rfl]; norm_num
  have e1 : r.gauss.val 156 1 = r.gauss.val 157 1 := by rw [g1 1 (by omega), g2 1 (by omega)]; rfl
  have e2 : r.gauss.val 156 2 = r.gauss.val 157 2 := by rw [g1 2 (by omega), g2 2 (by omega)]; rfl
  refine ⟨r, hr, ?_, a0, by rw [b0]; linarith [L1.1]⟩
  have hlt : (157 : ℕ) < 1 * pts1d 6 ^ 3 := by decide
  rw [R.nig_iff 156 (by omega) 157 hlt]
  refine Or.inr ⟨by omega, by omega, ?_⟩
  unfold runKey
  rw [distMin_last _ _ _ _ _ (by omega)]
  rw [cellDist_int cube q.dist 1 (by norm_num) (by norm_num) (by decide +kernel) (by decide +kernel)]
  have hh : hashDist 6 ((1 : ℤ) : ℝ) = 1 / 42 := by unfold hashDist; norm_num
  rw [hh]
  have m0 : posMin 8 (fun n d => (cube n d : ℝ)) 0 = 0 := by
    rw [posMin_int]; rw [show loop 8 (fun n m => min m (cube n 0)) (10 ^ 16) = 0 by decide +kernel]; simp
  unfold key
  simp only [index_eq]
  have k0 : bin 8 (fun n d => (cube n d : ℝ)) (1 / 42) (r.gauss.val 156) 0 =
      bin 8 (fun n d => (cube n d : ℝ)) (1 / 42) (r.gauss.val 157) 0 := by
    unfold bin; rw [m0, a0, b0, Nat.floor_eq_zero.2 (by norm_num), Nat.floor_eq_zero.2]
    rw [div_lt_one (by norm_num)]
    have := L1.2
    norm_num at this ⊢
    linarith
  have k1 : bin 8 (fun n d => (cube n d : ℝ)) (1 / 42) (r.gauss.val 156) 1 =
      bin 8 (fun n d => (cube n d : ℝ)) (1 / 42) (r.gauss.val 157) 1 := by unfold bin; rw [e1]
  have k2 : bin 8 (fun n d => (cube n d : ℝ)) (1 / 42) (r.gauss.val 156) 2 =
      bin 8 (fun n d => (cube n d : ℝ)) (1 / 42) (r.gauss.val 157) 2 := by unfold bin; rw [e2]
  rw [k0, k1, k2]

end Verif.Swage.Refine
