import Verif.Int32.Runs

/-!
# C90: 32-bit hash keys

`refineMesh32`, `refineHighOrder32` and `buildPatches32` are the functions with every `int` conversion, sum and product on the way to
the hash keys checked (`none`: the behaviour is undefined).

* `C90_refine_same`: a defined run is the run with unbounded integers, so everything proved about that one (C42-C45) holds of it.
* `C90_refine_fits`: the run is defined if the product of the three extents of the mesh (each plus one unit of length) divided by the
  bin size is at most `2^31 - 10`.
* `C90_refine_overflow`: it is undefined if the key of some vertex reaches `2^31`.
* On a cube cut into `n³` equal cells of size `s`: `C90_cube_fits`, `C90_cube_overflow`.  For the unit cube the run is defined for
  `p n ≤ 92` and undefined for `p n ≥ 117` (`C90_unit_fits`, `C90_unit_negation`); a single cell of size `1e-4` or less is always
  undefined (`C90_tiny_negation`): the added unit of length makes the number of bins depend on the unit of measurement.
-/

namespace Verif.Int32
open Verif.Swage Verif.Swage.Refine

/-- **C90, same result.**  If no `int` operation of `refine_mesh` overflows, its result is that of unbounded integers. -/
theorem C90_refine_same (E N p : ℕ) (nodes : ℕ → ℕ → ℕ) (x : ℕ → ℕ → ℝ) (q : Junk) (jk : ℕ → ℕ) (r : Refined)
    (e : refineMesh32 E N p nodes x q jk = some r) : refineMesh E N p nodes x q = some r := (refine_same e).1

/-- **C90, sufficient condition.**  For orders up to 9 and bin sizes in `(0, 1]`, `refine_mesh` overflows nowhere if the product over
the three directions of (extent + 1 + 1e-14) / (bin size) is at most `2^31 - 10` and the number of Gauss points fits. -/
theorem C90_refine_fits (E N p : ℕ) (hp : p ≤ 9) (hE : 0 < E) (nodes : ℕ → ℕ → ℕ) (hv : ∀ c < E, ∀ l < 8, nodes c l < N)
    (x : ℕ → ℕ → ℝ) (q : Junk) (jk : ℕ → ℕ) (h : ℝ) (hh : h = binSize E p nodes x q) (h0 : 0 < h) (h1 : h ≤ 1)
    (hK : pts1d p ^ 3 * E < 2 ^ 31)
    (hV : (posMax N x 0 - posMin N x 0 + 1 + 1 / 10 ^ 14) / h * ((posMax N x 1 - posMin N x 1 + 1 + 1 / 10 ^ 14) / h)
      * ((posMax N x 2 - posMin N x 2 + 1 + 1 / 10 ^ 14) / h) ≤ 2 ^ 31 - 10) :
    ∃ r, refineMesh32 E N p nodes x q jk = some r ∧ refineMesh E N p nodes x q = some r := by
  subst hh
  obtain ⟨r, hr, -⟩ := refine_run E N p nodes x q h0.ne'
  refine ⟨r, ?_, hr⟩
  set h := binSize E p nodes x q with hh
  have hb := fun g hg d => gauss_box hp hv hr g hg d
  have hn : 2 ≤ pts1d p := by unfold pts1d; split <;> omega
  have hG : 0 < E * pts1d p ^ 3 := Nat.mul_pos hE (by positivity)
  -- every number of bins is positive
  have hext : ∀ d, 0 ≤ (posMax N x d - posMin N x d + 1 + 1 / 10 ^ 14) / h := fun d => by
    have := hb 0 hG d
    have h14 : (0 : ℝ) < 1 / 10 ^ 14 := by norm_num
    exact div_nonneg (by linarith) h0.le
  have hbins : ∀ d, (bins N x h d : ℝ) ≤ (posMax N x d - posMin N x d + 1 + 1 / 10 ^ 14) / h := fun d => by
    unfold bins; rw [floor_max]; exact Nat.floor_le (hext d)
  have hpos : ∀ d, 0 < bins N x h d := fun d =>
    lt_of_le_of_lt (Nat.zero_le _) (bin_lt N x h0 h1 (r.gauss.val 0) d (hb 0 hG d).1 (hb 0 hG d).2)
  have hprod : bins N x h 0 * bins N x h 1 * bins N x h 2 ≤ 2 ^ 31 - 10 := by
    have : ((bins N x h 0 * bins N x h 1 * bins N x h 2 : ℕ) : ℝ) ≤ 2 ^ 31 - 10 := by
      push_cast
      refine le_trans ?_ hV
      have a0 := hext 0
      have a1 := hext 1
      have b0 := hbins 0
      have b1 := hbins 1
      have b2 := hbins 2
      gcongr
    have h2 : ((2 ^ 31 - 10 : ℕ) : ℝ) = 2 ^ 31 - 10 := by norm_num
    rw [← h2] at this
    exact_mod_cast this
  have hkey : ∀ g < E * pts1d p ^ 3, key N x h (r.gauss.val g) + 10 < 2 ^ 31 := by
    intro g hg
    have k0 := bin_lt N x h0 h1 (r.gauss.val g) 0 (hb g hg 0).1 (hb g hg 0).2
    have k1 := bin_lt N x h0 h1 (r.gauss.val g) 1 (hb g hg 1).1 (hb g hg 1).2
    have k2 := bin_lt N x h0 h1 (r.gauss.val g) 2 (hb g hg 2).1 (hb g hg 2).2
    have : key N x h (r.gauss.val g) < bins N x h 0 * bins N x h 1 * bins N x h 2 := by
      unfold key
      simp only [index_eq]
      generalize bin N x h (r.gauss.val g) 0 = i at *
      generalize bin N x h (r.gauss.val g) 1 = j at *
      generalize bin N x h (r.gauss.val g) 2 = k at *
      generalize bins N x h 0 = bx at *
      generalize bins N x h 1 = by_ at *
      generalize bins N x h 2 = bz at *
      calc i + j * bx + k * bx * by_ < bx + j * bx + k * bx * by_ := by omega
        _ = (j + 1) * bx + k * bx * by_ := by ring
        _ ≤ by_ * bx + k * bx * by_ := by gcongr; omega
        _ = (k + 1) * (bx * by_) := by ring
        _ ≤ bz * (bx * by_) := by gcongr; omega
        _ = bx * by_ * bz := by ring
    omega
  have hle : ∀ d < 3, bins N x h d < 2 ^ 31 := by
    intro d hd
    have p0 := hpos 0
    have p1 := hpos 1
    have p2 := hpos 2
    have m0 : bins N x h 0 ≤ bins N x h 0 * bins N x h 1 * bins N x h 2 :=
      (Nat.le_mul_of_pos_right _ p1).trans (Nat.le_mul_of_pos_right _ p2)
    have m1 : bins N x h 1 ≤ bins N x h 0 * bins N x h 1 * bins N x h 2 :=
      (Nat.le_mul_of_pos_left _ p0).trans (Nat.le_mul_of_pos_right _ p2)
    have m2 : bins N x h 2 ≤ bins N x h 0 * bins N x h 1 * bins N x h 2 := Nat.le_mul_of_pos_left _ (Nat.mul_pos p0 p1)
    interval_cases d <;> omega
  exact refine_complete jk hr hE hK hle (fun d _ => hpos d) hkey

/-- **C90, overflow.**  For orders up to 9: if the key of a vertex of an element is `2^31 - 10` or more, the run is undefined. -/
theorem C90_refine_overflow (E N p : ℕ) (hp : p ≤ 9) (nodes : ℕ → ℕ → ℕ) (x : ℕ → ℕ → ℝ) (q : Junk) (jk : ℕ → ℕ)
    (hd : DistinctVerts E nodes x) (c l : ℕ) (hc : c < E) (hl : l < 8)
    (hk : 2 ^ 31 ≤ key N x (binSize E p nodes x q) (fun d => x (nodes c l) d) + 10) :
    refineMesh32 E N p nodes x q jk = none := by
  by_contra hne
  obtain ⟨r, hr⟩ := Option.ne_none_iff_exists'.1 hne
  obtain ⟨h1, -, -, h4⟩ := refine_same hr
  obtain ⟨r', hr', hvx⟩ := gauss_vertex E N p hp nodes x q (hash_ne hd p _ _)
  have : r' = r := by rw [h1] at hr'; exact (Option.some.inj hr').symm
  subst this
  obtain ⟨y, hy, hyd⟩ := hvx c hc (l % 2) (Nat.mod_lt _ (by norm_num)) (l / 2 % 2) (Nat.mod_lt _ (by norm_num)) (l / 4) (by omega)
  rw [show l % 2 + 2 * (l / 2 % 2) + 4 * (l / 4) = l by omega] at hyd
  obtain ⟨hg, hval⟩ := Arr.get_eq_some hy
  obtain ⟨r2, hr2, R⟩ := refine_run E N p nodes x q (hash_ne hd p _ _)
  have : r2 = r' := by rw [h1] at hr2; exact (Option.some.inj hr2).symm
  subst this
  have := h4 _ (by rw [← R.gauss_size]; exact hg)
  rw [hval, show y = fun d => x (nodes c l) d from funext hyd] at this
  omega

/-! ### Cubes -/

/-- Vertex `l` of cell `c` of a cube cut into `n³` cells. -/
def cubeNodes (n c l : ℕ) : ℕ :=
  (c % n + Key.bit l 0) + (c / n % n + Key.bit l 1) * (n + 1) + (c / n / n + Key.bit l 2) * (n + 1) * (n + 1)

/-- Coordinates of the nodes of a cube cut into `n³` cells of size `s`. -/
noncomputable def cubeX (n : ℕ) (s : ℝ) (m d : ℕ) : ℝ :=
  s * ((if d = 0 then m % (n + 1) else if d = 1 then m / (n + 1) % (n + 1) else m / (n + 1) / (n + 1) : ℕ) : ℝ)

theorem cube_digits {n c l : ℕ} (hc : c < n ^ 3) (hl : l < 8) {s : ℝ} {d : ℕ} (hd : d < 3) :
    cubeX n s (cubeNodes n c l) d = s * (((if d = 0 then c % n else if d = 1 then c / n % n else c / n / n : ℕ) : ℝ)
      + (Key.bit l d : ℝ)) := by
  have hn : 0 < n := Nat.pos_of_ne_zero fun h => by subst h; simp at hc
  have b0 := Key.bit_le l hl 0 (by omega)
  have b1 := Key.bit_le l hl 1 (by omega)
  have c0 := Nat.mod_lt c hn
  have c1 := Nat.mod_lt (c / n) hn
  obtain ⟨h0, h1, h2⟩ := lex3_mod (i := c % n + Key.bit l 0) (j := c / n % n + Key.bit l 1) (k := c / n / n + Key.bit l 2)
    (n := n + 1) (m := n + 1) (by omega) (by omega)
  unfold cubeX cubeNodes
  rw [h0, h1, h2]
  interval_cases d <;> simp

theorem cube_top {n c : ℕ} (hc : c < n ^ 3) : c / n / n < n := by
  have hn : 0 < n := Nat.pos_of_ne_zero fun h => by subst h; simp at hc
  rw [Nat.div_div_eq_div_mul]
  apply Nat.div_lt_of_lt_mul
  calc c < n ^ 3 := hc
    _ = n * n * n := by ring

theorem cube_lt {n c l : ℕ} (hc : c < n ^ 3) (hl : l < 8) : cubeNodes n c l < (n + 1) ^ 3 := by
  have hn : 0 < n := Nat.pos_of_ne_zero fun h => by subst h; simp at hc
  have b0 := Key.bit_le l hl 0 (by omega)
  have b1 := Key.bit_le l hl 1 (by omega)
  have b2 := Key.bit_le l hl 2 (by omega)
  have c0 := Nat.mod_lt c hn
  have c1 := Nat.mod_lt (c / n) hn
  have c2 := cube_top hc
  unfold cubeNodes
  have := flat_lt (N := n + 1) (i := c % n + Key.bit l 0) (j := c / n % n + Key.bit l 1) (k := c / n / n + Key.bit l 2)
    (by omega) (by omega) (by omega)
  calc _ < _ := this
    _ = (n + 1) ^ 3 := by ring

/-- The cube is a lattice mesh. -/
theorem cube_lattice {n : ℕ} (hn : 0 < n) {s : ℝ} (hs : 0 < s) :
    Key.Lattice (n ^ 3) ((n + 1) ^ 3) (cubeNodes n) (cubeX n s) (fun _ => 0) (fun _ => s)
      (fun c d => ((if d = 0 then c % n else if d = 1 then c / n % n else c / n / n : ℕ) : ℤ)) where
  ne := by positivity
  valid := fun c hc l hl => cube_lt hc hl
  hpos := fun _ _ => hs
  coords := fun c hc l hl d hd => by
    rw [cube_digits hc hl hd, zero_add]; push_cast; rfl
  conform := fun c hc l hl c' hc' l' hl' h => by
    have e : ∀ d < 3, (if d = 0 then c % n else if d = 1 then c / n % n else c / n / n) + Key.bit l d =
        (if d = 0 then c' % n else if d = 1 then c' / n % n else c' / n / n) + Key.bit l' d := by
      intro d hd
      have := h d hd
      rw [cube_digits hc hl hd, cube_digits hc' hl' hd] at this
      have := mul_left_cancel₀ hs.ne' this
      exact_mod_cast this
    have e0 := e 0 (by omega)
    have e1 := e 1 (by omega)
    have e2 := e 2 (by omega)
    simp at e0 e1 e2
    unfold cubeNodes
    rw [e0, e1, e2]
  inj := fun c _ c' _ h => by
    have h0 := h 0 (by omega)
    have h1 := h 1 (by omega)
    have h2 := h 2 (by omega)
    simp only [if_true, if_false, one_ne_zero, OfNat.ofNat_ne_zero, OfNat.ofNat_ne_one] at h0 h1 h2
    have h0 : c % n = c' % n := by exact_mod_cast h0
    have h1 : c / n % n = c' / n % n := by exact_mod_cast h1
    have h2 : c / n / n = c' / n / n := by exact_mod_cast h2
    have a1 : c / n = c' / n := by rw [← Nat.div_add_mod (c / n) n, ← Nat.div_add_mod (c' / n) n, h1, h2]
    rw [← Nat.div_add_mod c n, ← Nat.div_add_mod c' n, h0, a1]

theorem posMax_le {N : ℕ} {x : ℕ → ℕ → ℝ} {d : ℕ} {B : ℝ} (h0 : -10 ^ 16 ≤ B) (h : ∀ n < N, x n d ≤ B) : posMax N x d ≤ B := by
  unfold posMax
  induction N with
  | zero => exact h0
  | succ N ih => rw [loop_succ]; exact max_le (ih fun n hn => h n (by omega)) (h N (by omega))

theorem le_posMin {N : ℕ} {x : ℕ → ℕ → ℝ} {d : ℕ} {B : ℝ} (h0 : B ≤ 10 ^ 16) (h : ∀ n < N, B ≤ x n d) : B ≤ posMin N x d := by
  unfold posMin
  induction N with
  | zero => exact h0
  | succ N ih => rw [loop_succ]; exact le_min (ih fun n hn => h n (by omega)) (h N (by omega))

theorem cubeX_box {n m d : ℕ} (hm : m < (n + 1) ^ 3) {s : ℝ} (hs : 0 < s) : 0 ≤ cubeX n s m d ∧ cubeX n s m d ≤ s * n := by
  unfold cubeX
  refine ⟨by positivity, mul_le_mul_of_nonneg_left ?_ hs.le⟩
  have h0 : m % (n + 1) ≤ n := by have := Nat.mod_lt m (show 0 < n + 1 by omega); omega
  have h1 : m / (n + 1) % (n + 1) ≤ n := by have := Nat.mod_lt (m / (n + 1)) (show 0 < n + 1 by omega); omega
  have h2 : m / (n + 1) / (n + 1) ≤ n := by have := cube_top hm; omega
  split
  · exact_mod_cast h0
  · split
    · exact_mod_cast h1
    · exact_mod_cast h2

theorem cube_extent {n : ℕ} {s : ℝ} (hs : 0 < s) {d : ℕ} (hd : d < 3) :
    posMin ((n + 1) ^ 3) (cubeX n s) d = 0 ∧ posMax ((n + 1) ^ 3) (cubeX n s) d = s * n := by
  have hN : 0 < (n + 1) ^ 3 := by positivity
  constructor
  · refine le_antisymm ?_ (le_posMin (by norm_num) fun m hm => (cubeX_box hm hs).1)
    have := posMin_le _ (cubeX n s) d 0 hN
    have e : cubeX n s 0 d = 0 := by unfold cubeX; simp
    rwa [e] at this
  · refine le_antisymm (posMax_le (by have : 0 ≤ s * n := by positivity
                                      linarith [show (0 : ℝ) ≤ 10 ^ 16 by norm_num]) fun m hm => (cubeX_box hm hs).2) ?_
    obtain ⟨h0, h1, h2⟩ := lex3_mod (i := n) (j := n) (k := n) (n := n + 1) (m := n + 1) (by omega) (by omega)
    have hlt : n + n * (n + 1) + n * (n + 1) * (n + 1) < (n + 1) ^ 3 := by
      have := flat_lt (N := n + 1) (i := n) (j := n) (k := n) (by omega) (by omega) (by omega)
      calc _ < _ := this
        _ = (n + 1) ^ 3 := by ring
    have := le_posMax _ (cubeX n s) d _ hlt
    have e : cubeX n s (n + n * (n + 1) + n * (n + 1) * (n + 1)) d = s * n := by
      unfold cubeX; rw [h0, h1, h2]; interval_cases d <;> simp
    rwa [e] at this

/-- The smallest vertex distance of the last cell of the cube. -/
theorem cube_dist {n : ℕ} (hn : 0 < n) {s : ℝ} (hs : 0 < s) (hs' : s ≤ 10 ^ 64) (junk : ℕ → ℝ) (j : ℝ) :
    distMin (n ^ 3) (cubeNodes n) (cubeX n s) junk j = s := by
  have hC : 0 < n ^ 3 := by positivity
  refine le_antisymm ((lattice_dist (cube_lattice hn hs) junk j).2 0 (by omega)) ?_
  rw [distMin_last _ _ _ _ _ hC]
  refine le_trans (le_min hs' (Key.le_cellDistMin _ _ _ ?_)) (cellDist_bounds _ junk).2
  intro b hb a ha
  have hc : n ^ 3 - 1 < n ^ 3 := by omega
  unfold Key.dist1
  simp only []
  rw [abs_of_nonneg (Real.sqrt_nonneg _)]
  apply Real.le_sqrt_of_sq_le
  have e : ∀ d < 3, cubeX n s (cubeNodes n (n ^ 3 - 1) b) d - cubeX n s (cubeNodes n (n ^ 3 - 1) a) d =
      s * ((Key.bit b d : ℝ) - (Key.bit a d : ℝ)) := by
    intro d hd
    rw [cube_digits hc hb hd, cube_digits hc (show a < 8 by omega) hd]; ring
  rw [e 0 (by omega), e 1 (by omega), e 2 (by omega)]
  obtain ⟨d, hd, hne⟩ := Key.bit_ne b hb a ha
  have ba := Key.bit_le a (by omega) d hd
  have bb := Key.bit_le b hb d hd
  have hsq : (s * ((Key.bit b d : ℝ) - (Key.bit a d : ℝ))) ^ 2 = s ^ 2 := by
    have : (Key.bit a d = 0 ∧ Key.bit b d = 1) ∨ (Key.bit a d = 1 ∧ Key.bit b d = 0) := by omega
    rcases this with ⟨e1, e2⟩ | ⟨e1, e2⟩ <;> rw [e1, e2] <;> norm_num
  have n0 := sq_nonneg (s * ((Key.bit b 0 : ℝ) - (Key.bit a 0 : ℝ)))
  have n1 := sq_nonneg (s * ((Key.bit b 1 : ℝ) - (Key.bit a 1 : ℝ)))
  have n2 := sq_nonneg (s * ((Key.bit b 2 : ℝ) - (Key.bit a 2 : ℝ)))
  interval_cases d <;> linarith

/-- Number of sub-cells that determines the bin size: `max p 1`. -/
def subs (p : ℕ) : ℕ := if p = 0 then 1 else p

theorem subs_pos (p : ℕ) : 0 < subs p := by unfold subs; split <;> omega

theorem cube_bin {n p : ℕ} (hn : 0 < n) {s : ℝ} (hs : 0 < s) (hs' : s ≤ 10 ^ 64) (q : Junk) :
    binSize (n ^ 3) p (cubeNodes n) (cubeX n s) q = s / (7 * subs p) := by
  unfold binSize hashDist
  rw [cube_dist hn hs hs']
  unfold subs
  split <;> simp

/-- **C90 on cubes, sufficient condition.**  A cube cut into `n³` cells of size `s ≤ 7`, refined to order `p ≤ 9`, is refined without
overflow if `(7 max(p,1) (n + (1 + 1e-14) / s))³ ≤ 2^31 - 10`. -/
theorem C90_cube_fits (n p : ℕ) (hn : 0 < n) (hp : p ≤ 9) (s : ℝ) (hs : 0 < s) (hs7 : s ≤ 7) (q : Junk) (jk : ℕ → ℕ)
    (hV : (7 * (subs p : ℝ) * (n + (1 + 1 / 10 ^ 14) / s)) ^ 3 ≤ 2 ^ 31 - 10) :
    ∃ r, refineMesh32 (n ^ 3) ((n + 1) ^ 3) p (cubeNodes n) (cubeX n s) q jk = some r ∧
      refineMesh (n ^ 3) ((n + 1) ^ 3) p (cubeNodes n) (cubeX n s) q = some r := by
  have hsub : (1 : ℝ) ≤ subs p := by exact_mod_cast subs_pos p
  have hb := cube_bin (p := p) hn hs (hs7.trans (by norm_num)) q
  refine C90_refine_fits (n ^ 3) ((n + 1) ^ 3) p hp (by positivity) (cubeNodes n) (fun c hc l hl => cube_lt hc hl) (cubeX n s) q jk
    (s / (7 * subs p)) hb.symm (by positivity) ?_ ?_ ?_
  · rw [div_le_one (by positivity)]; linarith
  · have h1 : ((pts1d p ^ 3 * n ^ 3 : ℕ) : ℝ) ≤ (7 * (subs p : ℝ) * (n + (1 + 1 / 10 ^ 14) / s)) ^ 3 := by
      push_cast
      rw [← mul_pow]
      have h2 : (pts1d p : ℝ) ≤ 7 * subs p := by
        have : pts1d p ≤ 7 * subs p := by unfold pts1d subs; split <;> omega
        exact_mod_cast this
      have h3 : (n : ℝ) ≤ n + (1 + 1 / 10 ^ 14) / s := by
        have : 0 ≤ (1 + 1 / 10 ^ 14) / s := by positivity
        linarith
      gcongr
    have h2 : ((pts1d p ^ 3 * n ^ 3 : ℕ) : ℝ) < ((2 ^ 31 : ℕ) : ℝ) := by
      refine lt_of_le_of_lt (h1.trans hV) (by norm_num)
    exact_mod_cast h2
  · rw [(cube_extent hs (d := 0) (by omega)).1, (cube_extent hs (d := 0) (by omega)).2, (cube_extent hs (d := 1) (by omega)).1,
      (cube_extent hs (d := 1) (by omega)).2, (cube_extent hs (d := 2) (by omega)).1, (cube_extent hs (d := 2) (by omega)).2]
    refine le_trans (le_of_eq ?_) hV
    field_simp
    ring

/-- **C90 on cubes, overflow.**  A cube cut into `n³` cells of size `s`, order `p ≤ 9`: if `K B² ≥ 2^31` with `K = 7 max(p,1) n` and
`B = K + ⌊7 max(p,1) / s⌋`, the behaviour of `refine_mesh` is undefined. -/
theorem C90_cube_overflow (n p : ℕ) (hn : 0 < n) (hp : p ≤ 9) (s : ℝ) (hs : 0 < s) (hs' : s ≤ 10 ^ 64) (q : Junk) (jk : ℕ → ℕ)
    (hV : 2 ^ 31 ≤ 7 * subs p * n * (7 * subs p * n + ⌊7 * subs p / s⌋₊) ^ 2) :
    refineMesh32 (n ^ 3) ((n + 1) ^ 3) p (cubeNodes n) (cubeX n s) q jk = none := by
  have hC : n ^ 3 - 1 < n ^ 3 := by have : 0 < n ^ 3 := by positivity
                                    omega
  have hL := cube_lattice hn hs
  have hsub : (0 : ℝ) < subs p := by exact_mod_cast subs_pos p
  refine C90_refine_overflow (n ^ 3) ((n + 1) ^ 3) p hp (cubeNodes n) (cubeX n s) q jk ⟨hL.ne, ?_⟩ (n ^ 3 - 1) 7 hC (by omega) ?_
  · intro a ha b hb hab
    have : ∃ d < 3, Key.bit a d ≠ Key.bit b d := by
      rcases Nat.lt_or_gt_of_ne hab with h | h
      · exact Key.bit_ne b hb a h
      · obtain ⟨d, hd, hne⟩ := Key.bit_ne a ha b h; exact ⟨d, hd, hne.symm⟩
    obtain ⟨d, hd, hne⟩ := this
    refine ⟨d, hd, fun e => hne ?_⟩
    rw [cube_digits hC ha hd, cube_digits hC hb hd] at e
    have := mul_left_cancel₀ hs.ne' e
    exact_mod_cast add_left_cancel this
  · rw [cube_bin hn hs hs']
    have e : ∀ d < 3, cubeX n s (cubeNodes n (n ^ 3 - 1) 7) d = s * n := by
      intro d hd
      have hb : Key.bit 7 d = 1 := by interval_cases d <;> rfl
      rw [cube_digits hC (by omega) hd, hb]
      congr 1
      have hp3 : n ^ 3 - 1 = (n - 1) + (n - 1) * n + (n - 1) * n * n := by
        obtain ⟨m, rfl⟩ : ∃ m, n = m + 1 := ⟨n - 1, by omega⟩
        rw [Nat.add_sub_cancel]
        have : (m + 1) ^ 3 = (m + m * (m + 1) + m * (m + 1) * (m + 1)) + 1 := by ring
        omega
      obtain ⟨d0, d1, d2⟩ := lex3_mod (i := n - 1) (j := n - 1) (k := n - 1) (n := n) (m := n) (by omega) (by omega)
      rw [hp3, d0, d1, d2]
      have : ((n - 1 : ℕ) : ℝ) = n - 1 := by rw [Nat.cast_sub hn]; simp
      interval_cases d <;> simp [this]
    have hidx : 7 * subs p * n ≤ index ((n + 1) ^ 3) (cubeX n s) (s / (7 * subs p))
        (fun d => cubeX n s (cubeNodes n (n ^ 3 - 1) 7) d) 2 := by
      rw [index_eq]
      unfold bin
      apply Nat.le_floor
      simp only []
      rw [e 2 (by omega), (cube_extent hs (d := 2) (by omega)).1]
      push_cast
      rw [le_div_iff₀ (by positivity)]
      have : 7 * (subs p : ℝ) * n * (s / (7 * subs p)) = s * n := by field_simp
      rw [this]
      have : (0 : ℝ) < 1 / 10 ^ 14 := by norm_num
      linarith
    have hbin : ∀ d < 3, 7 * subs p * n + ⌊7 * subs p / s⌋₊ ≤ bins ((n + 1) ^ 3) (cubeX n s) (s / (7 * subs p)) d := by
      intro d hd
      unfold bins
      rw [floor_max]
      apply Nat.le_floor
      rw [(cube_extent hs hd).1, (cube_extent hs hd).2]
      push_cast
      have hf : ((⌊7 * subs p / s⌋₊ : ℕ) : ℝ) ≤ 7 * subs p / s := Nat.floor_le (by positivity)
      have h2 : (s * n - 0 + 1 + 1 / 10 ^ 14) / (s / (7 * (subs p : ℝ))) = 7 * subs p * n + 7 * subs p / s
          + (1 / 10 ^ 14) * (7 * subs p) / s := by field_simp; ring
      rw [h2]
      have h3 : 0 ≤ (1 / 10 ^ 14) * (7 * (subs p : ℝ)) / s := by positivity
      linarith
    have b0 := hbin 0 (by omega)
    have b1 := hbin 1 (by omega)
    have hprod : 7 * subs p * n * (7 * subs p * n + ⌊7 * subs p / s⌋₊) ^ 2 ≤
        index ((n + 1) ^ 3) (cubeX n s) (s / (7 * subs p)) (fun d => cubeX n s (cubeNodes n (n ^ 3 - 1) 7) d) 2
        * bins ((n + 1) ^ 3) (cubeX n s) (s / (7 * subs p)) 0 * bins ((n + 1) ^ 3) (cubeX n s) (s / (7 * subs p)) 1 := by
      rw [pow_two, ← mul_assoc]
      gcongr
    unfold key
    omega

/-- **C90 on the unit cube, sufficient condition.**  `n³` cells, order `1 ≤ p ≤ 9`, `p n ≤ 92`. -/
theorem C90_unit_fits (n p : ℕ) (hn : 0 < n) (hp1 : 1 ≤ p) (hp : p ≤ 9) (hpn : p * n ≤ 92) (q : Junk) (jk : ℕ → ℕ) :
    ∃ r, refineMesh32 (n ^ 3) ((n + 1) ^ 3) p (cubeNodes n) (cubeX n (1 / n)) q jk = some r ∧
      refineMesh (n ^ 3) ((n + 1) ^ 3) p (cubeNodes n) (cubeX n (1 / n)) q = some r := by
  have hn' : (1 : ℝ) ≤ n := by exact_mod_cast hn
  refine C90_cube_fits n p hn hp (1 / n) (by positivity) ?_ q jk ?_
  · rw [div_le_iff₀ (by positivity)]; linarith
  · have hs : (subs p : ℝ) = p := by unfold subs; rw [if_neg (by omega)]
    rw [hs]
    have h1 : 7 * (p : ℝ) * (n + (1 + 1 / 10 ^ 14) / (1 / n)) = 7 * (2 + 1 / 10 ^ 14) * (p * n) := by
      field_simp; ring
    rw [h1]
    have h2 : ((p : ℝ) * n) ≤ 92 := by exact_mod_cast hpn
    have h3 : 0 ≤ (p : ℝ) * n := by positivity
    calc (7 * (2 + 1 / 10 ^ 14) * ((p : ℝ) * n)) ^ 3 ≤ (7 * (2 + 1 / 10 ^ 14) * 92) ^ 3 := by gcongr
      _ ≤ 2 ^ 31 - 10 := by norm_num

/-- **C90 on the unit cube, failure.**  The unit cube cut into `n³` cells cannot be refined to order `p` if `p n ≥ 117` (for instance
`24³` cells and order 5): the behaviour is undefined. -/
theorem C90_unit_negation (n p : ℕ) (hn : 0 < n) (hp1 : 1 ≤ p) (hp : p ≤ 9) (hpn : 117 ≤ p * n) (q : Junk) (jk : ℕ → ℕ) :
    refineMesh32 (n ^ 3) ((n + 1) ^ 3) p (cubeNodes n) (cubeX n (1 / n)) q jk = none := by
  have hn' : (1 : ℝ) ≤ n := by exact_mod_cast hn
  refine C90_cube_overflow n p hn hp (1 / n) (by positivity) ?_ q jk ?_
  · rw [div_le_iff₀ (by positivity)]; linarith
  · have hs : subs p = p := by unfold subs; rw [if_neg (by omega)]
    rw [hs]
    have hf : ⌊7 * (p : ℝ) / (1 / n)⌋₊ = 7 * p * n := by
      have : 7 * (p : ℝ) / (1 / n) = ((7 * p * n : ℕ) : ℝ) := by push_cast; field_simp
      rw [this, Nat.floor_natCast]
    rw [hf]
    calc 2 ^ 31 ≤ 1372 * 117 ^ 3 := by norm_num
      _ ≤ 1372 * (p * n) ^ 3 := by gcongr
      _ = 7 * p * n * (7 * p * n + 7 * p * n) ^ 2 := by ring

/-- **C90, failure on small meshes.**  A single cubic cell of size `1e-4` or less cannot be refined to any order up to 9: the behaviour
is undefined.  (A cell of size 1 can: `C90_unit_fits`.) -/
theorem C90_tiny_negation (p : ℕ) (hp : p ≤ 9) (s : ℝ) (hs : 0 < s) (hs' : s ≤ 1 / 10 ^ 4) (q : Junk) (jk : ℕ → ℕ) :
    refineMesh32 1 8 p (cubeNodes 1) (cubeX 1 s) q jk = none := by
  have := C90_cube_overflow 1 p (by norm_num) hp s hs (hs'.trans (by norm_num)) q jk ?_
  · simpa using this
  · have h1 := subs_pos p
    have hf : 70000 ≤ ⌊7 * (subs p : ℝ) / s⌋₊ := by
      apply Nat.le_floor
      rw [le_div_iff₀ hs]
      have h2 : (1 : ℝ) ≤ subs p := by exact_mod_cast h1
      push_cast
      nlinarith
    calc 2 ^ 31 ≤ 7 * 1 * 1 * (0 + 70000) ^ 2 := by norm_num
      _ ≤ 7 * subs p * 1 * (7 * subs p * 1 + ⌊7 * (subs p : ℝ) / s⌋₊) ^ 2 := by gcongr <;> omega

/-- Non-vacuity: concrete sizes on both sides. -/
example (q : Junk) (jk : ℕ → ℕ) : (∃ r, refineMesh32 (18 ^ 3) (19 ^ 3) 5 (cubeNodes 18) (cubeX 18 (1 / (18 : ℕ))) q jk = some r) ∧
    refineMesh32 (24 ^ 3) (25 ^ 3) 5 (cubeNodes 24) (cubeX 24 (1 / (24 : ℕ))) q jk = none :=
  ⟨(C90_unit_fits 18 5 (by norm_num) (by norm_num) (by norm_num) (by norm_num) q jk).imp fun _ h => h.1,
    C90_unit_negation 24 5 (by norm_num) (by norm_num) (by norm_num) (by norm_num) q jk⟩

end Verif.Int32
