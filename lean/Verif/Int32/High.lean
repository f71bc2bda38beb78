import Verif.Int32.Patches
import Verif.Swage.HighOrderLattice

/-!
# C90 for `refine_high_order_mesh`

* `C90_high_same` (in `Int32/Patches.lean`): a run without overflow is the run of unbounded integers.
* `C90_high_fits`: a sufficient condition in terms of the extent of the mesh and the bin size.
* `C90_high_cube_fits`, `C90_high_negation`: a cube cut into `n³` order-`p` elements is refined without overflow if
  `(7 p² (n + (1 + 1e-14)/s))³ ≤ 2^31 - 10`; if `n p² ≥ 185` the keys overflow, whatever the size `s` of the elements.
-/

namespace Verif.Int32
open Verif.Swage Verif.Swage.HighOrder
open Verif.Swage.Refine (Refined cellId cellId_surj floor_max dig)

/-- If nothing overflows, the checked run completes. -/
theorem high_complete {E N p : ℕ} (hp : 1 ≤ p) (hp9 : p ≤ 9) {nodes : ℕ → ℕ → ℕ} {x : ℕ → ℕ → ℝ} {q : Junk} (jk : ℕ → ℕ) {r : Refined}
    (e : refineHighOrder E N p nodes x q = some r) (hE : 0 < E) (hK : (2 * p + 1) ^ 3 * E < 2 ^ 31)
    (hb : ∀ d < 3, bins N x (binSize E p nodes x) d < 2 ^ 31) (hy : ∀ d < 2, 0 < bins N x (binSize E p nodes x) d)
    (hk : ∀ g < E * (2 * p + 1) ^ 3, key N x (binSize E p nodes x) (r.gauss.val g) + 10 < 2 ^ 31) :
    refineHighOrder32 E N p nodes x q jk = some r := by
  unfold refineHighOrder at e
  obtain ⟨Z, hZ, e⟩ := Option.bind_eq_some_iff.1 e
  obtain ⟨lob, hl, e⟩ := Option.bind_eq_some_iff.1 e
  obtain ⟨g, hg, e⟩ := Option.bind_eq_some_iff.1 e
  by_cases hne : hashDist p (minDist E p nodes x) = 0
  · simp only [hne, if_true] at e
    cases e
  simp only [if_neg hne] at e
  obtain ⟨u, hu, e⟩ := Option.bind_eq_some_iff.1 e
  obtain ⟨t, ht, e⟩ := Option.bind_eq_some_iff.1 e
  obtain ⟨w, hw, e⟩ := Option.bind_eq_some_iff.1 e
  obtain ⟨co, hco, e⟩ := Option.bind_eq_some_iff.1 e
  obtain ⟨ce, hce, e⟩ := Option.bind_eq_some_iff.1 e
  obtain ⟨nl, hnl, e⟩ := Option.bind_eq_some_iff.1 e
  have e' := Option.some.inj e
  subst e'
  have hgs : g.g.size = (2 * p + 1) ^ 3 * E := by
    obtain ⟨Z', hZ1, hZ2⟩ := equi_run hp q.vert
    have : Z' = Z := by rw [hZ] at hZ1; exact (Option.some.inj hZ1).symm
    subst this
    obtain ⟨s, hg1, hg2⟩ := gaussPoints_spec (E := E) hp hp9 nodes x hZ2 (L := lob.val)
      (fun i hi => resolved hp hp9 hZ2 hl hi) q.work q.vx q.vy q.vz q.gauss
    have : s = g := by rw [hg] at hg1; exact (Option.some.inj hg1).symm
    subst this
    rw [hg2.2.1]; ring
  have hG : (2 * p + 1) ^ 3 < 2 ^ 31 := lt_of_le_of_lt (Nat.le_mul_of_pos_right _ hE) hK
  have hk' : ∀ i < (2 * p + 1) ^ 3 * E, keyZ (posMin N x) (posMax N x) (binSize E p nodes x) (g.g.val i) + 10 < 2 ^ 31 :=
    fun i hi => hk i (by rw [Nat.mul_comm]; exact hi)
  have b0 : 0 < binsZ (posMin N x) (posMax N x) (binSize E p nodes x) 0 := hy 0 (by omega)
  have b1 : 0 < binsZ (posMin N x) (posMax N x) (binSize E p nodes x) 1 := hy 1 (by omega)
  have hidx : ∀ i < (2 * p + 1) ^ 3 * E, ∀ d < 3, indexZ (posMin N x) (binSize E p nodes x) (g.g.val i) d < 2 ^ 31 := by
    intro i hi d hd
    have h := hk' i hi
    unfold keyZ at h
    have m1 := Nat.le_mul_of_pos_right (indexZ (posMin N x) (binSize E p nodes x) (g.g.val i) 1) b0
    have m2 := (Nat.le_mul_of_pos_right (indexZ (posMin N x) (binSize E p nodes x) (g.g.val i) 2) b0).trans
      (Nat.le_mul_of_pos_right _ b1)
    interval_cases d <;> omega
  obtain ⟨ks, hks⟩ := keys32_run (mn := posMin N x) (mx := posMax N x) (h := binSize E p nodes x) (g := g.g) jk hgs hb b1
    (fun i hi d hd => hidx i hi d (by omega)) (fun i hi => hidx i hi 2 (by omega)) (fun i hi => by have := hk' i hi; omega)
  obtain ⟨k1, k2, k3, k4⟩ := keys32_some hgs hks
  have hsz : ks.2 + 10 < 2 ^ 31 := by
    rw [k1]
    have := (maxKey_lt (K := (2 * p + 1) ^ 3 * E) (B := 2 ^ 31 - 10)
      (k := fun i => keyZ (posMin N x) (posMax N x) (binSize E p nodes x) (g.g.val i)) (by norm_num)).2
      (fun i hi => by have := hk' i hi; omega)
    omega
  unfold refineHighOrder32
  show (int32 ((2 * p + 1) ^ 3)).bind _ = _
  rw [int32_lt hG, Option.bind_some]
  show (int32 ((2 * p + 1) ^ 3 * E)).bind _ = _
  rw [int32_lt hK, Option.bind_some]
  refine (congrArg (fun z => Option.bind z _) hZ).trans ?_
  rw [Option.bind_some]
  refine (congrArg (fun z => Option.bind z _) hl).trans ?_
  rw [Option.bind_some]
  refine (congrArg (fun z => Option.bind z _) hg).trans ?_
  rw [Option.bind_some]
  simp only [if_neg hne]
  refine (congrArg (fun z => Option.bind z _) hks).trans ?_
  rw [Option.bind_some]
  refine (congrArg (fun z => Option.bind z _) (int32_lt hsz)).trans ?_
  rw [Option.bind_some]
  have ht' : Refine.zeroTable ((2 * p + 1) ^ 3 * E) ks.1 ⟨ks.2 + 10, q.table⟩ = some t := by
    rw [zeroTable_congr k2, k1]; exact ht
  refine (congrArg (fun z => Option.bind z _) ht').trans ?_
  rw [Option.bind_some]
  refine (congrArg (fun z => Option.bind z _) ((walk_congr k2 _).trans hw)).trans ?_
  rw [Option.bind_some]
  refine (congrArg (fun z => Option.bind z _) hco).trans ?_
  rw [Option.bind_some]
  refine (congrArg (fun z => Option.bind z _) hce).trans ?_
  rw [Option.bind_some]
  refine (congrArg (fun z => Option.bind z _) hnl).trans ?_
  rw [Option.bind_some]
  rfl

/-- **C90, high order: sufficient condition.**  If the Gauss points lie in the bounding box of the vertices, the bin size `h` is at
most 1, the number of Gauss points fits and `∏ (extent_d + 1 + 1e-14)/h ≤ 2^31 - 10`, nothing overflows. -/
theorem C90_high_fits (E N p : ℕ) (hp : 1 ≤ p) (hp9 : p ≤ 9) (hE : 0 < E) (nodes : ℕ → ℕ → ℕ)
    (x : ℕ → ℕ → ℝ) (q : Junk) (jk : ℕ → ℕ) (hf : FirstRows E p nodes x) (h : ℝ) (hh : h = binSize E p nodes x) (h1 : h ≤ 1)
    (hK : (2 * p + 1) ^ 3 * E < 2 ^ 31)
    (hV : (posMax N x 0 - posMin N x 0 + 1 + 1 / 10 ^ 14) / h * ((posMax N x 1 - posMin N x 1 + 1 + 1 / 10 ^ 14) / h)
      * ((posMax N x 2 - posMin N x 2 + 1 + 1 / 10 ^ 14) / h) ≤ 2 ^ 31 - 10) :
    ∃ r, refineHighOrder E N p nodes x q = some r ∧
      ((∀ g < E * (2 * p + 1) ^ 3, ∀ d < 3, ∃ n < N, ∃ n' < N, x n d ≤ r.gauss.val g d ∧ r.gauss.val g d ≤ x n' d) →
        refineHighOrder32 E N p nodes x q jk = some r) := by
  subst hh
  obtain ⟨r, hr, -⟩ := high_run (N := N) hp hp9 nodes x q hf
  refine ⟨r, hr, ?_⟩
  intro hbox
  have h0 := binSize_pos hp hf
  set h := binSize E p nodes x with hh
  have hb : ∀ g < E * (2 * p + 1) ^ 3, ∀ d < 3, posMin N x d ≤ r.gauss.val g d ∧ r.gauss.val g d ≤ posMax N x d := by
    intro g hg d hd
    obtain ⟨n, hn, n', hn', a, b⟩ := hbox g hg d hd
    exact ⟨(posMin_le N x d n hn).trans a, b.trans (le_posMax N x d n' hn')⟩
  have hG : 0 < E * (2 * p + 1) ^ 3 := Nat.mul_pos hE (by positivity)
  have hext : ∀ d < 3, 0 ≤ (posMax N x d - posMin N x d + 1 + 1 / 10 ^ 14) / h := fun d hd => by
    have := hb 0 hG d hd
    have h14 : (0 : ℝ) < 1 / 10 ^ 14 := by norm_num
    exact div_nonneg (by linarith) h0.le
  have hbins : ∀ d < 3, (bins N x h d : ℝ) ≤ (posMax N x d - posMin N x d + 1 + 1 / 10 ^ 14) / h := fun d hd => by
    unfold bins; rw [floor_max]; exact Nat.floor_le (hext d hd)
  have hpos : ∀ d < 3, 0 < bins N x h d := fun d hd =>
    lt_of_le_of_lt (Nat.zero_le _) (bin_lt N x h0 h1 (r.gauss.val 0) d (hb 0 hG d hd).1 (hb 0 hG d hd).2)
  have hprod : bins N x h 0 * bins N x h 1 * bins N x h 2 ≤ 2 ^ 31 - 10 := by
    have : ((bins N x h 0 * bins N x h 1 * bins N x h 2 : ℕ) : ℝ) ≤ 2 ^ 31 - 10 := by
      push_cast
      refine le_trans ?_ hV
      have a0 := hext 0 (by omega)
      have a1 := hext 1 (by omega)
      have b0 := hbins 0 (by omega)
      have b1 := hbins 1 (by omega)
      have b2 := hbins 2 (by omega)
      gcongr
    have h2 : ((2 ^ 31 - 10 : ℕ) : ℝ) = 2 ^ 31 - 10 := by norm_num
    rw [← h2] at this
    exact_mod_cast this
  have hkey : ∀ g < E * (2 * p + 1) ^ 3, key N x h (r.gauss.val g) + 10 < 2 ^ 31 := by
    intro g hg
    have k0 := bin_lt N x h0 h1 (r.gauss.val g) 0 (hb g hg 0 (by omega)).1 (hb g hg 0 (by omega)).2
    have k1 := bin_lt N x h0 h1 (r.gauss.val g) 1 (hb g hg 1 (by omega)).1 (hb g hg 1 (by omega)).2
    have k2 := bin_lt N x h0 h1 (r.gauss.val g) 2 (hb g hg 2 (by omega)).1 (hb g hg 2 (by omega)).2
    have : key N x h (r.gauss.val g) < bins N x h 0 * bins N x h 1 * bins N x h 2 := by
      unfold key
      simp only [index_eq]
      generalize bin N x h (r.gauss.val g) 0 = i at *
      generalize bin N x h (r.gauss.val g) 1 = j at *
      generalize bin N x h (r.gauss.val g) 2 = k at *
      generalize bins N x h 0 = bx at *
      generalize bins N x h 1 = by_ at *
      generalize bins N x h 2 = bz at *
      calc i + j * bx + k * bx * by_ < bx + j * bx + k * bx * by_ := by omega
        _ = (j + 1) * bx + k * bx * by_ := by ring
        _ ≤ by_ * bx + k * bx * by_ := by gcongr; omega
        _ = (k + 1) * (bx * by_) := by ring
        _ ≤ bz * (bx * by_) := by gcongr; omega
        _ = bx * by_ * bz := by ring
    omega
  have hle : ∀ d < 3, bins N x h d < 2 ^ 31 := by
    intro d hd
    have p0 := hpos 0 (by omega)
    have p1 := hpos 1 (by omega)
    have p2 := hpos 2 (by omega)
    have m0 : bins N x h 0 ≤ bins N x h 0 * bins N x h 1 * bins N x h 2 :=
      (Nat.le_mul_of_pos_right _ p1).trans (Nat.le_mul_of_pos_right _ p2)
    have m1 : bins N x h 1 ≤ bins N x h 0 * bins N x h 1 * bins N x h 2 :=
      (Nat.le_mul_of_pos_left _ p0).trans (Nat.le_mul_of_pos_right _ p2)
    have m2 : bins N x h 2 ≤ bins N x h 0 * bins N x h 1 * bins N x h 2 := Nat.le_mul_of_pos_left _ (Nat.mul_pos p0 p1)
    interval_cases d <;> omega
  exact high_complete hp hp9 jk hr hE hK hle (fun d hd => hpos d (by omega)) hkey

/-! ### Box meshes -/

theorem boxes_rows {E N p : ℕ} (hp : 1 ≤ p) {nodes : ℕ → ℕ → ℕ} {x : ℕ → ℕ → ℝ} {o w : ℕ → ℝ} {pos : ℕ → ℕ → ℤ}
    (hB : Boxes E N p nodes x o w pos) {e i d : ℕ} (he : e < E) (hi : i ≤ p) (hd : d < 3) :
    x (nodes e i) d = o d + w d * ((pos e d : ℝ) + (dig i 0 0 d : ℝ) / p) := by
  have := hB.coords e he i hi 0 (by omega) 0 (by omega) d hd
  simpa using this

theorem boxes_first {E N p : ℕ} (hp : 1 ≤ p) {nodes : ℕ → ℕ → ℕ} {x : ℕ → ℕ → ℝ} {o w : ℕ → ℝ} {pos : ℕ → ℕ → ℤ}
    (hB : Boxes E N p nodes x o w pos) : FirstRows E p nodes x := by
  intro e he j i hji hip
  refine ⟨0, by omega, ?_⟩
  rw [boxes_rows hp hB he (by omega) (by omega), boxes_rows hp hB he hip (by omega)]
  simp only [dig, if_true]
  intro h
  have hp0 : (0 : ℝ) < p := by exact_mod_cast hp
  have hw0 := hB.wpos 0 (by omega)
  have : w 0 * ((j : ℝ) / p) = w 0 * ((i : ℝ) / p) := by linarith
  have h2 := mul_left_cancel₀ hw0.ne' this
  have h3 : (j : ℝ) = i := by field_simp at h2; linarith
  have : j = i := by exact_mod_cast h3
  omega

/-- The smallest distance found on a mesh of boxes is the x-spacing of the vertices. -/
theorem boxes_dist {E N p : ℕ} (hp : 1 ≤ p) {nodes : ℕ → ℕ → ℕ} {x : ℕ → ℕ → ℝ} {o w : ℕ → ℝ} {pos : ℕ → ℕ → ℤ}
    (hB : Boxes E N p nodes x o w pos) (hw : w 0 ≤ numMax) : minDist E p nodes x = w 0 / p := by
  have hp0 : (0 : ℝ) < p := by exact_mod_cast hp
  have hp1 : (1 : ℝ) ≤ p := by exact_mod_cast hp
  have hw0 := hB.wpos 0 (by omega)
  have hpair : ∀ e < E, ∀ j i, j < i → i ≤ p →
      pairDist (fun l d => x (nodes e l) d) j i = w 0 * (((i : ℝ) - j) / p) := by
    intro e he j i hji hi
    rw [pairDist_eq]
    rw [boxes_rows hp hB he hi (show 0 < 3 by omega), boxes_rows hp hB he (show j ≤ p by omega) (show 0 < 3 by omega),
      boxes_rows hp hB he hi (show 1 < 3 by omega), boxes_rows hp hB he (show j ≤ p by omega) (show 1 < 3 by omega)]
    simp only [dig, if_true, one_ne_zero, if_false, Nat.cast_zero]
    have hij : (0 : ℝ) ≤ (i : ℝ) - j := by
      have : (j : ℝ) ≤ i := by exact_mod_cast hji.le
      linarith
    rw [show (o 0 + w 0 * ((pos e 0 : ℝ) + (i : ℝ) / p) - (o 0 + w 0 * ((pos e 0 : ℝ) + (j : ℝ) / p))) ^ 2 +
      (o 1 + w 1 * ((pos e 1 : ℝ) + 0 / p) - (o 1 + w 1 * ((pos e 1 : ℝ) + 0 / p))) ^ 2 = (w 0 * (((i : ℝ) - j) / p)) ^ 2 by ring]
    exact Real.sqrt_sq (by positivity)
  apply le_antisymm
  · refine (minDist_le nodes x hB.ne (show 0 < 1 by omega) hp).trans ?_
    rw [hpair 0 hB.ne 0 1 (by omega) hp]
    simp [div_eq_mul_inv]
  · unfold minDist
    refine loop_keep (fun m => w 0 / p ≤ m) ?_ fun e he m hm => loop_keep (fun m => w 0 / p ≤ m) hm fun j hj m hm =>
      loop_keep (fun m => w 0 / p ≤ m) hm fun t ht m hm => le_min hm ?_
    · exact (div_le_self hw0.le hp1).trans hw
    · rw [hpair e he j (j + 1 + t) (by omega) (by omega), mul_div_assoc', div_le_div_iff_of_pos_right hp0]
      push_cast
      have : (0 : ℝ) ≤ t := Nat.cast_nonneg t
      nlinarith

/-- Positions of the Gauss points on a mesh of boxes. -/
theorem boxes_gauss {E N p : ℕ} (hp : 1 ≤ p) (hp9 : p ≤ 9) {nodes : ℕ → ℕ → ℕ} {x : ℕ → ℕ → ℝ} {o w : ℕ → ℝ} {pos : ℕ → ℕ → ℤ}
    (hB : Boxes E N p nodes x o w pos) {q : Junk} {r : Refined} (hr : refineHighOrder E N p nodes x q = some r) :
    ∃ t : ℕ → ℝ, t 0 = 0 ∧ t (2 * p) = 1 ∧ (∀ i < 2 * p + 1, 0 ≤ t i ∧ t i ≤ 1) ∧
      ∀ e k j i, e < E → k < 2 * p + 1 → j < 2 * p + 1 → i < 2 * p + 1 → ∀ d < 3,
        r.gauss.val (cellId (2 * p + 1) e k j i) d = o d + w d * ((pos e d : ℝ) + t (dig i j k d)) := by
  have hp0 : (0 : ℝ) < p := by exact_mod_cast hp
  obtain ⟨r', hr', R⟩ := high_run (N := N) hp hp9 nodes x q (boxes_first hp hB)
  have : r' = r := by rw [hr] at hr'; exact (Option.some.inj hr').symm
  subst this
  obtain ⟨lob, hl, hg⟩ := R.gauss
  have hL := lob_sym hp hp9 hl
  refine ⟨fun i => (1 + lob.val i) / 2, by simp only []; rw [hL.left]; norm_num, by simp only []; rw [hL.right]; norm_num, ?_, ?_⟩
  · have hγ : (0 : ℝ) < 6 / (7 * ((p : ℝ) * p)) := by positivity
    have hstep := lob_gap hp hp9 hl
    intro i hi
    simp only []
    constructor
    · rcases Nat.eq_zero_or_pos i with h | h
      · rw [h, hL.left]; norm_num
      · have := Refine.mono_of_step hγ hstep h hi
        rw [hL.left] at this; linarith
    · by_cases h : i = 2 * p
      · rw [h, hL.right]; norm_num
      · have := Refine.mono_of_step hγ hstep (show i < 2 * p by omega) (by omega)
        rw [hL.right] at this; linarith
  · intro e k j i he hk hj hi d hd
    rw [hg e k j i he hk hj hi d hd]
    have h1 := isoMap_line hp (fun I => x (nodes e I) d) (fun u => (o d + w d * (pos e d : ℝ)) + w d * ((u : ℝ) / p)) d hd
      (fun i hi j hj k hk => by rw [hB.coords e he i hi j hj k hk d hd]; ring)
      (fun m => lob.val (dig i j k m))
    rw [edgeMap_affine hp] at h1
    simp only [dig, if_true, one_ne_zero, if_false, OfNat.ofNat_ne_zero, OfNat.ofNat_ne_one] at h1
    rw [h1]
    simp only [dig]
    ring

/-- On a mesh of boxes the Gauss points lie between vertices. -/
theorem boxes_between {E N p : ℕ} (hp : 1 ≤ p) (hp9 : p ≤ 9) {nodes : ℕ → ℕ → ℕ} {x : ℕ → ℕ → ℝ} {o w : ℕ → ℝ} {pos : ℕ → ℕ → ℤ}
    (hB : Boxes E N p nodes x o w pos) {q : Junk} {r : Refined} (hr : refineHighOrder E N p nodes x q = some r)
    (g : ℕ) (hg : g < E * (2 * p + 1) ^ 3) (d : ℕ) (hd : d < 3) :
    ∃ n < N, ∃ n' < N, x n d ≤ r.gauss.val g d ∧ r.gauss.val g d ≤ x n' d := by
  obtain ⟨t, -, -, ht, hpos⟩ := boxes_gauss hp hp9 hB hr
  have hp0 : (0 : ℝ) < p := by exact_mod_cast hp
  obtain ⟨e, k, j, i, he, hk, hj, hi, rfl⟩ := cellId_surj (E := E) (S := 2 * p + 1) (c := g) (by
    rw [show (2 * p + 1) * (2 * p + 1) * (2 * p + 1) * E = E * (2 * p + 1) ^ 3 by ring]; exact hg)
  have hv : p + p * (p + 1) + p * (p + 1) ^ 2 < (p + 1) ^ 3 := by
    rw [show (p + 1) ^ 3 = p + p * (p + 1) + p * (p + 1) ^ 2 + 1 by ring]; omega
  refine ⟨nodes e 0, hB.valid e he 0 (by omega), nodes e (p + p * (p + 1) + p * (p + 1) ^ 2), hB.valid e he _ hv, ?_⟩
  rw [hB.coords e he p le_rfl p le_rfl p le_rfl d hd, boxes_rows hp hB he (by omega) hd, hpos _ _ _ _ he hk hj hi d hd]
  have hdig : dig i j k d < 2 * p + 1 := by
    unfold dig; split
    · exact hi
    · split
      · exact hj
      · exact hk
  obtain ⟨a, b⟩ := ht _ hdig
  have hd0 : dig 0 0 0 d = 0 := by unfold dig; split <;> [rfl; split <;> rfl]
  have hdp : dig p p p d = p := by unfold dig; split <;> [rfl; split <;> rfl]
  rw [hd0, hdp, div_self hp0.ne', Nat.cast_zero, zero_div]
  have hwd := hB.wpos d hd
  constructor
  · have := mul_le_mul_of_nonneg_left (show (pos e d : ℝ) + 0 ≤ pos e d + t (dig i j k d) by linarith) hwd.le
    linarith
  · have := mul_le_mul_of_nonneg_left (show (pos e d : ℝ) + t (dig i j k d) ≤ pos e d + 1 by linarith) hwd.le
    linarith

/-! ### Cubes of high-order elements -/

/-- Vertex `l` of element `e` of a cube cut into `n³` elements of order `p`. -/
def hexNodes (n p e l : ℕ) : ℕ :=
  (p * (e % n) + l % (p + 1)) + (p * (e / n % n) + l / (p + 1) % (p + 1)) * (n * p + 1)
    + (p * (e / n / n) + l / (p + 1) / (p + 1)) * (n * p + 1) * (n * p + 1)

theorem hex_slot {n p a b : ℕ} (ha : a < n) (hb : b ≤ p) : p * a + b < n * p + 1 := by
  have : p * a + p ≤ p * n := by calc p * a + p = p * (a + 1) := by ring
                                   _ ≤ p * n := Nat.mul_le_mul_left _ ha
  have h2 : p * n = n * p := Nat.mul_comm _ _
  omega

/-- The cube is a mesh of boxes; its vertex positions are those of a cube of `(n p)³` cells of size `s / p`. -/
theorem hex_boxes {n p : ℕ} (hn : 0 < n) (hp : 1 ≤ p) {s : ℝ} (hs : 0 < s) :
    Boxes (n ^ 3) ((n * p + 1) ^ 3) p (hexNodes n p) (cubeX (n * p) (s / p)) (fun _ => 0) (fun _ => s)
      (fun e d => ((if d = 0 then e % n else if d = 1 then e / n % n else e / n / n : ℕ) : ℤ)) where
  ne := by positivity
  valid := by
    intro e he l hl
    have e2 := cube_top he
    have l2 : l / (p + 1) / (p + 1) ≤ p := by have := cube_top hl; omega
    have l0 := Nat.mod_lt l (show 0 < p + 1 by omega)
    have l1 := Nat.mod_lt (l / (p + 1)) (show 0 < p + 1 by omega)
    have := flat_lt (N := n * p + 1) (hex_slot (Nat.mod_lt e hn) (show l % (p + 1) ≤ p by omega))
      (hex_slot (Nat.mod_lt (e / n) hn) (show l / (p + 1) % (p + 1) ≤ p by omega)) (hex_slot e2 l2)
    unfold hexNodes
    calc _ < _ := this
      _ = (n * p + 1) ^ 3 := by ring
  wpos := fun _ _ => hs
  coords := by
    intro e he i hi j hj k hk d hd
    have hp0 : (p : ℝ) ≠ 0 := by have : (0 : ℝ) < p := by exact_mod_cast hp
                                 exact this.ne'
    obtain ⟨a0, a1, a2⟩ := lex3_mod (i := i) (j := j) (k := k) (n := p + 1) (m := p + 1) (by omega) (by omega)
    have e2 := cube_top he
    obtain ⟨h0, h1, h2⟩ := lex3_mod (i := p * (e % n) + i) (j := p * (e / n % n) + j) (k := p * (e / n / n) + k)
      (n := n * p + 1) (m := n * p + 1) (hex_slot (Nat.mod_lt e hn) hi) (hex_slot (Nat.mod_lt (e / n) hn) hj)
    unfold cubeX hexNodes
    rw [show i + j * (p + 1) + k * (p + 1) ^ 2 = i + j * (p + 1) + k * (p + 1) * (p + 1) by ring, a0, a1, a2, h0, h1, h2]
    generalize e % n = u0
    generalize e / n % n = u1
    generalize e / n / n = u2
    interval_cases d <;> simp [dig] <;> field_simp

theorem hex_extent {n p : ℕ} (hn : 0 < n) (hp : 1 ≤ p) {s : ℝ} (hs : 1 / 10 ^ 9 ≤ s) (hs' : s ≤ numMax) {d : ℕ} (hd : d < 3) :
    posMin ((n * p + 1) ^ 3) (cubeX (n * p) (s / p)) d = 0 ∧ posMax ((n * p + 1) ^ 3) (cubeX (n * p) (s / p)) d = s * n := by
  have hs0 : 0 < s := lt_of_lt_of_le (by norm_num) hs
  have hp0 : (0 : ℝ) < p := by exact_mod_cast hp
  have hsp : 0 < s / p := by positivity
  have hN : 0 < (n * p + 1) ^ 3 := by positivity
  have htop : s / p * ((n * p : ℕ) : ℝ) = s * n := by push_cast; field_simp
  constructor
  · refine le_antisymm ?_ (loop_keep (fun m => 0 ≤ m) ?_ fun m hm y hy => le_min hy (cubeX_box hm hsp).1)
    · have := posMin_le _ (cubeX (n * p) (s / p)) d 0 hN
      have e : cubeX (n * p) (s / p) 0 d = 0 := by unfold cubeX; simp
      rwa [e] at this
    · linarith
  · refine le_antisymm (loop_keep (fun m => m ≤ s * n) ?_ fun m hm y hy => max_le hy ((cubeX_box hm hsp).2.trans htop.le)) ?_
    · have h1 : (1 : ℝ) ≤ n := by exact_mod_cast hn
      have h2 : s ≤ s * n := by nlinarith
      have h3 : numMin ≤ 1 / 10 ^ 9 := by
        unfold numMin
        apply one_div_le_one_div_of_le (by norm_num)
        calc (10 : ℝ) ^ 9 ≤ 2 ^ 30 := by norm_num
          _ ≤ 2 ^ 1022 := pow_le_pow_right₀ (by norm_num) (by norm_num)
      linarith
    · obtain ⟨h0, h1, h2⟩ := lex3_mod (i := n * p) (j := n * p) (k := n * p) (n := n * p + 1) (m := n * p + 1) (by omega) (by omega)
      have hlt : n * p + n * p * (n * p + 1) + n * p * (n * p + 1) * (n * p + 1) < (n * p + 1) ^ 3 := by
        have := flat_lt (N := n * p + 1) (i := n * p) (j := n * p) (k := n * p) (by omega) (by omega) (by omega)
        calc _ < _ := this
          _ = (n * p + 1) ^ 3 := by ring
      have := le_posMax _ (cubeX (n * p) (s / p)) d _ hlt
      have e : cubeX (n * p) (s / p) (n * p + n * p * (n * p + 1) + n * p * (n * p + 1) * (n * p + 1)) d = s * n := by
        rw [← htop]
        unfold cubeX; rw [h0, h1, h2]; interval_cases d <;> simp
      rwa [e] at this

theorem hex_bin {n p : ℕ} (hn : 0 < n) (hp : 1 ≤ p) {s : ℝ} (hs : 0 < s) (hs' : s ≤ numMax) :
    binSize (n ^ 3) p (hexNodes n p) (cubeX (n * p) (s / p)) = s / (7 * ((p : ℝ) * p)) := by
  unfold binSize hashDist
  rw [boxes_dist hp (hex_boxes hn hp hs) hs', div_div]
  congr 1; ring

/-- **C90 on cubes of high-order elements, sufficient condition.**  A cube cut into `n³` elements of order `p` and size
`1e-9 ≤ s ≤ 7 p²` is refined without overflow if `(7 p² (n + (1 + 1e-14)/s))³ ≤ 2^31 - 10`. -/
theorem C90_high_cube_fits (n p : ℕ) (hn : 0 < n) (hp : 1 ≤ p) (hp9 : p ≤ 9) (s : ℝ) (hs : 1 / 10 ^ 9 ≤ s) (hs7 : s ≤ 7 * ((p : ℝ) * p))
    (q : Junk) (jk : ℕ → ℕ) (hV : (7 * ((p : ℝ) * p) * (n + (1 + 1 / 10 ^ 14) / s)) ^ 3 ≤ 2 ^ 31 - 10) :
    ∃ r, refineHighOrder32 (n ^ 3) ((n * p + 1) ^ 3) p (hexNodes n p) (cubeX (n * p) (s / p)) q jk = some r ∧
      refineHighOrder (n ^ 3) ((n * p + 1) ^ 3) p (hexNodes n p) (cubeX (n * p) (s / p)) q = some r := by
  have hs0 : 0 < s := lt_of_lt_of_le (by norm_num) hs
  have hp0 : (0 : ℝ) < p := by exact_mod_cast hp
  have hp1 : (1 : ℝ) ≤ p := by exact_mod_cast hp
  have hn0 : (0 : ℝ) < n := by exact_mod_cast hn
  have hs' : s ≤ numMax := by
    have hp9' : (p : ℝ) ≤ 9 := by exact_mod_cast hp9
    have h1 : 7 * ((p : ℝ) * p) ≤ 567 := by nlinarith
    have h2 : (2 : ℝ) ^ 10 ≤ numMax := by
      unfold numMax
      calc (2 : ℝ) ^ 10 ≤ 1 * 2 ^ 1023 := by rw [one_mul]; exact pow_le_pow_right₀ (by norm_num) (by norm_num)
        _ ≤ _ := mul_le_mul_of_nonneg_right (by norm_num) (by positivity)
    have h3 : (2 : ℝ) ^ 10 = 1024 := by norm_num
    linarith
  have hB := hex_boxes hn hp hs0
  have hbin := hex_bin hn hp hs0 hs'
  have hK : (2 * p + 1) ^ 3 * n ^ 3 < 2 ^ 31 := by
    have h1 : (((2 * p + 1) ^ 3 * n ^ 3 : ℕ) : ℝ) < 2 ^ 31 := by
      have : ((2 : ℝ) * p + 1) * n ≤ 7 * ((p : ℝ) * p) * (n + (1 + 1 / 10 ^ 14) / s) := by
        have a : 0 ≤ (1 + 1 / 10 ^ 14) / s := by positivity
        have b : (2 : ℝ) * p + 1 ≤ 7 * ((p : ℝ) * p) := by nlinarith
        have c : (n : ℝ) ≤ n + (1 + 1 / 10 ^ 14) / s := by linarith
        exact mul_le_mul b c hn0.le (by positivity)
      have h3 : (((2 : ℝ) * p + 1) * n) ^ 3 ≤ 2 ^ 31 - 10 := (pow_le_pow_left₀ (by positivity) this 3).trans hV
      push_cast
      rw [← mul_pow]
      linarith
    exact_mod_cast h1
  obtain ⟨r, hr, h⟩ := C90_high_fits (n ^ 3) ((n * p + 1) ^ 3) p hp hp9 (by positivity) (hexNodes n p) (cubeX (n * p) (s / p)) q jk
    (boxes_first hp hB) _ rfl (by rw [hbin, div_le_one (by positivity)]; exact hs7) hK (by
      rw [hbin]
      obtain ⟨a0, b0⟩ := hex_extent hn hp hs hs' (show 0 < 3 by omega)
      obtain ⟨a1, b1⟩ := hex_extent hn hp hs hs' (show 1 < 3 by omega)
      obtain ⟨a2, b2⟩ := hex_extent hn hp hs hs' (show 2 < 3 by omega)
      rw [a0, b0, a1, b1, a2, b2]
      refine le_trans (le_of_eq ?_) hV
      rw [show (s * (n : ℝ) - 0 + 1 + 1 / 10 ^ 14) / (s / (7 * ((p : ℝ) * p))) = 7 * ((p : ℝ) * p) * (n + (1 + 1 / 10 ^ 14) / s) by
        field_simp; ring]
      ring)
  exact ⟨r, h (boxes_between hp hp9 hB hr), hr⟩

/-- **C90, negation for high order.**  A cube cut into `n³` elements of order `p` with `n p² ≥ 185`, whatever the size of the elements
(`1e-9 ≤ s ≤ 1e9`): the keys of `refine_high_order_mesh` overflow. -/
theorem C90_high_negation (n p : ℕ) (hn : 0 < n) (hp : 1 ≤ p) (hp9 : p ≤ 9) (hnp : 185 ≤ n * (p * p)) (s : ℝ) (hs : 1 / 10 ^ 9 ≤ s)
    (hs9 : s ≤ 10 ^ 9) (q : Junk) (jk : ℕ → ℕ) :
    refineHighOrder32 (n ^ 3) ((n * p + 1) ^ 3) p (hexNodes n p) (cubeX (n * p) (s / p)) q jk = none := by
  by_contra hne
  obtain ⟨r, hr⟩ := Option.ne_none_iff_exists'.1 hne
  obtain ⟨h1, h2⟩ := C90_high_same _ _ p hp hp9 _ _ q jk r hr
  have hs0 : 0 < s := lt_of_lt_of_le (by norm_num) hs
  have hp0 : (0 : ℝ) < p := by exact_mod_cast hp
  have hs' : s ≤ numMax := by
    have h2 : (2 : ℝ) ^ 30 ≤ numMax := by
      unfold numMax
      calc (2 : ℝ) ^ 30 ≤ 1 * 2 ^ 1023 := by rw [one_mul]; exact pow_le_pow_right₀ (by norm_num) (by norm_num)
        _ ≤ _ := mul_le_mul_of_nonneg_right (by norm_num) (by positivity)
    have h3 : (10 : ℝ) ^ 9 ≤ 2 ^ 30 := by norm_num
    linarith
  have hC : n ^ 3 - 1 < n ^ 3 := by have : 0 < n ^ 3 := by positivity
                                    omega
  have hB := hex_boxes hn hp hs0
  obtain ⟨t, -, ht1, -, hpos⟩ := boxes_gauss hp hp9 hB h1
  have hlt : cellId (2 * p + 1) (n ^ 3 - 1) (2 * p) (2 * p) (2 * p) < n ^ 3 * (2 * p + 1) ^ 3 := by
    have := Refine.cellId_lt (E := n ^ 3) (S := 2 * p + 1) hC (show 2 * p < 2 * p + 1 by omega) (show 2 * p < 2 * p + 1 by omega)
      (show 2 * p < 2 * p + 1 by omega)
    calc _ < _ := this
      _ = _ := by ring
  have hk := h2 _ hlt
  rw [hex_bin hn hp hs0 hs'] at hk
  set h := s / (7 * ((p : ℝ) * p)) with hh
  have hh0 : 0 < h := by positivity
  have hgp : ∀ d < 3, r.gauss.val (cellId (2 * p + 1) (n ^ 3 - 1) (2 * p) (2 * p) (2 * p)) d = s * n := by
    intro d hd
    rw [hpos _ _ _ _ hC (by omega) (by omega) (by omega) d hd]
    have hd2 : dig (2 * p) (2 * p) (2 * p) d = 2 * p := by unfold dig; split <;> [rfl; split <;> rfl]
    rw [hd2, ht1]
    have hp3 : n ^ 3 - 1 = (n - 1) + (n - 1) * n + (n - 1) * n * n := by
      obtain ⟨m, rfl⟩ : ∃ m, n = m + 1 := ⟨n - 1, by omega⟩
      rw [Nat.add_sub_cancel]
      have : (m + 1) ^ 3 = (m + m * (m + 1) + m * (m + 1) * (m + 1)) + 1 := by ring
      omega
    obtain ⟨d0, d1, d2⟩ := lex3_mod (i := n - 1) (j := n - 1) (k := n - 1) (n := n) (m := n) (by omega) (by omega)
    rw [hp3, d0, d1, d2]
    have : ((n - 1 : ℕ) : ℝ) = n - 1 := by rw [Nat.cast_sub hn]; simp
    interval_cases d <;> simp [this]
  have hidx : ∀ d < 3, 7 * (n * (p * p)) ≤ index ((n * p + 1) ^ 3) (cubeX (n * p) (s / p)) h
      (r.gauss.val (cellId (2 * p + 1) (n ^ 3 - 1) (2 * p) (2 * p) (2 * p))) d := by
    intro d hd
    rw [index_eq]
    unfold bin
    rw [hgp d hd, (hex_extent hn hp hs hs' hd).1]
    apply Nat.le_floor
    rw [le_div_iff₀ hh0, hh]
    push_cast
    have : 7 * ((n : ℝ) * (p * p)) * (s / (7 * ((p : ℝ) * p))) = s * n := by field_simp
    rw [this]
    linarith [show (0 : ℝ) < 1 / 10 ^ 14 by norm_num]
  have hbins : ∀ d < 3, 7 * (n * (p * p)) ≤ bins ((n * p + 1) ^ 3) (cubeX (n * p) (s / p)) h d := by
    intro d hd
    unfold bins
    rw [floor_max, (hex_extent hn hp hs hs' hd).1, (hex_extent hn hp hs hs' hd).2]
    apply Nat.le_floor
    rw [le_div_iff₀ hh0, hh]
    push_cast
    have : 7 * ((n : ℝ) * (p * p)) * (s / (7 * ((p : ℝ) * p))) = s * n := by field_simp
    rw [this]
    linarith [show (0 : ℝ) < 1 / 10 ^ 14 by norm_num]
  unfold key at hk
  have i2 := hidx 2 (by omega)
  have b0 := hbins 0 (by omega)
  have b1 := hbins 1 (by omega)
  have hA : 1295 ≤ 7 * (n * (p * p)) := by omega
  have : 1295 * 1295 * 1295 ≤ index ((n * p + 1) ^ 3) (cubeX (n * p) (s / p)) h
      (r.gauss.val (cellId (2 * p + 1) (n ^ 3 - 1) (2 * p) (2 * p) (2 * p))) 2 *
      bins ((n * p + 1) ^ 3) (cubeX (n * p) (s / p)) h 0 * bins ((n * p + 1) ^ 3) (cubeX (n * p) (s / p)) h 1 :=
    Nat.mul_le_mul (Nat.mul_le_mul (hA.trans i2) (hA.trans b0)) (hA.trans b1)
  omega

/-- Non-vacuity: `2³` unit elements of order 2 are refined; `12³` elements of order 4 and `3³` of order 9 are not. -/
example (q : Junk) (jk : ℕ → ℕ) :
    (∃ r, refineHighOrder32 8 125 2 (hexNodes 2 2) (cubeX 4 (1 / 2)) q jk = some r) ∧
    refineHighOrder32 1728 117649 4 (hexNodes 12 4) (cubeX 48 (1 / 4)) q jk = none ∧
    refineHighOrder32 27 21952 9 (hexNodes 3 9) (cubeX 27 (1 / 9)) q jk = none := by
  refine ⟨?_, ?_, ?_⟩
  · obtain ⟨r, hr, -⟩ := C90_high_cube_fits 2 2 (by omega) (by omega) (by omega) 1 (by norm_num) (by norm_num) q jk (by norm_num)
    exact ⟨r, by norm_num at hr ⊢; exact hr⟩
  · have := C90_high_negation 12 4 (by omega) (by omega) (by omega) (by omega) 1 (by norm_num) (by norm_num) q jk
    norm_num at this ⊢; exact this
  · have := C90_high_negation 3 9 (by omega) (by omega) (by omega) (by omega) 1 (by norm_num) (by norm_num) q jk
    norm_num at this ⊢; exact this

end Verif.Int32
