import Verif.Swage.RefineHash
import Mathlib.Tactic.NormNum

/-!
# C42: box grids, and the three failures
-/

namespace Verif.Swage.Refine
open Verif.Swage

theorem lob_val {n : ℕ} (h1 : 2 ≤ n) (h2 : n ≤ 20) {a : ℕ → ℝ} {lob : Arr ℝ}
    (h : Quad.lobatto_nodes_1D n ⟨n, a⟩ = some lob) (i : ℕ) (hi : i < n) : lob.val i = (Quad.lobNodes n).getD i 0 := by
  have hl : (Quad.lobNodes n).length = n := by
    by_cases h4 : n = 4
    · subst h4; rfl
    by_cases h5 : n = 5
    · subst h5; rfl
    by_cases h6 : n = 6
    · subst h6; rfl
    rw [Quad.lobNodes_eq ⟨h4, h5, h6⟩, List.length_map]
    exact (Quad.lob_check n (by omega) h1 ⟨h4, h5, h6⟩).1
  obtain ⟨b, hb, -, hv⟩ := Quad.assign_spec (Quad.lobNodes n) ⟨n, a⟩ hl.le
  unfold Quad.lobatto_nodes_1D at h
  rw [h] at hb
  rw [Option.some.inj hb, hv, if_pos (by omega)]

theorem gap_check : ∀ p ∈ [0, 1, 3, 4, 5], ∀ i < pts1d p - 1,
    2.06 / (7 * (if p = 0 then 1 else (p : ℚ))) ≤ (Quad.lobNodesQ (pts1d p)).getD (i + 1) 0 - (Quad.lobNodesQ (pts1d p)).getD i 0 := by
  decide +kernel

/-- Up to order 5, neighbouring Lobatto points are at least 2.06 bins of a reference element apart. -/
theorem lob_gap {p : ℕ} (hp : p ≤ 5) {a : ℕ → ℝ} {lob : Arr ℝ}
    (h : Quad.lobatto_nodes_1D (pts1d p) ⟨pts1d p, a⟩ = some lob) (i : ℕ) (hi : i + 1 < pts1d p) :
    2.06 / (7 * (if p = 0 then 1 else (p : ℝ))) ≤ lob.val (i + 1) - lob.val i := by
  have n2 : 2 ≤ pts1d p := by unfold pts1d; split <;> omega
  have n20 : pts1d p ≤ 20 := by unfold pts1d; split <;> omega
  rw [lob_val n2 n20 h (i + 1) hi, lob_val n2 n20 h i (by omega)]
  by_cases h2 : p = 2
  · subst h2
    have hs : √21 ^ 2 = (21 : ℝ) := Real.sq_sqrt (by norm_num)
    have h0 : 0 < √21 := Real.sqrt_pos.2 (by norm_num)
    have h1 : √21 < 4.6 := by nlinarith
    have h3 : 4.5 < √21 := by nlinarith
    have hx : Quad.lobNodes (pts1d 2) = [-1, -1/7*√21, 0, 1/7*√21, (1:ℝ)] := rfl
    rw [hx]
    have hi' : i < 4 := by have : pts1d 2 = 5 := rfl; omega
    interval_cases i <;> norm_num <;> linarith
  · have hm : p ∈ [0, 1, 3, 4, 5] := by
      have : p = 0 ∨ p = 1 ∨ p = 3 ∨ p = 4 ∨ p = 5 := by omega
      simpa using this
    have := gap_check p hm i (by omega)
    have hne : pts1d p ≠ 4 ∧ pts1d p ≠ 5 ∧ pts1d p ≠ 6 := by unfold pts1d; split <;> omega
    rw [Quad.lobNodes_eq hne, Quad.getD_map_cast, Quad.getD_map_cast]
    have h3 := (Rat.cast_le (K := ℝ)).2 this
    push_cast at h3
    have e : (((if p = 0 then 1 else (p : ℚ)) : ℚ) : ℝ) = if p = 0 then 1 else (p : ℝ) := by split <;> simp
    rw [e] at h3
    exact h3

/-! ### Separation on a grid line -/

theorem mono_of_step {n : ℕ} {t : ℕ → ℝ} {γ : ℝ} (hγ : 0 < γ) (hs : ∀ i, i + 1 < n → γ ≤ t (i + 1) - t i) {i j : ℕ}
    (hij : i < j) (hj : j < n) : γ ≤ t j - t i := by
  induction j with
  | zero => omega
  | succ j ih =>
    have h1 := hs j hj
    rcases Nat.lt_succ_iff_lt_or_eq.1 hij with h | h
    · have := ih h (by omega); linarith
    · subst h; exact h1

theorem line_sep {n : ℕ} (hn : 2 ≤ n) {t : ℕ → ℝ} {γ : ℝ} (hγ : 0 < γ) (hs : ∀ i, i + 1 < n → γ ≤ t (i + 1) - t i)
    (t0 : t 0 = 0) (t1 : t (n - 1) = 1) {a b : ℤ} {i j : ℕ} (hi : i < n) (hj : j < n) :
    (a : ℝ) + t i = b + t j ∨ γ ≤ |(a : ℝ) + t i - (b + t j)| := by
  have lo : ∀ i < n, 0 ≤ t i ∧ (i ≠ 0 → γ ≤ t i) := by
    intro i hi
    rcases Nat.eq_zero_or_pos i with h | h
    · subst h; exact ⟨t0.ge, fun h => absurd rfl h⟩
    · have := mono_of_step hγ hs h hi
      rw [t0] at this
      exact ⟨by linarith, fun _ => by linarith⟩
  have hi' : ∀ i < n, t i ≤ 1 ∧ (i ≠ n - 1 → t i ≤ 1 - γ) := by
    intro i hi
    by_cases h : i = n - 1
    · subst h; exact ⟨t1.le, fun h => absurd rfl h⟩
    · have := mono_of_step hγ hs (show i < n - 1 by omega) (by omega)
      rw [t1] at this
      exact ⟨by linarith, fun _ => by linarith⟩
  have γ1 : γ ≤ 1 := by
    have := mono_of_step hγ hs (show 0 < n - 1 by omega) (by omega)
    rw [t0, t1] at this; linarith
  have key : ∀ (a b : ℤ) (i j : ℕ), i < n → j < n → (a : ℝ) + t i < b + t j → γ ≤ (b : ℝ) + t j - (a + t i) := by
    intro a b i j hi hj hlt
    rcases lt_trichotomy a b with hab | hab | hab
    · have hc : (a : ℝ) + 1 ≤ b := by exact_mod_cast hab
      by_cases h1 : i = n - 1
      · by_cases h2 : j = 0
        · subst h1 h2
          rw [t1, t0] at hlt ⊢
          have : a + 2 ≤ b := by
            have h3 : (a : ℝ) + 1 < b := by linarith
            have : a + 1 < b := by exact_mod_cast h3
            omega
          have : (a : ℝ) + 2 ≤ b := by exact_mod_cast this
          linarith
        · have := (lo j hj).2 h2
          have := (hi' i hi).1
          linarith
      · have := (hi' i hi).2 h1
        have := (lo j hj).1
        linarith
    · subst hab
      have hlt' : t i < t j := by linarith
      have hij : i < j := by
        by_contra hc
        rcases Nat.lt_or_ge j i with h | h
        · have := mono_of_step hγ hs h hi; linarith
        · have : i = j := by omega
          subst this; exact lt_irrefl _ hlt'
      have := mono_of_step hγ hs hij hj
      linarith
    · have hc : (b : ℝ) + 1 ≤ a := by exact_mod_cast hab
      have := (hi' j hj).1
      have := (lo i hi).1
      linarith
  rcases lt_trichotomy ((a : ℝ) + t i) (b + t j) with h | h | h
  · right
    have := key a b i j hi hj h
    rw [abs_of_neg (by linarith)]; linarith
  · exact Or.inl h
  · right
    have := key b a j i hj hi h
    rw [abs_of_pos (by linarith)]; linarith

/-- Plane positions of the refined grid: `S` planes for each plane of the grid `X`; `t` are the Lobatto points scaled to `[0, 1]`. -/
noncomputable def fineX (S : ℕ) (X : ℕ → ℤ → ℝ) (t : ℕ → ℝ) (d : ℕ) (z : ℤ) : ℝ :=
  X d (z / (S : ℤ)) + (X d (z / (S : ℤ) + 1) - X d (z / (S : ℤ))) * t (z % (S : ℤ)).toNat

theorem fineX_eq {S : ℕ} (hS : 0 < S) {X : ℕ → ℤ → ℝ} {t : ℕ → ℝ} (t0 : t 0 = 0) (t1 : t S = 1) (d : ℕ) (a : ℤ) {i : ℕ} (hi : i ≤ S) :
    fineX S X t d (a * S + i) = X d a + (X d (a + 1) - X d a) * t i := by
  unfold fineX
  have hS' : (0 : ℤ) < S := by exact_mod_cast hS
  rcases Nat.lt_or_ge i S with h | h
  · rw [add_comm (a * (S : ℤ)), Int.add_mul_ediv_right _ _ hS'.ne', Int.add_mul_emod_self_right,
      Int.ediv_eq_zero_of_lt (by omega) (by omega), Int.emod_eq_of_lt (by omega) (by omega), zero_add, Int.toNat_natCast]
  · have : i = S := by omega
    subst this
    rw [show a * (i : ℤ) + (i : ℤ) = (a + 1) * i by ring, Int.mul_ediv_cancel _ hS'.ne', Int.mul_emod_left, Int.toNat_zero, t0, t1]
    ring

/-- The gap between two planes of the refined grid. -/
theorem fineX_gap {S : ℕ} (hS : 0 < S) {X : ℕ → ℤ → ℝ} {t : ℕ → ℝ} (t0 : t 0 = 0) (t1 : t S = 1) (d : ℕ) (z : ℤ) :
    ∃ i < S, fineX S X t d (z + 1) - fineX S X t d z = (X d (z / S + 1) - X d (z / S)) * (t (i + 1) - t i) := by
  have hS' : (0 : ℤ) < S := by exact_mod_cast hS
  have hm := Int.emod_nonneg z hS'.ne'
  have hm2 := Int.emod_lt_of_pos z hS'
  have hz : z = z / S * S + ((z % S).toNat : ℕ) := by
    rw [Int.toNat_of_nonneg hm, mul_comm]; exact (Int.mul_ediv_add_emod z S).symm
  have hi : (z % (S : ℤ)).toNat < S := by omega
  refine ⟨(z % (S : ℤ)).toNat, hi, ?_⟩
  have e1 := fineX_eq hS (X := X) t0 t1 d (z / S) hi.le
  have e2 := fineX_eq hS (X := X) t0 t1 d (z / S) (show (z % (S : ℤ)).toNat + 1 ≤ S by omega)
  rw [← hz] at e1
  rw [show z / (S : ℤ) * S + (((z % (S : ℤ)).toNat + 1 : ℕ) : ℤ) = z + 1 by push_cast; omega] at e2
  rw [e1, e2]; ring

/-- Terms of a sequence with steps of at least `γ` are at least `γ` apart. -/
theorem step_sep {f : ℤ → ℝ} {γ : ℝ} (hγ : 0 < γ) (hs : ∀ z, γ ≤ f (z + 1) - f z) {a b : ℤ} (hab : a ≠ b) : γ ≤ |f a - f b| := by
  have key : ∀ (a : ℤ) (k : ℕ), γ ≤ f (a + 1 + k) - f a := by
    intro a k
    induction k with
    | zero => simpa using hs a
    | succ k ih =>
      have := hs (a + 1 + k)
      rw [show a + 1 + ((k + 1 : ℕ) : ℤ) = a + 1 + k + 1 by push_cast; ring]
      linarith
  rcases lt_or_gt_of_ne hab with h | h
  · have := key a (b - a - 1).toNat
    rw [show a + 1 + ((b - a - 1).toNat : ℤ) = b by omega] at this
    rw [abs_sub_comm]
    exact this.trans (le_abs_self _)
  · have := key b (a - b - 1).toNat
    rw [show b + 1 + ((a - b - 1).toNat : ℤ) = a by omega] at this
    exact this.trans (le_abs_self _)

/-! ### Bin size on a grid -/

theorem grid_dist {C N : ℕ} {nodes : ℕ → ℕ → ℕ} {x : ℕ → ℕ → ℝ} {X : ℕ → ℤ → ℝ} {pos : ℕ → ℕ → ℤ}
    (hL : Key.Grid C N nodes x X pos) (junk : ℕ → ℝ) (j : ℝ) :
    0 < distMin C nodes x junk j ∧
      ∀ d < 3, distMin C nodes x junk j ≤ X d (pos (C - 1) d + 1) - X d (pos (C - 1) d) := by
  rw [distMin_last C nodes x junk j hL.ne]
  have h := hL.dist junk j
  rw [Key.distMin_last C nodes x junk j hL.ne] at h
  obtain ⟨h1, h2⟩ := cellDist_bounds (fun l d => x (nodes (C - 1) l) d) junk
  exact ⟨lt_of_lt_of_le (lt_min (by norm_num) h.1) h2, fun d hd => h1.trans (h.2 d hd)⟩

theorem lattice_dist {C N : ℕ} {nodes : ℕ → ℕ → ℕ} {x : ℕ → ℕ → ℝ} {o s : ℕ → ℝ} {pos : ℕ → ℕ → ℤ}
    (hL : Key.Lattice C N nodes x o s pos) (junk : ℕ → ℝ) (j : ℝ) :
    0 < distMin C nodes x junk j ∧ ∀ d < 3, distMin C nodes x junk j ≤ s d :=
  ⟨(grid_dist hL.grid junk j).1, fun d hd => ((grid_dist hL.grid junk j).2 d hd).trans (le_of_eq (by push_cast; ring))⟩

theorem bit_eq (v d : ℕ) (hv : v < 8) (hd : d < 3) : ((Key.bit v d : ℕ) : ℝ) = if v / 2 ^ d % 2 = 1 then 1 else 0 := by
  unfold Key.bit
  rcases Nat.mod_two_eq_zero_or_one (v / 2 ^ d) with h | h <;> rw [h] <;> norm_num

/-- Digit `d` of a lattice position. -/
def dig (i j k d : ℕ) : ℕ := if d = 0 then i else if d = 1 then j else k

theorem dig_lt {n i j k d : ℕ} (hi : i < n) (hj : j < n) (hk : k < n) : dig i j k d < n := by
  unfold dig; split
  · exact hi
  · split
    · exact hj
    · exact hk

/-- Gauss points of a grid mesh. -/
theorem grid_gauss {E N p : ℕ} (hp : p ≤ 9) {nodes : ℕ → ℕ → ℕ} {x : ℕ → ℕ → ℝ} {X : ℕ → ℤ → ℝ} {pos : ℕ → ℕ → ℤ}
    (hL : Key.Grid E N nodes x X pos) {q : Junk} {r : Refined} (hr : refineMesh E N p nodes x q = some r)
    {lob : Arr ℝ} (hl : Quad.lobatto_nodes_1D (pts1d p) ⟨pts1d p, q.lob⟩ = some lob) {e k j i : ℕ} (he : e < E)
    (hk : k < pts1d p) (hj : j < pts1d p) (hi : i < pts1d p) (d : ℕ) (hd : d < 3) :
    r.gauss.val (cellId (pts1d p) e k j i) d =
      X d (pos e d) + (X d (pos e d + 1) - X d (pos e d)) * ((1 + lob.val (dig i j k d)) / 2) := by
  obtain ⟨r', lob', hr', hl', h⟩ := gauss_affine E N p hp nodes x q (run_ne hr)
    (fun d => X d (pos e d) + (X d (pos e d + 1) - X d (pos e d)) / 2)
    (fun d m => if d = m then (X d (pos e d + 1) - X d (pos e d)) / 2 else 0) e he (by
      intro v hv d hd
      rw [hL.coords e he v hv d hd, Key.X_bit X d _ (Key.bit_le v hv d hd), bit_eq v d hv hd]
      interval_cases v <;> interval_cases d <;> norm_num <;> ring)
  have : r' = r := by rw [hr] at hr'; exact (Option.some.inj hr').symm
  subst this
  have : lob' = lob := by rw [hl] at hl'; exact (Option.some.inj hl').symm
  subst this
  obtain ⟨y, hy, hyd⟩ := h k hk j hj i hi
  have hid : gaussInElem (pts1d p ^ 3) e (i + j * pts1d p + k * pts1d p ^ 2) = cellId (pts1d p) e k j i := by
    unfold gaussInElem cellId; ring
  rw [hid] at hy
  obtain ⟨-, hyv⟩ := Arr.get_eq_some hy
  rw [hyv, hyd d hd]
  unfold dig
  interval_cases d <;> norm_num <;> ring

/-- Gauss points of a lattice mesh. -/
theorem lattice_gauss {E N p : ℕ} (hp : p ≤ 9) {nodes : ℕ → ℕ → ℕ} {x : ℕ → ℕ → ℝ} {o s : ℕ → ℝ} {pos : ℕ → ℕ → ℤ}
    (hL : Key.Lattice E N nodes x o s pos) {q : Junk} {r : Refined} (hr : refineMesh E N p nodes x q = some r)
    {lob : Arr ℝ} (hl : Quad.lobatto_nodes_1D (pts1d p) ⟨pts1d p, q.lob⟩ = some lob) {e k j i : ℕ} (he : e < E)
    (hk : k < pts1d p) (hj : j < pts1d p) (hi : i < pts1d p) (d : ℕ) (hd : d < 3) :
    r.gauss.val (cellId (pts1d p) e k j i) d = o d + s d * ((pos e d : ℝ) + (1 + lob.val (dig i j k d)) / 2) := by
  rw [grid_gauss hp hL.grid hr hl he hk hj hi d hd]
  push_cast; ring

/-- **C42 on rectilinear grids (partial).**  On every mesh made of different cells of a rectilinear grid whose last cell is at most 3%
thicker than any other in each direction and at most 7 wide in some direction, for orders up to 5, and if the first vertex of cell
0 belongs to no other cell: two Gauss points get the same node iff they coincide, and every node has the position of all its Gauss
points. -/
theorem C42_grid_partial (E N p : ℕ) (hp : p ≤ 5) (nodes : ℕ → ℕ → ℕ) (x : ℕ → ℕ → ℝ) (X : ℕ → ℤ → ℝ)
    (pos : ℕ → ℕ → ℤ) (hL : Key.Grid E N nodes x X pos)
    (hsmall : ∃ d < 3, X d (pos (E - 1) d + 1) - X d (pos (E - 1) d) ≤ 7)
    (hfirst : ∀ c < E, ∀ l < 8, nodes c l = nodes 0 0 → c = 0 ∧ l = 0) (q : Junk) :
    ∃ r, refineMesh E N p nodes x q = some r ∧
      (∀ g < E * pts1d p ^ 3, ∀ g' < E * pts1d p ^ 3, r.nig.val g = r.nig.val g' ↔
        ∀ d < 3, r.gauss.val g d = r.gauss.val g' d) ∧
      ∀ g < E * pts1d p ^ 3, ∀ d < 3, r.coords.val (r.nig.val g).toNat d = r.gauss.val g d := by
  obtain ⟨dm0, dms⟩ := grid_dist hL q.dist q.dist0
  set sub : ℝ := if p = 0 then 1 else (p : ℝ) with hsub
  have sub1 : 1 ≤ sub := by
    rw [hsub]; split
    · exact le_rfl
    · next h => exact_mod_cast (show 1 ≤ p by omega)
  have hb : binSize E p nodes x q = distMin E nodes x q.dist q.dist0 / (7 * sub) := rfl
  have hb0 : 0 < binSize E p nodes x q := by rw [hb]; positivity
  have hbs : ∀ d < 3, binSize E p nodes x q ≤ (X d (pos (E - 1) d + 1) - X d (pos (E - 1) d)) * (1 / (7 * sub)) := by
    intro d hd
    rw [hb, ← div_eq_mul_one_div]
    exact div_le_div_of_nonneg_right (dms d hd) (by positivity)
  have hb1 : binSize E p nodes x q ≤ 1 := by
    obtain ⟨d, hd, h7⟩ := hsmall
    refine (hbs d hd).trans ?_
    rw [← div_eq_mul_one_div, div_le_one (by positivity)]
    linarith
  obtain ⟨r, hr, H⟩ := C42_positions_partial E N p (by omega) nodes hL.valid x q hb0 hb1
  refine ⟨r, hr, ?_⟩
  obtain ⟨lob, hl, gn1, gn2, gn3, gn4⟩ := good_nodes (p := p) (by omega) q.lob
  have n2 : 2 ≤ pts1d p := by unfold pts1d; split <;> omega
  obtain ⟨S, hSn⟩ : ∃ S, pts1d p = S + 1 := ⟨pts1d p - 1, by omega⟩
  have hS : 0 < S := by omega
  obtain ⟨t, ht⟩ : ∃ t : ℕ → ℝ, t = fun i => (1 + lob.val i) / 2 := ⟨_, rfl⟩
  have ht0 : t 0 = 0 := by rw [ht]; simp only []; rw [gn3]; norm_num
  have ht1 : t S = 1 := by rw [ht]; simp only []; rw [show S = pts1d p - 1 by omega, gn4]; norm_num
  have hγ : 0 < 1 / (7 * sub) := by positivity
  have hstep : ∀ i < S, 1.03 * (1 / (7 * sub)) ≤ t (i + 1) - t i := by
    intro i hi
    have := lob_gap hp hl i (by omega)
    rw [← hsub] at this
    rw [ht]; simp only []
    have e : 2.06 / (7 * sub) = 2.06 * (1 / (7 * sub)) := by ring
    rw [e] at this
    norm_num at this ⊢
    linarith
  have hfine : ∀ d < 3, ∀ z, binSize E p nodes x q ≤ fineX S X t d (z + 1) - fineX S X t d z := by
    intro d hd z
    obtain ⟨i, hi, e⟩ := fineX_gap hS (X := X) ht0 ht1 d z
    rw [e]
    have hw := hL.incr d hd (z / S)
    calc binSize E p nodes x q ≤ (X d (pos (E - 1) d + 1) - X d (pos (E - 1) d)) * (1 / (7 * sub)) := hbs d hd
      _ ≤ (1.03 * (X d (z / S + 1) - X d (z / S))) * (1 / (7 * sub)) :=
          mul_le_mul_of_nonneg_right (hL.last d hd (z / S)) hγ.le
      _ = (X d (z / S + 1) - X d (z / S)) * (1.03 * (1 / (7 * sub))) := by ring
      _ ≤ _ := mul_le_mul_of_nonneg_left (hstep i hi) (by linarith)
  have hpos : ∀ e k j i, e < E → k < pts1d p → j < pts1d p → i < pts1d p → ∀ d < 3,
      r.gauss.val (cellId (pts1d p) e k j i) d = fineX S X t d (pos e d * S + dig i j k d) := by
    intro e k j i he hk hj hi d hd
    rw [grid_gauss (by omega) hL hr hl he hk hj hi d hd,
      fineX_eq hS ht0 ht1 d (pos e d) (show dig i j k d ≤ S by have := dig_lt (d := d) hi hj hk; omega), ht]
  have hsurj : ∀ g < E * pts1d p ^ 3, ∃ e k j i, e < E ∧ k < pts1d p ∧ j < pts1d p ∧ i < pts1d p ∧
      cellId (pts1d p) e k j i = g := by
    intro g hg
    exact cellId_surj (by rw [show pts1d p * pts1d p * pts1d p * E = E * pts1d p ^ 3 by ring]; exact hg)
  apply H
  · intro g hg g' hg'
    obtain ⟨e, k, j, i, he, hk, hj, hi, rfl⟩ := hsurj g hg
    obtain ⟨e', k', j', i', he', hk', hj', hi', rfl⟩ := hsurj g' hg'
    by_cases hall : ∀ d < 3, r.gauss.val (cellId (pts1d p) e k j i) d = r.gauss.val (cellId (pts1d p) e' k' j' i') d
    · exact Or.inl hall
    · right
      push Not at hall
      obtain ⟨d, hd, hne⟩ := hall
      refine ⟨d, hd, ?_⟩
      rw [hpos _ _ _ _ he hk hj hi d hd, hpos _ _ _ _ he' hk' hj' hi' d hd] at hne ⊢
      exact step_sep hb0 (hfine d hd) fun h => hne (by rw [h])
  · intro g hg hg0
    obtain ⟨e, k, j, i, he, hk, hj, hi, rfl⟩ := hsurj g hg
    by_contra hcon
    push Not at hcon
    have hE := hL.ne
    have hz : cellId (pts1d p) 0 0 0 0 = 0 := by simp [cellId]
    have heq : ∀ d < 3, pos e d * S + dig i j k d = pos 0 d * S := by
      intro d hd
      have := hcon d hd
      rw [← hz, hpos _ _ _ _ he hk hj hi d hd, hpos 0 0 0 0 hE (by omega) (by omega) (by omega) d hd] at this
      have hd0 : dig 0 0 0 d = 0 := by unfold dig; split <;> [rfl; split <;> rfl]
      rw [hd0] at this
      by_contra hne
      have h3 := step_sep hb0 (hfine d hd) (a := pos e d * S + dig i j k d) (b := pos 0 d * S + (0 : ℕ)) (fun h => hne (by rw [h]; simp))
      rw [this, sub_self, abs_zero] at h3
      linarith
    -- every digit is an end point
    have hend : ∀ d < 3, ∃ b : ℕ, b < 2 ∧ dig i j k d = b * S ∧ pos e d + b = pos 0 d := by
      intro d hd
      have h1 := heq d hd
      have hdg := dig_lt (d := d) hi hj hk
      have hS' : (0 : ℤ) < S := by exact_mod_cast hS
      obtain ⟨b, hb⟩ : ∃ b : ℤ, pos 0 d = pos e d + b := ⟨pos 0 d - pos e d, by ring⟩
      have h2 : (dig i j k d : ℤ) = b * S := by rw [hb] at h1; linarith
      have h3 : 0 ≤ b := by
        by_contra hc
        have : b * S < 0 := mul_neg_of_neg_of_pos (by omega) hS'
        omega
      have h4 : b < 2 := by
        by_contra hc
        have : 2 * (S : ℤ) ≤ b * S := mul_le_mul_of_nonneg_right (by omega) hS'.le
        omega
      refine ⟨b.toNat, by omega, ?_, by omega⟩
      have : ((b.toNat : ℕ) : ℤ) = b := by omega
      have h5 : ((dig i j k d : ℕ) : ℤ) = ((b.toNat * S : ℕ) : ℤ) := by push_cast; rw [this, h2]
      exact_mod_cast h5
    obtain ⟨b0, hb0', hi0, hp0⟩ := hend 0 (by omega)
    obtain ⟨b1', hb1', hi1, hp1⟩ := hend 1 (by omega)
    obtain ⟨b2, hb2, hi2, hp2⟩ := hend 2 (by omega)
    have hl8 : b0 + 2 * b1' + 4 * b2 < 8 := by omega
    have hbits : Key.bit (b0 + 2 * b1' + 4 * b2) 0 = b0 ∧ Key.bit (b0 + 2 * b1' + 4 * b2) 1 = b1' ∧
        Key.bit (b0 + 2 * b1' + 4 * b2) 2 = b2 := by unfold Key.bit; omega
    have hsame : ∀ d < 3, x (nodes e (b0 + 2 * b1' + 4 * b2)) d = x (nodes 0 0) d := by
      intro d hd
      rw [hL.coords e he _ hl8 d hd, hL.coords 0 hE 0 (by omega) d hd]
      have hz : Key.bit 0 d = 0 := by unfold Key.bit; simp
      rw [hz]
      interval_cases d
      · rw [hbits.1, hp0]; simp
      · rw [hbits.2.1, hp1]; simp
      · rw [hbits.2.2, hp2]; simp
    have hnode := hL.conform e he _ hl8 0 hE 0 (by omega) hsame
    obtain ⟨he0, hl0⟩ := hfirst e he _ hl8 hnode
    have z0 : b0 = 0 := by omega
    have z1 : b1' = 0 := by omega
    have z2 : b2 = 0 := by omega
    subst he0 z0 z1 z2
    simp only [dig, zero_mul, if_true] at hi0 hi1 hi2
    simp only [one_ne_zero, if_false] at hi1
    norm_num at hi2
    subst hi0 hi1 hi2
    simp [cellId] at hg0

/-- **C42 on box grids (partial).**  On every lattice mesh (any set of cells of a box grid) with a spacing of at most
7 in some direction, for orders up to 5, and if the first vertex of cell 0 belongs to no other cell: two
Gauss points get the same node iff they coincide, and every node has the position of all its Gauss points. -/
theorem C42_lattice_partial (E N p : ℕ) (hp : p ≤ 5) (nodes : ℕ → ℕ → ℕ) (x : ℕ → ℕ → ℝ) (o s : ℕ → ℝ)
    (pos : ℕ → ℕ → ℤ) (hL : Key.Lattice E N nodes x o s pos) (hsmall : ∃ d < 3, s d ≤ 7)
    (hfirst : ∀ c < E, ∀ l < 8, nodes c l = nodes 0 0 → c = 0 ∧ l = 0) (q : Junk) :
    ∃ r, refineMesh E N p nodes x q = some r ∧
      (∀ g < E * pts1d p ^ 3, ∀ g' < E * pts1d p ^ 3, r.nig.val g = r.nig.val g' ↔
        ∀ d < 3, r.gauss.val g d = r.gauss.val g' d) ∧
      ∀ g < E * pts1d p ^ 3, ∀ d < 3, r.coords.val (r.nig.val g).toNat d = r.gauss.val g d := by
  refine C42_grid_partial E N p hp nodes x _ pos hL.grid ?_ hfirst q
  obtain ⟨d, hd, h⟩ := hsmall
  exact ⟨d, hd, le_trans (le_of_eq (by push_cast; ring)) h⟩

end Verif.Swage.Refine
