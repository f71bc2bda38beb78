import Verif.Int32.Refine
import Verif.Swage.PatchKeyTheorems

/-!
# C90: 32-bit hash keys of `build_patch_connectivity` and `refine_high_order_mesh`

* `C90_patches_same`: a defined run of `build_patch_connectivity` gives the patches of unbounded integers (C38 holds of it).
* `C90_patches_fits`, `C90_patches_overflow`: it is defined if `B₀ + B₀B₁ + B₀B₁B₂ ≤ 2^31 - 11`, where `B_d` is 3 (extent + 1e-12) /
  (smallest vertex distance of the last cell), and undefined if a side at the top of the mesh exists and
  27 (product of the extents) ≥ 2^31 (smallest distance)³.
* `C90_patches_cube`: cubes cut into `n³` cells, `n ≤ 400`, of any size from `1e-9` on are within the limits.
* `C90_plate_negation`: a single cell of size `a × a × 1` with `a ≥ 8919` is undefined.
* `C90_high_same`: a defined run of `refine_high_order_mesh` is the run of unbounded integers (C69 holds of it).
-/

namespace Verif.Int32
open Verif.Swage

theorem hash1_nonneg {C N : ℕ} {nodes : ℕ → ℕ → ℕ} (hv : ∀ c < C, ∀ l < 8, nodes c l < N) (x : ℕ → ℕ → ℝ) {δ : ℝ} (hδ : 0 ≤ δ)
    {c p : ℕ} (hc : c < C) (hp : p < 6) : 0 ≤ Key.hash1 N nodes x δ c p := by
  have hi : ∀ d, 0 ≤ Key.hashIdx N nodes x δ c p d := fun d => (max_pos _).le
  have hn : ∀ d, 0 ≤ Key.numBins N x δ d := fun d => by
    have := Key.sideCoord_mem hv x hc hp d
    unfold Key.numBins
    exact div_nonneg (by linarith [show (0 : ℝ) < 1 / 10 ^ 12 by norm_num]) hδ
  unfold Key.hash1
  have h0 := hi 0
  have h1 := hi 1
  have h2 := hi 2
  have n0 := hn 0
  have n1 := hn 1
  positivity

theorem delta_nonneg (C : ℕ) (nodes : ℕ → ℕ → ℕ) (x : ℕ → ℕ → ℝ) (junk : ℕ → ℝ) {j : ℝ} (h : 0 ≤ Key.distMin C nodes x junk j) :
    0 ≤ Key.delta C nodes x junk j := by
  unfold Key.delta
  exact div_nonneg (le_min (by norm_num) h) (by norm_num)

/-- **C90, patches: same result.**  If the smallest vertex distance is not negative (always, when there is a cell) and no `int`
operation overflows, the patches are those of unbounded integers. -/
theorem C90_patches_same (C N : ℕ) (nodes : ℕ → ℕ → ℕ) (hv : ∀ c < C, ∀ l < 8, nodes c l < N) (x : ℕ → ℕ → ℝ) (junk : ℕ → ℝ) (j : ℝ)
    (hd : 0 ≤ Key.distMin C nodes x junk j) (jkey : ℕ → ℕ) (jt jc js jn : ℕ → ℤ) (ji : ℕ → ℕ → ℤ) (jk : ℕ → ℕ → ℕ) (k : Patches)
    (e : buildPatches32 C N nodes x junk j jkey jt jc js jn ji jk = some k) :
    buildPatches C nodes (Key.key C N nodes x junk j) jt jc js jn ji jk = some k :=
  ((patches_iff fun _ hc _ hp => hash1_nonneg hv x (delta_nonneg C nodes x junk hd) hc hp).1 e).1

/-- **C90, patches: sufficient condition.**  With `m` the smallest vertex distance of the last cell (positive, at most `1e64`) and
`B d = 3 (extent_d + 1e-12) / m`, every extent at least `m`: no overflow if `B 0 + B 0 B 1 + B 0 B 1 B 2 ≤ 2^31 - 11` and the number of
sides fits. -/
theorem C90_patches_fits (C N : ℕ) (nodes : ℕ → ℕ → ℕ) (hv : ∀ c < C, ∀ l < 8, nodes c l < N) (x : ℕ → ℕ → ℝ) (junk : ℕ → ℝ) (j m : ℝ)
    (hm : m = Key.distMin C nodes x junk j) (hpos : 0 < m) (hbig : m ≤ 10 ^ 64) (hC : C * 6 < 2 ^ 31)
    (hext : ∀ d < 3, m ≤ Key.coordMax N x d - Key.coordMin N x d) (B : ℕ → ℝ)
    (hB : ∀ d, B d = 3 * (Key.coordMax N x d - Key.coordMin N x d + 1 / 10 ^ 12) / m)
    (hV : B 0 + B 0 * B 1 + B 0 * B 1 * B 2 ≤ 2 ^ 31 - 11)
    (jkey : ℕ → ℕ) (jt jc js jn : ℕ → ℤ) (ji : ℕ → ℕ → ℤ) (jk : ℕ → ℕ → ℕ) :
    ∃ k, buildPatches32 C N nodes x junk j jkey jt jc js jn ji jk = some k ∧
      buildPatches C nodes (Key.key C N nodes x junk j) jt jc js jn ji jk = some k := by
  have hδ : Key.delta C nodes x junk j = m / 3 := by unfold Key.delta; rw [← hm, min_eq_right hbig]
  have hδ0 : 0 < Key.delta C nodes x junk j := by rw [hδ]; positivity
  obtain ⟨k, hk, -⟩ := C38_patches_partial C nodes (Key.key C N nodes x junk j) jt jc js jn ji jk
  refine ⟨k, (patches_iff fun _ hc _ hp => hash1_nonneg hv x hδ0.le hc hp).2 ⟨hk, hC, hδ0.ne', ?_⟩, hk⟩
  intro e he
  have hc : e / 6 < C := by omega
  have hp : e % 6 < 6 := Nat.mod_lt _ (by norm_num)
  have hnb : ∀ d, Key.numBins N x (Key.delta C nodes x junk j) d = B d := fun d => by
    unfold Key.numBins; rw [hB, hδ]; field_simp
  have h12 : (0 : ℝ) < 1 / 10 ^ 12 := by norm_num
  have hB1 : ∀ d < 3, 1 ≤ B d := fun d hd => by
    rw [hB, le_div_iff₀ hpos]; have := hext d hd; linarith
  have hi : ∀ d < 3, Key.hashIdx N nodes x (Key.delta C nodes x junk j) (e / 6) (e % 6) d ≤ B d := by
    intro d hd
    unfold Key.hashIdx
    refine max_le (le_trans (by norm_num) (hB1 d hd)) ?_
    rw [← hnb d]
    unfold Key.numBins
    have := Key.sideCoord_mem hv x hc hp d
    exact div_le_div_of_nonneg_right (by linarith) hδ0.le
  have h0 : ∀ d, 0 ≤ Key.hashIdx N nodes x (Key.delta C nodes x junk j) (e / 6) (e % 6) d := fun d => (max_pos _).le
  have hh : Key.hash1 N nodes x (Key.delta C nodes x junk j) (e / 6) (e % 6) ≤ 2 ^ 31 - 11 := by
    refine le_trans ?_ hV
    unfold Key.hash1
    rw [hnb 0, hnb 1]
    have b0 := hB1 0 (by omega)
    have b1 := hB1 1 (by omega)
    have i0 := hi 0 (by omega)
    have i1 := hi 1 (by omega)
    have i2 := hi 2 (by omega)
    have p0 := h0 0
    have p1 := h0 1
    have p2 := h0 2
    calc _ ≤ B 0 + B 1 * B 0 + B 2 * B 0 * B 1 := by gcongr
      _ = _ := by ring
  have hlt : Key.key C N nodes x junk j e < 2 ^ 31 - 10 := by
    unfold Key.key
    rw [Nat.floor_lt (hash1_nonneg hv x hδ0.le hc hp)]
    push_cast
    refine lt_of_le_of_lt hh (by norm_num)
  omega

/-- **C90, patches: overflow.**  If the four nodes of some side have the largest z of the mesh and 27 times the product of the three
extents is at least `2^31 m³`, the behaviour is undefined. -/
theorem C90_patches_overflow (C N : ℕ) (nodes : ℕ → ℕ → ℕ) (hv : ∀ c < C, ∀ l < 8, nodes c l < N) (x : ℕ → ℕ → ℝ) (junk : ℕ → ℝ)
    (j m : ℝ) (hm : m = Key.distMin C nodes x junk j) (hpos : 0 < m) (c p : ℕ) (hc : c < C) (hp : p < 6)
    (htop : ∀ q < 4, x (nodeInPatchInCell nodes c p q) 2 = Key.coordMax N x 2) (W : ℕ → ℝ)
    (hW : ∀ d, W d = Key.coordMax N x d - Key.coordMin N x d) (hV : 2 ^ 31 * m ^ 3 ≤ 27 * (W 0 * W 1 * W 2))
    (jkey : ℕ → ℕ) (jt jc js jn : ℕ → ℤ) (ji : ℕ → ℕ → ℤ) (jk : ℕ → ℕ → ℕ) :
    buildPatches32 C N nodes x junk j jkey jt jc js jn ji jk = none := by
  by_contra hne
  obtain ⟨k, hk⟩ := Option.ne_none_iff_exists'.1 hne
  have hδ0 : 0 < Key.delta C nodes x junk j := by
    unfold Key.delta; rw [← hm]; exact div_pos (lt_min (by norm_num) hpos) (by norm_num)
  have hδm : 3 * Key.delta C nodes x junk j ≤ m := by
    unfold Key.delta; rw [← hm]
    calc 3 * (min (10 ^ 64) m / 3) = min (10 ^ 64) m := by ring
      _ ≤ m := min_le_right _ _
  obtain ⟨-, -, -, h4⟩ := (patches_iff fun _ hc _ hp => hash1_nonneg hv x hδ0.le hc hp).1 hk
  have h := h4 (6 * c + p) (by omega)
  set δ := Key.delta C nodes x junk j with hδ
  have h12 : (0 : ℝ) < 1 / 10 ^ 12 := by norm_num
  have hWp : ∀ d, 0 ≤ W d := fun d => by
    have := Key.sideCoord_mem hv x hc hp d
    rw [hW]; linarith
  have hz : W 2 / δ ≤ Key.hashIdx N nodes x δ c p 2 := by
    unfold Key.hashIdx
    refine le_trans ?_ (le_max_right _ _)
    have : Key.sideCoord nodes x c p 2 = Key.coordMax N x 2 := by
      rw [Key.sideCoord_eq, htop 0 (by omega), htop 1 (by omega), htop 2 (by omega), htop 3 (by omega)]
      ring
    rw [this, hW]
    exact div_le_div_of_nonneg_right (by linarith) hδ0.le
  have hb : ∀ d, W d / δ ≤ Key.numBins N x δ d := fun d => by
    unfold Key.numBins; rw [hW]
    exact div_le_div_of_nonneg_right (by linarith) hδ0.le
  have hi : ∀ d, 0 ≤ Key.hashIdx N nodes x δ c p d := fun d => (max_pos _).le
  have hq : ∀ d, 0 ≤ W d / δ := fun d => div_nonneg (hWp d) hδ0.le
  have hn : ∀ d, 0 ≤ Key.numBins N x δ d := fun d => (hq d).trans (hb d)
  have hbig : 2 ^ 31 ≤ Key.hash1 N nodes x δ c p := by
    have h1 : W 2 / δ * (W 0 / δ) * (W 1 / δ) ≤ Key.hashIdx N nodes x δ c p 2 * Key.numBins N x δ 0 * Key.numBins N x δ 1 := by
      have q0 := hq 0
      have q1 := hq 1
      have q2 := hq 2
      have n0 := hn 0
      have n1 := hn 1
      have b0 := hb 0
      have b1 := hb 1
      have i2 := hi 2
      gcongr
    have h2 : 0 ≤ Key.hashIdx N nodes x δ c p 1 * Key.numBins N x δ 0 := mul_nonneg (hi 1) (hn 0)
    have h3 := hi 0
    have h4 : 2 ^ 31 ≤ W 2 / δ * (W 0 / δ) * (W 1 / δ) := by
      rw [show W 2 / δ * (W 0 / δ) * (W 1 / δ) = W 0 * W 1 * W 2 / δ ^ 3 by field_simp, le_div_iff₀ (by positivity)]
      have : (3 * δ) ^ 3 ≤ m ^ 3 := by gcongr
      nlinarith
    unfold Key.hash1
    linarith
  have : 2 ^ 31 ≤ Key.key C N nodes x junk j (6 * c + p) := by
    unfold Key.key
    rw [show (6 * c + p) / 6 = c by omega, show (6 * c + p) % 6 = p by omega]
    apply Nat.le_floor
    exact le_trans (by norm_num) hbig
  omega

theorem coordMax_le {N : ℕ} {x : ℕ → ℕ → ℝ} {d : ℕ} {B : ℝ} (h0 : -10 ^ 64 ≤ B) (h : ∀ n < N, x n d ≤ B) : Key.coordMax N x d ≤ B := by
  unfold Key.coordMax
  induction N with
  | zero => exact h0
  | succ N ih => rw [loop_succ]; exact max_le (ih fun n hn => h n (by omega)) (h N (by omega))

theorem le_coordMin {N : ℕ} {x : ℕ → ℕ → ℝ} {d : ℕ} {B : ℝ} (h0 : B ≤ 10 ^ 64) (h : ∀ n < N, B ≤ x n d) : B ≤ Key.coordMin N x d := by
  unfold Key.coordMin
  induction N with
  | zero => exact h0
  | succ N ih => rw [loop_succ]; exact le_min (ih fun n hn => h n (by omega)) (h N (by omega))

theorem cube_coords {n : ℕ} {s : ℝ} (hs : 0 < s) {d : ℕ} (hd : d < 3) :
    Key.coordMin ((n + 1) ^ 3) (cubeX n s) d = 0 ∧ Key.coordMax ((n + 1) ^ 3) (cubeX n s) d = s * n := by
  have hN : 0 < (n + 1) ^ 3 := by positivity
  constructor
  · refine le_antisymm ?_ (le_coordMin (by norm_num) fun m hm => (cubeX_box hm hs).1)
    have := Key.coordMin_le _ (cubeX n s) d 0 hN
    have e : cubeX n s 0 d = 0 := by unfold cubeX; simp
    rwa [e] at this
  · refine le_antisymm (coordMax_le (by have : 0 ≤ s * n := by positivity
                                        linarith [show (0 : ℝ) ≤ 10 ^ 64 by norm_num]) fun m hm => (cubeX_box hm hs).2) ?_
    obtain ⟨h0, h1, h2⟩ := lex3_mod (i := n) (j := n) (k := n) (n := n + 1) (m := n + 1) (by omega) (by omega)
    have hlt : n + n * (n + 1) + n * (n + 1) * (n + 1) < (n + 1) ^ 3 := by
      have := flat_lt (N := n + 1) (i := n) (j := n) (k := n) (by omega) (by omega) (by omega)
      calc _ < _ := this
        _ = (n + 1) ^ 3 := by ring
    have := Key.le_coordMax _ (cubeX n s) d _ hlt
    have e : cubeX n s (n + n * (n + 1) + n * (n + 1) * (n + 1)) d = s * n := by
      unfold cubeX; rw [h0, h1, h2]; interval_cases d <;> simp
    rwa [e] at this

theorem cube_keyDist {n : ℕ} (hn : 0 < n) {s : ℝ} (hs : 0 < s) (hs' : s ≤ 10 ^ 64) (junk : ℕ → ℝ) (j : ℝ) :
    Key.distMin (n ^ 3) (cubeNodes n) (cubeX n s) junk j = s := by
  have hC : 0 < n ^ 3 := by positivity
  have h1 := ((cube_lattice hn hs).dist junk j).2 0 (by omega)
  have h2 := cube_dist hn hs hs' junk j
  rw [Refine.distMin_last _ _ _ _ _ hC] at h2
  have h3 := (Refine.cellDist_bounds (fun l d => cubeX n s (cubeNodes n (n ^ 3 - 1) l) d) junk).1
  rw [h2] at h3
  refine le_antisymm h1 ?_
  rw [Key.distMin_last _ _ _ _ _ hC]
  exact h3

/-- **C90, patches of cubes.**  A cube cut into `n³` cells, `n ≤ 400`, of size at least `1e-9`: no overflow. -/
theorem C90_patches_cube (n : ℕ) (hn : 0 < n) (hn4 : n ≤ 400) (s : ℝ) (hs : 1 / 10 ^ 9 ≤ s) (hs' : s ≤ 10 ^ 64) (junk : ℕ → ℝ) (j : ℝ)
    (jkey : ℕ → ℕ) (jt jc js jn : ℕ → ℤ) (ji : ℕ → ℕ → ℤ) (jk : ℕ → ℕ → ℕ) :
    ∃ k, buildPatches32 (n ^ 3) ((n + 1) ^ 3) (cubeNodes n) (cubeX n s) junk j jkey jt jc js jn ji jk = some k ∧
      buildPatches (n ^ 3) (cubeNodes n) (Key.key (n ^ 3) ((n + 1) ^ 3) (cubeNodes n) (cubeX n s) junk j) jt jc js jn ji jk = some k := by
  have hs0 : 0 < s := lt_of_lt_of_le (by norm_num) hs
  have hn1 : (1 : ℝ) ≤ n := by exact_mod_cast hn
  have hn2 : (n : ℝ) ≤ 400 := by exact_mod_cast hn4
  refine C90_patches_fits (n ^ 3) ((n + 1) ^ 3) (cubeNodes n) (fun c hc l hl => cube_lt hc hl) (cubeX n s) junk j s
    (cube_keyDist hn hs0 hs' junk j).symm hs0 hs' ?_ ?_ _ (fun _ => rfl) ?_ jkey jt jc js jn ji jk
  · calc n ^ 3 * 6 ≤ 400 ^ 3 * 6 := by gcongr
      _ < 2 ^ 31 := by norm_num
  · intro d hd
    rw [(cube_coords hs0 hd).1, (cube_coords hs0 hd).2]
    nlinarith
  · have hB : ∀ d < 3, 0 ≤ 3 * (Key.coordMax ((n + 1) ^ 3) (cubeX n s) d - Key.coordMin ((n + 1) ^ 3) (cubeX n s) d + 1 / 10 ^ 12) / s ∧
        3 * (Key.coordMax ((n + 1) ^ 3) (cubeX n s) d - Key.coordMin ((n + 1) ^ 3) (cubeX n s) d + 1 / 10 ^ 12) / s ≤ 1201 := by
      intro d hd
      rw [(cube_coords hs0 hd).1, (cube_coords hs0 hd).2, sub_zero]
      refine ⟨by positivity, ?_⟩
      rw [div_le_iff₀ hs0]
      norm_num at hs ⊢
      nlinarith
    obtain ⟨a0, b0⟩ := hB 0 (by omega)
    obtain ⟨a1, b1⟩ := hB 1 (by omega)
    obtain ⟨a2, b2⟩ := hB 2 (by omega)
    refine le_trans (b := (1201 : ℝ) + 1201 * 1201 + 1201 * 1201 * 1201) (by gcongr) (by norm_num)

/-- Coordinates of the vertices of a single cell `[0,a] × [0,a] × [0,1]`. -/
noncomputable def plateX (a : ℝ) (l d : ℕ) : ℝ := (if d = 2 then 1 else a) * (Key.bit l d : ℝ)

theorem plate_lattice {a : ℝ} (ha : 0 < a) :
    Key.Lattice 1 8 (fun _ l => l) (plateX a) (fun _ => 0) (fun d => if d = 2 then 1 else a) (fun _ _ => 0) where
  ne := by norm_num
  valid := fun _ _ l hl => hl
  hpos := fun d _ => by split <;> [norm_num; exact ha]
  coords := fun c hc l hl d hd => by unfold plateX; simp
  conform := fun c hc l hl c' hc' l' hl' h => by
    by_contra hne
    have : ∃ d < 3, Key.bit l d ≠ Key.bit l' d := by
      rcases Nat.lt_or_gt_of_ne hne with h | h
      · exact Key.bit_ne l' hl' l h
      · obtain ⟨d, hd, hne⟩ := Key.bit_ne l hl l' h; exact ⟨d, hd, hne.symm⟩
    obtain ⟨d, hd, hb⟩ := this
    have h' := h d hd
    unfold plateX at h'
    have := mul_left_cancel₀ (show (if d = 2 then (1 : ℝ) else a) ≠ 0 by split <;> [norm_num; exact ha.ne']) h'
    exact hb (by exact_mod_cast this)
  inj := fun c hc c' hc' _ => by omega

/-- **C90, patches: failure on thin cells.**  For a single cell of size `a × a × 1` with `a ≥ 8919` (any unit) the behaviour of
`build_patch_connectivity` is undefined. -/
theorem C90_plate_negation (a : ℝ) (ha : 8919 ≤ a) (junk : ℕ → ℝ) (j : ℝ)
    (jkey : ℕ → ℕ) (jt jc js jn : ℕ → ℤ) (ji : ℕ → ℕ → ℤ) (jk : ℕ → ℕ → ℕ) :
    buildPatches32 1 8 (fun _ l => l) (plateX a) junk j jkey jt jc js jn ji jk = none := by
  have ha0 : 0 < a := by linarith
  have hL := plate_lattice ha0
  have hd := (hL.dist junk j)
  have hW : ∀ d < 3, (if d = 2 then 1 else a) ≤ Key.coordMax 8 (plateX a) d - Key.coordMin 8 (plateX a) d := by
    intro d hd
    have := hL.grid.box d hd
    push_cast at this
    linarith
  refine C90_patches_overflow 1 8 (fun _ l => l) (fun _ _ l hl => hl) (plateX a) junk j _ rfl hd.1 0 5 (by norm_num) (by norm_num) ?_ _
    (fun _ => rfl) ?_ jkey jt jc js jn ji jk
  · intro q hq
    have h1 : ∀ l < 8, plateX a l 2 ≤ 1 := fun l hl => by
      unfold plateX
      have : (Key.bit l 2 : ℝ) ≤ 1 := by exact_mod_cast Key.bit_le l hl 2 (by omega)
      simpa using this
    have h2 : plateX a (nodeInPatchInCell (fun _ l => l) 0 5 q) 2 = 1 := by
      have : Key.bit (nodeInPatchInCell (fun _ l => l) 0 5 q) 2 = 1 := by interval_cases q <;> rfl
      unfold plateX; rw [this]; simp
    have hlt : nodeInPatchInCell (fun _ l => l) 0 5 q < 8 := by interval_cases q <;> decide
    have h3 := Key.le_coordMax 8 (plateX a) 2 _ hlt
    have h4 := coordMax_le (N := 8) (x := plateX a) (d := 2) (B := 1) (by norm_num) h1
    linarith
  · have m1 := hd.2 2 (by omega)
    simp only [if_true] at m1
    have w0 := hW 0 (by omega)
    have w1 := hW 1 (by omega)
    have w2 := hW 2 (by omega)
    norm_num at w0 w1 w2
    have hm3 : Key.distMin 1 (fun _ l => l) (plateX a) junk j ^ 3 ≤ 1 := pow_le_one₀ hd.1.le m1
    calc (2 : ℝ) ^ 31 * Key.distMin 1 (fun _ l => l) (plateX a) junk j ^ 3 ≤ 2 ^ 31 * 1 := by gcongr
      _ ≤ 27 * (8919 * 8919 * 1) := by norm_num
      _ ≤ _ := by gcongr <;> first | linarith | exact mul_nonneg (by linarith) (by linarith)

/-! ### `refine_high_order_mesh` -/

/-- **C90, high order: same result.**  For orders 1 to 9: if no `int` operation of `refine_high_order_mesh` overflows, its result is that
of unbounded integers. -/
theorem C90_high_same (E N p : ℕ) (hp : 1 ≤ p) (hp9 : p ≤ 9) (nodes : ℕ → ℕ → ℕ) (x : ℕ → ℕ → ℝ) (q : HighOrder.Junk) (jk : ℕ → ℕ)
    (r : Refine.Refined) (e : refineHighOrder32 E N p nodes x q jk = some r) :
    HighOrder.refineHighOrder E N p nodes x q = some r ∧
      ∀ g < E * (2 * p + 1) ^ 3, HighOrder.key N x (HighOrder.binSize E p nodes x) (r.gauss.val g) + 10 < 2 ^ 31 := by
  unfold refineHighOrder32 at e
  obtain ⟨G, hG, e⟩ := Option.bind_eq_some_iff.1 e
  obtain ⟨K, hK, e⟩ := Option.bind_eq_some_iff.1 e
  obtain ⟨Z, hZ, e⟩ := Option.bind_eq_some_iff.1 e
  obtain ⟨lob, hl, e⟩ := Option.bind_eq_some_iff.1 e
  obtain ⟨g, hg, e⟩ := Option.bind_eq_some_iff.1 e
  by_cases hne : HighOrder.hashDist p (HighOrder.minDist E p nodes x) = 0
  · simp only [hne, if_true] at e
    cases e
  simp only [if_neg hne] at e
  obtain ⟨u, hu, e⟩ := Option.bind_eq_some_iff.1 e
  obtain ⟨ks, hks, e⟩ := Option.bind_eq_some_iff.1 e
  obtain ⟨sz, hsz, e⟩ := Option.bind_eq_some_iff.1 e
  obtain ⟨t, ht, e⟩ := Option.bind_eq_some_iff.1 e
  obtain ⟨w, hw, e⟩ := Option.bind_eq_some_iff.1 e
  obtain ⟨co, hco, e⟩ := Option.bind_eq_some_iff.1 e
  obtain ⟨ce, hce, e⟩ := Option.bind_eq_some_iff.1 e
  obtain ⟨nl, hnl, e⟩ := Option.bind_eq_some_iff.1 e
  have e' := Option.some.inj e
  subst e'
  obtain ⟨hG, -⟩ := int32_some hG
  subst hG
  obtain ⟨hK, hKlt⟩ := int32_some hK
  subst hK
  have hgs : g.g.size = (2 * p + 1) ^ 3 * E := by
    obtain ⟨Z', hZ1, hZ2⟩ := HighOrder.equi_run hp q.vert
    have : Z' = Z := by rw [hZ] at hZ1; exact (Option.some.inj hZ1).symm
    subst this
    obtain ⟨s, hg1, hg2⟩ := HighOrder.gaussPoints_spec (E := E) hp hp9 nodes x hZ2 (L := lob.val)
      (fun i hi => HighOrder.resolved hp hp9 hZ2 hl hi) q.work q.vx q.vy q.vz q.gauss
    have : s = g := by rw [hg] at hg1; exact (Option.some.inj hg1).symm
    subst this
    rw [hg2.2.1]; ring
  obtain ⟨k1, k2, k3, k4⟩ := keys32_some hgs hks
  obtain ⟨s1, s2⟩ := int32_some hsz
  subst s1
  refine ⟨?_, ?_⟩
  · unfold HighOrder.refineHighOrder
    refine (congrArg (fun z => Option.bind z _) hZ).trans ?_
    rw [Option.bind_some]
    refine (congrArg (fun z => Option.bind z _) hl).trans ?_
    rw [Option.bind_some]
    refine (congrArg (fun z => Option.bind z _) hg).trans ?_
    rw [Option.bind_some]
    simp only [if_neg hne]
    rw [zeroTable_congr k2, k1] at ht
    rw [walk_congr k2] at hw
    refine (congrArg (fun z => Option.bind z _) ht).trans ?_
    rw [Option.bind_some]
    refine (congrArg (fun z => Option.bind z _) hw).trans ?_
    rw [Option.bind_some]
    refine (congrArg (fun z => Option.bind z _) hco).trans ?_
    rw [Option.bind_some]
    refine (congrArg (fun z => Option.bind z _) hce).trans ?_
    rw [Option.bind_some]
    refine (congrArg (fun z => Option.bind z _) hnl).trans ?_
    rw [Option.bind_some]
    rfl
  · intro g' hg'
    have := le_maxKey ((2 * p + 1) ^ 3 * E) (fun i => keyZ (HighOrder.posMin N x) (HighOrder.posMax N x)
      (HighOrder.hashDist p (HighOrder.minDist E p nodes x)) (g.g.val i)) g' (by rw [Nat.mul_comm]; exact hg')
    rw [k1] at s2
    exact lt_of_le_of_lt (Nat.add_le_add_right this 10) s2

end Verif.Int32
