import Verif.Fp.PatchGridFp
import Verif.Fp.RefineGridFp

/-!
# C93: `build_patch_connectivity` in rounded arithmetic

* `C93_aligned`: cells whose common face is the far face of one and the near face of the other in the same local direction, with the same
  local orientation, share the patch, on every mesh and in every arithmetic.
* `C93_dyadic`: on meshes whose coordinates have two spare bits, sides with the same nodes in any order share the patch.
* `C93_grid_partial`: on rectilinear grids the patches are exactly the faces.
* `C93_negation` (`PatchRotated.lean`): a turned neighbour may lose its common face.
-/

namespace Verif.Swage.Key
open Verif.Swage Verif.Fp

variable (R : Rounding)

theorem keyR_congr {C N : ℕ} {nodes : ℕ → ℕ → ℕ} {x : ℕ → ℕ → ℝ} {junk : ℕ → ℝ} {j : ℝ} {c p c' p' : ℕ} (hp : p < 6) (hp' : p' < 6)
    (h : ∀ d < 3, sideCoordR R nodes x c p d = sideCoordR R nodes x c' p' d) :
    keyR R C N nodes x junk j (6 * c + p) = keyR R C N nodes x junk j (6 * c' + p') := by
  unfold keyR
  rw [show (6 * c + p) / 6 = c by omega, show (6 * c + p) % 6 = p by omega,
    show (6 * c' + p') / 6 = c' by omega, show (6 * c' + p') % 6 = p' by omega]
  unfold hash1R hashIdxR
  rw [h 0 (by omega), h 1 (by omega), h 2 (by omega)]

theorem table_opposite : ∀ r < 3, ∀ q < 4, patchNodeTable.getD (q + (2 * r + 1) * 4) 0 = patchNodeTable.getD (q + (2 * r) * 4) 0 + 2 ^ r ∧
    bit (patchNodeTable.getD (q + (2 * r) * 4) 0) r = 0 ∧ patchNodeTable.getD (q + (2 * r) * 4) 0 < 8 := by decide

/-- **C93, aligned neighbours.**  For every rounding, every mesh and all coordinates: `build_patch_connectivity` performs no out-of-bounds access; two
sides that list the same nodes in the same order get the same patch id; in particular, if the far face of `c` in the local direction `r` is
the near face of `c'` in that direction, vertex by vertex, the two sides get the same patch id, however the centroids are rounded. -/
theorem C93_aligned (C N : ℕ) (nodes : ℕ → ℕ → ℕ) (x : ℕ → ℕ → ℝ) (junk : ℕ → ℝ) (j : ℝ) (jt jc js jn : ℕ → ℤ) (ji : ℕ → ℕ → ℤ) (jk : ℕ → ℕ → ℕ) :
    ∃ k, buildPatches C nodes (keyR R C N nodes x junk j) jt jc js jn ji jk = some k ∧
      (∀ c < C, ∀ p < 6, ∀ c' < C, ∀ p' < 6, (∀ q < 4, nodeInPatchInCell nodes c p q = nodeInPatchInCell nodes c' p' q) →
        k.inCell c p = k.inCell c' p') ∧
      ∀ c < C, ∀ c' < C, ∀ r < 3, (∀ l < 8, l / 2 ^ r % 2 = 0 → nodes c (l + 2 ^ r) = nodes c' l) →
        k.inCell c (2 * r + 1) = k.inCell c' (2 * r) := by
  obtain ⟨k, h1, h2, _⟩ := C38_patches_partial C nodes (keyR R C N nodes x junk j) jt jc js jn ji jk
  have main : ∀ c < C, ∀ p < 6, ∀ c' < C, ∀ p' < 6, (∀ q < 4, nodeInPatchInCell nodes c p q = nodeInPatchInCell nodes c' p' q) →
        k.inCell c p = k.inCell c' p' := by
    intro c hc p hp c' hc' p' hp' hn
    rw [h2 c hc p hp c' hc' p' hp']
    refine keyR_congr R hp hp' fun d _ => ?_
    rw [sideCoordR_eq, sideCoordR_eq, hn 0 (by omega), hn 1 (by omega), hn 2 (by omega), hn 3 (by omega)]
  refine ⟨k, h1, main, ?_⟩
  intro c hc c' hc' r hr hn
  refine main c hc _ (by omega) c' hc' _ (by omega) fun q hq => ?_
  obtain ⟨t1, t2, t3⟩ := table_opposite r hr q hq
  unfold nodeInPatchInCell
  rw [t1]
  exact hn _ t3 t2

/-- Non-vacuity: the common face of two unit cubes. -/
example (junk : ℕ → ℝ) (j : ℝ) (jt jc js jn : ℕ → ℤ) (ji : ℕ → ℕ → ℤ) (jk : ℕ → ℕ → ℕ) :
    ∃ k, buildPatches 2 duoNodes (keyR Rounding.binary64 2 12 duoNodes (duoCoords 1) junk j) jt jc js jn ji jk = some k ∧ k.inCell 0 1 = k.inCell 1 0 := by
  obtain ⟨k, h1, -, h3⟩ := C93_aligned Rounding.binary64 2 12 duoNodes (duoCoords 1) junk j jt jc js jn ji jk
  exact ⟨k, h1, h3 0 (by omega) 1 (by omega) 0 (by omega) (by decide)⟩

/-- With two spare bits the centroids are exact. -/
theorem sideCoordR_exact {nodes : ℕ → ℕ → ℕ} {x : ℕ → ℕ → ℝ} {m : ℕ → ℤ} {e : ℤ} {c p d : ℕ}
    (hx : ∀ q < 4, x (nodeInPatchInCell nodes c p q) d = m (nodeInPatchInCell nodes c p q) * 2 ^ e)
    (hm : ∀ q < 4, 4 * |m (nodeInPatchInCell nodes c p q)| ≤ 2 ^ R.bits) : sideCoordR R nodes x c p d = sideCoord nodes x c p d := by
  have hq : ∀ z : ℤ, |z| ≤ 2 ^ R.bits → R.fl (z * 2 ^ (e - 2)) = z * 2 ^ (e - 2) := fun z hz => R.exact z _ hz
  have e4 : (2 : ℝ) ^ e / 4 = 2 ^ (e - 2) := by rw [zpow_sub₀ (by norm_num)]; norm_num
  have hx' : ∀ q < 4, x (nodeInPatchInCell nodes c p q) d / 4 = m (nodeInPatchInCell nodes c p q) * 2 ^ (e - 2) := fun q hq => by
    rw [hx q hq, mul_div_assoc, e4]
  have b0 := hm 0 (by omega)
  have b1 := hm 1 (by omega)
  have b2 := hm 2 (by omega)
  have b3 := hm 3 (by omega)
  have x0 := hx' 0 (by omega)
  have x1 := hx' 1 (by omega)
  have x2 := hx' 2 (by omega)
  have x3 := hx' 3 (by omega)
  rw [sideCoordR_eq, sideCoord_eq, add_div, add_div, add_div, x0, x1, x2, x3]
  generalize m (nodeInPatchInCell nodes c p 0) = m0 at *
  generalize m (nodeInPatchInCell nodes c p 1) = m1 at *
  generalize m (nodeInPatchInCell nodes c p 2) = m2 at *
  generalize m (nodeInPatchInCell nodes c p 3) = m3 at *
  have a0 := abs_nonneg m0
  have a1 := abs_nonneg m1
  have a2 := abs_nonneg m2
  have a3 := abs_nonneg m3
  have c1 := abs_add_le m0 m1
  have c2 := abs_add_le (m0 + m1) m2
  have c3 := abs_add_le (m0 + m1 + m2) m3
  rw [zero_add, hq m0 (by linarith), hq m0 (by linarith), hq m1 (by linarith), hq m2 (by linarith), hq m3 (by linarith), ← add_mul, ← Int.cast_add,
    hq (m0 + m1) (by linarith), ← add_mul, ← Int.cast_add, hq (m0 + m1 + m2) (by linarith), ← add_mul, ← Int.cast_add,
    hq (m0 + m1 + m2 + m3) (by linarith)]

/-- **C93, coordinates with two spare bits.**  If in every direction the coordinates are integers, at most a quarter of the largest mantissa, times a common power of
two, then two sides with the same nodes, in whatever order, get the same patch id. -/
theorem C93_dyadic (C N : ℕ) (nodes : ℕ → ℕ → ℕ) (hv : ∀ c < C, ∀ l < 8, nodes c l < N) (x : ℕ → ℕ → ℝ) (m : ℕ → ℕ → ℤ) (e : ℕ → ℤ)
    (hx : ∀ n < N, ∀ d < 3, x n d = m n d * 2 ^ e d) (hm : ∀ n < N, ∀ d < 3, 4 * |m n d| ≤ 2 ^ R.bits)
    (junk : ℕ → ℝ) (j : ℝ) (jt jc js jn : ℕ → ℤ) (ji : ℕ → ℕ → ℤ) (jk : ℕ → ℕ → ℕ) :
    ∃ k, buildPatches C nodes (keyR R C N nodes x junk j) jt jc js jn ji jk = some k ∧
      ∀ c < C, ∀ p < 6, ∀ c' < C, ∀ p' < 6,
        ((List.range 4).map (nodeInPatchInCell nodes c p)).Perm ((List.range 4).map (nodeInPatchInCell nodes c' p')) →
        k.inCell c p = k.inCell c' p' := by
  obtain ⟨k, h1, h2, _⟩ := C38_patches_partial C nodes (keyR R C N nodes x junk j) jt jc js jn ji jk
  refine ⟨k, h1, fun c hc p hp c' hc' p' hp' hn => ?_⟩
  rw [h2 c hc p hp c' hc' p' hp']
  refine keyR_congr R hp hp' fun d hd => ?_
  have hb : ∀ c < C, ∀ p < 6, ∀ q < 4, nodeInPatchInCell nodes c p q < N := fun c hc p hp q hq => hv c hc _ (table_lt p hp q hq)
  rw [sideCoordR_exact R (m := fun n => m n d) (e := e d) (fun q hq => hx _ (hb c hc p hp q hq) d hd) (fun q hq => hm _ (hb c hc p hp q hq) d hd),
    sideCoordR_exact R (m := fun n => m n d) (e := e d) (fun q hq => hx _ (hb c' hc' p' hp' q hq) d hd) (fun q hq => hm _ (hb c' hc' p' hp' q hq) d hd),
    sideCoord_eq, sideCoord_eq]
  have := (hn.map (fun n => x n d)).sum_eq
  simp only [List.range_succ, List.range_zero, List.nil_append, List.map_append, List.map_cons, List.map_nil, List.sum_append, List.sum_cons, List.sum_nil,
    add_zero] at this
  rw [this]

/-- **C93 on rectilinear grids (partial).**  In every arithmetic with unit roundoff at most `2^-20`: for every mesh as in `C38_grid_partial` whose coordinates are at most `A` in
absolute value and whose last cell is at least `s` thick in each direction, with `2^21 u A³ ≤ s³` (double precision: `A ≤ 1600 s`), the patches
computed by `build_patch_connectivity` are exactly the faces: two sides get the same patch id exactly when they have the same nodes, and the slots of
`cells_in_patch` are the one or two cells of the face. -/
theorem C93_grid_partial {C N : ℕ} {nodes : ℕ → ℕ → ℕ} {x : ℕ → ℕ → ℝ} {X : ℕ → ℤ → ℝ} {pos : ℕ → ℕ → ℤ} (hL : Grid C N nodes x X pos)
    (hu : R.u ≤ 1 / 2 ^ 20) {A s : ℝ} (hA : 1 / 10 ^ 11 ≤ A) (hA2 : A ≤ 10 ^ 15) (hx : ∀ n < N, ∀ d < 3, |x n d| ≤ A) (s0 : 0 < s)
    (hs : ∀ d < 3, s ≤ X d (pos (C - 1) d + 1) - X d (pos (C - 1) d)) (hsz : 2 ^ 21 * R.u * A ^ 3 ≤ s ^ 3)
    (junk : ℕ → ℝ) (j : ℝ) (jt jc js jn : ℕ → ℤ) (ji : ℕ → ℕ → ℤ) (jk : ℕ → ℕ → ℕ) :
    ∃ k, buildPatches C nodes (keyR R C N nodes x junk j) jt jc js jn ji jk = some k ∧
      (∀ c < C, ∀ p < 6, ∀ c' < C, ∀ p' < 6, k.inCell c p = k.inCell c' p' ↔
        ∀ n, (∃ q < 4, nodeInPatchInCell nodes c p q = n) ↔ ∃ q < 4, nodeInPatchInCell nodes c' p' q = n) ∧
      ∀ c < C, ∀ p < 6, ∃ g < k.num, k.inCell c p = (g : ℤ) ∧
        ((k.cellsInPatch g 0 = some (c : ℤ) ∧ k.cellsInPatch g 1 = some (-1) ∧
            ∀ c' < C, ∀ p' < 6, k.inCell c' p' = k.inCell c p → c' = c ∧ p' = p) ∨
          ∃ c' < C, ∃ p' < 6, c' ≠ c ∧ k.inCell c' p' = k.inCell c p ∧
            ((k.cellsInPatch g 0 = some (c : ℤ) ∧ k.cellsInPatch g 1 = some (c' : ℤ)) ∨
             (k.cellsInPatch g 0 = some (c' : ℤ) ∧ k.cellsInPatch g 1 = some (c : ℤ))) ∧
            ∀ c'' < C, ∀ p'' < 6, k.inCell c'' p'' = k.inCell c p →
              (c'' = c ∧ p'' = p) ∨ (c'' = c' ∧ p'' = p')) :=
  hL.patches_of_keys _ (fun _ hc _ hp _ hc' _ hp' => hL.keyR_iff R hu hA hA2 hx s0 hs hsz junk j hc hp hc' hp') jt jc js jn ji jk

/-- Non-vacuity: two unit cubes in double precision; the common face is one patch. -/
example (junk : ℕ → ℝ) (j : ℝ) (jt jc js jn : ℕ → ℤ) (ji : ℕ → ℕ → ℤ) (jk : ℕ → ℕ → ℕ) :
    ∃ k, buildPatches 2 duoNodes (keyR Rounding.binary64 2 12 duoNodes (duoCoords 1) junk j) jt jc js jn ji jk = some k ∧
      k.inCell 0 1 = k.inCell 1 0 ∧ k.inCell 0 0 ≠ k.inCell 0 1 := by
  obtain ⟨k, h1, h2, -⟩ := C93_grid_partial Rounding.binary64 duo_lattice.grid (by rw [Rounding.binary64_u]; norm_num) (A := 2) (s := 1)
    (by norm_num) (by norm_num) (fun n hn d hd => Refine.duo_inside d hd n hn) (by norm_num) (fun d _ => by push_cast; norm_num)
    (by rw [Rounding.binary64_u]; norm_num) junk j jt jc js jn ji jk
  have e : ∀ q < 4, nodeInPatchInCell duoNodes 0 1 q = nodeInPatchInCell duoNodes 1 0 q := by decide
  refine ⟨k, h1, ?_, ?_⟩
  · rw [h2 0 (by omega) 1 (by omega) 1 (by omega) 0 (by omega)]
    intro n
    constructor <;> rintro ⟨q, hq, h⟩ <;> exact ⟨q, hq, by rw [← h, e q hq]⟩
  · rw [Ne, h2 0 (by omega) 0 (by omega) 0 (by omega) 1 (by omega)]
    intro h
    obtain ⟨q, hq, hh⟩ := (h 0).1 ⟨0, by omega, by decide⟩
    revert hh
    revert q
    decide

end Verif.Swage.Key
