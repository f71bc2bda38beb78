import Verif.Swage.PatchGrid

/-!
# C38: are the patches the geometric faces?

* `C38_lattice_partial`: on every lattice mesh (any set of cells of a box grid, any spacings) the patches
  are exactly the faces.
* `C38_negation`: a two-cell mesh of box cells where opposite sides of one cell become one patch.
-/

namespace Verif.Swage.Key
open Verif.Swage

/-- A mesh whose cells are different cells `pos c` of a box grid with origin `o` and spacings `h`, and whose
nodes are the grid points (a grid point is one node). -/
structure Lattice (C N : ℕ) (nodes : ℕ → ℕ → ℕ) (x : ℕ → ℕ → ℝ) (o h : ℕ → ℝ) (pos : ℕ → ℕ → ℤ) : Prop where
  ne : 0 < C
  valid : ∀ c < C, ∀ l < 8, nodes c l < N
  hpos : ∀ d < 3, 0 < h d
  coords : ∀ c < C, ∀ l < 8, ∀ d < 3, x (nodes c l) d = o d + h d * ((pos c d : ℝ) + (bit l d : ℝ))
  conform : ∀ c < C, ∀ l < 8, ∀ c' < C, ∀ l' < 8,
    (∀ d < 3, x (nodes c l) d = x (nodes c' l') d) → nodes c l = nodes c' l'
  inj : ∀ c < C, ∀ c' < C, (∀ d < 3, pos c d = pos c' d) → c = c'

section
variable {C N : ℕ} {nodes : ℕ → ℕ → ℕ} {x : ℕ → ℕ → ℝ} {o h : ℕ → ℝ} {pos : ℕ → ℕ → ℤ}

/-- A lattice is a rectilinear grid with equal spacings. -/
theorem Lattice.grid (hL : Lattice C N nodes x o h pos) : Grid C N nodes x (fun d z => o d + h d * (z : ℝ)) pos where
  ne := hL.ne
  valid := hL.valid
  incr := fun d hd z => by have := hL.hpos d hd; push_cast; nlinarith
  last := fun d hd z => by have := hL.hpos d hd; push_cast; linarith
  coords := fun c hc l hl d hd => by rw [hL.coords c hc l hl d hd]; push_cast; ring
  conform := hL.conform
  inj := hL.inj

theorem Lattice.dist (hL : Lattice C N nodes x o h pos) (junk : ℕ → ℝ) (j : ℝ) :
    0 < distMin C nodes x junk j ∧ ∀ d < 3, distMin C nodes x junk j ≤ h d :=
  ⟨(hL.grid.dist junk j).1, fun d hd => ((hL.grid.dist junk j).2 d hd).trans (le_of_eq (by push_cast; ring))⟩

/-- **C38 on lattice meshes (partial).**  For every mesh made of different cells of a box grid (any origin, any
positive spacings, any set of cells) whose nodes are the grid points: `build_patch_connectivity` performs
no out-of-bounds access, two sides get the same patch id exactly when they have the same nodes, and for
every patch the slots of `cells_in_patch` are the one cell and `-1` if only one side has this face, and
otherwise the two cells having it.  (For general hexahedral meshes this fails: `C38_negation`.) -/
theorem C38_lattice_partial (hL : Lattice C N nodes x o h pos) (junk : ℕ → ℝ) (j : ℝ) (jt jc js jn : ℕ → ℤ)
    (ji : ℕ → ℕ → ℤ) (jk : ℕ → ℕ → ℕ) :
    ∃ k, buildPatches C nodes (key C N nodes x junk j) jt jc js jn ji jk = some k ∧
      (∀ c < C, ∀ p < 6, ∀ c' < C, ∀ p' < 6, k.inCell c p = k.inCell c' p' ↔
        ∀ n, (∃ q < 4, nodeInPatchInCell nodes c p q = n) ↔ ∃ q < 4, nodeInPatchInCell nodes c' p' q = n) ∧
      ∀ c < C, ∀ p < 6, ∃ g < k.num, k.inCell c p = (g : ℤ) ∧
        ((k.cellsInPatch g 0 = some (c : ℤ) ∧ k.cellsInPatch g 1 = some (-1) ∧
            ∀ c' < C, ∀ p' < 6, k.inCell c' p' = k.inCell c p → c' = c ∧ p' = p) ∨
          ∃ c' < C, ∃ p' < 6, c' ≠ c ∧ k.inCell c' p' = k.inCell c p ∧
            ((k.cellsInPatch g 0 = some (c : ℤ) ∧ k.cellsInPatch g 1 = some (c' : ℤ)) ∨
             (k.cellsInPatch g 0 = some (c' : ℤ) ∧ k.cellsInPatch g 1 = some (c : ℤ))) ∧
            ∀ c'' < C, ∀ p'' < 6, k.inCell c'' p'' = k.inCell c p →
              (c'' = c ∧ p'' = p) ∨ (c'' = c' ∧ p'' = p')) :=
  C38_grid_partial hL.grid junk j jt jc js jn ji jk

end

/-- Nodes of two neighbouring box cells (three grid planes in x). -/
def duoNodes (c l : ℕ) : ℕ := (c + bit l 0) + 3 * bit l 1 + 6 * bit l 2
/-- Coordinates of the 12 nodes when the grid planes in x are `0`, `w`, `w + 1`. -/
noncomputable def duoCoords (w : ℝ) (n d : ℕ) : ℝ :=
  if d = 0 then (if n % 3 = 0 then 0 else if n % 3 = 1 then w else w + 1)
  else if d = 1 then ((n / 3 % 2 : ℕ) : ℝ) else ((n / 6 : ℕ) : ℝ)

/-- The hypotheses of `C38_lattice_partial` hold for two unit cubes side by side. -/
theorem duo_lattice : Lattice 2 12 duoNodes (duoCoords 1) (fun _ => 0) (fun _ => 1) (fun c d => if d = 0 then (c : ℤ) else 0) := by
  have hx : ∀ c < 2, ∀ l < 8, ∀ d < 3, duoCoords 1 (duoNodes c l) d =
      (((if d = 0 then c else 0) + bit l d : ℕ) : ℝ) := by
    intro c hc l hl d hd
    interval_cases c <;> interval_cases l <;> interval_cases d <;> norm_num [duoCoords, duoNodes, bit]
  refine ⟨by omega, by decide, fun _ _ => one_pos, ?_, ?_, ?_⟩
  · intro c hc l hl d hd
    rw [hx c hc l hl d hd]
    by_cases h : d = 0 <;> simp [h]
  · intro c hc l hl c' hc' l' hl' hh
    have hn : ∀ d < 3, (if d = 0 then c else 0) + bit l d = (if d = 0 then c' else 0) + bit l' d := by
      intro d hd
      have := hh d hd
      rw [hx c hc l hl d hd, hx c' hc' l' hl' d hd] at this
      exact_mod_cast this
    have n0 := hn 0 (by omega)
    have n1 := hn 1 (by omega)
    have n2 := hn 2 (by omega)
    simp at n0 n1 n2
    unfold duoNodes; omega
  · intro c hc c' hc' hh
    have := hh 0 (by omega)
    simpa using this

/-- The hypotheses of `C38_grid_partial` hold for a box of width 2 beside one of width 1. -/
example : Grid 2 12 duoNodes (duoCoords 2) (fun d z => if d = 0 then (if z ≤ 1 then 2 * (z : ℝ) else z + 1) else z)
    (fun c d => if d = 0 then (c : ℤ) else 0) := by
  have hx : ∀ c < 2, ∀ l < 8, ∀ d < 3, duoCoords 2 (duoNodes c l) d =
      if d = 0 then (if c + bit l d ≤ 1 then 2 * ((c + bit l d : ℕ) : ℝ) else ((c + bit l d : ℕ) : ℝ) + 1) else (bit l d : ℝ) := by
    intro c hc l hl d hd
    interval_cases c <;> interval_cases l <;> interval_cases d <;> norm_num [duoCoords, duoNodes, bit]
  refine ⟨by omega, by decide, ?_, ?_, ?_, ?_, ?_⟩
  · intro d hd z
    by_cases h : d = 0
    · simp only [if_pos h]
      by_cases h1 : z ≤ 1
      · rw [if_pos h1]
        split
        · push_cast; linarith
        · have : z = 1 := by omega
          subst this; norm_num
      · rw [if_neg h1, if_neg (by omega)]; push_cast; linarith
    · simp [h]
  · intro d hd z
    by_cases h : d = 0
    · simp only [if_pos h]
      norm_num
      by_cases h1 : z ≤ 1
      · rw [if_pos h1]
        split
        · linarith
        · have : z = 1 := by omega
          subst this; norm_num
      · rw [if_neg h1, if_neg (by omega)]; linarith
    · norm_num [h]
  · intro c hc l hl d hd
    rw [hx c hc l hl d hd]
    by_cases h : d = 0
    · simp only [if_pos h]
      by_cases h1 : c + bit l d ≤ 1
      · rw [if_pos h1, if_pos (by exact_mod_cast h1)]; push_cast; ring
      · rw [if_neg h1, if_neg (by exact_mod_cast h1)]; push_cast; ring
    · simp [h]
  · intro c hc l hl c' hc' l' hl' hh
    have hn : ∀ d < 3, (if d = 0 then c else 0) + bit l d = (if d = 0 then c' else 0) + bit l' d := by
      intro d hd
      have := hh d hd
      rw [hx c hc l hl d hd, hx c' hc' l' hl' d hd] at this
      by_cases h : d = 0
      · simp only [if_pos h] at this ⊢
        generalize c + bit l d = a at this ⊢
        generalize c' + bit l' d = b at this ⊢
        split at this <;> split at this
        · have : (a : ℝ) = b := by linarith
          exact_mod_cast this
        · have h3 : (2 * a : ℕ) = b + 1 := by exact_mod_cast this
          omega
        · have h3 : (a + 1 : ℕ) = 2 * b := by exact_mod_cast this
          omega
        · have : (a : ℝ) = b := by linarith
          exact_mod_cast this
      · simp only [if_neg h] at this ⊢
        have : bit l d = bit l' d := by exact_mod_cast this
        omega
    have n0 := hn 0 (by omega)
    have n1 := hn 1 (by omega)
    have n2 := hn 2 (by omega)
    simp at n0 n1 n2
    unfold duoNodes; omega
  · intro c hc c' hc' hh
    have := hh 0 (by omega)
    simpa using this

/-- **C38, negation.**  Two box cells of widths 1/100 and 1 side by side: the patches of the opposite sides 0
and 1 of the thin cell are the same, although these sides have no node in common. -/
theorem C38_negation (junk : ℕ → ℝ) (j : ℝ) (jt jc js jn : ℕ → ℤ) (ji : ℕ → ℕ → ℤ) (jk : ℕ → ℕ → ℕ) :
    ∃ k, buildPatches 2 duoNodes (key 2 12 duoNodes (duoCoords (1 / 100)) junk j) jt jc js jn ji jk = some k ∧
      k.inCell 0 0 = k.inCell 0 1 ∧
      ∀ q < 4, ∀ q' < 4, nodeInPatchInCell duoNodes 0 0 q ≠ nodeInPatchInCell duoNodes 0 1 q' := by
  obtain ⟨k, h1, h2, _⟩ := C38_patches_partial 2 duoNodes (key 2 12 duoNodes (duoCoords (1 / 100)) junk j) jt jc js jn ji jk
  refine ⟨k, h1, (h2 0 (by omega) 0 (by omega) 0 (by omega) 1 (by omega)).2 ?_, by decide⟩
  -- the last cell is a unit cube
  have hcell : distMin 2 duoNodes (duoCoords (1 / 100)) junk j = 1 := by
    rw [distMin_last _ _ _ _ _ (by omega)]
    apply le_antisymm
    · refine (cellDistMin_le _ _ 0 1 (by omega) (by omega)).trans (le_of_eq ?_)
      norm_num [dist1, duoCoords, duoNodes, bit]
    · apply le_cellDistMin
      intro b hb a ha
      unfold dist1
      refine le_trans ?_ (le_abs_self _)
      apply Real.le_sqrt_of_sq_le
      interval_cases b <;> interval_cases a <;> norm_num [duoCoords, duoNodes, bit]
  have hδ : delta 2 duoNodes (duoCoords (1 / 100)) junk j = 1 / 3 := by
    unfold delta; rw [hcell]; norm_num
  unfold key
  rw [hδ]
  have hmin : ∀ d < 3, coordMin 12 (duoCoords (1 / 100)) d = 0 := by
    intro d hd
    unfold coordMin
    interval_cases d <;> norm_num [loop_succ, duoCoords]
  have hmax0 : coordMax 12 (duoCoords (1 / 100)) 0 = 101 / 100 := by
    unfold coordMax; norm_num [loop_succ, duoCoords]
  have hmax1 : coordMax 12 (duoCoords (1 / 100)) 1 = 1 := by
    unfold coordMax; norm_num [loop_succ, duoCoords]
  have s00 : sideCoord duoNodes (duoCoords (1 / 100)) 0 0 0 = 0 := by
    rw [sideCoord_eq]; norm_num [nodeInPatchInCell, patchNodeTable, duoCoords, duoNodes, bit]
  have s10 : sideCoord duoNodes (duoCoords (1 / 100)) 0 1 0 = 1 / 100 := by
    rw [sideCoord_eq]; norm_num [nodeInPatchInCell, patchNodeTable, duoCoords, duoNodes, bit]
  have s01 : sideCoord duoNodes (duoCoords (1 / 100)) 0 0 1 = 1 / 2 := by
    rw [sideCoord_eq]; norm_num [nodeInPatchInCell, patchNodeTable, duoCoords, duoNodes, bit]
  have s11 : sideCoord duoNodes (duoCoords (1 / 100)) 0 1 1 = 1 / 2 := by
    rw [sideCoord_eq]; norm_num [nodeInPatchInCell, patchNodeTable, duoCoords, duoNodes, bit]
  have s02 : sideCoord duoNodes (duoCoords (1 / 100)) 0 0 2 = 1 / 2 := by
    rw [sideCoord_eq]; norm_num [nodeInPatchInCell, patchNodeTable, duoCoords, duoNodes, bit]
  have s12 : sideCoord duoNodes (duoCoords (1 / 100)) 0 1 2 = 1 / 2 := by
    rw [sideCoord_eq]; norm_num [nodeInPatchInCell, patchNodeTable, duoCoords, duoNodes, bit]
  have f : ∀ p < 2, ⌊hash1 12 duoNodes (duoCoords (1 / 100)) (1 / 3) 0 p⌋₊ = 18 := by
    intro p hp
    rw [Nat.floor_eq_iff (by
      unfold hash1 hashIdx numBins
      interval_cases p <;>
        rw [hmin 0 (by omega), hmin 1 (by omega), hmin 2 (by omega), hmax0, hmax1] <;>
        simp only [s00, s01, s02, s10, s11, s12] <;> norm_num)]
    unfold hash1 hashIdx numBins
    interval_cases p <;>
      rw [hmin 0 (by omega), hmin 1 (by omega), hmin 2 (by omega), hmax0, hmax1] <;>
      simp only [s00, s01, s02, s10, s11, s12] <;> norm_num
  exact (f 0 (by omega)).trans (f 1 (by omega)).symm

/-- **C41, the coordinates tested.**  For every patch built by `build_patch_connectivity`, the coordinates that
`check_bdy` tests (`patch_coords`) are defined (no out-of-bounds access) and are the averages of the four
node coordinates of a side belonging to the patch. -/
theorem C41_patch_coords (C : ℕ) (nodes : ℕ → ℕ → ℕ) (keys : ℕ → ℕ) (x : ℕ → ℕ → ℝ) (jt jc js jn : ℕ → ℤ)
    (ji : ℕ → ℕ → ℤ) (jk : ℕ → ℕ → ℕ) :
    ∃ k, buildPatches C nodes keys jt jc js jn ji jk = some k ∧
      ∀ g < k.num, ∃ c < C, ∃ p < 6, k.inCell c p = (g : ℤ) ∧
        ∀ d, patchCoord k x g d = some ((∑ q ∈ Finset.range 4, x (nodeInPatchInCell nodes c p q) d) / 4) := by
  obtain ⟨k, h1, _, _, _, _, h4⟩ := C38_patches_partial C nodes keys jt jc js jn ji jk
  refine ⟨k, h1, fun g hg => ?_⟩
  obtain ⟨a, L, hs, _, _, hn, _⟩ := h4 g hg
  have ha : a ∈ sidesOf k C g := by rw [hs]; simp
  unfold sidesOf at ha
  rw [List.mem_filter, List.mem_range] at ha
  refine ⟨a / 6, by omega, a % 6, by omega, by simpa using ha.2, fun d => ?_⟩
  unfold patchCoord
  simp only [loopM_succ, loopM_zero, Option.bind_eq_bind, Option.bind_some, hn 0 (by omega), hn 1 (by omega),
    hn 2 (by omega), hn 3 (by omega), Int.toNat_natCast, Option.pure_def, Option.some_inj, Finset.sum_range_succ,
    Finset.sum_range_zero]
  ring

end Verif.Swage.Key
