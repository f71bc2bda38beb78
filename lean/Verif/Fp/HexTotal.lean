import Verif.Fp.HexTheorems
import Verif.Geometry.BoundaryRefine

/-!
# C112 in rounded arithmetic: the sum of the computed cell volumes
-/

namespace Verif.Fp.Geom
open Finset
open Verif.Geometry Verif.Swage
variable {R : Rounding}

/-- The bound of C96 for one cell. -/
noncomputable def cellErr (R : Rounding) (A B C : ℝ) : ℝ := 19 * R.u / (1 - 19 * R.u) * (12 * A * B * C)

theorem sum_rounded (hu : 19 * R.u < 1) (m : Mesh) (h : CellsOK m) {A B C : ℝ}
    (hb : ∀ c < m.cells, ∀ l < 8, |m.coords.val (m.nodesInCell.val (c * 8 + l)) 0| ≤ A ∧
      |m.coords.val (m.nodesInCell.val (c * 8 + l)) 1| ≤ B ∧ |m.coords.val (m.nodesInCell.val (c * 8 + l)) 2| ≤ C)
    (verts0 : ℕ → ℕ → ℝ) (s : Vol) (h1 : s.cell.size = m.cells) (h2 : s.coords.size = m.cells)
    {s' : Vol} {v : ℕ → ℝ} (e : Geometry.volHex m verts0 s = some s') (hv : ∀ c < m.cells, s'.cell.get c = some (v c)) :
    ∃ (t : Vol) (V : ℕ → ℝ), volHex R m verts0 s = some t ∧ (∀ c < m.cells, t.cell.get c = some (V c)) ∧
      |∑ c ∈ range m.cells, V c - ∑ c ∈ range m.cells, v c| ≤ m.cells * cellErr R A B C := by
  obtain ⟨t, et, ht⟩ := C96_volume hu m h verts0 s h1 h2
  obtain ⟨s'', e', hs⟩ := C46_volume m h verts0 s h1 h2
  obtain rfl : s' = s'' := Option.some.inj (e.symm.trans e')
  choose! V hV1 hV2 using ht
  refine ⟨t, V, et, hV1, ?_⟩
  rw [← sum_sub_distrib]
  refine (abs_sum_le_sum_abs _ _).trans ?_
  refine (sum_le_sum fun c hc => ?_).trans_eq (by rw [sum_const, card_range, nsmul_eq_mul])
  have hc := mem_range.1 hc
  have := hV2 c hc A B C (hb c hc)
  rwa [← Option.some.inj ((hv c hc).symm.trans (hs c hc))] at this

/-- **C112 in rounded arithmetic.**  The volumes that `get_vol_hex` computes for the cells of a mesh numbered consistently add up to
the flux out of its boundary patches, up to the error of C96 for each cell. -/
theorem C112_rounded (hu : 19 * R.u < 1) (m : Mesh) (h : CellsOK m) {A B C : ℝ}
    (hb : ∀ c < m.cells, ∀ l < 8, |m.coords.val (m.nodesInCell.val (c * 8 + l)) 0| ≤ A ∧
      |m.coords.val (m.nodesInCell.val (c * 8 + l)) 1| ≤ B ∧ |m.coords.val (m.nodesInCell.val (c * 8 + l)) 2| ≤ C)
    (verts0 : ℕ → ℕ → ℝ) (s : Vol) (h1 : s.cell.size = m.cells) (h2 : s.coords.size = m.cells) (ho : Oriented m.cells (cellNodes m)) (keys : ℕ → ℕ)
    (hk : ∀ c < m.cells, ∀ p < 6, ∀ c' < m.cells, ∀ p' < 6,
      keys (6 * c + p) = keys (6 * c' + p') ↔ SameNodes (cellNodes m) c p c' p')
    (jt jc js jn : ℕ → ℤ) (ji : ℕ → ℕ → ℤ) (jk : ℕ → ℕ → ℕ) (j0 : ℕ → ℕ) :
    ∃ (t : Vol) (V : ℕ → ℝ) (k : Patches) (b : Arr ℕ), volHex R m verts0 s = some t ∧ (∀ c < m.cells, t.cell.get c = some (V c)) ∧
      buildPatches m.cells (cellNodes m) keys jt jc js jn ji jk = some k ∧ buildBdy k j0 = some b ∧ ∃ (g a : ℕ → ℕ) (n : ℕ → ℕ → ℕ),
      (∀ i < b.size, b.get i = some (g i) ∧ k.sidesInPatch (g i) 0 = some (a i : ℤ) ∧
        (∀ q < 4, k.nodeInPatch (g i) q = some (n i q : ℤ)) ∧ Outer m.cells (cellNodes m) (a i / 6) (a i % 6)) ∧
      |∑ c ∈ range m.cells, V c - ∑ i ∈ range b.size, sgn (a i % 6) * flux fun q => m.coords.val (n i q)| ≤
        m.cells * cellErr R A B C := by
  obtain ⟨s', v, k, b, e, hv, e1, e2, g, a, n, f, tot⟩ := C112_boundary m h verts0 s h1 h2 ho keys hk jt jc js jn ji jk j0
  obtain ⟨t, V, et, hV, err⟩ := sum_rounded hu m h hb verts0 s h1 h2 e hv
  refine ⟨t, V, k, b, et, hV, e1, e2, g, a, n, fun i hi => ⟨(f i hi).1, (f i hi).2.1, (f i hi).2.2.1, (f i hi).2.2.2.2.2⟩, ?_⟩
  rwa [tot] at err

/-- **C112 in rounded arithmetic, grids.**  On the cells of a rectilinear grid whose inner nodes have been moved anywhere the computed
volumes add up to the volume of the grid, up to the error of C96 for each cell. -/
theorem C112_rounded_grid (hu : 19 * R.u < 1) (m : Mesh) (h : CellsOK m) {A B C : ℝ}
    (hb : ∀ c < m.cells, ∀ l < 8, |m.coords.val (m.nodesInCell.val (c * 8 + l)) 0| ≤ A ∧
      |m.coords.val (m.nodesInCell.val (c * 8 + l)) 1| ≤ B ∧ |m.coords.val (m.nodesInCell.val (c * 8 + l)) 2| ≤ C)
    (x : ℕ → ℕ → ℝ) (X : ℕ → ℤ → ℝ) (pos : ℕ → ℕ → ℤ)
    (hL : Key.Grid m.cells m.coords.size (cellNodes m) x X pos)
    (hout : ∀ c < m.cells, ∀ p < 6, Outer m.cells (cellNodes m) c p → ∀ q < 4, ∀ d < 3,
      m.coords.val (nodeInPatchInCell (cellNodes m) c p q) d = x (nodeInPatchInCell (cellNodes m) c p q) d)
    (verts0 : ℕ → ℕ → ℝ) (s : Vol) (h1 : s.cell.size = m.cells) (h2 : s.coords.size = m.cells) :
    ∃ (t : Vol) (V : ℕ → ℝ), volHex R m verts0 s = some t ∧ (∀ c < m.cells, t.cell.get c = some (V c)) ∧
      |∑ c ∈ range m.cells, V c - ∑ c ∈ range m.cells, ∏ d ∈ range 3, (X d (pos c d + 1) - X d (pos c d))| ≤
        m.cells * cellErr R A B C := by
  obtain ⟨s', v, e, hv, tot⟩ := C112_grid m h x X pos hL hout verts0 s h1 h2
  obtain ⟨t, V, et, hV, err⟩ := sum_rounded hu m h hb verts0 s h1 h2 e hv
  exact ⟨t, V, et, hV, by rwa [tot] at err⟩

/-- The cube of eight cells in double precision, the node inside at any point of modulus at most `L`: the computed volumes add up to 8
with an error of at most `L^3 / 2^42`. -/
theorem C112_rounded_cube (P : ℕ → ℝ) (L : ℝ) (h2L : 2 ≤ L) (hP : ∀ d < 3, |P d| ≤ L) (verts0 : ℕ → ℕ → ℝ) (s : Vol)
    (h1 : s.cell.size = 8) (h2 : s.coords.size = 8) :
    ∃ (t : Vol) (V : ℕ → ℝ), volHex Rounding.binary64 (cubeMesh P) verts0 s = some t ∧ (∀ c < 8, t.cell.get c = some (V c)) ∧
      |∑ c ∈ range 8, V c - 8| ≤ L ^ 3 / 2 ^ 42 := by
  obtain ⟨s', v, e, hv, tot⟩ := C112_cube P verts0 s h1 h2
  have b : ∀ n d, n < 27 → d < 3 → |(cubeMesh P).coords.val n d| ≤ L := by
    intro n d hn hd
    show |if n = 13 then P d else (cubeDig 3 n d : ℝ)| ≤ L
    split
    · exact hP d hd
    · rw [Nat.abs_cast]
      have : cubeDig 3 n d ≤ 2 := by unfold cubeDig; split_ifs <;> omega
      have : (cubeDig 3 n d : ℝ) ≤ 2 := by exact_mod_cast this
      linarith
  obtain ⟨t, V, et, hV, err⟩ := sum_rounded (R := Rounding.binary64) (by rw [Rounding.binary64_u]; norm_num) (cubeMesh P)
    ⟨rfl, fun a ha => cube_grid.valid (a / 8) (Nat.div_lt_of_lt_mul ha) (a % 8) (by omega)⟩ (A := L) (B := L) (C := L)
    (fun c hc l hl => by
      have hn : (cubeMesh P).nodesInCell.val (c * 8 + l) < 27 := by
        have hc : c < 8 := hc
        exact cube_grid.valid ((c * 8 + l) / 8) (by omega) ((c * 8 + l) % 8) (by omega)
      exact ⟨b _ 0 hn (by omega), b _ 1 hn (by omega), b _ 2 hn (by omega)⟩) verts0 s h1 h2 e hv
  have hc : (cubeMesh P).cells = 8 := rfl
  rw [hc, tot] at err
  refine ⟨t, V, et, hV, err.trans ?_⟩
  unfold cellErr
  rw [Rounding.binary64_u]
  have L3 : 0 ≤ L ^ 3 := by positivity
  have : (8 : ℝ) * (19 * (1 / 2 ^ 53) / (1 - 19 * (1 / 2 ^ 53)) * 12) ≤ 1 / 2 ^ 42 := by norm_num
  push_cast
  nlinarith

end Verif.Fp.Geom
