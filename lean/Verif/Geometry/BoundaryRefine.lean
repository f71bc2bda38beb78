import Verif.Geometry.BoundaryTheorems
import Verif.Swage.RefineGrid

/-!
# C112 on refined meshes, and instances
-/

namespace Verif.Geometry
open Finset
open Verif.Swage
open Verif.Swage.Refine

theorem sum_blocks (n C : ℕ) (f : ℕ → ℝ) : ∑ e ∈ range (n * C), f e = ∑ c ∈ range C, ∑ p ∈ range n, f (n * c + p) := by
  induction C with
  | zero => rfl
  | succ C ih => rw [sum_range_succ, ← ih, show n * (C + 1) = n * C + n by ring, sum_range_add]

/-- The cells of the refined grid fill the cells of the original grid. -/
theorem sum_fine {S : ℕ} (hS : 0 < S) (X : ℕ → ℤ → ℝ) (pos : ℕ → ℕ → ℤ) {t : ℕ → ℝ} (t0 : t 0 = 0) (t1 : t S = 1) (E : ℕ) :
    ∑ c ∈ range (E * S ^ 3), ∏ d ∈ range 3, (fineX S X t d (finePos S pos c d + 1) - fineX S X t d (finePos S pos c d)) =
      ∑ e ∈ range E, ∏ d ∈ range 3, (X d (pos e d + 1) - X d (pos e d)) := by
  rw [show E * S ^ 3 = S * S * S * E by ring, sum_blocks]
  refine sum_congr rfl fun e _ => ?_
  rw [show S * S * S = S * S * S from rfl, sum_blocks (S * S) S]
  have step : ∀ k ∈ range S, ∑ m ∈ range (S * S), ∏ d ∈ range 3, (fineX S X t d (finePos S pos (S * S * S * e + (S * S * k + m)) d + 1) -
      fineX S X t d (finePos S pos (S * S * S * e + (S * S * k + m)) d)) =
      (∏ d ∈ range 3, (X d (pos e d + 1) - X d (pos e d))) * (t (k + 1) - t k) := by
    intro k hk
    have hk := mem_range.1 hk
    rw [sum_blocks S S]
    have inner : ∀ j ∈ range S, ∑ i ∈ range S, ∏ d ∈ range 3, (fineX S X t d (finePos S pos (S * S * S * e + (S * S * k + (S * j + i))) d + 1) -
        fineX S X t d (finePos S pos (S * S * S * e + (S * S * k + (S * j + i))) d)) =
        (∏ d ∈ range 3, (X d (pos e d + 1) - X d (pos e d))) * (t (k + 1) - t k) * (t (j + 1) - t j) := by
      intro j hj
      have hj := mem_range.1 hj
      have one : ∀ i ∈ range S, ∏ d ∈ range 3, (fineX S X t d (finePos S pos (S * S * S * e + (S * S * k + (S * j + i))) d + 1) -
          fineX S X t d (finePos S pos (S * S * S * e + (S * S * k + (S * j + i))) d)) =
          (∏ d ∈ range 3, (X d (pos e d + 1) - X d (pos e d))) * (t (k + 1) - t k) * (t (j + 1) - t j) * (t (i + 1) - t i) := by
        intro i hi
        have hi := mem_range.1 hi
        have hid : S * S * S * e + (S * S * k + (S * j + i)) = cellId S e k j i := by unfold cellId; ring
        have hf : ∀ d < 3, fineX S X t d (finePos S pos (cellId S e k j i) d + 1) - fineX S X t d (finePos S pos (cellId S e k j i) d) =
            (X d (pos e d + 1) - X d (pos e d)) * (t (dig i j k d + 1) - t (dig i j k d)) := by
          intro d _
          have hd := dig_lt (d := d) hi hj hk
          unfold finePos
          rw [cellElem_cellId hk hj hi, cellDig_cellId hk hj hi, fineX_eq hS t0 t1 d _ hd.le,
            show pos e d * (S : ℤ) + (dig i j k d : ℤ) + 1 = pos e d * (S : ℤ) + ((dig i j k d + 1 : ℕ) : ℤ) by push_cast; ring,
            fineX_eq hS t0 t1 d _ (by omega)]
          ring
        rw [hid, prod_congr rfl fun d hd => hf d (mem_range.1 hd)]
        simp only [prod_range_succ, prod_range_zero, dig]
        norm_num
        ring
      rw [sum_congr rfl one, ← mul_sum, sum_range_sub, t0, t1]
      ring
    rw [sum_congr rfl inner, ← mul_sum, sum_range_sub, t0, t1]
    ring
  rw [sum_congr rfl step, ← mul_sum, sum_range_sub, t0, t1]
  ring

/-- The refined mesh with nodes at `y`, as far as `get_vol_hex` reads it. -/
def refinedMesh (r : Refined) (C : ℕ) (y : ℕ → ℕ → ℝ) : Mesh :=
  ⟨0, C, 0, 0, 0, ⟨0, fun _ => 0⟩, ⟨0, fun _ => 0⟩, ⟨r.nodes.size, fun a => (r.nodes.val a).toNat⟩, ⟨0, fun _ => 0⟩, ⟨r.numNodes, y⟩⟩

/-- **C112 (refined meshes).**  Refine a mesh made of cells of a rectilinear grid (under the conditions of `C42_grid_partial`) with
any order up to 5, and move the nodes of the refined mesh in any way that leaves the nodes of the outer sides in place.  The volumes
`get_vol_hex` computes on the refined mesh add up to the volume of the original grid cells. -/
theorem C112_refined (E N p : ℕ) (hp : p ≤ 5) (nodes : ℕ → ℕ → ℕ) (x : ℕ → ℕ → ℝ) (X : ℕ → ℤ → ℝ)
    (pos : ℕ → ℕ → ℤ) (hL : Key.Grid E N nodes x X pos) (hsmall : ∃ d < 3, X d (pos (E - 1) d + 1) - X d (pos (E - 1) d) ≤ 7)
    (hfirst : ∀ c < E, ∀ l < 8, nodes c l = nodes 0 0 → c = 0 ∧ l = 0) (q : Refine.Junk) :
    ∃ r, refineMesh E N p nodes x q = some r ∧ ∀ y : ℕ → ℕ → ℝ,
      (∀ c < E * sub1d p ^ 3, ∀ s < 6, Outer (E * sub1d p ^ 3) r.cellNode c s → ∀ i < 4, ∀ d < 3,
        y (nodeInPatchInCell r.cellNode c s i) d = r.x (nodeInPatchInCell r.cellNode c s i) d) →
      ∀ (verts0 : ℕ → ℕ → ℝ) (s : Vol), s.cell.size = E * sub1d p ^ 3 → s.coords.size = E * sub1d p ^ 3 →
      ∃ (s' : Vol) (v : ℕ → ℝ), volHex (refinedMesh r (E * sub1d p ^ 3) y) verts0 s = some s' ∧
        (∀ c < E * sub1d p ^ 3, s'.cell.get c = some (v c)) ∧
        ∑ c ∈ range (E * sub1d p ^ 3), v c = ∑ c ∈ range E, ∏ d ∈ range 3, (X d (pos c d + 1) - X d (pos c d)) := by
  obtain ⟨r, e, R, t, -, t0, t1, -, -, hG⟩ := refined_grid E N p hp nodes x X pos hL hsmall hfirst q
  refine ⟨r, e, fun y hy verts0 s h1 h2 => ?_⟩
  have hok : CellsOK (refinedMesh r (E * sub1d p ^ 3) y) := by
    refine ⟨R.cells_size.2.2.2, fun a ha => ?_⟩
    have hv := hG.valid (a / 8) (Nat.div_lt_of_lt_mul (by simp only [refinedMesh] at ha; omega)) (a % 8) (by omega)
    unfold Refined.cellNode at hv
    rwa [show a / 8 * 8 + a % 8 = a by omega] at hv
  obtain ⟨s', v, a1, a2, a3⟩ := C112_grid (refinedMesh r (E * sub1d p ^ 3) y) hok r.x _ _ hG hy verts0 s h1 h2
  refine ⟨s', v, a1, a2, a3.trans ?_⟩
  exact sum_fine (by unfold sub1d; split <;> omega) X pos t0 t1 E

/-! ### Instances -/

/-- Nodes of the eight cells of a cube of two cells in each direction. -/
def cubeNodes (c l : ℕ) : ℕ := (c % 2 + Key.bit l 0) + 3 * (c / 2 % 2 + Key.bit l 1) + 9 * (c / 4 + Key.bit l 2)
/-- Position of a cell or node in a row of `b`. -/
def cubeDig (b n d : ℕ) : ℕ := if d = 0 then n % b else if d = 1 then n / b % b else n / (b * b)

theorem cube_dig : ∀ c < 8, ∀ l < 8, ∀ d < 3, cubeDig 3 (cubeNodes c l) d = cubeDig 2 c d + Key.bit l d := by decide

theorem cube_grid : Key.Grid 8 27 cubeNodes (fun n d => (cubeDig 3 n d : ℝ)) (fun _ z => (z : ℝ)) (fun c d => (cubeDig 2 c d : ℤ)) := by
  refine ⟨by omega, by decide, fun d _ z => by push_cast; linarith, fun d _ z => by push_cast; norm_num, ?_, ?_, ?_⟩
  · intro c hc l hl d hd
    simp only [cube_dig c hc l hl d hd]
    push_cast; rfl
  · intro c hc l hl c' hc' l' hl' h
    have h' : ∀ d < 3, cubeDig 3 (cubeNodes c l) d = cubeDig 3 (cubeNodes c' l') d := fun d hd => by exact_mod_cast h d hd
    have h0 := h' 0 (by omega); have h1 := h' 1 (by omega); have h2 := h' 2 (by omega)
    simp only [cubeDig] at h0 h1 h2
    norm_num at h0 h1 h2
    omega
  · intro c hc c' hc' h
    have h' : ∀ d < 3, cubeDig 2 c d = cubeDig 2 c' d := fun d hd => by exact_mod_cast h d hd
    have h0 := h' 0 (by omega); have h1 := h' 1 (by omega); have h2 := h' 2 (by omega)
    simp only [cubeDig] at h0 h1 h2
    norm_num at h0 h1 h2
    omega

/-- The cube with node 13, the one inside, at the point `P`. -/
def cubeMesh (P : ℕ → ℝ) : Mesh :=
  ⟨0, 8, 0, 0, 0, ⟨0, fun _ => 0⟩, ⟨0, fun _ => 0⟩, ⟨64, fun a => cubeNodes (a / 8) (a % 8)⟩, ⟨0, fun _ => 0⟩,
    ⟨27, fun n d => if n = 13 then P d else (cubeDig 3 n d : ℝ)⟩⟩

theorem cubeMesh_nodes (P : ℕ → ℝ) : ∀ c < 8, ∀ l < 8, cellNodes (cubeMesh P) c l = cubeNodes c l := by
  intro c _ l hl
  show cubeNodes ((c * 8 + l) / 8) ((c * 8 + l) % 8) = _
  rw [show (c * 8 + l) / 8 = c by omega, show (c * 8 + l) % 8 = l by omega]

theorem cube_inside : ∀ c < 8, ∀ p < 6, (∃ q < 4, nodeInPatchInCell cubeNodes c p q = 13) → ∃ c' < 8, ∃ p' < 6, c' ≠ c ∧
    ∀ q < 4, nodeInPatchInCell cubeNodes c p q = nodeInPatchInCell cubeNodes c' p' q := by decide

/-- Wherever the node inside is put, also far outside of the cube, the eight volumes add up to 8. -/
theorem C112_cube (P : ℕ → ℝ) (verts0 : ℕ → ℕ → ℝ) (s : Vol) (h1 : s.cell.size = 8) (h2 : s.coords.size = 8) :
    ∃ (s' : Vol) (v : ℕ → ℝ), volHex (cubeMesh P) verts0 s = some s' ∧ (∀ c < 8, s'.cell.get c = some (v c)) ∧
      ∑ c ∈ range 8, v c = 8 := by
  have tl := Key.table_lt
  have nd : ∀ c < 8, ∀ p < 6, ∀ q < 4, nodeInPatchInCell (cellNodes (cubeMesh P)) c p q = nodeInPatchInCell cubeNodes c p q :=
    fun c hc p hp q hq => cubeMesh_nodes P c hc _ (tl p hp q hq)
  have hG : Key.Grid 8 27 (cellNodes (cubeMesh P)) (fun n d => (cubeDig 3 n d : ℝ)) (fun _ z => (z : ℝ))
      (fun c d => (cubeDig 2 c d : ℤ)) := by
    have h := cube_grid
    refine ⟨h.ne, fun c hc l hl => ?_, h.incr, h.last, fun c hc l hl d hd => ?_, fun c hc l hl c' hc' l' hl' hh => ?_, h.inj⟩
    · rw [cubeMesh_nodes P c hc l hl]; exact h.valid c hc l hl
    · rw [cubeMesh_nodes P c hc l hl]; exact h.coords c hc l hl d hd
    · rw [cubeMesh_nodes P c hc l hl, cubeMesh_nodes P c' hc' l' hl'] at hh ⊢
      exact h.conform c hc l hl c' hc' l' hl' hh
  obtain ⟨s', v, e, e1, e2⟩ := C112_grid (cubeMesh P) ⟨rfl, fun a ha => cube_grid.valid (a / 8) (Nat.div_lt_of_lt_mul ha) (a % 8) (by omega)⟩
    _ _ _ hG (by
      intro c hc p hp ho q hq d hd
      show (if nodeInPatchInCell (cellNodes (cubeMesh P)) c p q = 13 then P d else _) = _
      rw [if_neg]
      intro h13
      rw [nd c hc p hp q hq] at h13
      obtain ⟨c', hc', p', hp', hne, hn⟩ := cube_inside c hc p hp ⟨q, hq, h13⟩
      refine hne (ho c' hc' p' hp' fun n => exists_congr fun i => and_congr_right fun hi => ?_).1
      rw [nd c hc p hp i hi, nd c' hc' p' hp' i hi, hn i hi]) verts0 s h1 h2
  refine ⟨s', v, e, e1, e2.trans ?_⟩
  simp [show (cubeMesh P).cells = 8 from rfl]

/-- The hypotheses of `C112_boundary` and `C112_moved`. -/
example : Oriented 8 cubeNodes := Grid.oriented cube_grid

end Verif.Geometry
