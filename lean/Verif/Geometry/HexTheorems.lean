import Verif.Geometry.VolLemmas
import Verif.Geometry.HexVolume

/-!
# C46, C47: `get_vol_hex`
-/

namespace Verif.Geometry
open Finset

/-- What the vertex loop computes: the local arrays hold the nodes in the order of `c_con`; the sums take entries 2 and
6 of the local arrays before they are overwritten. -/
theorem hexVerts_spec {m : Mesh} {c : ℕ} (h : CellOK m c) (s : ℕ → ℕ → ℝ) :
    ∃ t, hexVerts m c (s, fun _ => 0) = some t ∧ (∀ l < 8, ∀ d < 3, t.1 (cCon l) d = nodePt m c l d) ∧
      ∀ d < 3, t.2 d = nodePt m c 0 d + nodePt m c 1 d + nodePt m c 2 d + nodePt m c 4 d + nodePt m c 5 d + nodePt m c 6 d +
        s 2 d + s 6 d := by
  have g : ∀ l < 8, ∀ {β : Type} (k : (ℕ → ℝ) → Option β), ((m.nodesInCell.get (c * 8 + l)).bind fun node =>
      (m.coords.get node).bind k) = k (m.coords.val (m.nodesInCell.val (c * 8 + l))) := by
    intro l hl β k
    rw [Arr.get_lt (h.size l hl), Option.bind_some, Arr.get_lt (h.nodes l hl), Option.bind_some]
  unfold hexVerts
  simp only [Option.bind_eq_bind]
  rw [show (8 : ℕ) = 7 + 1 from rfl, loopM_succ, show (7 : ℕ) = 6 + 1 from rfl, loopM_succ, show (6 : ℕ) = 5 + 1 from rfl,
    loopM_succ, show (5 : ℕ) = 4 + 1 from rfl, loopM_succ, show (4 : ℕ) = 3 + 1 from rfl, loopM_succ,
    show (3 : ℕ) = 2 + 1 from rfl, loopM_succ, show (2 : ℕ) = 1 + 1 from rfl, loopM_succ, show (1 : ℕ) = 0 + 1 from rfl,
    loopM_succ, loopM_zero]
  norm_num only
  rw [Option.bind_some, g 0 (by omega), Option.pure_def, Option.bind_some, g 1 (by omega), Option.bind_some, g 2 (by omega),
    Option.bind_some, g 3 (by omega), Option.bind_some, g 4 (by omega), Option.bind_some, g 5 (by omega),
    Option.bind_some, g 6 (by omega), Option.bind_some, g 7 (by omega)]
  refine ⟨_, rfl, ?_, ?_⟩
  · intro l hl d hd
    interval_cases l <;> interval_cases d <;> simp [cCon, store, RefElem.row3, nodePt]
  · intro d hd
    interval_cases d <;> simp [cCon, store, RefElem.row3, nodePt] <;> ring

/-- The nodes of all cells exist. -/
structure CellsOK (m : Mesh) : Prop where
  size : m.nodesInCell.size = m.cells * 8
  nodes : ∀ a < m.cells * 8, m.nodesInCell.val a < m.coords.size

theorem CellsOK.cell {m : Mesh} (h : CellsOK m) {c : ℕ} (hc : c < m.cells) : CellOK m c :=
  ⟨fun l hl => by rw [h.size]; omega, fun l hl => h.nodes _ (by omega)⟩

/-- The vertex coordinates used in the sums of cell `c` for local array entries 2 and 6: those of nodes 3 and 7 of the
cell before, or the uninitialised contents of the local arrays. -/
def stale (m : Mesh) (verts0 : ℕ → ℕ → ℝ) (c l d : ℕ) : ℝ :=
  if c = 0 then verts0 l d else nodePt m (c - 1) (l + 1) d

theorem volHex_spec {m : Mesh} (h : CellsOK m) (verts0 : ℕ → ℕ → ℝ) (s : Vol) (h1 : s.cell.size = m.cells)
    (h2 : s.coords.size = m.cells) :
    ∃ s', volHex m verts0 s = some s' ∧ s'.elem = s.elem ∧ s'.cell.size = m.cells ∧ s'.coords.size = m.cells ∧
      ∀ c < m.cells, s'.cell.val c = volume (nodePt m c) ∧
        ∀ d < 3, s'.coords.val c d = (nodePt m c 0 d + nodePt m c 1 d + nodePt m c 2 d + nodePt m c 4 d + nodePt m c 5 d +
          nodePt m c 6 d + stale m verts0 c 2 d + stale m verts0 c 6 d) / 8 := by
  obtain ⟨t, t1, t2, t3, t4, t5, -⟩ := loopM_spec (n := m.cells) (body := hexCell m) (s := ⟨s, verts0, fun _ => 0⟩)
    (fun n t => t.vol.elem = s.elem ∧ t.vol.cell.size = m.cells ∧ t.vol.coords.size = m.cells ∧
      (∀ c < n, t.vol.cell.val c = volume (nodePt m c) ∧
        ∀ d < 3, t.vol.coords.val c d = (nodePt m c 0 d + nodePt m c 1 d + nodePt m c 2 d + nodePt m c 4 d + nodePt m c 5 d +
          nodePt m c 6 d + stale m verts0 c 2 d + stale m verts0 c 6 d) / 8) ∧
      ∀ d < 3, t.verts 2 d = stale m verts0 n 2 d ∧ t.verts 6 d = stale m verts0 n 6 d)
    ⟨rfl, h1, h2, by intro c hc; omega, fun d _ => ⟨rfl, rfl⟩⟩
    (by
      rintro c t hc ⟨i1, i2, i3, i4, i5⟩
      obtain ⟨u, u1, u2, u3⟩ := hexVerts_spec (h.cell hc) t.verts
      refine ⟨⟨⟨⟨t.vol.cell.size, store t.vol.cell.val c (hexVol (fun l => u.1 l 0) (fun l => u.1 l 1) (fun l => u.1 l 2))⟩,
        ⟨t.vol.coords.size, store t.vol.coords.val c (store (store (store (t.vol.coords.val c) 0 (u.2 0 * (1 / 8))) 1
          (u.2 1 * (1 / 8))) 2 (u.2 2 * (1 / 8)))⟩, t.vol.elem⟩, u.1, u.2⟩, ?_, i1, i2, i3, ?_, ?_⟩
      · unfold hexCell
        simp only [Option.bind_eq_bind]
        rw [u1, Option.bind_some, assign3_spec (h.cell hc) (by omega), Arr.set_lt _ (by omega), Option.bind_some]
        rfl
      · intro c' hc'
        by_cases he : c' = c
        · subst he
          simp only [store_same]
          refine ⟨hexVol_eq _ _ u2, ?_⟩
          intro d hd
          have e : u.2 d * (1 / 8) = (nodePt m c' 0 d + nodePt m c' 1 d + nodePt m c' 2 d + nodePt m c' 4 d +
              nodePt m c' 5 d + nodePt m c' 6 d + stale m verts0 c' 2 d + stale m verts0 c' 6 d) / 8 := by
            rw [u3 d hd, (i5 d hd).1, (i5 d hd).2]; ring
          rw [← e]
          have c : d = 0 ∨ d = 1 ∨ d = 2 := by omega
          rcases c with rfl | rfl | rfl <;> simp [store]
        · simp only [store_ne _ _ he]
          exact i4 c' (by omega)
      · intro d hd
        have a := u2 3 (by omega) d hd
        have b := u2 7 (by omega) d hd
        simp only [stale, if_neg (Nat.succ_ne_zero c), Nat.add_sub_cancel]
        exact ⟨a, b⟩)
  refine ⟨t.vol, ?_, t2, t3, t4, t5⟩
  unfold volHex
  simp only [Option.bind_eq_bind]
  rw [t1]; rfl

/-- **C46.**  After `get_vol_hex`, on any mesh, the volume of every cell is the integral over the unit cube of the
Jacobian determinant of the trilinear map through the eight nodes of the cell. -/
theorem C46_volume (m : Mesh) (h : CellsOK m) (verts0 : ℕ → ℕ → ℝ) (s : Vol) (h1 : s.cell.size = m.cells)
    (h2 : s.coords.size = m.cells) :
    ∃ s', volHex m verts0 s = some s' ∧ ∀ c < m.cells, s'.cell.get c =
      some (volume fun l d => m.coords.val (m.nodesInCell.val (c * 8 + l)) d) := by
  obtain ⟨s', e, -, z, -, e2⟩ := volHex_spec h verts0 s h1 h2
  exact ⟨s', e, fun c hc => (Arr.get_lt (by omega)).trans (congrArg some (e2 c hc).1)⟩

/-- **C46 (parallelepipeds).**  For a cell whose nodes are `b + A (i, j, k)`, the volume is the determinant of the
edge vectors, the columns of `A`. -/
theorem C46_parallelepiped (m : Mesh) (h : CellsOK m) (verts0 : ℕ → ℕ → ℝ) (s : Vol) (h1 : s.cell.size = m.cells)
    (h2 : s.coords.size = m.cells) :
    ∃ s', volHex m verts0 s = some s' ∧ ∀ c < m.cells, ∀ (A : Matrix (Fin 3) (Fin 3) ℝ) (b : ℕ → ℝ),
      (∀ i < 2, ∀ j < 2, ∀ k < 2, ∀ d : Fin 3, m.coords.val (m.nodesInCell.val (c * 8 + (i + 2 * j + 4 * k))) d =
        A d 0 * (i : ℕ) + A d 1 * (j : ℕ) + A d 2 * (k : ℕ) + b d) →
      s'.cell.get c = some A.det := by
  obtain ⟨s', e, e2⟩ := C46_volume m h verts0 s h1 h2
  refine ⟨s', e, fun c hc A b hA => ?_⟩
  rw [e2 c hc, volume_affine A b]
  intro l hl d
  have := hA (l % 2) (by omega) (l / 2 % 2) (by omega) (l / 4) (by omega) d
  rw [show l % 2 + 2 * (l / 2 % 2) + 4 * (l / 4) = l by omega] at this
  exact this

/-- **C46 (translation).**  Moving all nodes by the same vector changes no cell volume. -/
theorem C46_translation (m : Mesh) (h : CellsOK m) (verts0 : ℕ → ℕ → ℝ) (s : Vol) (h1 : s.cell.size = m.cells)
    (h2 : s.coords.size = m.cells) (b : ℕ → ℝ) :
    ∃ s' s'', volHex m verts0 s = some s' ∧
      volHex { m with coords := ⟨m.coords.size, fun n d => m.coords.val n d + b d⟩ } verts0 s = some s'' ∧
      ∀ c < m.cells, s''.cell.get c = s'.cell.get c := by
  obtain ⟨s', e, e2⟩ := C46_volume m h verts0 s h1 h2
  obtain ⟨s'', f, f2⟩ := C46_volume { m with coords := ⟨m.coords.size, fun n d => m.coords.val n d + b d⟩ } ⟨h.size, h.nodes⟩
    verts0 s h1 h2
  refine ⟨s', s'', e, f, fun c hc => ?_⟩
  rw [e2 c hc, f2 c hc]
  exact congrArg some (volume_translate _ b)

/-- **C47.**  After `get_vol_hex`, `cell_coords(c, d)` is the average of the cell's own eight nodes, for every cell and
whatever was in the arrays. -/
theorem C47_center (m : Mesh) (h : CellsOK m) (verts0 : ℕ → ℕ → ℝ) (s : Vol) (h1 : s.cell.size = m.cells)
    (h2 : s.coords.size = m.cells) :
    ∃ s', volHex m verts0 s = some s' ∧ ∀ c < m.cells, ∀ d, (cellCoords m s'.coords c d).map Prod.snd =
      some ((∑ l ∈ range 8, m.coords.val (m.nodesInCell.val (c * 8 + l)) d) / 8) := by
  obtain ⟨s', e, -, -, z, -⟩ := volHex_spec h verts0 s h1 h2
  refine ⟨s', e, fun c hc d => ?_⟩
  rw [cellCoords_spec (h.cell hc) (by omega)]
  rfl

/-- **C47 (stored values).**  What `get_vol_hex` itself writes: in place of nodes 3 and 7 of the cell it averages those
of the cell processed before (or uninitialised memory for cell 0).  The accessor hides it by recomputing. -/
theorem C47_stored (m : Mesh) (h : CellsOK m) (verts0 : ℕ → ℕ → ℝ) (s : Vol) (h1 : s.cell.size = m.cells)
    (h2 : s.coords.size = m.cells) :
    ∃ s', volHex m verts0 s = some s' ∧ ∀ c < m.cells, ∀ d < 3, s'.coords.val c d =
      (nodePt m c 0 d + nodePt m c 1 d + nodePt m c 2 d + (if c = 0 then verts0 2 d else nodePt m (c - 1) 3 d) +
        nodePt m c 4 d + nodePt m c 5 d + nodePt m c 6 d + (if c = 0 then verts0 6 d else nodePt m (c - 1) 7 d)) / 8 := by
  obtain ⟨s', e, -, -, -, e2⟩ := volHex_spec h verts0 s h1 h2
  refine ⟨s', e, fun c hc d hd => ?_⟩
  rw [(e2 c hc).2 d hd]
  unfold stale
  ring

/-- A mesh of two unit cubes side by side along the first axis, with 16 nodes. -/
def twoCubes : Mesh :=
  ⟨0, 2, 0, 0, 0, ⟨0, fun _ => 0⟩, ⟨0, fun _ => 0⟩, ⟨16, fun a => a⟩, ⟨0, fun _ => 0⟩,
    ⟨16, fun n d => if d = 0 then ((n % 2 + n / 8 : ℕ) : ℝ) else if d = 1 then ((n / 2 % 2 : ℕ) : ℝ) else ((n % 8 / 4 : ℕ) : ℝ)⟩⟩

theorem twoCubes_ok : CellsOK twoCubes := ⟨rfl, fun _ h => h⟩

/-- The stored centre of the second cube is off. -/
theorem C47_stored_negation : ∃ (m : Mesh) (verts0 : ℕ → ℕ → ℝ) (s : Vol), CellsOK m ∧ s.cell.size = m.cells ∧
    s.coords.size = m.cells ∧ ∃ s', volHex m verts0 s = some s' ∧ ∃ c < m.cells, ∃ d < 3,
      s'.coords.val c d ≠ (∑ l ∈ range 8, nodePt m c l d) / 8 := by
  refine ⟨twoCubes, fun _ _ => 0, ⟨⟨2, fun _ => 0⟩, ⟨2, fun _ _ => 0⟩, ⟨0, fun _ => 0⟩⟩, twoCubes_ok, rfl, rfl, ?_⟩
  obtain ⟨s', e, h⟩ := C47_stored twoCubes twoCubes_ok (fun _ _ => 0) ⟨⟨2, fun _ => 0⟩, ⟨2, fun _ _ => 0⟩, ⟨0, fun _ => 0⟩⟩ rfl rfl
  refine ⟨s', e, 1, by decide, 0, by omega, ?_⟩
  rw [h 1 (by decide) 0 (by omega)]
  simp [nodePt, twoCubes, sum_range_succ]
  norm_num

/-- The hypotheses of the parallelepiped theorem are met by the second cube, of volume 1. -/
example : ∃ s', volHex twoCubes (fun _ _ => 7) ⟨⟨2, fun _ => 5⟩, ⟨2, fun _ _ => 5⟩, ⟨0, fun _ => 0⟩⟩ = some s' ∧
    s'.cell.get 1 = some 1 := by
  obtain ⟨s', e, h⟩ := C46_parallelepiped twoCubes twoCubes_ok (fun _ _ => 7)
    ⟨⟨2, fun _ => 5⟩, ⟨2, fun _ _ => 5⟩, ⟨0, fun _ => 0⟩⟩ rfl rfl
  refine ⟨s', e, ?_⟩
  rw [h 1 (by decide) 1 (fun d => if d = 0 then 1 else 0), Matrix.det_one]
  intro i hi j hj k hk d
  interval_cases i <;> interval_cases j <;> interval_cases k <;> fin_cases d <;> simp [twoCubes, Matrix.one_apply] <;> norm_num

end Verif.Geometry
