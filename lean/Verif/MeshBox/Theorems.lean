import Verif.MeshBox.FaceLoop
import Mathlib.Tactic.FieldSimp
import Mathlib.Tactic.Linarith

/-!
# C52: the box mesh
-/

namespace Verif.MeshBox
open Finset

/-- The box has at least one cell in each direction. -/
def Box.Ok (b : Box) : Prop := 1 ≤ b.ci ∧ 1 ≤ b.cj ∧ 1 ≤ b.ck

/-- The arrays after `build`. -/
theorem build_spec (b : Box) (hb : b.Ok) (q : Junk) : ∃ r, build b q = some r ∧
    (r.coords.size = b.points ∧ ∀ k < b.pk, ∀ j < b.pj, ∀ i < b.pi, r.coords.val (nid i j k b.pi b.pj) = ptOf b i j k) ∧
    (r.centers.size = b.cells ∧ r.cellPoints.size = b.cells * 8 ∧ ∀ k < b.ck, ∀ j < b.cj, ∀ i < b.ci,
      r.centers.val (nid i j k b.ci b.cj) = ctrOf b i j k ∧
      ∀ l < 8, r.cellPoints.val (nid i j k b.ci b.cj * 8 + l) = nid (i + feOff l 0) (j + feOff l 1) (k + feOff l 2) b.pi b.pj) ∧
    Inv b (3 * b.points) r.faces := by
  obtain ⟨a, a1, a2⟩ := pointLoop_spec b ⟨b.points, q.r 0⟩ rfl
  obtain ⟨c, c1, c2⟩ := cellLoop_spec b (⟨b.cells, q.r 1⟩, ⟨b.cells * 8, q.z 0⟩) rfl rfl
  obtain ⟨f, f1, f2⟩ := faceLoop_spec b ⟨⟨b.faces * 4, q.z 1⟩, ⟨b.faces * 2, q.z 2⟩, ⟨b.cells * 6, q.z 3⟩, 0⟩ rfl rfl rfl rfl
  have h6 : ¬ b.faces < 6 := by
    obtain ⟨h1, h2, h3⟩ := hb
    unfold Box.faces Box.pi Box.pj Box.pk
    simp only [Nat.add_sub_cancel]
    have e1 : 1 * 1 * 2 ≤ b.ci * b.cj * (b.ck + 1) := Nat.mul_le_mul (Nat.mul_le_mul h1 h2) (by omega)
    have e2 : 2 * 1 * 1 ≤ (b.ci + 1) * b.cj * b.ck := Nat.mul_le_mul (Nat.mul_le_mul (by omega) h2) h3
    have e3 : 1 * 2 * 1 ≤ b.ci * (b.cj + 1) * b.ck := Nat.mul_le_mul (Nat.mul_le_mul h1 (by omega)) h3
    omega
  refine ⟨⟨a, c.1, c.2, f⟩, ?_, a2, c2, f2⟩
  unfold build
  rw [if_neg h6]
  simp only [Option.bind_eq_bind]
  rw [a1, Option.bind_some, c1, Option.bind_some, f1]
  rfl

/-- **C52 (numbering).**  `get_id` numbers the lattice `[0, n) × [0, m) × [0, l)` bijectively by `[0, n m l)`. -/
theorem C52_numbering (n m l : ℕ) :
    (∀ i < n, ∀ j < m, ∀ k < l, 0 ≤ getId i j k n m ∧ getId i j k n m < (n * m * l : ℕ)) ∧
    (∀ i < n, ∀ j < m, ∀ k < l, ∀ i' < n, ∀ j' < m, ∀ k' < l, getId i j k n m = getId i' j' k' n m → i = i' ∧ j = j' ∧ k = k') ∧
    ∀ t < n * m * l, ∃ i < n, ∃ j < m, ∃ k < l, getId i j k n m = (t : ℕ) := by
  refine ⟨?_, ?_, ?_⟩
  · intro i hi j hj k hk
    rw [getId_nat]
    exact ⟨by omega, Int.ofNat_lt.2 (nid_lt hi hj hk)⟩
  · intro i hi j hj k hk i' hi' j' hj' k' hk' h
    rw [getId_nat, getId_nat] at h
    exact nid_inj hi hj hi' hj' (by exact_mod_cast h)
  · intro t ht
    obtain ⟨h1, h2, h3, h4⟩ := lex3_surj ht
    exact ⟨_, h1, _, h2, _, h3, by rw [getId_nat]; exact congrArg _ h4⟩

/-- **C52 (points and cells).**  The point numbered `get_id(i, j, k)` is at `shift + (i dx, j dy, k dz)`, and cell
`get_id(i, j, k)` lists its eight lattice points in the order `(0,0,0) (1,0,0) (1,1,0) (0,1,0) (0,0,1) (1,0,1) (1,1,1)
(0,1,1)`; with no shift its centre is the average of the eight points. -/
theorem C52_cells (b : Box) (hb : b.Ok) (q : Junk) : ∃ r, build b q = some r ∧
    (∀ i ≤ b.ci, ∀ j ≤ b.cj, ∀ k ≤ b.ck, ∃ x, r.coords.get (getId i j k (b.ci + 1 : ℕ) (b.cj + 1 : ℕ)).toNat = some x ∧
      x 0 = b.shift 0 + i * (b.len 0 / b.ci) ∧ x 1 = b.shift 1 + j * (b.len 1 / b.cj) ∧ x 2 = b.shift 2 + k * (b.len 2 / b.ck)) ∧
    ∀ i < b.ci, ∀ j < b.cj, ∀ k < b.ck, ∀ c, c = (getId i j k b.ci b.cj).toNat →
      (List.range 8).map (fun l => r.cellPoints.get (c * 8 + l)) =
        [(0, 0, 0), (1, 0, 0), (1, 1, 0), (0, 1, 0), (0, 0, 1), (1, 0, 1), (1, 1, 1), (0, 1, 1)].map
          (fun o : ℕ × ℕ × ℕ => some (getId (i + o.1 : ℕ) (j + o.2.1 : ℕ) (k + o.2.2 : ℕ) (b.ci + 1 : ℕ) (b.cj + 1 : ℕ))) ∧
      ((∀ d, b.shift d = 0) → ∃ x, r.centers.get c = some x ∧ ∀ d < 3, x d =
        (∑ l ∈ range 8, r.coords.val (r.cellPoints.val (c * 8 + l)).toNat d) / 8) := by
  obtain ⟨r, h1, ⟨h2, h3⟩, ⟨h4, h5, h6⟩, -⟩ := build_spec b hb q
  have hst : b.step 0 = b.len 0 / b.ci ∧ b.step 1 = b.len 1 / b.cj ∧ b.step 2 = b.len 2 / b.ck := by
    simp [Box.step, Box.pi, Box.pj, Box.pk]
  refine ⟨r, h1, ?_, ?_⟩
  · intro i hi j hj k hk
    have hlt : nid i j k b.pi b.pj < b.points := nid_lt (by unfold Box.pi; omega) (by unfold Box.pj; omega) (by unfold Box.pk; omega)
    refine ⟨ptOf b i j k, ?_, ?_⟩
    · rw [getId_nat, Int.toNat_natCast, Arr.get_lt (by rw [h2]; exact hlt)]
      exact congrArg some (h3 k (by unfold Box.pk; omega) j (by unfold Box.pj; omega) i (by unfold Box.pi; omega))
    · rw [← hst.1, ← hst.2.1, ← hst.2.2]; exact ⟨rfl, rfl, rfl⟩
  · rintro i hi j hj k hk c rfl
    rw [getId_nat, Int.toNat_natCast]
    obtain ⟨g1, g2⟩ := h6 k hk j hj i hi
    have hc : nid i j k b.ci b.cj < b.cells := nid_lt hi hj hk
    constructor
    · have e : ∀ l < 8, r.cellPoints.get (nid i j k b.ci b.cj * 8 + l) =
          some (getId (i + feOff l 0 : ℕ) (j + feOff l 1 : ℕ) (k + feOff l 2 : ℕ) (b.ci + 1 : ℕ) (b.cj + 1 : ℕ)) := by
        intro l hl
        rw [Arr.get_lt (by rw [h5]; omega), g2 l hl, getId_nat]
        rfl
      show [_, _, _, _, _, _, _, _] = [_, _, _, _, _, _, _, _]
      beta_reduce
      rw [e 0 (by omega), e 1 (by omega), e 2 (by omega), e 3 (by omega), e 4 (by omega), e 5 (by omega), e 6 (by omega),
        e 7 (by omega)]
      rfl
    · intro hs
      refine ⟨ctrOf b i j k, by rw [Arr.get_lt (by rw [h4]; exact hc), g1], ?_⟩
      have e : ∀ l ∈ range 8, ∀ d, r.coords.val (r.cellPoints.val (nid i j k b.ci b.cj * 8 + l)).toNat d =
          ptOf b (i + feOff l 0) (j + feOff l 1) (k + feOff l 2) d := by
        intro l hl d
        have hl := mem_range.1 hl
        have ho : ∀ l < 8, ∀ d, d < 3 → feOff l d ≤ 1 := by decide
        have o0 := ho l hl 0 (by omega); have o1 := ho l hl 1 (by omega); have o2 := ho l hl 2 (by omega)
        rw [g2 l hl, Int.toNat_natCast, h3 _ (by unfold Box.pk; omega) _ (by unfold Box.pj; omega) _ (by unfold Box.pi; omega)]
      intro d hd
      rw [sum_congr rfl fun l hl => e l hl d]
      have c3 : d = 0 ∨ d = 1 ∨ d = 2 := by omega
      rcases c3 with rfl | rfl | rfl <;>
        simp [sum_range_succ, ptOf, ctrOf, row3, feOff, hs] <;> ring

/-- The face with normal in direction `d` and smallest lattice point `(i, j, k)` exists in a box of `ci × cj × ck` cells:
the coordinate along the normal ranges over the points, the other two over the cells. -/
def Face (b : Box) (d i j k : ℕ) : Prop :=
  (d = 0 ∧ i ≤ b.ci ∧ j < b.cj ∧ k < b.ck) ∨ (d = 1 ∧ i < b.ci ∧ j ≤ b.cj ∧ k < b.ck) ∨ (d = 2 ∧ i < b.ci ∧ j < b.cj ∧ k ≤ b.ck)

theorem face_iff (b : Box) (d i j k : ℕ) : Face b d i j k ↔ IsFace b d i j k := by
  unfold Face IsFace Box.pi Box.pj Box.pk; omega

/-- **C52 (faces).**  The generator numbers each face exactly once by `0 … num_faces - 1`; the four listed points are the
corners of the face, each next to the following one, starting with the smallest. -/
theorem C52_faces (b : Box) (hb : b.Ok) (q : Junk) : ∃ r, build b q = some r ∧ r.faces.id = b.faces ∧
    ∃ fid : ℕ → ℕ → ℕ → ℕ → ℕ,
      (∀ d i j k, Face b d i j k → fid d i j k < b.faces) ∧
      (∀ d i j k d' i' j' k', Face b d i j k → Face b d' i' j' k' → fid d i j k = fid d' i' j' k' →
        d = d' ∧ i = i' ∧ j = j' ∧ k = k') ∧
      (∀ f < b.faces, ∃ d i j k, Face b d i j k ∧ fid d i j k = f) ∧
      ∀ d i j k, Face b d i j k → (List.range 4).map (fun l => r.faces.points.get (fid d i j k * 4 + l)) =
        ((if d = 0 then [(0, 0, 0), (0, 1, 0), (0, 1, 1), (0, 0, 1)] else if d = 1 then [(0, 0, 0), (0, 0, 1), (1, 0, 1), (1, 0, 0)]
          else [(0, 0, 0), (1, 0, 0), (1, 1, 0), (0, 1, 0)] : List (ℕ × ℕ × ℕ)).map
          fun o : ℕ × ℕ × ℕ => some (getId (i + o.1 : ℕ) (j + o.2.1 : ℕ) (k + o.2.2 : ℕ) (b.ci + 1 : ℕ) (b.cj + 1 : ℕ))) := by
  obtain ⟨r, h1, -, -, I⟩ := build_spec b hb q
  refine ⟨r, h1, by rw [I.id, count_total], fid b, ?_, ?_, ?_, ?_⟩
  · exact fun d i j k h => fid_lt ((face_iff ..).1 h)
  · exact fun d i j k d' i' j' k' h h' e => fid_inj ((face_iff ..).1 h) ((face_iff ..).1 h') e
  · intro f hf
    obtain ⟨d, i, j, k, h, e⟩ := fid_surj hf
    exact ⟨d, i, j, k, (face_iff ..).2 h, e⟩
  · intro d i j k h
    have hf := (face_iff ..).1 h
    have D := I.done d i j k hf (pos_lt hf)
    have e : ∀ l < 4, r.faces.points.get (fid b d i j k * 4 + l) =
        some (getId (i + fOff d l 0 : ℕ) (j + fOff d l 1 : ℕ) (k + fOff d l 2 : ℕ) (b.ci + 1 : ℕ) (b.cj + 1 : ℕ)) := by
      intro l hl
      have := fid_lt hf
      rw [Arr.get_lt (by rw [I.psize]; omega), D.points l hl, getId_nat]
      rfl
    show [_, _, _, _] = _
    beta_reduce
    rw [e 0 (by omega), e 1 (by omega), e 2 (by omega), e 3 (by omega)]
    have hd := hf.1
    interval_cases d <;> rfl

/-- Cross product. -/
def cross (u v : ℕ → ℝ) : ℕ → ℝ := row3 (u 1 * v 2 - u 2 * v 1) (u 2 * v 0 - u 0 * v 2) (u 0 * v 1 - u 1 * v 0)

/-- **C52 (orientation).**  If the box has positive lengths, then for every face the normal given by the right-hand rule
from the first, second and fourth listed point is a positive multiple of the unit vector in direction `d`, where `d` is
the direction of the face. -/
theorem C52_orientation (b : Box) (hb : b.Ok) (hl : ∀ d < 3, 0 < b.len d) (q : Junk) : ∃ r, build b q = some r ∧
    ∀ f < b.faces, ∃ d < 3, ∃ x : ℕ → ℕ → ℝ,
      (∀ l < 4, ((r.faces.points.get (f * 4 + l)).bind fun n => r.coords.get n.toNat) = some (x l)) ∧
      0 < cross (fun a => x 1 a - x 0 a) (fun a => x 3 a - x 0 a) d ∧
      ∀ a < 3, a ≠ d → cross (fun a => x 1 a - x 0 a) (fun a => x 3 a - x 0 a) a = 0 := by
  obtain ⟨r, h1, ⟨h2, h3⟩, -, I⟩ := build_spec b hb q
  refine ⟨r, h1, ?_⟩
  intro f hf
  obtain ⟨d, i, j, k, hF, rfl⟩ := fid_surj hf
  have D := I.done d i j k hF (pos_lt hF)
  have hst : 0 < b.step 0 ∧ 0 < b.step 1 ∧ 0 < b.step 2 := by
    obtain ⟨g1, g2, g3⟩ := hb
    simp only [Box.step, Box.pi, Box.pj, Box.pk]
    refine ⟨?_, ?_, ?_⟩ <;> simp <;> refine div_pos (hl _ (by omega)) (by positivity)
  have hd := hF.1
  refine ⟨d, hd, fun l => ptOf b (i + fOff d l 0) (j + fOff d l 1) (k + fOff d l 2), ?_, ?_, ?_⟩
  · intro l hl
    rw [Arr.get_lt (by rw [I.psize]; omega), Option.bind_some, D.points l hl, Int.toNat_natCast]
    have key : i + fOff d l 0 < b.pi ∧ j + fOff d l 1 < b.pj ∧ k + fOff d l 2 < b.pk := by
      obtain ⟨-, g1, g2, g3, g4, g5, g6⟩ := hF
      unfold Box.pi Box.pj Box.pk at *
      have : ∀ l < 4, ∀ d < 3, ∀ a < 3, fOff d l a ≤ 1 ∧ (a = d → fOff d l a = 0) := by decide
      have t0 := this l hl d hd 0 (by omega)
      have t1 := this l hl d hd 1 (by omega)
      have t2 := this l hl d hd 2 (by omega)
      refine ⟨?_, ?_, ?_⟩ <;> omega
    obtain ⟨k1, k2, k3⟩ := key
    rw [Arr.get_lt (by rw [h2]; exact nid_lt k1 k2 k3), h3 _ k3 _ k2 _ k1]
  · interval_cases d <;> simp [cross, ptOf, row3, fOff]
    · exact mul_pos (by linarith) (by linarith)
    · exact mul_pos (by linarith) (by linarith)
    · exact mul_pos (by linarith) (by linarith)
  · intro a ha hne
    interval_cases d <;> interval_cases a <;> simp [cross, ptOf, row3, fOff] at hne ⊢

/-- **C52 (faces of the cells, cells of the inner faces).**  The face list of every cell names the six faces around it:
in direction `d` the face at its lower side in slot `d` and the face at its upper side in slot `d + 3`; and for an inner
face the cell list names the cell below it and the cell above it (here the two sides of an inner face are written as
a cell `(i, j, k)` and its successor in direction `d`).  For faces on the boundary of the box the entry of the missing
cell is not marked: see `C52_boundary_negation`. -/
theorem C52_sides_partial (b : Box) (hb : b.Ok) (q : Junk) : ∃ r, build b q = some r ∧
    ∀ i < b.ci, ∀ j < b.cj, ∀ k < b.ck, ∀ d < 3, ∀ c, c = (getId i j k b.ci b.cj).toNat →
      ∃ lo hi : ℕ, r.faces.ofCell.get (c * 6 + d) = some (lo : ℤ) ∧ r.faces.ofCell.get (c * 6 + (d + 3)) = some (hi : ℤ) ∧
        r.faces.points.get (lo * 4) = some (getId i j k (b.ci + 1 : ℕ) (b.cj + 1 : ℕ)) ∧
        r.faces.points.get (hi * 4) = some (getId (i + (if d = 0 then 1 else 0) : ℕ) (j + (if d = 1 then 1 else 0) : ℕ)
          (k + (if d = 2 then 1 else 0) : ℕ) (b.ci + 1 : ℕ) (b.cj + 1 : ℕ)) ∧
        r.faces.cell.get (lo * 2 + 1) = some (c : ℤ) ∧ r.faces.cell.get (hi * 2) = some (c : ℤ) := by
  obtain ⟨r, h1, -, -, I⟩ := build_spec b hb q
  refine ⟨r, h1, ?_⟩
  rintro i hi j hj k hk d hd c rfl
  rw [getId_nat, Int.toNat_natCast]
  have fl := isFace_low hd hi hj hk
  have fu := isFace_up hd hi hj hk
  have Dl := I.done _ _ _ _ fl (pos_lt fl)
  have Du := I.done _ _ _ _ fu (pos_lt fu)
  have l1 := fid_lt fl
  have l2 := fid_lt fu
  have hc : nid i j k b.ci b.cj < b.cells := nid_lt hi hj hk
  have z : ∀ d < 3, ∀ a < 3, fOff d 0 a = 0 := by decide
  refine ⟨fid b d i j k, fid b d (i + dl d 0) (j + dl d 1) (k + dl d 2), ?_, ?_, ?_, ?_, ?_, ?_⟩
  · rw [Arr.get_lt (by rw [I.osize]; omega), I.low d hd i hi j hj k hk (pos_lt fl)]
  · rw [Arr.get_lt (by rw [I.osize]; omega), I.up d hd i hi j hj k hk (pos_lt fu)]
  · rw [Arr.get_lt (by rw [I.psize]; omega)]
    have := Dl.points 0 (by omega)
    rw [z d hd 0 (by omega), z d hd 1 (by omega), z d hd 2 (by omega)] at this
    rw [getId_nat]
    exact congrArg some this
  · rw [Arr.get_lt (by rw [I.psize]; omega)]
    have := Du.points 0 (by omega)
    rw [z d hd 0 (by omega), z d hd 1 (by omega), z d hd 2 (by omega)] at this
    rw [getId_nat]
    refine congrArg some (this.trans ?_)
    interval_cases d <;> rfl
  · rw [Arr.get_lt (by rw [I.csize]; omega), Dl.next, getId_nat]
  · rw [Arr.get_lt (by rw [I.csize]; omega), Du.prev, ← getId_nat]
    push_cast
    simp only [add_sub_cancel_right]

/-- **C52 (exact contents of the cell list).**  For every face, inner or not, the two entries are the formula `get_id` of
the index triples above and below, whether or not such a cell exists. -/
theorem C52_cell_list (b : Box) (hb : b.Ok) (q : Junk) : ∃ r, build b q = some r ∧
    ∀ d i j k, Face b d i j k → ∃ f < b.faces,
      r.faces.points.get (f * 4) = some (getId i j k (b.ci + 1 : ℕ) (b.cj + 1 : ℕ)) ∧
      r.faces.cell.get (f * 2 + 1) = some (getId i j k b.ci b.cj) ∧
      r.faces.cell.get (f * 2) = some (getId (if d = 0 then (i : ℤ) - 1 else i) (if d = 1 then (j : ℤ) - 1 else j)
        (if d = 2 then (k : ℤ) - 1 else k) b.ci b.cj) := by
  obtain ⟨r, h1, -, -, I⟩ := build_spec b hb q
  refine ⟨r, h1, ?_⟩
  intro d i j k h
  have hf := (face_iff ..).1 h
  have hd := hf.1
  have D := I.done d i j k hf (pos_lt hf)
  have l1 := fid_lt hf
  have z : ∀ d < 3, ∀ a < 3, fOff d 0 a = 0 := by decide
  refine ⟨fid b d i j k, fid_lt hf, ?_, ?_, ?_⟩
  · rw [Arr.get_lt (by rw [I.psize]; omega)]
    have := D.points 0 (by omega)
    rw [z d hd 0 (by omega), z d hd 1 (by omega), z d hd 2 (by omega)] at this
    rw [getId_nat]
    exact congrArg some this
  · rw [Arr.get_lt (by rw [I.csize]; omega), D.next]
  · rw [Arr.get_lt (by rw [I.csize]; omega), D.prev]
    interval_cases d <;> simp [dl]

/-- **C52 (boundary faces, refuted).**  In a box of 2 × 2 × 1 cells some face on the boundary of the box lists, on the side
where there is no cell, an existing cell that does not touch the first point of the face. -/
theorem C52_boundary_negation (q : Junk) : ∃ b : Box, b.Ok ∧ ∃ r, build b q = some r ∧ ∃ f < b.faces, ∃ c < b.cells, ∃ p : ℤ,
    r.faces.cell.get (f * 2) = some (c : ℤ) ∧ r.faces.points.get (f * 4) = some p ∧
    ∀ l < 8, r.cellPoints.get (c * 8 + l) ≠ some p := by
  let b : Box := ⟨2, 2, 1, fun _ => 1, fun _ => 0⟩
  have hb : b.Ok := by unfold Box.Ok; decide
  obtain ⟨r, h1, h2⟩ := C52_cell_list b hb q
  obtain ⟨r', h1', -, h3⟩ := C52_cells b hb q
  obtain rfl : r' = r := Option.some.inj (h1'.symm.trans h1)
  obtain ⟨f, hf, e1, -, e2⟩ := h2 0 0 1 0 (Or.inl (by decide))
  refine ⟨b, hb, r', h1, f, hf, 1, by decide, _, by rw [e2]; rfl, e1, ?_⟩
  obtain ⟨h4, -⟩ := h3 1 (by decide) 0 (by decide) 0 (by decide) 1 rfl
  have h5 : ∀ l < 8, r'.cellPoints.get (1 * 8 + l) = ((List.range 8).map (fun l => r'.cellPoints.get (1 * 8 + l))).getD l none := by
    intro l hl; interval_cases l <;> rfl
  intro l hl
  rw [h5 l hl, h4]
  revert l
  decide

/-- **C52 (boundary points).**  `num_bdy_points` is the number of lattice points on the boundary of the box. -/
theorem C52_bdy_points (b : Box) (hb : b.Ok) :
    b.bdyPoints = (((range (b.ci + 1) ×ˢ range (b.cj + 1) ×ˢ range (b.ck + 1)).filter fun p =>
      p.1 = 0 ∨ p.1 = b.ci ∨ p.2.1 = 0 ∨ p.2.1 = b.cj ∨ p.2.2 = 0 ∨ p.2.2 = b.ck).card : ℤ) := by
  obtain ⟨h1, h2, h3⟩ := hb
  have hin : ((range (b.ci + 1) ×ˢ range (b.cj + 1) ×ˢ range (b.ck + 1)).filter fun p =>
      ¬ (p.1 = 0 ∨ p.1 = b.ci ∨ p.2.1 = 0 ∨ p.2.1 = b.cj ∨ p.2.2 = 0 ∨ p.2.2 = b.ck)) =
      Ico 1 b.ci ×ˢ Ico 1 b.cj ×ˢ Ico 1 b.ck := by
    ext ⟨i, j, k⟩
    simp only [mem_filter, mem_product, mem_range, mem_Ico]
    omega
  have tot := card_filter_add_card_filter_not (s := range (b.ci + 1) ×ˢ range (b.cj + 1) ×ˢ range (b.ck + 1))
    (fun p : ℕ × ℕ × ℕ => p.1 = 0 ∨ p.1 = b.ci ∨ p.2.1 = 0 ∨ p.2.1 = b.cj ∨ p.2.2 = 0 ∨ p.2.2 = b.ck)
  rw [hin] at tot
  simp only [card_product, Nat.card_Ico, card_range] at tot
  have tot' := congrArg (fun n : ℕ => (n : ℤ)) tot
  push_cast [Nat.cast_sub h1, Nat.cast_sub h2, Nat.cast_sub h3] at tot'
  unfold Box.bdyPoints Box.pi Box.pj Box.pk
  push_cast
  linarith

/-- Non-vacuity: the box of the program satisfies the hypothesis. -/
example : (⟨15, 15, 150, fun d => [10, 10, 100].getD d 0, fun _ => 0⟩ : Box).Ok := by unfold Box.Ok; simp

end Verif.MeshBox
