import Verif.Average.Vtu
import Mathlib.Data.List.GetD
import Mathlib.Data.List.Nodup

/-!
# C76: the polyhedra in the `.vtu` file of the Average example
-/

namespace Verif.Average
open Verif.Swage (nodeInPatchInCell patchNodeTable)

/-! ## Specification: how a `.vtu` file is read -/

/-- The part of a data array that belongs to cell `c`: from the end of the previous cell to its own end. -/
def slice (data offsets : List ℕ) (c : ℕ) : Option (List ℕ) :=
  offsets[c]?.bind fun b => (if c = 0 then some 0 else offsets[c - 1]?).bind fun a =>
    if a ≤ b ∧ b ≤ data.length then some ((data.drop a).take (b - a)) else none

/-- Read `n` faces, each a count followed by that many points; nothing may be left. -/
def readFaces : ℕ → List ℕ → Option (List (List ℕ))
  | 0, [] => some []
  | 0, _ :: _ => none
  | _ + 1, [] => none
  | n + 1, k :: t =>
    if k ≤ t.length then (readFaces n (t.drop k)).map (t.take k :: ·) else none

/-- The faces of a polyhedron: their number, then the faces. -/
def readPoly : List ℕ → Option (List (List ℕ))
  | [] => none
  | n :: t => readFaces n t

/-- Bit `d` of a local node: its coordinate along axis `d` in the unit cube. -/
def nodeBit (l d : ℕ) : ℕ := l / 2 ^ d % 2

/-- Two corners of the unit cube joined by an edge. -/
def IsEdge (a b : ℕ) : Prop := ∃ d < 3, nodeBit a d ≠ nodeBit b d ∧ ∀ d' < 3, d' ≠ d → nodeBit a d' = nodeBit b d'

instance (a b : ℕ) : Decidable (IsEdge a b) := inferInstanceAs (Decidable (∃ d < 3, _))

/-- The sides of a closed polygon. -/
def sides (f : List ℕ) : List (ℕ × ℕ) := f.zip (f.rotate 1)

/-- The six faces are the six sides of the unit cube, each passed through along its edges, and every edge of the cube is a side of
exactly two faces. -/
def ClosedCube (F : List (List ℕ)) : Prop :=
  F.length = 6 ∧
  (∀ d < 3, ∀ v < 2, ∃ f ∈ F, f.Nodup ∧ ∀ l < 8, l ∈ f ↔ nodeBit l d = v) ∧
  (∀ f ∈ F, f.length = 4 ∧ ∀ e ∈ sides f, IsEdge e.1 e.2) ∧
  ∀ a < 8, ∀ b < 8, IsEdge a b → (F.filter fun f => (a, b) ∈ sides f ∨ (b, a) ∈ sides f).length = 2

/-! ## Proofs -/

theorem loop_flatMap {α : Type} (n : ℕ) (g : ℕ → List α) (l : List α) : loop n (fun c l => l ++ g c) l = l ++ (List.range n).flatMap g := by
  induction n with
  | zero => simp
  | succ n ih => rw [loop_succ, ih, List.range_succ, List.flatMap_append, List.append_assoc]; simp

theorem flatMap_length {α : Type} {w : ℕ} (g : ℕ → List α) (hg : ∀ c, (g c).length = w) (n : ℕ) :
    ((List.range n).flatMap g).length = w * n := by
  induction n with
  | zero => simp
  | succ n ih => rw [List.range_succ, List.flatMap_append, List.length_append, ih]; simp [hg, Nat.mul_succ]

theorem flatMap_slice {α : Type} {w : ℕ} (g : ℕ → List α) (hg : ∀ c, (g c).length = w) {n c : ℕ} (hc : c < n) :
    (((List.range n).flatMap g).drop (w * c)).take w = g c := by
  have h1 : List.range n = List.range c ++ (c :: (List.range (n - c - 1)).map (c + 1 + ·)) := by
    obtain ⟨k, rfl⟩ : ∃ k, n = c + (k + 1) := ⟨n - c - 1, by omega⟩
    rw [List.range_add, List.range_succ_eq_map, List.map_cons, List.map_map, show c + (k + 1) - c - 1 = k by omega]
    congr 2
    refine List.map_congr_left fun i _ => ?_
    simp only [Function.comp]; omega
  rw [h1, List.flatMap_append, List.drop_left' (flatMap_length g hg c), List.flatMap_cons, List.take_left' (hg c)]

theorem slice_spec {w : ℕ} (g : ℕ → List ℕ) (hg : ∀ c, (g c).length = w) {n c : ℕ} (hc : c < n) {data offsets : List ℕ}
    (hd : data = (List.range n).flatMap g) (ho : offsets = (List.range n).map fun c => w * (c + 1)) : slice data offsets c = some (g c) := by
  have o : ∀ i < n, offsets[i]? = some (w * (i + 1)) := by
    intro i hi; rw [ho, List.getElem?_map, List.getElem?_range hi]; rfl
  have hl : w * (c + 1) ≤ data.length := by
    rw [hd, flatMap_length g hg]; exact Nat.mul_le_mul_left _ hc
  have ha : (if c = 0 then some 0 else offsets[c - 1]?) = some (w * c) := by
    split
    · next h => rw [h, Nat.mul_zero]
    · next h => rw [o _ (by omega), show c - 1 + 1 = c by omega]
  unfold slice
  rw [o c hc, Option.bind_some, ha, Option.bind_some, if_pos ⟨by rw [Nat.mul_succ]; omega, hl⟩, show w * (c + 1) - w * c = w by rw [Nat.mul_succ]; omega, hd,
    flatMap_slice g hg hc]

/-- The local nodes of the six faces. -/
def cubeFaces : List (List ℕ) := (List.range 6).map fun p => (List.range 4).map fun q => patchNodeTable.getD (q + p * 4) 0

theorem cubeFaces_closed : ClosedCube cubeFaces :=
  ⟨by decide, fun d hd v hv => ⟨cubeFaces.getD (2 * d + v) [], by revert d v; decide +kernel, by revert d v; decide +kernel,
    by revert d v; decide +kernel⟩, by decide +kernel, by decide +kernel⟩

theorem vtk_push (n : ℕ) (f : ℕ → ℕ) : loop n (fun c (l : List ℕ) => l ++ [f c]) [] = (List.range n).map f := by
  rw [loop_flatMap n (fun c => [f c]), List.nil_append, List.map_eq_flatMap]

theorem vtk_conn (num_nodes num_cells : ℕ) (nodes : ℕ → ℕ → ℕ) : (vtkWriter num_nodes num_cells nodes).connectivity = (List.range num_cells).flatMap fun c => (List.range 8).map (nodes c) := by
  show loop num_cells (fun c l => loop 8 (fun n l => l ++ [nodes c n]) l) [] = _
  have : (fun c (l : List ℕ) => loop 8 (fun n l => l ++ [nodes c n]) l) = fun c l => l ++ (List.range 8).map (nodes c) := by
    funext c l
    rw [loop_flatMap 8 (fun n => [nodes c n]), List.map_eq_flatMap]
  rw [this, loop_flatMap, List.nil_append]

theorem vtk_faces (num_nodes num_cells : ℕ) (nodes : ℕ → ℕ → ℕ) : (vtkWriter num_nodes num_cells nodes).faces = (List.range num_cells).flatMap fun c =>
    6 :: (List.range 6).flatMap fun p => 4 :: (List.range 4).map fun q => nodeInPatchInCell nodes c p q := by
  show loop num_cells (fun c l =>
    loop 6 (fun p l => loop 4 (fun q l => l ++ [nodeInPatchInCell nodes c p q]) (l ++ [4])) (l ++ [6])) [] = _
  have : (fun c (l : List ℕ) => loop 6 (fun p l => loop 4 (fun q l => l ++ [nodeInPatchInCell nodes c p q]) (l ++ [4])) (l ++ [6])) =
      fun c l => l ++ (6 :: (List.range 6).flatMap fun p => 4 :: (List.range 4).map fun q => nodeInPatchInCell nodes c p q) := by
    funext c l
    have h : (fun p (l : List ℕ) => loop 4 (fun q l => l ++ [nodeInPatchInCell nodes c p q]) (l ++ [4])) =
        fun p l => l ++ (4 :: (List.range 4).map fun q => nodeInPatchInCell nodes c p q) := by
      funext p l
      rw [loop_flatMap 4 (fun q => [nodeInPatchInCell nodes c p q]), List.map_eq_flatMap, List.append_assoc]; rfl
    rw [h, loop_flatMap, List.append_assoc]; rfl
  rw [this, loop_flatMap, List.nil_append]

/-- **C76.**  Reading back the file written for any number of cells: cell `c` is a polyhedron (type 42) whose points are its eight nodes
in order, whose data is `c`, and whose faces are the images of the six faces of the unit cube: closed quadrilaterals along the edges,
two at every edge. -/
theorem C76_vtu (num_nodes num_cells : ℕ) (nodes : ℕ → ℕ → ℕ) :
    let w := vtkWriter num_nodes num_cells nodes
    w.points = num_nodes ∧ w.cells = num_cells ∧ w.types.length = num_cells ∧ w.offsets.length = num_cells ∧ w.faceoffsets.length = num_cells ∧
    w.data.length = num_cells ∧ w.connectivity.length = 8 * num_cells ∧ w.faces.length = 31 * num_cells ∧
    ∃ F : List (List ℕ), ClosedCube F ∧ ∀ c < num_cells, w.data[c]? = some c ∧ w.types[c]? = some 42 ∧
      slice w.connectivity w.offsets c = some ((List.range 8).map (nodes c)) ∧
      (slice w.faces w.faceoffsets c).bind readPoly = some (F.map fun f => f.map (nodes c)) := by
  have hpush := vtk_push num_cells
  have hconn := vtk_conn num_nodes num_cells nodes
  have hfaces := vtk_faces num_nodes num_cells nodes
  have g1 : ∀ c, ((List.range 8).map (nodes c)).length = 8 := fun c => by simp
  have g2 : ∀ c, (6 :: (List.range 6).flatMap fun p => 4 :: (List.range 4).map fun q => nodeInPatchInCell nodes c p q).length = 31 := by
    intro c; rfl
  have hdata : (vtkWriter num_nodes num_cells nodes).data = (List.range num_cells).map fun c => c := hpush _
  have htypes : (vtkWriter num_nodes num_cells nodes).types = (List.range num_cells).map fun _ => 42 := hpush _
  have hoff : (vtkWriter num_nodes num_cells nodes).offsets = (List.range num_cells).map fun c => 8 * (c + 1) := hpush _
  have hfoff : (vtkWriter num_nodes num_cells nodes).faceoffsets = (List.range num_cells).map fun c => 31 * (c + 1) := hpush _
  refine ⟨rfl, rfl, by rw [htypes]; simp, by rw [hoff]; simp, by rw [hfoff]; simp, by rw [hdata]; simp, ?_, ?_, cubeFaces, cubeFaces_closed, ?_⟩
  · rw [hconn, flatMap_length _ g1]
  · rw [hfaces, flatMap_length _ g2]
  · intro c hc
    refine ⟨by rw [hdata]; simp [hc], by rw [htypes]; simp [hc], slice_spec _ g1 hc hconn hoff, ?_⟩
    rw [slice_spec _ g2 hc hfaces hfoff, Option.bind_some]
    rfl

/-- The statement for a concrete file: two cells. -/
example : (slice (vtkWriter 12 2 fun c l => c + l).faces (vtkWriter 12 2 fun c l => c + l).faceoffsets 1).bind readPoly =
    some [[1, 3, 7, 5], [2, 4, 8, 6], [1, 5, 6, 2], [3, 7, 8, 4], [1, 2, 4, 3], [5, 6, 8, 7]] := by decide +kernel

end Verif.Average
