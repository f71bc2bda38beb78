import Verif.Mem
import Mathlib.Data.Real.Basic

/-!
# Model of `mesh_tools/box_mesh_creator/meshbox.cpp`

The dimensions of the box (literals in `main`, lines 111-125) are parameters.  Machine integers are unbounded integers,
`double` is `ℝ`; two-dimensional integer arrays are flat with row-major strides, coordinates are arrays of rows.  An
access outside an array gives `none`.  The arrays that are allocated and never used (`cell_face_neighbor_list`,
`face_coords`, `face_edges_list`, `bdy_point_list`, `bdy_point_boollian`) are left out.
-/

namespace Verif.MeshBox

/-- Write `a(i) = v` for an integer index. -/
def setZ {α : Type} (a : Arr α) (i : ℤ) (v : α) : Option (Arr α) := if 0 ≤ i then a.set i.toNat v else none

/-- `get_id`, meshbox.cpp:455-458. -/
def getId (i j k ni nj : ℤ) : ℤ := i + j * ni + k * ni * nj

/-- Parameters of the box, meshbox.cpp:111-125: number of cells, lengths, shift. -/
structure Box where
  /-- `num_cells_i` -/
  ci : ℕ
  /-- `num_cells_j` -/
  cj : ℕ
  /-- `num_cells_k` -/
  ck : ℕ
  /-- `lx`, `ly`, `lz` -/
  len : ℕ → ℝ
  /-- `shift` -/
  shift : ℕ → ℝ

/-- `num_points_i` etc., meshbox.cpp:130-132. -/
def Box.pi (b : Box) : ℕ := b.ci + 1
@[inherit_doc Box.pi] def Box.pj (b : Box) : ℕ := b.cj + 1
@[inherit_doc Box.pi] def Box.pk (b : Box) : ℕ := b.ck + 1

/-- `dx`, `dy`, `dz`, meshbox.cpp:138-140. -/
noncomputable def Box.step (b : Box) (d : ℕ) : ℝ :=
  b.len d / ((if d = 0 then b.pi else if d = 1 then b.pj else b.pk : ℕ) - 1)

/-- `num_cells`, meshbox.cpp:142. -/
def Box.cells (b : Box) : ℕ := b.ci * b.cj * b.ck
/-- `num_points`, meshbox.cpp:172. -/
def Box.points (b : Box) : ℕ := b.pi * b.pj * b.pk
/-- `num_faces`, meshbox.cpp:160-162. -/
def Box.faces (b : Box) : ℕ := (b.pi - 1) * (b.pj - 1) * b.pk + b.pi * (b.pj - 1) * (b.pk - 1) + (b.pi - 1) * b.pj * (b.pk - 1)
/-- `num_bdy_points`, meshbox.cpp:174-178. -/
def Box.bdyPoints (b : Box) : ℤ :=
  2 * ((b.pi : ℤ) - 2) * (b.pj - 2) + 2 * ((b.pi : ℤ) - 2) * (b.pk - 2) + 2 * ((b.pj : ℤ) - 2) * (b.pk - 2) +
  4 * ((b.pi : ℤ) - 2) + 4 * ((b.pj : ℤ) - 2) + 4 * ((b.pk : ℤ) - 2) + 8

/-- A row of three numbers. -/
def row3 (x y z : ℝ) (d : ℕ) : ℝ := if d = 0 then x else if d = 1 then y else z

/-- `convert_point_number_in_Hex`, meshbox.cpp:190-198. -/
def convert (l : ℕ) : ℕ := [0, 1, 3, 2, 4, 5, 7, 6].getD l 0
/-- `face_face_index`, meshbox.cpp:205-210. -/
def faceFace (f : ℕ) : ℕ := [3, 4, 5, 0, 1, 2].getD f 0

/-- `for (k...) for (j...) for (i...)`. -/
def loop3 {σ : Type} (nk nj ni : ℕ) (body : ℕ → ℕ → ℕ → σ → Option σ) (s : σ) : Option σ :=
  loopM nk (fun k => loopM nj fun j => loopM ni fun i => body i j k) s

/-- Point loop, meshbox.cpp:222-238. -/
noncomputable def pointLoop (b : Box) (coords : Arr (ℕ → ℝ)) : Option (Arr (ℕ → ℝ)) :=
  loop3 b.pk b.pj b.pi (fun i j k a => setZ a (getId i j k b.pi b.pj)
    (row3 (b.shift 0 + i * b.step 0) (b.shift 1 + j * b.step 1) (b.shift 2 + k * b.step 2))) coords

/-- The eight points of a cell, meshbox.cpp:260-283: state (`cell_point_list`, `this_point`). -/
def cellPoints (b : Box) (i j k : ℕ) (a : Arr ℤ) : Option (Arr ℤ) := do
  let r ← loop3 2 2 2 (fun ii jj kk (s : Arr ℤ × ℕ) => do
    let a ← setZ s.1 (getId i j k b.ci b.cj * 8 + convert s.2) (getId (i + ii : ℕ) (j + jj : ℕ) (k + kk : ℕ) b.pi b.pj)
    pure (a, s.2 + 1)) (a, 0)
  pure r.1

/-- Cell loop, meshbox.cpp:244-288: state (`cell_coords`, `cell_point_list`). -/
noncomputable def cellLoop (b : Box) (s : Arr (ℕ → ℝ) × Arr ℤ) : Option (Arr (ℕ → ℝ) × Arr ℤ) :=
  loop3 b.ck b.cj b.ci (fun i j k (s : Arr (ℕ → ℝ) × Arr ℤ) => do
    let c ← setZ s.1 (getId i j k b.ci b.cj)
      (row3 (i * b.step 0 + b.step 0 / 2) (j * b.step 1 + b.step 1 / 2) (k * b.step 2 + b.step 2 / 2))
    let p ← cellPoints b i j k s.2
    pure (c, p)) s

/-- The arrays of the faces. -/
structure Faces where
  /-- `face_points_list` -/
  points : Arr ℤ
  /-- `face_cell_list` -/
  cell : Arr ℤ
  /-- `cell_face_list` -/
  ofCell : Arr ℤ
  /-- `face_id` -/
  id : ℕ

/-- `if (0 <= x && x < n) cell_face_list(c, f) = face_id` (meshbox.cpp:323-324, 354-355, 388-389). -/
def faceOfCell (x : ℤ) (n : ℕ) (c : ℤ) (f : ℕ) (s : Faces) : Option (Arr ℤ) :=
  if 0 ≤ x ∧ x < n then setZ s.ofCell (c * 6 + f) s.id else some s.ofCell

/-- One of the three blocks of the face loop: the four points, the coordinate `x` of the node in the direction of the
normal and the number `n` of cells in that direction, the two cells and the local face number. -/
def faceBlock (p0 p1 p2 p3 : ℤ) (x n : ℕ) (c c2 : ℤ) (f : ℕ) (s : Faces) : Option Faces := do
  let p ← s.points.set (s.id * 4 + 0) p0
  let p ← p.set (s.id * 4 + 1) p1
  let p ← p.set (s.id * 4 + 2) p2
  let p ← p.set (s.id * 4 + 3) p3
  let q ← s.cell.set (s.id * 2 + 1) c
  let q ← q.set (s.id * 2 + 0) c2
  let a ← faceOfCell x n c f s
  let a ← faceOfCell ((x : ℤ) - 1) n c2 (faceFace f) { s with ofCell := a }
  pure ⟨p, q, a, s.id + 1⟩

/-- The i-direction face of node (i, j, k), meshbox.cpp:300-328. -/
def faceI (b : Box) (i j k : ℕ) (s : Faces) : Option Faces :=
  if j < b.pj - 1 ∧ k < b.pk - 1 then
    faceBlock (getId i j k b.pi b.pj) (getId i (j + 1) k b.pi b.pj) (getId i (j + 1) (k + 1) b.pi b.pj)
      (getId i j (k + 1) b.pi b.pj) i b.ci (getId i j k b.ci b.cj) (getId ((i : ℤ) - 1) j k b.ci b.cj) 0 s
  else some s

/-- The j-direction face of node (i, j, k), meshbox.cpp:331-360. -/
def faceJ (b : Box) (i j k : ℕ) (s : Faces) : Option Faces :=
  if i < b.pi - 1 ∧ k < b.pk - 1 then
    faceBlock (getId i j k b.pi b.pj) (getId i j (k + 1) b.pi b.pj) (getId (i + 1) j (k + 1) b.pi b.pj)
      (getId (i + 1) j k b.pi b.pj) j b.cj (getId i j k b.ci b.cj) (getId i ((j : ℤ) - 1) k b.ci b.cj) 1 s
  else some s

/-- The k-direction face of node (i, j, k), meshbox.cpp:363-393. -/
def faceK (b : Box) (i j k : ℕ) (s : Faces) : Option Faces :=
  if i < b.pi - 1 ∧ j < b.pj - 1 then
    faceBlock (getId i j k b.pi b.pj) (getId (i + 1) j k b.pi b.pj) (getId (i + 1) (j + 1) k b.pi b.pj)
      (getId i (j + 1) k b.pi b.pj) k b.ck (getId i j k b.ci b.cj) (getId i j ((k : ℤ) - 1) b.ci b.cj) 2 s
  else some s

/-- Face loop, meshbox.cpp:294-398. -/
def faceLoop (b : Box) (s : Faces) : Option Faces :=
  loop3 b.pk b.pj b.pi (fun i j k s => do
    let s ← faceI b i j k s
    let s ← faceJ b i j k s
    faceK b i j k s) s

/-- The mesh the program has in memory when it calls the writer. -/
structure Built where
  /-- `pt_coords` -/
  coords : Arr (ℕ → ℝ)
  /-- `cell_coords` -/
  centers : Arr (ℕ → ℝ)
  /-- `cell_point_list` -/
  cellPoints : Arr ℤ
  faces : Faces

/-- Contents of newly allocated arrays. -/
structure Junk where
  r : ℕ → ℕ → ℕ → ℝ
  z : ℕ → ℕ → ℤ

/-- `main` up to the call of the writer, meshbox.cpp:107-398.  `face_face_index` has `num_faces` entries and six of them
are written (lines 166, 205-210). -/
noncomputable def build (b : Box) (q : Junk) : Option Built := do
  if b.faces < 6 then none else
  let coords ← pointLoop b ⟨b.points, q.r 0⟩
  let cells ← cellLoop b (⟨b.cells, q.r 1⟩, ⟨b.cells * 8, q.z 0⟩)
  let faces ← faceLoop b ⟨⟨b.faces * 4, q.z 1⟩, ⟨b.faces * 2, q.z 2⟩, ⟨b.cells * 6, q.z 3⟩, 0⟩
  pure ⟨coords, cells.1, cells.2, faces⟩

end Verif.MeshBox
