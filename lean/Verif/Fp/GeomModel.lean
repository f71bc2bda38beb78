import Verif.Geometry.Model
import Verif.Fp.Arith

/-!
# `get_vol_hex` in rounded arithmetic

Model of geometry/geometry.cpp:194-273 with a rounding after each arithmetic operation; index arithmetic and memory
are as in `Verif.Geometry.Model`.
-/

namespace Verif.Fp.Geom
open Verif.Geometry Verif.RefElem

/-- The accessor `mesh_t::cell_coords`, swage/swage.cpp:947-963, in rounded arithmetic. -/
noncomputable def cellCoords (R : Rounding) (m : Mesh) (cc : Arr (ℕ → ℝ)) (c d : ℕ) : Option (Arr (ℕ → ℝ) × ℝ) := do
  let row ← cc.get c
  let row ← loopM 8 (fun l row => do
    let node ← m.nodesInCell.get (c * 8 + l)
    let x ← m.coords.get node
    pure (store row d (R.fl (row d + x d)))) (store row d 0)
  let row := store row d (R.fl (row d / 8))
  let cc ← cc.set c row
  pure (cc, row d)

/-- `mesh.cell_coords(c, d) = v`. -/
noncomputable def assignCellCoords (R : Rounding) (m : Mesh) (cc : Arr (ℕ → ℝ)) (c d : ℕ) (v : ℝ) :
    Option (Arr (ℕ → ℝ)) := do
  let cc ← cellCoords R m cc c d
  let row ← cc.1.get c
  cc.1.set c (store row d v)

/-- Vertex loop of `get_vol_hex`, geometry/geometry.cpp:242-256. -/
noncomputable def hexVerts (R : Rounding) (m : Mesh) (c : ℕ) (s : (ℕ → ℕ → ℝ) × (ℕ → ℝ)) :
    Option ((ℕ → ℕ → ℝ) × (ℕ → ℝ)) :=
  loopM 8 (fun l (s : (ℕ → ℕ → ℝ) × (ℕ → ℝ)) => do
    let node ← m.nodesInCell.get (c * 8 + l)
    let p ← m.coords.get node
    let verts := store s.1 (cCon l) (row3 (p 0) (p 1) (p 2))
    pure (verts, row3 (R.fl (s.2 0 + verts l 0)) (R.fl (s.2 1 + verts l 1)) (R.fl (s.2 2 + verts l 2)))) s

/-- A number of the program: its operations round. -/
structure Num (R : Rounding) where
  val : ℝ

namespace Num
variable {R : Rounding}
/-- `-x`: changing the sign is exact. -/
instance : Neg (Num R) := ⟨fun a => ⟨-a.val⟩⟩
/-- `x + y` -/
noncomputable instance : Add (Num R) := ⟨fun a b => ⟨R.fl (a.val + b.val)⟩⟩
/-- `x - y` -/
noncomputable instance : Sub (Num R) := ⟨fun a b => ⟨R.fl (a.val - b.val)⟩⟩
/-- `x * y` -/
noncomputable instance : Mul (Num R) := ⟨fun a b => ⟨R.fl (a.val * b.val)⟩⟩
end Num

/-- The big parenthesis of geometry/geometry.cpp:264-271, over any type with `+`, `-`, `*` and change of sign. -/
def hexSum {α : Type} [Neg α] [Add α] [Sub α] [Mul α] (x y z : ℕ → α) : α :=
  (x 1*(y 3*(-z 0 + z 2) + y 4*( z 0 - z 5) + y 0*(z 2 + z 3 - z 4 - z 5) + y 6*(-z 2 + z 5) + y 5*(z 0 - z 2 + z 4 - z 6) + y 2*(-z 0 - z 3 + z 5 + z 6)) +
   x 7*(y 0*(-z 3 + z 4) + y 6*( z 2 + z 3  - z 4 - z 5) + y 2*(z 3 - z 6) + y 3*(z 0 - z 2 + z 4 - z 6) + y 5*(-z 4 + z 6) + y 4*(-z 0 - z 3 + z 5 + z 6)) +
   x 3*(y 1*( z 0 - z 2) + y 7*(-z 0 + z 2  - z 4 + z 6) + y 6*(z 2 - z 7) + y 2*(z 0 + z 1 - z 6 - z 7) + y 4*(-z 0 + z 7) + y 0*(-z 1 - z 2 + z 4 + z 7)) +
   x 5*(y 0*( z 1 - z 4) + y 7*( z 4 - z 6) + y 2*(-z 1 + z 6) + y 1*(-z 0 + z 2 - z 4 + z 6) + y 4*(z 0 + z 1 - z 6 - z 7) + y 6*(-z 1 - z 2 + z 4 + z 7)) +
   x 6*(y 1*( z 2 - z 5) + y 7*(-z 2 - z 3  + z 4 + z 5) + y 5*(z 1 + z 2 - z 4 - z 7) + y 4*(z 5 - z 7) + y 3*(-z 2 + z 7) + y 2*(-z 1 + z 3 - z 5 + z 7)) +
   x 0*(y 2*( z 1 - z 3) + y 7*( z 3 - z 4) + y 5*(-z 1 + z 4) + y 1*(-z 2 - z 3 + z 4 + z 5) + y 3*(z 1 + z 2 - z 4 - z 7) + y 4*(-z 1 + z 3 - z 5 + z 7)) +
   x 2*(y 0*(-z 1 + z 3) + y 5*( z 1 - z 6) + y 1*(z 0 + z 3 - z 5 - z 6) + y 7*(-z 3 + z 6) + y 6*(z 1 - z 3 + z 5 - z 7) + y 3*(-z 0 - z 1 + z 6 + z 7)) +
   x 4*(y 1*(-z 0 + z 5) + y 7*( z 0 + z 3  - z 5 - z 6) + y 3*(z 0 - z 7) + y 0*(z 1 - z 3 + z 5 - z 7) + y 6*(-z 5 + z 7) + y 5*(-z 0 - z 1 + z 6 + z 7)))

/-- The volume expression, geometry/geometry.cpp:212, 263-271: `twelth` is `1./12.`, rounded. -/
noncomputable def hexVol (R : Rounding) (x y z : ℕ → ℝ) : ℝ :=
  (hexSum (fun l => (⟨x l⟩ : Num R)) (fun l => ⟨y l⟩) (fun l => ⟨z l⟩) * ⟨R.fl (1 / 12)⟩).val

/-- Cell body of `get_vol_hex`, geometry/geometry.cpp:234-272. -/
noncomputable def hexCell (R : Rounding) (m : Mesh) (c : ℕ) (s : Hex) : Option Hex := do
  let t ← hexVerts R m c (s.verts, fun _ => 0)
  let cc ← assignCellCoords R m s.vol.coords c 0 (R.fl (t.2 0 * (1 / 8)))
  let cc ← assignCellCoords R m cc c 1 (R.fl (t.2 1 * (1 / 8)))
  let cc ← assignCellCoords R m cc c 2 (R.fl (t.2 2 * (1 / 8)))
  let cell ← s.vol.cell.set c (hexVol R (fun l => t.1 l 0) (fun l => t.1 l 1) (fun l => t.1 l 2))
  pure ⟨⟨cell, cc, s.vol.elem⟩, t.1, t.2⟩

/-- `get_vol_hex`, geometry/geometry.cpp:194-273. `verts0` is the contents of the uninitialised local arrays. -/
noncomputable def volHex (R : Rounding) (m : Mesh) (verts0 : ℕ → ℕ → ℝ) (s : Vol) : Option Vol := do
  let t ← loopM m.cells (hexCell R m) ⟨s, verts0, fun _ => 0⟩
  pure t.vol

end Verif.Fp.Geom
