import Verif.Ieee.Expr

/-!
# `get_vol_hex` in floating-point arithmetic with overflow and underflow

Model of geometry/geometry.cpp:194-273.  The numbers the routine works with are `FNum`: finite, or `none` for an infinity or NaN, which
the routine carries along without noticing; the uninitialised local array may contain anything.  `none` of the outer `Option` is an
access out of bounds.  The coordinates of the mesh are finite.
-/

namespace Verif.Fp.GeomI
open Verif.Geometry Verif.RefElem

/-- Three numbers as a row. -/
def row3 {α : Type} (a b c : α) (d : ℕ) : α := if d = 0 then a else if d = 1 then b else c

variable (A : Ieee)

/-- `x / 8` -/
noncomputable def div8 {A : Ieee} (x : FNum A) : FNum A := Option.bind x fun x => A.rnd (x / 8)

/-- The accessor `mesh_t::cell_coords`, swage/swage.cpp:947-963. -/
noncomputable def cellCoords (m : Mesh) (cc : Arr (ℕ → FNum A)) (c d : ℕ) : Option (Arr (ℕ → FNum A) × FNum A) := do
  let row ← cc.get c
  let row ← loopM 8 (fun l row => do
    let node ← m.nodesInCell.get (c * 8 + l)
    let x ← m.coords.get node
    pure (store row d (row d + FNum.fin (x d)))) (store row d (FNum.fin 0))
  let row := store row d (div8 (row d))
  let cc ← cc.set c row
  pure (cc, row d)

/-- `mesh.cell_coords(c, d) = v`. -/
noncomputable def assignCellCoords (m : Mesh) (cc : Arr (ℕ → FNum A)) (c d : ℕ) (v : FNum A) : Option (Arr (ℕ → FNum A)) := do
  let cc ← cellCoords A m cc c d
  let row ← cc.1.get c
  cc.1.set c (store row d v)

/-- Vertex loop of `get_vol_hex`, geometry/geometry.cpp:242-256. -/
noncomputable def hexVerts (m : Mesh) (c : ℕ) (s : (ℕ → ℕ → FNum A) × (ℕ → FNum A)) : Option ((ℕ → ℕ → FNum A) × (ℕ → FNum A)) :=
  loopM 8 (fun l (s : (ℕ → ℕ → FNum A) × (ℕ → FNum A)) => do
    let node ← m.nodesInCell.get (c * 8 + l)
    let p ← m.coords.get node
    let verts := store s.1 (cCon l) (row3 (FNum.fin (p 0)) (FNum.fin (p 1)) (FNum.fin (p 2)))
    pure (verts, row3 (s.2 0 + verts l 0) (s.2 1 + verts l 1) (s.2 2 + verts l 2))) s

/-- `twelth = 1./12.`, geometry/geometry.cpp:212. -/
noncomputable def twelfth : FNum A := A.rnd (1 / 12)

/-- The volume expression, geometry/geometry.cpp:263-271. -/
noncomputable def hexVol (x y z : ℕ → FNum A) : FNum A := Geom.hexSum x y z * twelfth A

/-- Arrays written: cell volumes and cell centres; local arrays `x_vert`, `y_vert`, `z_vert`. -/
structure Hex where
  cell : Arr (FNum A)
  coords : Arr (ℕ → FNum A)
  verts : ℕ → ℕ → FNum A

/-- Cell body of `get_vol_hex`, geometry/geometry.cpp:234-272; `1/8` is exact. -/
noncomputable def hexCell (m : Mesh) (c : ℕ) (s : Hex A) : Option (Hex A) := do
  let t ← hexVerts A m c (s.verts, fun _ => FNum.fin 0)
  let cc ← assignCellCoords A m s.coords c 0 (t.2 0 * FNum.fin (1 / 8))
  let cc ← assignCellCoords A m cc c 1 (t.2 1 * FNum.fin (1 / 8))
  let cc ← assignCellCoords A m cc c 2 (t.2 2 * FNum.fin (1 / 8))
  let cell ← s.cell.set c (hexVol A (fun l => t.1 l 0) (fun l => t.1 l 1) (fun l => t.1 l 2))
  pure ⟨cell, cc, t.1⟩

/-- `get_vol_hex`, geometry/geometry.cpp:194-273. -/
noncomputable def volHex (m : Mesh) (s : Hex A) : Option (Hex A) := loopM m.cells (hexCell A m) s

end Verif.Fp.GeomI
