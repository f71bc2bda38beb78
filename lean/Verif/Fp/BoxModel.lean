import Verif.Fp.Arith
import Verif.MeshBox.Model
import Verif.MeshFile.Model

/-!
# The box mesh generator in rounded arithmetic

`mesh_tools/box_mesh_creator/meshbox.cpp` as in `Verif/MeshBox/Model.lean` with a rounding after every arithmetic operation, and
`read_mesh` (examples/average/test/average.cpp:356-505) as in `Verif/MeshFile/Model.lean` with the decimal numbers of the file rounded to
doubles.  The conversions `(double)i` are exact.
-/

namespace Verif.Fp.MeshBox
open Verif.Fp Verif.MeshBox

variable (R : Rounding)

/-- `dx`, `dy`, `dz`, meshbox.cpp:138-140. -/
noncomputable def step (b : Box) (d : ℕ) : ℝ :=
  R.fl (b.len d / R.fl ((if d = 0 then b.pi else if d = 1 then b.pj else b.pk : ℕ) - 1))

/-- Point loop, meshbox.cpp:222-238. -/
noncomputable def pointLoop (b : Box) (coords : Arr (ℕ → ℝ)) : Option (Arr (ℕ → ℝ)) :=
  loop3 b.pk b.pj b.pi (fun i j k a => setZ a (getId i j k b.pi b.pj)
    (row3 (R.fl (b.shift 0 + R.fl (i * step R b 0))) (R.fl (b.shift 1 + R.fl (j * step R b 1))) (R.fl (b.shift 2 + R.fl (k * step R b 2)))))
    coords

/-- Cell loop, meshbox.cpp:244-288: state (`cell_coords`, `cell_point_list`). -/
noncomputable def cellLoop (b : Box) (s : Arr (ℕ → ℝ) × Arr ℤ) : Option (Arr (ℕ → ℝ) × Arr ℤ) :=
  loop3 b.ck b.cj b.ci (fun i j k (s : Arr (ℕ → ℝ) × Arr ℤ) => do
    let c ← setZ s.1 (getId i j k b.ci b.cj)
      (row3 (R.fl (R.fl (i * step R b 0) + R.fl (step R b 0 / 2))) (R.fl (R.fl (j * step R b 1) + R.fl (step R b 1 / 2)))
        (R.fl (R.fl (k * step R b 2) + R.fl (step R b 2 / 2))))
    let p ← cellPoints b i j k s.2
    pure (c, p)) s

/-- `main` up to the call of the writer, meshbox.cpp:107-398. -/
noncomputable def build (b : Box) (q : Junk) : Option Built := do
  if b.faces < 6 then none else
  let coords ← pointLoop R b ⟨b.points, q.r 0⟩
  let cells ← cellLoop R b (⟨b.cells, q.r 1⟩, ⟨b.cells * 8, q.z 0⟩)
  let faces ← faceLoop b ⟨⟨b.faces * 4, q.z 1⟩, ⟨b.faces * 2, q.z 2⟩, ⟨b.cells * 6, q.z 3⟩, 0⟩
  pure ⟨coords, cells.1, cells.2, faces⟩

/-- `read_mesh`, average.cpp:356-505: the numbers scanned by `fscanf("%le")` are rounded to doubles. -/
noncomputable def readMesh (q : MeshFile.Junk) (file : List Char) : Option MeshFile.MeshIn := do
  let m ← MeshFile.readMesh q file
  pure { m with coords := ⟨m.coords.size, fun p d => R.fl (m.coords.val p d)⟩ }

/-- The generator and the writer (meshbox.cpp:107-565), then the reader (average.cpp:356-505). -/
noncomputable def roundTrip (rnd : ℝ → ℕ) (b : Box) (q : Junk) (q' : MeshFile.Junk) : Option MeshFile.MeshIn := do
  let r ← build R b q
  let t ← MeshFile.writeBox rnd r.coords r.cellPoints b.points b.cells
  readMesh R q' t

end Verif.Fp.MeshBox
