import Verif.Average.Setup
import Verif.Average.Driver

/-!
# Model of `main` of the Average example with the settings of `input`

examples/average/test/average.cpp:147-347, from the mesh read from the file on.  Left out: the Jacobians and the two geometry
checks (average.cpp:183-289), which change neither the mesh nor the fields (they are modelled in `Verif.Geometry`), and messages.
-/

namespace Verif.Average
open Verif.Swage

/-- The boundary conditions, examples/average/src/input.cpp:74-107. -/
def shippedBoundary : List Bdy := [⟨0, 0⟩, ⟨1, 0⟩, ⟨2, 0⟩, ⟨0, 2⟩, ⟨1, 2⟩, ⟨2, 2⟩]

/-- The fill instructions, examples/average/src/input.cpp:50-71; `u` are the members that are not set (memory from `malloc`). -/
noncomputable def shippedFills (u : ℕ → Fill) : Arr Fill :=
  ⟨2, fun i => if i = 0 then { u 0 with volume := .global, field2 := 0 }
    else { u 1 with volume := .box, x1 := 0, x2 := 7 / 10, y1 := 0, y2 := 2, z1 := 0, z2 := 2, field2 := 0 }⟩

/-- `TFINAL`, `cycle_stop`, `graphics_cyc_ival`, `graphics_dt_ival`, `p_order`, examples/average/src/input.cpp:26-45. -/
noncomputable def shippedSettings : Settings := ⟨1 / 2, 10 ^ 8, 10, 1 / 10, 3⟩

/-- `main`: setup, `allocate_state` (average.cpp:541-560, state.h:28-39, 81-97: zero fields, `rk_storage = 2`), `initialize_state`
with `rk_stage = 0`, `apply_boundary`, and the driver. -/
noncomputable def program (E N : ℕ) (nodes : ℕ → ℕ → ℕ) (x : ℕ → ℕ → ℝ) (q : SetupJunk) (u : ℕ → Fill)
    (j1 j2 : ℕ → ℕ → ℝ) (jt : ℕ → ℝ) : Option (Mesh × Run) := do
  let m ← setup E N shippedSettings.order nodes x shippedBoundary q
  let p ← initializeState m (shippedFills u) 0 ⟨⟨2 * m.cells * 3, fun _ => 0⟩, ⟨m.cells, fun _ => 0⟩⟩
  let s ← applyBoundary m ⟨⟨m.nodes, fun _ => 0⟩, p.field⟩
  let r ← driver m shippedSettings j1 j2 jt s
  pure (m, r)

end Verif.Average
