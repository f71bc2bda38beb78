import Verif.Average.Model
import Verif.Loop3

/-!
# Model of the driver of the Average example: the cycle loop of `main` with its graphics dumps, and `ensight`

examples/average/test/average.cpp:188, 292-343 and 1001-1289.  The texts written to the files are modelled in
`Verif.MeshFile`; here a dump is the data that goes into the files.  `TIME` and the other times are real numbers (the sum of
`double` steps of 0.001 is not exact).  The progress messages are left out, and `stop_calc`, which nothing sets.
-/

namespace Verif.Average

/-- The settings made in `input`, examples/average/src/input.cpp:25-49. -/
structure Settings where
  /-- `TFINAL` -/
  tfinal : ℝ
  /-- `cycle_stop` -/
  cycleStop : ℕ
  /-- `graphics_cyc_ival` -/
  cycIval : ℕ
  /-- `graphics_dt_ival` -/
  dtIval : ℝ
  /-- `p_order` -/
  order : ℕ

/-- The data of one graphics dump. -/
structure Dump where
  /-- the number in the file names -/
  id : ℕ
  /-- the four scalars of each cell -/
  fields : Arr (ℕ → ℝ)
  /-- the vector `position` of each node -/
  positions : Arr (ℕ → ℝ)
  /-- the `time values` of the case file, overwritten by each dump -/
  times : List ℝ

/-- The variables of the driver. -/
structure Run where
  /-- `TIME` -/
  time : ℝ
  /-- `graphics_time` -/
  gtime : ℝ
  /-- `graphics_id` -/
  id : ℕ
  /-- `graphics_times` -/
  times : Arr ℝ
  /-- the fields -/
  state : State
  /-- the dumps written so far -/
  dumps : List Dump

/-- `num_sub_1d`, average.cpp:1043-1051. -/
def numSub (order : ℕ) : ℕ := if order = 0 then 1 else order * 2

/-- One column of `cell_fields`, average.cpp:1037-1039, 1089-1093. -/
def fieldColumn (cells col : ℕ) (field : Arr ℝ) (a : Arr (ℕ → ℝ)) : Option (Arr (ℕ → ℝ)) :=
  loopM cells (fun c a => do
    let v ← field.get c
    let row ← a.get c
    a.set c (store row col v)) a

/-- The loops over the cells of an element, average.cpp:1055-1070, 1072-1086: write `v` to column `col`. -/
def elemColumn (sub col e : ℕ) (v : ℝ) (a : Arr (ℕ → ℝ)) : Option (Arr (ℕ → ℝ)) :=
  loopM sub (fun k => loopM sub fun j => loopM sub fun i a => do
    let index := i + j * sub + k * sub * sub
    let c := index + sub * sub * sub * e
    let row ← a.get c
    a.set c (store row col v)) a

/-- `cell_fields`, average.cpp:1030-1093; `junk` is the content of the new array. -/
noncomputable def cellFields (m : Mesh) (sub : ℕ) (field : Arr ℝ) (junk : ℕ → ℕ → ℝ) : Option (Arr (ℕ → ℝ)) := do
  let a ← fieldColumn m.cells 0 field ⟨m.cells, junk⟩
  let s ← loopM m.elems (fun e (s : Arr (ℕ → ℝ) × ℤ) => do
    let a ← elemColumn sub 1 e (s.2 : ℝ) s.1
    pure (a, s.2 * (-1))) (a, 1)
  let a ← loopM m.elems (fun e a => elemColumn sub 2 e (e : ℝ) a) s.1
  fieldColumn m.cells 3 field a

/-- `vec_fields`, average.cpp:1097-1105. -/
def vecFields (m : Mesh) (junk : ℕ → ℕ → ℝ) : Option (Arr (ℕ → ℝ)) :=
  loopM m.nodes (fun n a => do
    let x ← m.coords.get n
    let row ← a.get n
    a.set n (store (store (store row 0 (x 0)) 1 (x 1)) 2 (x 2))) ⟨m.nodes, junk⟩

/-- The printed time values, average.cpp:1277-1279. -/
def printTimes (n : ℕ) (times : Arr ℝ) : Option (List ℝ) :=
  loopM n (fun i l => do
    let t ← times.get i
    pure (l ++ [t])) []

/-- `ensight`, average.cpp:1001-1289. -/
noncomputable def ensight (m : Mesh) (cfg : Settings) (j1 j2 : ℕ → ℕ → ℝ) (r : Run) : Option Run := do
  let f ← cellFields m (numSub cfg.order) r.state.cell j1
  let v ← vecFields m j2
  let times ← r.times.set r.id r.time
  let l ← printTimes (r.id + 1) times
  pure { r with times := times, id := r.id + 1, dumps := r.dumps ++ [⟨r.id, f, v, l⟩] }

/-- The cycle loop, average.cpp:292-340: `n` cycles are left, `c` is `cycle`; `cycle%graphics_cyc_ival` is undefined for a zero
interval. -/
noncomputable def cycleLoop (m : Mesh) (cfg : Settings) (j1 j2 : ℕ → ℕ → ℝ) : ℕ → ℕ → Run → Option Run
  | 0, _, r => some r
  | n + 1, c, r => do
    let s ← smoothElement m r.state
    let s ← applyBoundary m s
    let r : Run := { r with state := s, time := r.time + 1 / 1000 }
    if r.time ≥ cfg.tfinal then pure r
    else if cfg.cycIval = 0 then none
    else if c % cfg.cycIval = 0 ∨ r.time - r.gtime ≥ 0 then do
      let r ← ensight m cfg j1 j2 r
      cycleLoop m cfg j1 j2 n (c + 1) { r with gtime := r.gtime + cfg.dtIval }
    else cycleLoop m cfg j1 j2 n (c + 1) r

/-- From the first call of `ensight` to the end of `main`, average.cpp:188, 292-343.  `graphics_time` still has the value
`1.0e8` of its initialiser (average.cpp:108-109), which is evaluated before `input` changes `graphics_dt_ival`. -/
noncomputable def driver (m : Mesh) (cfg : Settings) (j1 j2 : ℕ → ℕ → ℝ) (jt : ℕ → ℝ) (s : State) : Option Run := do
  let r ← ensight m cfg j1 j2 ⟨0, 10 ^ 8, 0, ⟨250, jt⟩, s, []⟩
  let r ← cycleLoop m cfg j1 j2 cfg.cycleStop 1 r
  ensight m cfg j1 j2 r

end Verif.Average
