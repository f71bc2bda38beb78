import Verif.MeshFile.Model
import Verif.Average.Driver

/-!
# The graphics files on disk

`ensight` of examples/average/test/average.cpp and `Ensight` of mesh_tools/box_mesh_creator/meshbox.cpp as sequences of file
operations, and what a process that dies in the middle of them leaves behind.  All `fprintf`s to one file are joined into one
`put`: the C library hands the text to the operating system in order but at times of its own choosing, so that a process that
dies leaves some prefix of what it printed to the open file, and all of it in a file that was closed.  Failing disks and
crashes of the operating system are not modelled.
-/

namespace Verif.Ensight
open MeshFile

/-- The characters of a file or of a file name. -/
abbrev Text := List Char

/-- The directories and files below the working directory (which is the path `[]`). -/
structure Disk where
  /-- the path is a directory -/
  dirs : Text → Bool
  /-- the content of the file -/
  files : Text → Option Text

/-- The disk with another content of one file. -/
def Disk.put (d : Disk) (p t : Text) : Disk := { d with files := Function.update d.files p (some t) }

/-- A call that the writers make. -/
inductive Op
  /-- `if(stat(p,&st) != 0) system("mkdir p")`, average.cpp:1115-1119, meshbox.cpp:495-506 -/
  | mkdir (p : Text)
  /-- `out[0] = fopen(p, "w")` -/
  | create (p : Text)
  /-- `fprintf(out[0], …)` -/
  | put (t : Text)
  /-- `fclose(out[0])` -/
  | close

/-- A running process: the disk and the open file with what has been printed to it. -/
structure Proc where
  disk : Disk
  cur : Option (Text × Text)

/-- The directory of a path. -/
def parent (p : Text) : Text := ((p.reverse.dropWhile (· ≠ '/')).drop 1).reverse

/-- One call.  `mkdir` fails without consequences when there is no place for the directory; `fopen` then returns a null pointer
and the next `fprintf` is undefined (`none`). -/
def step (s : Proc) : Op → Option Proc
  | .mkdir p =>
    if s.disk.dirs p || (s.disk.files p).isSome then some s
    else if s.disk.dirs (parent p) then some { s with disk := { s.disk with dirs := Function.update s.disk.dirs p true } }
    else some s
  | .create p =>
    if s.disk.dirs (parent p) && !s.disk.dirs p then some ⟨s.disk.put p [], some (p, [])⟩ else none
  | .put t => s.cur.map fun c => { s with cur := some (c.1, c.2 ++ t) }
  | .close => s.cur.map fun c => ⟨s.disk.put c.1 c.2, none⟩

/-- A sequence of calls. -/
def exec : List Op → Proc → Option Proc
  | [], s => some s
  | o :: l, s => (step s o).bind (exec l)

/-- What a process that dies now may leave: the open file is cut anywhere. -/
def Proc.Leaves (s : Proc) (d : Disk) : Prop :=
  match s.cur with
  | none => d = s.disk
  | some c => ∃ t, t <+: c.2 ∧ d = s.disk.put c.1 t

/-- What a process may leave that dies before, between or after the calls. -/
inductive Crash : Proc → List Op → Disk → Prop
  | now {s : Proc} {l : List Op} {d : Disk} : s.Leaves d → Crash s l d
  | later {s s' : Proc} {o : Op} {l : List Op} {d : Disk} : step s o = some s' → Crash s' l d → Crash s (o :: l) d

/-- `fprintf("%05d", n)` for a number that is not negative. -/
def fmt05 (n : ℕ) : Text := List.replicate (5 - (dec n).length) '0' ++ dec n

/-- `sprintf(buffer, …)` with a buffer of `n` characters. -/
def sprintf (n : ℕ) (t : Text) : Option Text := if t.length + 1 ≤ n then some t else none

/-- The calls for one file. -/
def write (p t : Text) : List Op := [.create p, .put t, .close]

/-! ## `ensight` of the Average example -/

/-- `scalar_var_names`, average.cpp:1019-1021. -/
def scalarName (var : ℕ) : Text :=
  [chars "cell_field1", chars "elem", chars "elem_id", chars "cell_field2"].getD var []
/-- `vec_var_names`, average.cpp:1022-1024. -/
def vecName (var : ℕ) : Text := [chars "position"].getD var []

/-- A file of scalars, average.cpp:1193-1204. -/
noncomputable def scalarText (rnd : ℝ → ℕ) (num_cells var : ℕ) (fields : Arr (ℕ → ℝ)) : Option Text :=
  loopM num_cells (fun c t => do
    let row ← fields.get c
    pure (t ++ (fmtE rnd 12 (row var) ++ ['\n'])))
    (chars "Per_elem scalar values\npart\n" ++ (fmtD 10 1 ++ ['\n']) ++ chars "hexa8\n")

/-- The file of vectors, average.cpp:1217-1233 (there is one vector variable). -/
noncomputable def vecText (rnd : ℝ → ℕ) (num_nodes : ℕ) (positions : Arr (ℕ → ℝ)) : Option Text :=
  writeCoords rnd positions num_nodes
    (chars "Per_node vector values\npart\n" ++ (fmtD 10 1 ++ ['\n']) ++ chars "coordinates\n")

/-- The time values, average.cpp:1277-1279, meshbox.cpp:615-616. -/
noncomputable def timesText (rnd : ℝ → ℕ) (times : List ℝ) : Text := times.flatMap fun t => fmtE rnd 12 t ++ ['\n']

/-- The case file, average.cpp:1242-1279. -/
noncomputable def caseText (rnd : ℝ → ℕ) (d : Average.Dump) : Option Text := do
  let t := chars "FORMAT\ntype: ensight gold\nGEOMETRY\n"
  let s ← sprintf 128 (chars "model: data/Testing.*****.geo\n")
  let t := t ++ s ++ chars "VARIABLE\n"
  let t ← loopM 4 (fun var t => do
    let s ← sprintf 128 (chars "scalar per element: " ++ scalarName var ++ chars " data/Testing.*****." ++ scalarName var ++ ['\n'])
    pure (t ++ s)) t
  let t ← loopM 1 (fun var t => do
    let s ← sprintf 128 (chars "vector per node: " ++ vecName var ++ chars " data/Testing.*****." ++ vecName var ++ ['\n'])
    pure (t ++ s)) t
  pure (t ++ chars "TIME\ntime set: 1\nnumber of steps: " ++ fmtD 4 (d.id + 1) ++
    chars "\nfilename start number: 0\nfilename increment: 1\ntime values: \n" ++ timesText rnd d.times)

/-- `ensight` from the directories to the end, average.cpp:1108-1280; the data of the dump are computed before, in
`Average.ensight`. -/
noncomputable def dumpOps (rnd : ℝ → ℕ) (coords : Arr (ℕ → ℝ)) (cells : Arr ℤ) (num_nodes num_cells : ℕ) (d : Average.Dump) :
    Option (List Op) := do
  let ops : List Op := [.mkdir (chars "ensight"), .mkdir (chars "ensight/data")]
  let p ← sprintf 128 (chars "ensight/data/Testing." ++ fmt05 d.id ++ chars ".geo")
  let t ← writeAvg rnd coords cells num_nodes num_cells
  let ops := ops ++ write p t
  let ops ← loopM 4 (fun var ops => do
    let p ← sprintf 128 (chars "ensight/data/Testing." ++ fmt05 d.id ++ chars "." ++ scalarName var)
    let t ← scalarText rnd num_cells var d.fields
    pure (ops ++ write p t)) ops
  let ops ← loopM 1 (fun var ops => do
    let p ← sprintf 128 (chars "ensight/data/Testing." ++ fmt05 d.id ++ chars "." ++ vecName var)
    let t ← vecText rnd num_nodes d.positions
    pure (ops ++ write p t)) ops
  let p ← sprintf 128 (chars "ensight/Testing.case")
  let t ← caseText rnd d
  pure (ops ++ write p t)

/-- All dumps of a run, in order. -/
noncomputable def runOps (rnd : ℝ → ℕ) (coords : Arr (ℕ → ℝ)) (cells : Arr ℤ) (num_nodes num_cells : ℕ) :
    List Average.Dump → Option (List Op)
  | [] => some []
  | d :: l => do
    let o ← dumpOps rnd coords cells num_nodes num_cells d
    let r ← runOps rnd coords cells num_nodes num_cells l
    pure (o ++ r)

/-! ## `Ensight` of the box mesh generator -/

/-- The scalar file, meshbox.cpp:571-581. -/
noncomputable def boxVarText (rnd : ℝ → ℕ) (num_cells : ℕ) : Text :=
  loop num_cells (fun _ t => t ++ (fmtE rnd 12 1 ++ ['\n']))
    (chars "Per_elem scalar values\npart\n" ++ (fmtD 10 1 ++ ['\n']) ++ chars "hexa8\n")

/-- The case file, meshbox.cpp:596-616; `times` is `EnsightTimes`. -/
noncomputable def boxCaseText (rnd : ℝ → ℕ) (num : ℕ) (times : Arr ℝ) : Option Text := do
  let l ← Average.printTimes (num + 1) times
  pure (chars "FORMAT\ntype: ensight gold\nGEOMETRY\nmodel: data/mesh.*****.geo\nVARIABLE\nscalar per element: mat_index data/mesh.*****.var\nTIME\ntime set: 1\nnumber of steps: " ++
    fmtD 4 (num + 1) ++ chars "\nfilename start number: 1\nfilename increment: 1\ntime values: \n" ++ timesText rnd l)

/-- `Ensight`, meshbox.cpp:467-622; `num` is `EnsightNumber`. -/
noncomputable def boxOps (rnd : ℝ → ℕ) (num : ℕ) (times : Arr ℝ) (coords : Arr (ℕ → ℝ)) (cells : Arr ℤ) (num_points num_cells : ℕ) :
    Option (List Op) := do
  let ops : List Op := [.mkdir (chars "ensight"), .mkdir (chars "ensight/data")]
  let p ← sprintf 100 (chars "ensight/data/mesh." ++ fmt05 (num + 1) ++ chars ".geo")
  let t ← writeBox rnd coords cells num_points num_cells
  let ops := ops ++ write p t
  let p ← sprintf 100 (chars "ensight/data/mesh." ++ fmt05 (num + 1) ++ chars ".var")
  let ops := ops ++ write p (boxVarText rnd num_cells)
  let p ← sprintf 100 (chars "ensight/mesh.case")
  let t ← boxCaseText rnd num times
  pure (ops ++ write p t)

end Verif.Ensight
