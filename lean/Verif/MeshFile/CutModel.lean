import Verif.MeshFile.Model

/-!
# Model of `read_mesh` on files that end too early

`read_mesh` of `examples/average/test/average.cpp` ignores the results of `fscanf` and does not test `fgetc` for end of
file.  Here a failing conversion leaves its destination as it was and the input where the C library leaves it, as the
code does; `Verif.MeshFile.readMesh` is the same function with every failure made undefined (`CutLemmas`,
`readMeshT_of_readMesh`).  Uninitialised memory has arbitrary contents, which are arguments.  Console output (which
includes the uninitialised `skip_string` when the file ends before it) is left out.
-/

namespace Verif.MeshFile

/-- `fscanf("%d")`: the number, if there is one, and the rest of the input; a sign without digits is used up. -/
def scanDT (s : List Char) : Option ℤ × List Char :=
  let t := scanSign (s.dropWhile isSp)
  let d := t.2.takeWhile isDig
  if d = [] then (none, t.2)
  else (some (if t.1 then -(digVal d : ℤ) else digVal d), t.2.dropWhile isDig)

/-- The exponent part of a floating-point number: `none` when `e` is not followed by digits. -/
def scanExpT : List Char → Option ℤ × List Char
  | 'e' :: t => num t
  | 'E' :: t => num t
  | t => (some 0, t)
where
  /-- sign and digits of the exponent -/
  num (t : List Char) : Option ℤ × List Char :=
    let u := scanSign t
    let d := u.2.takeWhile isDig
    if d = [] then (none, u.2) else (some (if u.1 then -(digVal d : ℤ) else digVal d), u.2.dropWhile isDig)

/-- `fscanf("%le")`: the number, if there is one, and the rest of the input. -/
noncomputable def scanET (s : List Char) : Option ℝ × List Char :=
  let t := scanSign (s.dropWhile isSp)
  let d := t.2.takeWhile isDig
  let f := scanFrac (t.2.dropWhile isDig)
  if d ++ f.1 = [] then (none, f.2)
  else
    let e := scanExpT f.2
    (e.1.map fun x => (if t.1 then -1 else 1) * (digVal (d ++ f.1) : ℝ) * (10 : ℝ) ^ (x - (f.1.length : ℤ)), e.2)

/-- `fscanf("%s", buffer)` with a buffer of `n` characters: the rest of the input; `none` when the buffer overflows. -/
def scanWordT (n : ℕ) (s : List Char) : Option (List Char) :=
  let t := s.dropWhile isSp
  if n ≤ (t.takeWhile fun c => !isSp c).length then none else some (t.dropWhile fun c => !isSp c)

/-- `while ((ch = (char)fgetc(in)) != '\n')`, average.cpp:365-373, at most `fuel` iterations; `none`: the loop is still
running.  At the end of the file `fgetc` returns `EOF`, which is not a newline, again and again. -/
def fgetcLoop : ℕ → List Char → Option (List Char)
  | 0, _ => none
  | fuel + 1, [] => fgetcLoop fuel []
  | fuel + 1, c :: t => if c = '\n' then some t else fgetcLoop fuel t

/-- The eight header lines, average.cpp:364-373, each with at most `fuel` iterations. -/
def headerLoop (fuel : ℕ) (s : List Char) : Option (List Char) := loopM 8 (fun _ s => fgetcLoop fuel s) s

/-- The coordinate loops of `read_mesh`, average.cpp:389-402: state (`node_coords`, input). -/
noncomputable def readCoordsT (n : ℕ) (s : Arr (ℕ → ℝ) × List Char) : Option (Arr (ℕ → ℝ) × List Char) :=
  loopM 3 (fun d => loopM n fun p (s : Arr (ℕ → ℝ) × List Char) => do
    let x := scanET s.2
    let row ← s.1.get p
    let a ← s.1.set p (store row d (x.1.getD (row d)))
    pure (a, x.2)) s

/-- The cell loop of `read_mesh`, average.cpp:435-444: state (`nodes_in_cell`, input). -/
def readCellsT (n : ℕ) (s : Arr ℤ × List Char) : Option (Arr ℤ × List Char) :=
  loopM n (fun c => loopM 8 fun l (s : Arr ℤ × List Char) => do
    let v := scanDT s.2
    let old ← s.1.get (c * 8 + l)
    let a ← s.1.set (c * 8 + l) (v.1.getD old)
    let w ← a.get (c * 8 + l)
    let a ← a.set (c * 8 + l) (w - 1)
    pure (a, v.2)) s

/-- Contents of uninitialised memory, with that of the local variable `num_nodes`. -/
structure JunkT extends Junk where
  n : ℤ

/-- `read_mesh`, average.cpp:355-470, after the header lines (`none`: undefined behaviour). -/
noncomputable def readBody (q : JunkT) (s : List Char) : Option MeshIn := do
  let n := scanDT s
  let num := n.1.getD q.n
  if num < 0 then none else
  let r ← readCoordsT num.toNat (⟨num.toNat, q.r⟩, n.2)
  let s ← scanWordT 20 r.2
  let e := scanDT s
  let elems := e.1.getD 0
  if elems < 0 then none else
  let c ← readCellsT elems.toNat (⟨elems.toNat * 8, q.z⟩, e.2)
  let c ← convertCells elems.toNat (c.1, q.tmp)
  pure ⟨r.1, c.1⟩

/-- `read_mesh`, average.cpp:355-470, where every header line is read with at most `fuel` calls of `fgetc`. -/
noncomputable def readMeshT (fuel : ℕ) (q : JunkT) (s : List Char) : Option MeshIn := do
  let s ← headerLoop fuel s
  readBody q s

end Verif.MeshFile
