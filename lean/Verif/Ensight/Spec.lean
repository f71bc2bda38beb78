import Verif.MeshFile.Text

/-!
# What a viewer makes of a case file

A reader of EnSight Gold case files, as far as the writers of this repository use the format: the file is taken line by line, a
line that is not ended by a newline does not count, the time values must be as many as the number of steps, and the asterisks in a
file name stand for that many digits of the file number.
-/

namespace Verif.Ensight
open MeshFile

/-- The lines of a text that are ended by a newline; `acc` is the beginning of the first one, reversed. -/
def linesAux : List Char → List Char → List (List Char)
  | _, [] => []
  | acc, c :: t => if c = '\n' then acc.reverse :: linesAux [] t else linesAux (c :: acc) t
/-- The lines of a text that are ended by a newline. -/
def lines (t : List Char) : List (List Char) := linesAux [] t

/-- What follows `key` in a line that begins with it. -/
def after (key l : List Char) : Option (List Char) := if key.isPrefixOf l then some (l.drop key.length) else none

/-- The file name in a line of the sections GEOMETRY and VARIABLE (there is a variable's name before it in the latter). -/
def filePattern (l : List Char) : Option (List Char) :=
  let word (r : List Char) := (r.dropWhile (· ≠ ' ')).drop 1
  match after (chars "model: ") l, after (chars "scalar per element: ") l, after (chars "vector per node: ") l with
  | some r, _, _ => some r
  | _, some r, _ => some (word r)
  | _, _, some r => some (word r)
  | _, _, _ => none

/-- The number in the first line that begins with `key`. -/
def number (key : List Char) (ls : List (List Char)) : Option ℤ :=
  (ls.findSome? (after key)).bind fun r => (scanD r).map Prod.fst

/-- The content of a case file. -/
structure Case where
  patterns : List (List Char)
  steps : ℕ
  start : ℤ
  times : List ℝ

/-- Reading a case file; `none`: the file is not accepted. -/
noncomputable def readCase (t : List Char) : Option Case := do
  let ls := lines t
  let steps ← number (chars "number of steps:") ls
  let start ← number (chars "filename start number:") ls
  let vals := (ls.dropWhile (· ≠ chars "time values: ")).drop 1
  let times ← vals.mapM fun l => (scanE l).map Prod.fst
  if (vals.length : ℤ) = steps then some ⟨ls.filterMap filePattern, vals.length, start, times⟩ else none

/-- The file meant by a pattern for file number `n`: `k` asterisks are `k` digits. -/
def resolve (pat : List Char) (n : ℕ) : List Char :=
  let r := pat.dropWhile (· ≠ '*')
  pat.takeWhile (· ≠ '*') ++ digitsN (r.takeWhile (· = '*')).length n ++ r.dropWhile (· = '*')

/-- A file with one number per cell. -/
noncomputable def scalarFile (rnd : ℝ → ℕ) (num_cells : ℕ) (f : ℕ → ℝ) : List Char :=
  chars "Per_elem scalar values\npart\n         1\nhexa8\n" ++ (List.range num_cells).flatMap fun c => fmtE rnd 12 (f c) ++ ['\n']
/-- A file with a vector per node: all first components, all second ones, all third ones. -/
noncomputable def vectorFile (rnd : ℝ → ℕ) (num_nodes : ℕ) (x : ℕ → ℕ → ℝ) : List Char :=
  chars "Per_node vector values\npart\n         1\ncoordinates\n" ++
    (List.range 3).flatMap fun d => (List.range num_nodes).flatMap fun p => fmtE rnd 12 (x p d) ++ ['\n']

end Verif.Ensight
