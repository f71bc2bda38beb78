import Verif.Ensight.Spec

/-!
# What a viewer makes of a `.vtu` file

A reader of VTK's XML files for unstructured grids with numbers in text form, as far as the writer of this repository uses the
format.  The file is taken line by line (a line that is not ended by a newline does not count); it must have its closing tag; the
content of a data array is what stands between the line with its name and the next closing tag, split at blanks; every word must be
a number.
-/

namespace Verif.VtuFile
open MeshFile
open Ensight (lines)

/-- What follows the first occurrence of `key` in a line. -/
def findAfter (key : List Char) : List Char → Option (List Char)
  | [] => none
  | c :: t => if key.isPrefixOf (c :: t) then some ((c :: t).drop key.length) else findAfter key t

/-- The words of a line; `acc` is the beginning of the first one, reversed. -/
def wordsAux : List Char → List Char → List (List Char)
  | acc, [] => if acc = [] then [] else [acc.reverse]
  | acc, c :: t =>
    if isSp c then (if acc = [] then wordsAux [] t else acc.reverse :: wordsAux [] t) else wordsAux (c :: acc) t
/-- The words of a line: what stands between blanks. -/
def words (t : List Char) : List (List Char) := wordsAux [] t

/-- A word that is a number of the kind that `scan` reads, and nothing else. -/
def whole {α : Type} (scan : List Char → Option (α × List Char)) (w : List Char) : Option α :=
  (scan w).bind fun r => if r.2 = [] then some r.1 else none
/-- A word that is a natural number. -/
def natWord (w : List Char) : Option ℕ := (whole scanD w).bind fun z => if 0 ≤ z then some z.toNat else none
/-- A word that is a real number. -/
noncomputable def realWord (w : List Char) : Option ℝ := whole scanE w

/-- The line is a closing tag of a data array. -/
def isClose (l : List Char) : Bool := (chars "</DataArray>").isPrefixOf l
/-- The line has the attribute `Name="name"`. -/
def hasName (name : String) (l : List Char) : Bool := (findAfter (chars "Name=\"" ++ chars name ++ ['"']) l).isSome

/-- The words of the data array called `name`. -/
def array (name : String) (ls : List (List Char)) : Option (List (List Char)) :=
  let r := (ls.dropWhile fun l => !hasName name l).drop 1
  if r.any isClose then some ((r.takeWhile fun l => !isClose l).flatMap words) else none

/-- The number in the attribute `key` of the first line that has it. -/
def attr (key : String) (ls : List (List Char)) : Option ℤ :=
  (ls.findSome? (findAfter (chars key ++ chars "=\""))).bind fun r => (scanD r).map Prod.fst

/-- The content of a file. -/
structure Grid where
  /-- `NumberOfPoints`, `NumberOfCells` -/
  numPoints : ℤ
  numCells : ℤ
  /-- the coordinates, three for each point -/
  points : List ℝ
  /-- the cell data `cell_gid` -/
  data : List ℝ
  connectivity : List ℕ
  offsets : List ℕ
  types : List ℕ
  faces : List ℕ
  faceoffsets : List ℕ

/-- Reading a file; `none`: the file is not accepted. -/
noncomputable def readVtu (t : List Char) : Option Grid := do
  let ls := lines t
  if ls.any fun l => (chars "</VTKFile>").isPrefixOf l then
    let np ← attr "NumberOfPoints" ls
    let nc ← attr "NumberOfCells" ls
    let points ← (array "Points" ls).bind (·.mapM realWord)
    let data ← (array "cell_gid" ls).bind (·.mapM realWord)
    let connectivity ← (array "connectivity" ls).bind (·.mapM natWord)
    let offsets ← (array "offsets" ls).bind (·.mapM natWord)
    let types ← (array "types" ls).bind (·.mapM natWord)
    let faces ← (array "faces" ls).bind (·.mapM natWord)
    let faceoffsets ← (array "faceoffsets" ls).bind (·.mapM natWord)
    some ⟨np, nc, points, data, connectivity, offsets, types, faces, faceoffsets⟩
  else none

/-- Rounding a natural number to single precision: the result is a number with a 24-bit mantissa, and none is nearer. -/
def Single (f : ℕ → ℝ) : Prop :=
  ∀ n, (∃ (m : ℕ) (e : ℤ), m < 2 ^ 24 ∧ f n = m * (2 : ℝ) ^ e) ∧
    ∀ (m : ℕ) (e : ℤ), m < 2 ^ 24 → |f n - n| ≤ |(m : ℝ) * (2 : ℝ) ^ e - n|

end Verif.VtuFile
