import Verif.Vtk.Model

/-!
# Model of io/vtk_io.cpp: `read_grid` and `write_grid`

File names are lists of characters, `::tolower` is that of the C locale.  The readers and writers of VTK are parameters: `write f g` is what
the writer of format `f` leaves in the file for the grid `g`, `read f c` is the output of the reader of format `f` for a file with
contents `c` (`none`: there is no such file).
-/

namespace Verif.Vtk

/-- The two file formats: `vtkXMLUnstructuredGrid{Reader,Writer}` and `vtkUnstructuredGrid{Reader,Writer}`. -/
inductive Format
  | xml
  | legacy
  deriving DecidableEq

abbrev Name := List Char

/-- `std::string::find_last_of` for one character: the index of its last occurrence. -/
def findLastOf (c : Char) : Name → Option ℕ
  | [] => none
  | x :: xs => match findLastOf c xs with
    | some i => some (i + 1)
    | none => if x = c then some 0 else none

/-- The extension in lower case, vtk_io.cpp:52-59 (and 229-239). -/
def extension (name : Name) : Name :=
  (match findLastOf '.' name with
    | none => []
    | some i => name.drop i).map Char.toLower

/-- The choice of the reader, vtk_io.cpp:61-73, and of the writer, vtk_io.cpp:241-253. -/
def formatOf (name : Name) : Option Format :=
  if extension name = ".vtu".toList then some Format.xml
  else if extension name = ".vtk".toList then some Format.legacy
  else none

/-- The readers and writers of VTK. -/
structure Io (C : Type) where
  write : Format → Grid → C
  read : Format → Option C → Grid

/-- The files by name. -/
abbrev Files (C : Type) := Name → Option C

/-- `read_grid(file_name)`, vtk_io.cpp:48-76; `none` is the null pointer the smart pointer starts with. -/
def readGrid {C : Type} (io : Io C) (fs : Files C) (name : Name) : Option Grid :=
  match formatOf name with
  | some f => some (io.read f (fs name))
  | none => none

/-- `write_grid(grid, file_name)`, vtk_io.cpp:228-254. -/
def writeGrid {C : Type} (io : Io C) (fs : Files C) (g : Grid) (name : Name) : Files C :=
  match formatOf name with
  | some f => fun n => if n = name then some (io.write f g) else fs n
  | none => fs

end Verif.Vtk
