import Verif.Vtk.File
import Verif.Vtk.PointIndex

/-!
# C80: file names and the trip of a mesh through a file
-/

namespace Verif.Vtk

/-! ### Specification -/

/-- `name` ends in `suffix`, whatever the case of its letters. -/
def EndsIn (name suffix : Name) : Prop := ∃ stem ext, name = stem ++ ext ∧ ext.map Char.toLower = suffix

/-! ### Proofs -/

theorem findLastOf_none {c : Char} {l : Name} : findLastOf c l = none ↔ c ∉ l := by
  induction l with
  | nil => simp [findLastOf]
  | cons x xs ih =>
    unfold findLastOf
    cases h : findLastOf c xs with
    | some i =>
      have : ¬ c ∉ xs := fun h2 => by rw [ih.2 h2] at h; cases h
      simp only [not_not] at this
      simp [this]
    | none =>
      have := ih.1 h
      by_cases hx : x = c
      · simp [hx]
      · simp [hx, this, Ne.symm hx]

theorem findLastOf_append {c : Char} (a b : Name) (hb : c ∉ b) : findLastOf c (a ++ c :: b) = some a.length := by
  induction a with
  | nil =>
    show findLastOf c (c :: b) = _
    unfold findLastOf
    rw [findLastOf_none.2 hb]
    simp
  | cons x xs ih =>
    show findLastOf c (x :: (xs ++ c :: b)) = _
    unfold findLastOf
    rw [ih]
    simp

/-- A character that is a letter or a dot in lower case is one before. -/
theorem toLower_dot {c : Char} (h : c.toLower = '.') : c = '.' := by
  unfold Char.toLower at h
  split at h
  · rename_i h2
    have h3 := congrArg Char.val h
    simp only [] at h3
    have h4 := congrArg UInt32.toNat h3
    obtain ⟨h5, h6⟩ := h2
    have h5 := UInt32.le_iff_toNat_le.1 h5
    have h6 := UInt32.le_iff_toNat_le.1 h6
    simp at h4 h5 h6
    omega
  · exact h

theorem toLower_of_dot : Char.toLower '.' = '.' := by decide

/-- The extension is `"." ++ w`, for a lower-case word `w` without dot, exactly for the names that end in it. -/
theorem extension_iff {name w : Name} (hw : '.' ∉ w) : extension name = '.' :: w ↔ EndsIn name ('.' :: w) := by
  have split : ∀ l : Name, '.' ∈ l → ∃ a b, l = a ++ '.' :: b ∧ '.' ∉ b := by
    intro l
    induction l with
    | nil => intro h; cases h
    | cons x xs ih =>
      intro h
      by_cases hx : '.' ∈ xs
      · obtain ⟨a, b, e, hb⟩ := ih hx
        exact ⟨x :: a, b, by rw [e]; rfl, hb⟩
      · rcases List.mem_cons.1 h with h | h
        · exact ⟨[], xs, by rw [h]; rfl, hx⟩
        · exact absurd h hx
  constructor
  · intro h
    by_cases hd : '.' ∈ name
    · obtain ⟨a, b, rfl, hb⟩ := split name hd
      refine ⟨a, '.' :: b, rfl, ?_⟩
      rw [← h]
      unfold extension
      rw [findLastOf_append a b hb]
      simp
    · unfold extension at h
      rw [findLastOf_none.2 hd] at h
      simp at h
  · rintro ⟨stem, ext, rfl, he⟩
    rcases ext with _ | ⟨x, b⟩
    · simp at he
    · rw [List.map_cons, List.cons.injEq] at he
      obtain rfl := toLower_dot he.1
      have hb : '.' ∉ b := fun hmem => hw (by
        rw [← he.2]
        have := List.mem_map_of_mem (f := Char.toLower) hmem
        rwa [toLower_of_dot] at this)
      unfold extension
      rw [findLastOf_append stem b hb]
      simp only [List.drop_left, List.map_cons, he.2, toLower_of_dot]

/-- **C80 (names).**  Exactly the names that end in `.vtu`, in upper or lower case, are read and written in the XML format, and exactly
those that end in `.vtk` in the legacy format. -/
theorem C80_names (name : Name) : (formatOf name = some Format.xml ↔ EndsIn name ".vtu".toList) ∧
    (formatOf name = some Format.legacy ↔ EndsIn name ".vtk".toList) := by
  have h1 := extension_iff (name := name) (w := "vtu".toList) (by decide)
  have h2 := extension_iff (name := name) (w := "vtk".toList) (by decide)
  have e1 : '.' :: "vtu".toList = ".vtu".toList := by decide
  have e2 : '.' :: "vtk".toList = ".vtk".toList := by decide
  have ne : ".vtu".toList ≠ ".vtk".toList := by decide
  rw [e1] at h1
  rw [e2] at h2
  rw [← h1, ← h2]
  unfold formatOf
  by_cases hx : extension name = ".vtu".toList
  · rw [if_pos hx]
    exact ⟨by simp [hx], ⟨by simp, fun h => absurd (hx.symm.trans h) ne⟩⟩
  · rw [if_neg hx]
    by_cases hy : extension name = ".vtk".toList
    · rw [if_pos hy]
      exact ⟨⟨by simp, fun h => absurd h hx⟩, by simp [hy]⟩
    · rw [if_neg hy]
      exact ⟨⟨by simp, fun h => absurd h hx⟩, ⟨by simp, fun h => absurd h hy⟩⟩

/-- **C80 (files).**  After `write_grid(g, name)` with a name that ends in `.vtu` or `.vtk` the file `name` holds `g` in that format, and
`read_grid(name)` uses the reader of the same format; no other file changes. -/
theorem C80_files {C : Type} (io : Io C) (fs : Files C) (g : Grid) (name : Name)
    (h : EndsIn name ".vtu".toList ∨ EndsIn name ".vtk".toList) :
    ∃ f, writeGrid io fs g name name = some (io.write f g) ∧
      readGrid io (writeGrid io fs g name) name = some (io.read f (some (io.write f g))) ∧
      ∀ n, n ≠ name → writeGrid io fs g name n = fs n := by
  obtain ⟨f, hf⟩ : ∃ f, formatOf name = some f := by
    rcases h with h | h
    · exact ⟨_, (C80_names name).1.2 h⟩
    · exact ⟨_, (C80_names name).2.2 h⟩
  refine ⟨f, ?_, ?_, ?_⟩
  · unfold writeGrid; rw [hf]; simp
  · unfold readGrid writeGrid; rw [hf]; simp
  · intro n hn; unfold writeGrid; rw [hf]; simp [hn]

/-- **C80 (other names).**  With any other name `write_grid` writes nothing and `read_grid` returns the null pointer, without an error. -/
theorem C80_other {C : Type} (io : Io C) (fs : Files C) (g : Grid) (name : Name) (h1 : ¬ EndsIn name ".vtu".toList)
    (h2 : ¬ EndsIn name ".vtk".toList) : writeGrid io fs g name = fs ∧ readGrid io fs name = none := by
  have hf : formatOf name = none := by
    cases h : formatOf name with
    | none => rfl
    | some f =>
      cases f with
      | xml => exact absurd ((C80_names name).1.1 h) h1
      | legacy => exact absurd ((C80_names name).2.1 h) h2
  unfold writeGrid readGrid
  rw [hf]
  exact ⟨rfl, rfl⟩

/-- **C80 (a mesh through a file).**  A mesh written with `init_vtk_grid` and `write_grid` and read again from the file of the same name
with `read_grid` and `init_swage_mesh` has the same order, counts and connectivity, and the nodes of its elements are where VTK's point
array put them; provided VTK's reader returns what its writer was given. -/
theorem C80_mesh {C : Type} (io : Io C) (hio : ∀ f g, io.read f (some (io.write f g)) = g) (fs : Files C) (name : Name)
    (h : EndsIn name ".vtu".toList ∨ EndsIn name ".vtk".toList) (fl : ℝ → ℝ) (old : Bool) (m : Mesh) (hm : m.OK) (hp : nVerts m.order < 2 ^ 31)
    (solution : Arr ℝ) (cols : ℕ) (hc : nVerts m.order ≤ cols) (hz : solution.size = m.numElems * cols) (jpts : ℕ → ℝ × ℝ × ℝ)
    (jsol : ℕ → ℝ) (jhex jmap : ℕ → ℕ) (jc : ℕ → ℝ) (jl jmap' : ℕ → ℕ) :
    ∃ (g g' : Grid) (m' : Mesh), initVtkGrid fl (vtkIndex old) m solution cols jpts jsol jhex jmap = some g ∧
      readGrid io (writeGrid io fs g name) name = some g' ∧
      initSwageMesh (vtkIndex old) m.order g' jc jl jmap' = some (Except.ok m') ∧ m'.OK ∧ m'.order = m.order ∧ m'.numNodes = m.numNodes ∧
      m'.numElems = m.numElems ∧ (∀ e < m.numElems, ∀ v < nVerts m.order, m'.node e v = m.node e v) ∧
      ∀ n, (∃ e < m.numElems, ∃ v < nVerts m.order, m.node e v = n) → m'.pos n = keep fl (m.pos n) := by
  obtain ⟨g, m', e1, e2, h3⟩ := C51_roundtrip_partial fl (vtkIndex old) m hm hp (vtkIndex_numbering old m.order) solution cols hc hz jpts jsol
    jhex jmap jc jl jmap'
  obtain ⟨f, -, r, -⟩ := C80_files io fs g name h
  rw [hio] at r
  exact ⟨g, g, m', e1, r, e2, h3⟩

/-! ### Non-vacuity -/

/-- Files that hold the format and the grid. -/
def plain : Io (Format × Grid) where
  write f g := (f, g)
  read f c := match c with
    | some (f', g) => if f = f' then g else ⟨⟨0, fun _ => (0, 0, 0)⟩, [], [], ⟨0, fun _ => 0⟩⟩
    | none => ⟨⟨0, fun _ => (0, 0, 0)⟩, [], [], ⟨0, fun _ => 0⟩⟩

example : formatOf "runs.v2/annulus.VtU".toList = some Format.xml ∧ formatOf "output.vtk".toList = some Format.legacy ∧
    formatOf "mesh.vtk.gz".toList = none ∧ formatOf "out.vtk/mesh".toList = none ∧ formatOf "vtk".toList = none := by decide

example : EndsIn "runs.v2/annulus.VtU".toList ".vtu".toList := ⟨"runs.v2/annulus".toList, ".VtU".toList, by decide, by decide⟩

example : ∃ (g g' : Grid) (m' : Mesh), initVtkGrid id (vtkIndex false) twoCubes ⟨16, fun i => i⟩ 8 (fun _ => (7, 7, 7)) (fun _ => 0)
      (fun _ => 0) (fun _ => 0) = some g ∧ readGrid plain (writeGrid plain (fun _ => none) g "a.VTU".toList) "a.VTU".toList = some g' ∧
    initSwageMesh (vtkIndex false) 1 g' (fun _ => 0) (fun _ => 0) (fun _ => 0) = some (Except.ok m') ∧ m'.node 1 5 = 9 ∧
    m'.pos 9 = (27, 28, 29) := by
  obtain ⟨g, g', m', e1, e2, e3, -, -, -, -, h1, h2⟩ := C80_mesh plain (fun f g => by simp [plain]) (fun _ => none) "a.VTU".toList
    (Or.inl ⟨"a".toList, ".VTU".toList, by decide, by decide⟩) id false twoCubes twoCubes_ok (by norm_num [twoCubes]) ⟨16, fun i => i⟩ 8
    (by norm_num [twoCubes]) rfl (fun _ => (7, 7, 7)) (fun _ => 0) (fun _ => 0) (fun _ => 0) (fun _ => 0) (fun _ => 0) (fun _ => 0)
  refine ⟨g, g', m', e1, e2, e3, ?_, ?_⟩
  · rw [h1 1 (by norm_num [twoCubes]) 5 (by norm_num [twoCubes])]; rfl
  · rw [h2 9 ⟨1, by norm_num [twoCubes], 5, by norm_num [twoCubes], rfl⟩]; norm_num [Mesh.pos, twoCubes, keep]

end Verif.Vtk
