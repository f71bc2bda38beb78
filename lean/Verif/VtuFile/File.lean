import Verif.VtuFile.Read
import Verif.Ensight.DiskLemmas

/-!
# Lemmas: the arrays of the whole file
-/

namespace Verif.VtuFile
open MeshFile
open Ensight (lines Text Disk Proc Crash Op exec)
open Average (slice readPoly ClosedCube vtkWriter)

variable (rnd : ℝ → ℕ) (f32 : ℕ → ℝ) (num_dim N C : ℕ) (x : ℕ → ℕ → ℝ) (nodes : ℕ → ℕ → ℕ)

/-! ## Reading the whole file -/

theorem vtu_nl : ∀ l ∈ vtuLines rnd f32 num_dim N C x nodes, '\n' ∉ l := by
  have hd : ∀ n, '\n' ∉ dec n := fun n => (num_dec n).nl
  unfold vtuLines
  simp only [List.forall_mem_append]
  and_intros
  all_goals first
    | decide +kernel
    | exact fun l hl => (num_dataLines _ _ _ l hl).nl
    | exact fun l hl => (num_pointLines _ _ _ l hl).nl
    | exact fun l hl => (num_connLines _ _ l hl).nl
    | exact fun l hl => (num_natLines _ _ l hl).nl
    | exact fun l hl => (num_faceLines _ _ l hl).nl
    | (intro l hl
       rw [List.mem_singleton] at hl
       rw [hl]
       simp only [List.mem_append, hd, or_false]
       decide +kernel)

theorem lines_vtu : lines (vtuText rnd f32 num_dim N C x nodes) = vtuLines rnd f32 num_dim N C x nodes := by
  rw [vtuText_lines, lines_unl (vtu_nl rnd f32 num_dim N C x nodes)]

/-- Neither tag lines nor lines of numbers have a name. -/
theorem noName_step {name : String} {A B P : List Text} {hdr close : Text} (hA : ∀ l ∈ A, hasName name l = false) (hh : hasName name hdr = false)
    (hB : ∀ l ∈ B, Num l) (hc : findAfter ['N', 'a'] close = none) (hP : ∀ l ∈ P, findAfter ['N', 'a'] l = none) :
    ∀ l ∈ A ++ ([hdr] ++ B ++ [close]) ++ P, hasName name l = false := by
  simp only [List.forall_mem_append, List.forall_mem_singleton]
  exact ⟨⟨hA, ⟨hh, fun l hl => (hB l hl).hasName name⟩, noName_of_na hc name⟩, fun l hl => noName_of_na (hP l hl) name⟩

theorem close_na : findAfter ['N', 'a'] (chars "</DataArray> ") = none := by decide +kernel

theorem noName_base (name : String) : ∀ l ∈ [chars "<?xml version=\"1.0\"?> ",
    chars "<VTKFile type=\"UnstructuredGrid\" version=\"0.1\" byte_order=\"LittleEndian\">", chars "<UnstructuredGrid>"] ++
    [chars "<Piece NumberOfPoints=\"" ++ dec N ++ chars "\" NumberOfCells=\"" ++ dec C ++ chars "\">"] ++
    [chars "<PointData> ", chars "</PointData> ", [], chars "<CellData> "], hasName name l = false := by
  have h1 : ∀ l ∈ [chars "<?xml version=\"1.0\"?> ", chars "<VTKFile type=\"UnstructuredGrid\" version=\"0.1\" byte_order=\"LittleEndian\">",
    chars "<UnstructuredGrid>"], findAfter ['N', 'a'] l = none := by decide +kernel
  have h2 : ∀ l ∈ [chars "<PointData> ", chars "</PointData> ", [], chars "<CellData> "], findAfter ['N', 'a'] l = none := by decide +kernel
  intro l hl
  rcases List.mem_append.1 hl with hl | hl
  · rcases List.mem_append.1 hl with hl | hl
    · exact noName_of_na (h1 l hl) name
    · rw [List.mem_singleton.1 hl]; exact noName_piece name N C
  · exact noName_of_na (h2 l hl) name

theorem p1_na : ∀ l ∈ [chars "</CellData> ", [], chars "<Points> "], findAfter ['N', 'a'] l = none := by decide +kernel
theorem p2_na : ∀ l ∈ [chars "</Points> ", [], chars "<Cells> ", []], findAfter ['N', 'a'] l = none := by decide +kernel
theorem p3_na : ∀ l ∈ ([[]] : List Text), findAfter ['N', 'a'] l = none := by decide +kernel

theorem array_data : array "cell_gid" (vtuLines rnd f32 num_dim N C x nodes) = some ((List.range C).map fun c => fmtF rnd (f32 c)) := by
  unfold vtuLines
  iterate 13 apply array_append
  rw [array_last (noName_base N C _) (by decide +kernel) (fun l hl => (num_dataLines _ _ _ l hl).isClose) (by decide +kernel), words_data]

theorem array_points : array "Points" (vtuLines rnd f32 num_dim N C x nodes) =
    some (((List.range N).flatMap fun n => (List.range 3).map (x n)).map (fmtF rnd)) := by
  unfold vtuLines
  iterate 11 apply array_append
  rw [array_last (noName_step (noName_base N C _) (by decide +kernel) (num_dataLines _ _ _) close_na p1_na) (name_points _) (fun l hl => (num_pointLines _ _ _ l hl).isClose) (by decide +kernel), words_points]

theorem array_conn : array "connectivity" (vtuLines rnd f32 num_dim N C x nodes) =
    some (((List.range C).flatMap fun c => (List.range 8).map (nodes c)).map dec) := by
  unfold vtuLines
  iterate 9 apply array_append
  rw [array_last (noName_step (noName_step (noName_base N C _) (by decide +kernel) (num_dataLines _ _ _) close_na p1_na) (noName_points (by decide) _) (num_pointLines _ _ _) close_na p2_na) (by decide +kernel) (fun l hl => (num_connLines _ _ l hl).isClose) (by decide +kernel), words_conn]

theorem array_offsets : array "offsets" (vtuLines rnd f32 num_dim N C x nodes) = some (((List.range C).map fun c => 8 * (c + 1)).map dec) := by
  unfold vtuLines
  iterate 7 apply array_append
  rw [array_last (noName_step (noName_step (noName_step (noName_base N C _) (by decide +kernel) (num_dataLines _ _ _) close_na p1_na) (noName_points (by decide) _) (num_pointLines _ _ _) close_na p2_na) (by decide +kernel) (num_connLines _ _) close_na p3_na) (by decide +kernel) (fun l hl => (num_natLines _ _ l hl).isClose) (by decide +kernel), words_nat]

theorem array_types : array "types" (vtuLines rnd f32 num_dim N C x nodes) = some (((List.range C).map fun _ => 42).map dec) := by
  unfold vtuLines
  iterate 5 apply array_append
  rw [array_last (noName_step (noName_step (noName_step (noName_step (noName_base N C _) (by decide +kernel) (num_dataLines _ _ _) close_na p1_na) (noName_points (by decide) _) (num_pointLines _ _ _) close_na p2_na) (by decide +kernel) (num_connLines _ _) close_na p3_na) (by decide +kernel) (num_natLines _ _) close_na p3_na) (by decide +kernel) (fun l hl => (num_natLines _ _ l hl).isClose) (by decide +kernel), words_nat]

theorem array_faces : array "faces" (vtuLines rnd f32 num_dim N C x nodes) = some (((List.range C).flatMap fun c =>
      6 :: (List.range 6).flatMap fun p => 4 :: (List.range 4).map fun q => Swage.nodeInPatchInCell nodes c p q).map dec) := by
  unfold vtuLines
  iterate 3 apply array_append
  rw [array_last (noName_step (noName_step (noName_step (noName_step (noName_step (noName_base N C _) (by decide +kernel) (num_dataLines _ _ _) close_na p1_na) (noName_points (by decide) _) (num_pointLines _ _ _) close_na p2_na) (by decide +kernel) (num_connLines _ _) close_na p3_na) (by decide +kernel) (num_natLines _ _) close_na p3_na) (by decide +kernel) (num_natLines _ _) close_na p3_na) (by decide +kernel) (fun l hl => (num_faceLines _ _ l hl).isClose) (by decide +kernel), words_faces]

theorem array_faceoffsets :
    array "faceoffsets" (vtuLines rnd f32 num_dim N C x nodes) = some (((List.range C).map fun c => 31 * (c + 1)).map dec) := by
  unfold vtuLines
  iterate 1 apply array_append
  rw [array_last (noName_step (noName_step (noName_step (noName_step (noName_step (noName_step (noName_base N C _) (by decide +kernel) (num_dataLines _ _ _) close_na p1_na) (noName_points (by decide) _) (num_pointLines _ _ _) close_na p2_na) (by decide +kernel) (num_connLines _ _) close_na p3_na) (by decide +kernel) (num_natLines _ _) close_na p3_na) (by decide +kernel) (num_natLines _ _) close_na p3_na) (by decide +kernel) (num_faceLines _ _) close_na p3_na) (by decide +kernel) (fun l hl => (num_natLines _ _ l hl).isClose) (by decide +kernel), words_nat]

theorem attr_vtu : attr "NumberOfPoints" (vtuLines rnd f32 num_dim N C x nodes) = some (N : ℤ) ∧
    attr "NumberOfCells" (vtuLines rnd f32 num_dim N C x nodes) = some (C : ℤ) := by
  have h : ∀ l ∈ [chars "<?xml version=\"1.0\"?> ", chars "<VTKFile type=\"UnstructuredGrid\" version=\"0.1\" byte_order=\"LittleEndian\">",
    chars "<UnstructuredGrid>"], 'N' ∉ l := by decide +kernel
  unfold vtuLines
  simp only [List.append_assoc _ [chars "<Piece NumberOfPoints=\"" ++ dec N ++ chars "\" NumberOfCells=\"" ++ dec C ++ chars "\">"],
    List.append_assoc ([chars "<?xml version=\"1.0\"?> ", chars "<VTKFile type=\"UnstructuredGrid\" version=\"0.1\" byte_order=\"LittleEndian\">",
    chars "<UnstructuredGrid>"])]
  exact ⟨attr_points N C _ _ h, attr_cells N C _ _ h⟩

theorem noEnd_step {A B P : List Text} {hdr close : Text} (hA : ∀ l ∈ A, (chars "</VTKFile>").isPrefixOf l = false)
    (hh : (chars "</VTKFile>").isPrefixOf hdr = false) (hB : ∀ l ∈ B, Num l) (hc : (chars "</VTKFile>").isPrefixOf close = false)
    (hP : ∀ l ∈ P, (chars "</VTKFile>").isPrefixOf l = false) :
    ∀ l ∈ A ++ ([hdr] ++ B ++ [close]) ++ P, (chars "</VTKFile>").isPrefixOf l = false := by
  simp only [List.forall_mem_append, List.forall_mem_singleton]
  exact ⟨⟨hA, ⟨hh, fun l hl => (hB l hl).isEnd⟩, hc⟩, hP⟩

theorem noEnd_second {l : Text} (h : l.take 2 ≠ ['<', '/']) : (chars "</VTKFile>").isPrefixOf l = false := by
  have e : chars "</VTKFile>" = '<' :: '/' :: chars "VTKFile>" := by decide +kernel
  rw [e]
  match l with
  | [] => rfl
  | [c] => simp [List.isPrefixOf]
  | c :: c' :: l =>
    by_contra hc
    rw [Bool.not_eq_false, List.isPrefixOf_iff_prefix] at hc
    obtain ⟨u, hu⟩ := hc
    simp only [List.cons_append, List.cons.injEq] at hu
    apply h
    simp [← hu.1, ← hu.2.1]

theorem close_end : (chars "</VTKFile>").isPrefixOf (chars "</DataArray> ") = false := by decide +kernel

theorem noEnd_base : ∀ l ∈ [chars "<?xml version=\"1.0\"?> ",
    chars "<VTKFile type=\"UnstructuredGrid\" version=\"0.1\" byte_order=\"LittleEndian\">", chars "<UnstructuredGrid>"] ++
    [chars "<Piece NumberOfPoints=\"" ++ dec N ++ chars "\" NumberOfCells=\"" ++ dec C ++ chars "\">"] ++
    [chars "<PointData> ", chars "</PointData> ", [], chars "<CellData> "], (chars "</VTKFile>").isPrefixOf l = false := by
  have h1 : ∀ l ∈ [chars "<?xml version=\"1.0\"?> ", chars "<VTKFile type=\"UnstructuredGrid\" version=\"0.1\" byte_order=\"LittleEndian\">",
    chars "<UnstructuredGrid>"], (chars "</VTKFile>").isPrefixOf l = false := by decide +kernel
  have h2 : ∀ l ∈ [chars "<PointData> ", chars "</PointData> ", [], chars "<CellData> "], (chars "</VTKFile>").isPrefixOf l = false := by
    decide +kernel
  intro l hl
  rcases List.mem_append.1 hl with hl | hl
  · rcases List.mem_append.1 hl with hl | hl
    · exact h1 l hl
    · rw [List.mem_singleton.1 hl]
      apply noEnd_second
      have : chars "<Piece NumberOfPoints=\"" = '<' :: 'P' :: chars "iece NumberOfPoints=\"" := by decide +kernel
      rw [this]; simp
  · exact h2 l hl

theorem noEnd_points (nd : ℕ) : (chars "</VTKFile>").isPrefixOf
    (chars "<DataArray type=\"Float64\" Name=\"Points\" NumberOfComponents=\"" ++ dec nd ++ chars "\" format=\"ascii\">") = false := by
  apply noEnd_second
  have : chars "<DataArray type=\"Float64\" Name=\"Points\" NumberOfComponents=\"" = '<' :: 'D' ::
    chars "ataArray type=\"Float64\" Name=\"Points\" NumberOfComponents=\"" := by decide +kernel
  rw [this]; simp

theorem e1 : ∀ l ∈ [chars "</CellData> ", [], chars "<Points> "], (chars "</VTKFile>").isPrefixOf l = false := by decide +kernel
theorem e2 : ∀ l ∈ [chars "</Points> ", [], chars "<Cells> ", []], (chars "</VTKFile>").isPrefixOf l = false := by decide +kernel
theorem e3 : ∀ l ∈ ([[]] : List Text), (chars "</VTKFile>").isPrefixOf l = false := by decide +kernel
theorem e4 : ∀ l ∈ [[], chars "</Cells> ", [], [], chars "</Piece> ", chars "</UnstructuredGrid> "], (chars "</VTKFile>").isPrefixOf l = false := by
  decide +kernel

/-- The closing tag is in the last line and nowhere else. -/
theorem end_vtu : ∃ L, vtuLines rnd f32 num_dim N C x nodes = L ++ [chars "</VTKFile> "] ∧
    ∀ l ∈ L, (chars "</VTKFile>").isPrefixOf l = false := by
  have h : [[], chars "</Cells> ", [], [], chars "</Piece> ", chars "</UnstructuredGrid> ", chars "</VTKFile> "] =
    [[], chars "</Cells> ", [], [], chars "</Piece> ", chars "</UnstructuredGrid> "] ++ [chars "</VTKFile> "] := rfl
  unfold vtuLines
  rw [h, ← List.append_assoc]
  exact ⟨_, rfl, noEnd_step (noEnd_step (noEnd_step (noEnd_step (noEnd_step (noEnd_step (noEnd_step (noEnd_base N C) (by decide +kernel) (num_dataLines _ _ _) close_end e1)
    (noEnd_points _) (num_pointLines _ _ _) close_end e2) (by decide +kernel) (num_connLines _ _) close_end e3)
    (by decide +kernel) (num_natLines _ _) close_end e3) (by decide +kernel) (num_natLines _ _) close_end e3)
    (by decide +kernel) (num_faceLines _ _) close_end e3) (by decide +kernel) (num_natLines _ _) close_end e4⟩

/-- What is read from the file. -/
theorem readVtu_vtu : readVtu (vtuText rnd f32 num_dim N C x nodes) =
    some ⟨N, C, ((List.range N).flatMap fun n => (List.range 3).map (x n)).map (fixed rnd), (List.range C).map fun c => fixed rnd (f32 c),
      (vtkWriter N C nodes).connectivity, (vtkWriter N C nodes).offsets, (vtkWriter N C nodes).types, (vtkWriter N C nodes).faces,
      (vtkWriter N C nodes).faceoffsets⟩ := by
  have hdata : (vtkWriter N C nodes).types = (List.range C).map fun _ => 42 := Average.vtk_push C _
  have hoff : (vtkWriter N C nodes).offsets = (List.range C).map fun c => 8 * (c + 1) := Average.vtk_push C _
  have hfoff : (vtkWriter N C nodes).faceoffsets = (List.range C).map fun c => 31 * (c + 1) := Average.vtk_push C _
  obtain ⟨L, hL, -⟩ := end_vtu rnd f32 num_dim N C x nodes
  unfold readVtu
  simp only [lines_vtu]
  rw [if_pos (by rw [hL]; simp; right; decide +kernel), (attr_vtu rnd f32 num_dim N C x nodes).1, (attr_vtu rnd f32 num_dim N C x nodes).2,
    array_data, array_points, array_conn, array_offsets, array_types, array_faces, array_faceoffsets]
  simp only [Option.bind_some, Option.bind_eq_bind, mapM_dec, mapM_map (realWord_fmtF rnd), mapM_map (fun c => realWord_fmtF rnd (f32 c)),
    hdata, hoff, hfoff, Average.vtk_conn, Average.vtk_faces]

end Verif.VtuFile
