import Verif.VtuFile.Spec
import Verif.VtuFile.Model
import Verif.Ensight.CaseLemmas
import Verif.Average.VtuTheorems

/-! # Lemmas: lines, words and numbers of a `.vtu` file -/

namespace Verif.VtuFile
open MeshFile
open Ensight (lines lines_append Text)
open Average (loop_flatMap)
open Verif.Swage (nodeInPatchInCell)

/-! ## Lines -/

/-- A text made of lines. -/
def unl (L : List Text) : Text := L.flatMap fun l => l ++ ['\n']

theorem unl_append (L M : List Text) : unl (L ++ M) = unl L ++ unl M := by simp [unl]

theorem lines_unl {L : List Text} (h : ∀ l ∈ L, '\n' ∉ l) : lines (unl L) = L := by
  induction L with
  | nil => rfl
  | cons l L ih =>
    have e : unl (l :: L) = l ++ '\n' :: unl L := by simp [unl]
    rw [e, lines_append (h l (by simp)), ih fun m hm => h m (by simp [hm])]

/-! ## Words -/

/-- Not empty and without blanks. -/
def Word (w : Text) : Prop := w ≠ [] ∧ ∀ c ∈ w, isSp c = false

theorem wordsAux_word {w : Text} (h : ∀ c ∈ w, isSp c = false) (acc t : Text) : wordsAux acc (w ++ t) = wordsAux (w.reverse ++ acc) t := by
  induction w generalizing acc with
  | nil => rfl
  | cons c w ih =>
    rw [List.cons_append, wordsAux, if_neg (by simp [h c (by simp)]), ih fun d hd => h d (by simp [hd])]
    simp

theorem words_one {w : Text} (h : Word w) : words w = [w] := by
  have := wordsAux_word h.2 [] []
  rw [List.append_nil] at this
  unfold words; rw [this]; simp [wordsAux, h.1]

theorem words_blanks {b : Text} (h : ∀ c ∈ b, isSp c = true) (t : Text) : words (b ++ t) = words t := by
  induction b with
  | nil => rfl
  | cons c b ih =>
    have := ih fun d hd => h d (by simp [hd])
    unfold words at this ⊢
    rw [List.cons_append, wordsAux, if_pos (h c (by simp)), if_pos rfl, this]

theorem words_cons {w : Text} (h : Word w) {b : Text} (hb : ∀ c ∈ b, isSp c = true) (hne : b ≠ []) (t : Text) :
    words (w ++ (b ++ t)) = w :: words t := by
  cases b with
  | nil => exact absurd rfl hne
  | cons c b =>
    have e : words (w ++ (c :: b ++ t)) = w :: words (b ++ t) := by
      unfold words
      rw [wordsAux_word h.2, List.cons_append, wordsAux, if_pos (hb c (by simp)), if_neg (by simp [h.1])]
      simp
    rw [e, words_blanks fun d hd => hb d (by simp [hd])]

theorem words_flatMap {b : Text} (hb : ∀ c ∈ b, isSp c = true) (hne : b ≠ []) (L : List Text) (h : ∀ w ∈ L, Word w) :
    words (L.flatMap fun w => w ++ b) = L := by
  induction L with
  | nil => rfl
  | cons w L ih =>
    rw [List.flatMap_cons, List.append_assoc, words_cons (h w (by simp)) hb hne, ih fun v hv => h v (by simp [hv])]

/-! ## Numbers -/

theorem fmtD_word (n : ℕ) : fmtD 0 (n : ℤ) = dec n := by
  simp [fmtD, pad]

theorem word_dec (n : ℕ) : Word (dec n) := ⟨dec_ne n, fun c hc => sp_of_dig (dec_dig n c hc)⟩

theorem noDig_nil : NoDig [] := by intro c t h; cases h

theorem natWord_dec (n : ℕ) : natWord (dec n) = some n := by
  have := scanD_fmtD (w := []) (by simp) 0 (n : ℤ) noDig_nil
  rw [fmtD_word, List.append_nil, List.nil_append] at this
  simp [natWord, whole, this]

/-- The number printed by `%f`. -/
noncomputable def fixed (rnd : ℝ → ℕ) (x : ℝ) : ℝ := (if x < 0 then -1 else 1) * (rnd (|x| * 10 ^ 6) : ℝ) / 10 ^ 6

theorem fmtF_chars (rnd : ℝ → ℕ) (x : ℝ) : ∀ c ∈ fmtF rnd x, isDig c = true ∨ c = '-' ∨ c = '.' := by
  intro c hc
  unfold fmtF at hc
  simp only [List.mem_append, List.mem_singleton] at hc
  rcases hc with ((hc | hc) | hc) | hc
  · split_ifs at hc
    · simp only [List.mem_singleton] at hc; simp [hc]
    · simp at hc
  · exact .inl (dec_dig _ c hc)
  · exact .inr (.inr hc)
  · exact .inl (digitsN_dig _ _ c hc)

theorem word_fmtF (rnd : ℝ → ℕ) (x : ℝ) : Word (fmtF rnd x) := by
  refine ⟨by simp [fmtF], fun c hc => ?_⟩
  rcases fmtF_chars rnd x c hc with h | rfl | rfl
  · exact sp_of_dig h
  · decide
  · decide

theorem realWord_fmtF (rnd : ℝ → ℕ) (x : ℝ) : realWord (fmtF rnd x) = some (fixed rnd x) := by
  have d6 := digitsN_dig 6 (rnd (|x| * 10 ^ 6))
  have dd := dec_dig (rnd (|x| * 10 ^ 6) / 10 ^ 6)
  have nd := dec_ne (rnd (|x| * 10 ^ 6) / 10 ^ 6)
  have hp : NoDig ('.' :: digitsN 6 (rnd (|x| * 10 ^ 6))) := by
    intro c v h; rw [← (List.cons.inj h).1]; decide
  have e : scanE (fmtF rnd x) = some (fixed rnd x, []) := by
    have e : fmtF rnd x = [] ++ ((if decide (x < 0) then ['-'] else []) ++ dec (rnd (|x| * 10 ^ 6) / 10 ^ 6) ++
        ('.' :: digitsN 6 (rnd (|x| * 10 ^ 6)))) := by
      unfold fmtF; simp
    rw [e]
    unfold scanE
    rw [drop_spaces (by simp) (signed_head _ dd nd _)]
    simp only []
    rw [scanSign_minus _ dd nd]
    simp only []
    rw [(take_digits dd hp).1, (take_digits dd hp).2]
    have ef : scanFrac ('.' :: digitsN 6 (rnd (|x| * 10 ^ 6))) = (digitsN 6 (rnd (|x| * 10 ^ 6)), []) := by
      show ((digitsN 6 (rnd (|x| * 10 ^ 6))).takeWhile isDig, (digitsN 6 (rnd (|x| * 10 ^ 6))).dropWhile isDig) = _
      have := take_digits d6 noDig_nil
      rw [List.append_nil] at this
      rw [this.1, this.2]
    rw [ef]
    simp only []
    rw [if_neg (by intro h; exact nd (List.append_eq_nil_iff.1 h).1)]
    simp only [scanExp, Option.map_some, Option.some.injEq, Prod.mk.injEq, and_true]
    rw [digVal_append_digitsN, digVal_dec, digitsN_length]
    have : rnd (|x| * 10 ^ 6) / 10 ^ 6 * 10 ^ 6 + rnd (|x| * 10 ^ 6) % 10 ^ 6 = rnd (|x| * 10 ^ 6) := by omega
    rw [this]
    unfold fixed
    split_ifs with h1 h2 h2
    · norm_num; ring
    · simp at h1; exact absurd h1 h2
    · simp at h1; linarith
    · norm_num; ring
  unfold realWord whole
  rw [e]; rfl

/-- `%f` is within half a unit of the sixth decimal. -/
theorem fixed_err {rnd : ℝ → ℕ} (h : Nearest rnd) (x : ℝ) : |fixed rnd x - x| ≤ 5 / 10 ^ 7 := by
  have h1 := h (|x| * 10 ^ 6) (by positivity)
  rw [abs_le] at h1 ⊢
  unfold fixed
  split_ifs with hx
  · rw [abs_of_neg hx] at h1 ⊢; constructor <;> linarith [h1.1, h1.2]
  · rw [abs_of_nonneg (by linarith)] at h1 ⊢; constructor <;> linarith [h1.1, h1.2]

/-- Multiples of the sixth decimal are printed exactly. -/
theorem fixed_exact {rnd : ℝ → ℕ} (h : Nearest rnd) (z : ℤ) : fixed rnd (z / 10 ^ 6) = z / 10 ^ 6 := by
  have e : |(z : ℝ) / 10 ^ 6| * 10 ^ 6 = (z.natAbs : ℝ) := by
    rw [abs_div, abs_of_pos (by norm_num : (0 : ℝ) < 10 ^ 6), Nat.cast_natAbs]; push_cast; field_simp
  have h1 := h (|(z : ℝ) / 10 ^ 6| * 10 ^ 6) (by positivity)
  have h2 : rnd (|(z : ℝ) / 10 ^ 6| * 10 ^ 6) = z.natAbs := by
    rw [e] at h1 ⊢
    have h3 : |((rnd (z.natAbs : ℝ) : ℤ) : ℝ) - ((z.natAbs : ℤ) : ℝ)| < 1 := by
      rw [Int.cast_natCast, Int.cast_natCast]; linarith
    rw [← Int.cast_sub, ← Int.cast_abs] at h3
    have h4 : |(rnd (z.natAbs : ℝ) : ℤ) - (z.natAbs : ℤ)| < 1 := by exact_mod_cast h3
    rw [abs_lt] at h4; omega
  unfold fixed
  rw [h2, Nat.cast_natAbs]
  split_ifs with hx
  · have : (z : ℝ) < 0 := by by_contra hc; exact absurd hx (not_lt.2 (by push Not at hc; positivity))
    push_cast; rw [abs_of_neg this]; ring
  · have : (0 : ℝ) ≤ z := by
      by_contra hc; push Not at hc hx
      have : (z : ℝ) / 10 ^ 6 < 0 := div_neg_of_neg_of_pos hc (by norm_num)
      linarith
    push_cast; rw [abs_of_nonneg this]; ring

/-! ## The lines of the file -/

/-- The lines that hold the numbers. -/
noncomputable def dataLines (rnd : ℝ → ℕ) (f32 : ℕ → ℝ) (C : ℕ) : List Text := (List.range C).map fun c => fmtF rnd (f32 c)
noncomputable def pointLines (rnd : ℝ → ℕ) (N : ℕ) (x : ℕ → ℕ → ℝ) : List Text :=
  (List.range N).map fun n => ((List.range 3).map fun d => fmtF rnd (x n d)).flatMap fun w => w ++ chars "   "
def connLines (C : ℕ) (nodes : ℕ → ℕ → ℕ) : List Text :=
  (List.range C).map fun c => ((List.range 8).map fun l => dec (nodes c l)).flatMap fun w => w ++ chars "  "
/-- One number in a line, two blanks after it. -/
def natLines (C : ℕ) (f : ℕ → ℕ) : List Text := (List.range C).map fun c => dec (f c) ++ chars "  "
def faceLines (C : ℕ) (nodes : ℕ → ℕ → ℕ) : List Text :=
  (List.range C).flatMap fun c => (dec 6 ++ chars "  ") ::
    (List.range 6).map fun p => (dec 4 :: (List.range 4).map fun q => dec (nodeInPatchInCell nodes c p q)).flatMap fun w => w ++ chars "  "

/-- The lines of the file. -/
noncomputable def vtuLines (rnd : ℝ → ℕ) (f32 : ℕ → ℝ) (num_dim N C : ℕ) (x : ℕ → ℕ → ℝ) (nodes : ℕ → ℕ → ℕ) : List Text :=
  [chars "<?xml version=\"1.0\"?> ", chars "<VTKFile type=\"UnstructuredGrid\" version=\"0.1\" byte_order=\"LittleEndian\">",
    chars "<UnstructuredGrid>"] ++
  [chars "<Piece NumberOfPoints=\"" ++ dec N ++ chars "\" NumberOfCells=\"" ++ dec C ++ chars "\">"] ++
  [chars "<PointData> ", chars "</PointData> ", [], chars "<CellData> "] ++
  ([chars "<DataArray type=\"Float64\" Name=\"" ++ chars "cell_gid" ++ chars "\" Format=\"ascii\">"] ++ dataLines rnd f32 C ++
    [chars "</DataArray> "]) ++ [chars "</CellData> ", [], chars "<Points> "] ++
  ([chars "<DataArray type=\"Float64\" Name=\"Points\" NumberOfComponents=\"" ++ dec num_dim ++ chars "\" format=\"ascii\">"] ++
    pointLines rnd N x ++ [chars "</DataArray> "]) ++ [chars "</Points> ", [], chars "<Cells> ", []] ++
  ([chars "<DataArray type=\"Int64\" Name=\"connectivity\">"] ++ connLines C nodes ++ [chars "</DataArray> "]) ++ [[]] ++
  ([chars "<DataArray type=\"Int64\" Name=\"offsets\">"] ++ natLines C (fun c => 8 * (c + 1)) ++ [chars "</DataArray> "]) ++ [[]] ++
  ([chars "<DataArray type=\"UInt64\" Name=\"types\">"] ++ natLines C (fun _ => 42) ++ [chars "</DataArray> "]) ++ [[]] ++
  ([chars "<DataArray type=\"Int64\" Name=\"faces\">"] ++ faceLines C nodes ++ [chars "</DataArray> "]) ++ [[]] ++
  ([chars "<DataArray type=\"Int64\" Name=\"faceoffsets\">"] ++ natLines C (fun c => 31 * (c + 1)) ++ [chars "</DataArray> "]) ++
  [[], chars "</Cells> ", [], [], chars "</Piece> ", chars "</UnstructuredGrid> ", chars "</VTKFile> "]

theorem ln_unl (s : String) : ln s = unl [chars s] := by simp [ln, unl]

theorem loop_lines (n : ℕ) (g : ℕ → Text) (t : Text) : loop n (fun c t => t ++ (g c ++ ['\n'])) t = t ++ unl ((List.range n).map g) := by
  rw [loop_flatMap n (fun c => g c ++ ['\n'])]
  simp [unl, List.flatMap_map]

theorem vtuText_lines (rnd : ℝ → ℕ) (f32 : ℕ → ℝ) (num_dim N C : ℕ) (x : ℕ → ℕ → ℝ) (nodes : ℕ → ℕ → ℕ) :
    vtuText rnd f32 num_dim N C x nodes = unl (vtuLines rnd f32 num_dim N C x nodes) := by
  have h1 : ∀ t : Text, loop N (fun n t =>
      t ++ (fmtF rnd (x n 0) ++ chars "   " ++ fmtF rnd (x n 1) ++ chars "   " ++ fmtF rnd (x n 2) ++ ln "   ")) t =
      t ++ unl (pointLines rnd N x) := by
    intro t
    rw [pointLines, ← loop_lines]
    congr 1; funext n t
    simp [ln, List.range_succ, List.append_assoc]
  have h2 : ∀ t : Text, loop C (fun c t => loop 8 (fun n t => t ++ (fmtD 0 (nodes c n) ++ chars "  ")) t ++ ln "") t =
      t ++ unl (connLines C nodes) := by
    intro t
    rw [connLines, ← loop_lines]
    congr 1; funext c t
    rw [loop_flatMap 8 (fun n => fmtD 0 (nodes c n) ++ chars "  "), List.flatMap_map]
    simp only [fmtD_word, ln, List.append_assoc]
    rfl
  have h3 : ∀ (f : ℕ → ℕ) (t : Text), loop C (fun c t => t ++ (dec (f c) ++ ln "  ")) t = t ++ unl (natLines C f) := by
    intro f t
    rw [natLines, ← loop_lines]
    simp only [ln, List.append_assoc]
  have h4 : ∀ t : Text, loop C (fun c t =>
      loop 6 (fun p t =>
        loop 4 (fun q t => t ++ (fmtD 0 (nodeInPatchInCell nodes c p q) ++ chars "  ")) (t ++ chars "4  ") ++ ln "")
        (t ++ (fmtD 0 6 ++ ln "  "))) t = t ++ unl (faceLines C nodes) := by
    intro t
    have e : (fun (c : ℕ) (t : Text) => loop 6 (fun p t =>
        loop 4 (fun q t => t ++ (fmtD 0 (nodeInPatchInCell nodes c p q) ++ chars "  ")) (t ++ chars "4  ") ++ ln "")
        (t ++ (fmtD 0 6 ++ ln "  "))) = fun c t => t ++ unl ((dec 6 ++ chars "  ") ::
          (List.range 6).map fun p => (dec 4 :: (List.range 4).map fun q => dec (nodeInPatchInCell nodes c p q)).flatMap fun w => w ++ chars "  ") := by
      funext c t
      have e : (fun (p : ℕ) (t : Text) => loop 4 (fun q t => t ++ (fmtD 0 (nodeInPatchInCell nodes c p q) ++ chars "  ")) (t ++ chars "4  ") ++ ln "") =
          fun p t => t ++ ((dec 4 :: (List.range 4).map fun q => dec (nodeInPatchInCell nodes c p q)).flatMap (fun w => w ++ chars "  ") ++ ['\n']) := by
        funext p t
        rw [loop_flatMap 4 (fun q => fmtD 0 (nodeInPatchInCell nodes c p q) ++ chars "  "), List.flatMap_cons, List.flatMap_map]
        have : chars "4  " = dec 4 ++ chars "  " := by rw [dec, if_pos (by norm_num)]; decide
        simp only [this, fmtD_word, ln, List.append_assoc]
        rfl
      rw [e, loop_lines]
      have : fmtD 0 6 = dec 6 := fmtD_word 6
      simp [unl, ln, this]
    rw [e, loop_flatMap, faceLines]
    simp [unl, List.flatMap_assoc]
  unfold vtuText
  simp only [show ∀ n : ℕ, fmtD 0 (8 * ((n : ℤ) + 1)) = dec (8 * (n + 1)) from fun n => fmtD_word (8 * (n + 1)),
    show ∀ n : ℕ, fmtD 0 (((31 : ℕ) : ℤ) * ((n : ℤ) + 1)) = dec (31 * (n + 1)) from fun n => fmtD_word (31 * (n + 1)),
    show fmtD 0 42 = dec 42 from fmtD_word 42]
  rw [h1, h2, h4, h3, h3, h3]
  simp only [loop_succ, loop_zero, loop_lines]
  unfold vtuLines dataLines
  simp only [unl_append, fmtD_word]
  simp only [unl, ln, List.flatMap_cons, List.flatMap_nil, List.append_assoc, List.append_nil, List.nil_append]
  rfl

end Verif.VtuFile
