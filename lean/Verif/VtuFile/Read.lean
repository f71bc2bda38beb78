import Verif.VtuFile.Lemmas

/-! # Lemmas: finding the data arrays -/

namespace Verif.VtuFile
open MeshFile
open Ensight (lines Text)
open Verif.Swage (nodeInPatchInCell)

/-! ## Searching -/

theorem findAfter_skip {key a : Text} (h : ∀ s ∈ a.tails, s = [] ∨ (key.isPrefixOf s = false ∧ s.isPrefixOf key = false)) (b : Text) :
    findAfter key (a ++ b) = findAfter key b := by
  induction a with
  | nil => rfl
  | cons c a ih =>
    rw [List.cons_append, findAfter, if_neg, ih fun s hs => h s (by simp [hs])]
    intro hk
    have h1 := h (c :: a) (by simp)
    simp only [List.cons_ne_nil, false_or] at h1
    have hk : key <+: (c :: a) ++ b := by simpa using hk
    have e1 : ¬key <+: c :: a := by
      intro e; rw [← List.isPrefixOf_iff_prefix, h1.1] at e; cases e
    have e2 : ¬(c :: a) <+: key := by
      intro e; rw [← List.isPrefixOf_iff_prefix, h1.2] at e; cases e
    rcases List.prefix_or_prefix_of_prefix hk (List.prefix_append (c :: a) b) with e | e
    · exact e1 e
    · exact e2 e

theorem findAfter_pass {k : Char} (key : Text) {a : Text} (h : k ∉ a) (b : Text) :
    findAfter (k :: key) (a ++ b) = findAfter (k :: key) b := by
  induction a with
  | nil => rfl
  | cons c a ih =>
    have hc : (k == c) = false := by
      rw [beq_eq_false_iff_ne]; rintro rfl; exact h (by simp)
    rw [List.cons_append, findAfter, if_neg (by simp [List.isPrefixOf, hc]), ih fun hk => h (by simp [hk])]

theorem findAfter_none {k : Char} (key : Text) {a : Text} (h : k ∉ a) : findAfter (k :: key) a = none := by
  have := findAfter_pass key h []
  rw [List.append_nil] at this
  rw [this]; rfl

theorem findAfter_here (k : Char) (key b : Text) : findAfter (k :: key) (k :: key ++ b) = some b := by
  rw [List.cons_append, findAfter, if_pos]
  · simp
  · rw [List.isPrefixOf_iff_prefix, ← List.cons_append]; exact List.prefix_append _ _

/-! ## Lines with numbers -/

/-- A line of digits, blanks, points and minus signs. -/
def Num (l : Text) : Prop := ∀ c ∈ l, isDig c = true ∨ c = ' ' ∨ c = '-' ∨ c = '.'

theorem Num.notMem {l : Text} (h : Num l) {c : Char} (hc : isDig c = false) (hc' : c ≠ ' ') (h1 : c ≠ '-') (h2 : c ≠ '.') : c ∉ l := by
  intro hl; rcases h c hl with e | e | e | e
  · rw [hc] at e; cases e
  all_goals contradiction

theorem Num.append {l m : Text} (h : Num l) (h' : Num m) : Num (l ++ m) := by
  intro c hc; rcases List.mem_append.1 hc with e | e
  · exact h c e
  · exact h' c e

theorem num_dec (n : ℕ) : Num (dec n) := fun c hc => .inl (dec_dig n c hc)
theorem num_fmtF (rnd : ℝ → ℕ) (x : ℝ) : Num (fmtF rnd x) := by
  intro c hc; rcases fmtF_chars rnd x c hc with e | e | e
  · exact .inl e
  · exact .inr (.inr (.inl e))
  · exact .inr (.inr (.inr e))
theorem num_blanks2 : Num (chars "  ") := by intro c hc; revert c; decide
theorem num_blanks3 : Num (chars "   ") := by intro c hc; revert c; decide
theorem num_flatMap {L : List Text} {b : Text} (hb : Num b) (h : ∀ w ∈ L, Num w) : Num (L.flatMap fun w => w ++ b) := by
  intro c hc
  obtain ⟨w, hw, hc⟩ := List.mem_flatMap.1 hc
  exact (h w hw).append hb c hc

theorem num_dataLines (rnd : ℝ → ℕ) (f32 : ℕ → ℝ) (C : ℕ) : ∀ l ∈ dataLines rnd f32 C, Num l := by
  intro l hl; obtain ⟨c, -, rfl⟩ := List.mem_map.1 hl; exact num_fmtF _ _
theorem num_pointLines (rnd : ℝ → ℕ) (N : ℕ) (x : ℕ → ℕ → ℝ) : ∀ l ∈ pointLines rnd N x, Num l := by
  intro l hl; obtain ⟨c, -, rfl⟩ := List.mem_map.1 hl
  refine num_flatMap num_blanks3 fun w hw => ?_
  obtain ⟨d, -, rfl⟩ := List.mem_map.1 hw; exact num_fmtF _ _
theorem num_connLines (C : ℕ) (nodes : ℕ → ℕ → ℕ) : ∀ l ∈ connLines C nodes, Num l := by
  intro l hl; obtain ⟨c, -, rfl⟩ := List.mem_map.1 hl
  refine num_flatMap num_blanks2 fun w hw => ?_
  obtain ⟨d, -, rfl⟩ := List.mem_map.1 hw; exact num_dec _
theorem num_natLines (C : ℕ) (f : ℕ → ℕ) : ∀ l ∈ natLines C f, Num l := by
  intro l hl; obtain ⟨c, -, rfl⟩ := List.mem_map.1 hl; exact (num_dec _).append num_blanks2
theorem num_faceLines (C : ℕ) (nodes : ℕ → ℕ → ℕ) : ∀ l ∈ faceLines C nodes, Num l := by
  intro l hl; obtain ⟨c, -, hl⟩ := List.mem_flatMap.1 hl
  rcases List.mem_cons.1 hl with rfl | hl
  · exact (num_dec _).append num_blanks2
  · obtain ⟨p, -, rfl⟩ := List.mem_map.1 hl
    refine num_flatMap num_blanks2 fun w hw => ?_
    rcases List.mem_cons.1 hw with rfl | hw
    · exact num_dec _
    · obtain ⟨d, -, rfl⟩ := List.mem_map.1 hw; exact num_dec _

theorem Num.hasName {l : Text} (h : Num l) (name : String) : hasName name l = false := by
  have e : chars "Name=\"" ++ chars name ++ ['"'] = 'N' :: (chars "ame=\"" ++ chars name ++ ['"']) := by
    have : chars "Name=\"" = 'N' :: chars "ame=\"" := by decide
    rw [this]; rfl
  unfold VtuFile.hasName
  rw [e, findAfter_none _ (h.notMem (by decide) (by decide) (by decide) (by decide))]; rfl

theorem prefix_false {k : Char} {key l : Text} (h : k ∉ l) : (k :: key).isPrefixOf l = false := by
  cases l with
  | nil => rfl
  | cons c l =>
    have hc : (k == c) = false := by rw [beq_eq_false_iff_ne]; rintro rfl; exact h (by simp)
    simp [List.isPrefixOf, hc]

theorem Num.isClose {l : Text} (h : Num l) : isClose l = false := by
  have e : chars "</DataArray>" = '<' :: chars "/DataArray>" := by decide
  unfold VtuFile.isClose
  rw [e]; exact prefix_false (h.notMem (by decide) (by decide) (by decide) (by decide))

theorem Num.isEnd {l : Text} (h : Num l) : (chars "</VTKFile>").isPrefixOf l = false := by
  have e : chars "</VTKFile>" = '<' :: chars "/VTKFile>" := by decide
  rw [e]; exact prefix_false (h.notMem (by decide) (by decide) (by decide) (by decide))

theorem Num.nl {l : Text} (h : Num l) : '\n' ∉ l := h.notMem (by decide) (by decide) (by decide) (by decide)

/-! ## Data arrays -/

theorem dropWhile_all {α : Type} {p : α → Bool} {A : List α} (h : ∀ l ∈ A, p l = true) (B : List α) : (A ++ B).dropWhile p = B.dropWhile p := by
  rw [List.dropWhile_append_of_pos h]

theorem array_last {name : String} {A B : List Text} {hdr close : Text} (hA : ∀ l ∈ A, hasName name l = false)
    (hh : hasName name hdr = true) (hB : ∀ l ∈ B, isClose l = false) (hc : isClose close = true) :
    array name (A ++ ([hdr] ++ B ++ [close])) = some (B.flatMap words) := by
  unfold array
  rw [dropWhile_all (by intro l hl; simp [hA l hl])]
  have e : ([hdr] ++ B ++ [close]).dropWhile (fun l => !hasName name l) = hdr :: (B ++ [close]) := by
    simp [hh]
  rw [e, List.drop_one, List.tail_cons]
  rw [if_pos (by simp [hc])]
  rw [List.takeWhile_append_of_pos (by intro l hl; simp [hB l hl])]
  simp [hc]

theorem array_append {name : String} {M : List Text} {w : List Text} (h : array name M = some w) (C : List Text) :
    array name (M ++ C) = some w := by
  have key : ∀ (r : List Text), r.any isClose = true → (r ++ C).takeWhile (fun l => !isClose l) = r.takeWhile fun l => !isClose l := by
    intro r hr
    induction r with
    | nil => cases hr
    | cons a r ih =>
      rw [List.any_cons, Bool.or_eq_true] at hr
      by_cases ha : isClose a = true
      · simp [ha]
      · simp only [Bool.not_eq_true] at ha
        rw [List.cons_append, List.takeWhile_cons, List.takeWhile_cons, ha]
        simp only [Bool.not_false, if_true]
        rw [ih (by simpa [ha] using hr)]
  unfold array at h ⊢
  have hd : ∀ (M : List Text), M.dropWhile (fun l => !hasName name l) ≠ [] →
      (M ++ C).dropWhile (fun l => !hasName name l) = M.dropWhile (fun l => !hasName name l) ++ C := by
    intro M
    induction M with
    | nil => intro h; exact absurd rfl h
    | cons a M ih =>
      intro h
      rw [List.cons_append]
      by_cases ha : hasName name a = true
      · simp [ha]
      · simp only [Bool.not_eq_true] at ha
        rw [List.dropWhile_cons, ha] at h ⊢
        rw [List.dropWhile_cons, ha]
        simp only [Bool.not_false, if_true] at h ⊢
        exact ih h
  simp only [] at h ⊢
  split_ifs at h with ha
  have hne : M.dropWhile (fun l => !hasName name l) ≠ [] := by
    intro e; rw [e] at ha; simp at ha
  rw [hd M hne]
  cases hM : M.dropWhile (fun l => !hasName name l) with
  | nil => exact absurd hM hne
  | cons a r =>
    rw [hM] at h ha
    simp only [List.drop_one, List.tail_cons, List.cons_append] at h ha ⊢
    rw [if_pos (by rw [List.any_append, ha]; rfl), key r ha, h]

/-! ## Words of the lines -/

theorem sp2 : ∀ c ∈ chars "  ", isSp c = true := by decide
theorem sp3 : ∀ c ∈ chars "   ", isSp c = true := by decide

theorem words_data (rnd : ℝ → ℕ) (f32 : ℕ → ℝ) (C : ℕ) :
    (dataLines rnd f32 C).flatMap words = (List.range C).map fun c => fmtF rnd (f32 c) := by
  unfold dataLines
  rw [List.flatMap_map, List.map_eq_flatMap]
  congr 1; funext c; exact words_one (word_fmtF _ _)

theorem words_points (rnd : ℝ → ℕ) (N : ℕ) (x : ℕ → ℕ → ℝ) :
    (pointLines rnd N x).flatMap words = ((List.range N).flatMap fun n => (List.range 3).map (x n)).map (fmtF rnd) := by
  unfold pointLines
  rw [List.flatMap_map, List.map_flatMap]
  congr 1; funext n
  rw [words_flatMap sp3 (by decide), List.map_map]
  · rfl
  · intro w hw; obtain ⟨d, -, rfl⟩ := List.mem_map.1 hw; exact word_fmtF _ _

theorem words_conn (C : ℕ) (nodes : ℕ → ℕ → ℕ) :
    (connLines C nodes).flatMap words = ((List.range C).flatMap fun c => (List.range 8).map (nodes c)).map dec := by
  unfold connLines
  rw [List.flatMap_map, List.map_flatMap]
  congr 1; funext n
  rw [words_flatMap sp2 (by decide), List.map_map]
  · rfl
  · intro w hw; obtain ⟨d, -, rfl⟩ := List.mem_map.1 hw; exact word_dec _

theorem words_dec2 (n : ℕ) : words (dec n ++ chars "  ") = [dec n] := by
  have := words_flatMap sp2 (by decide) [dec n] (by simp [word_dec])
  simpa using this

theorem words_nat (C : ℕ) (f : ℕ → ℕ) : (natLines C f).flatMap words = ((List.range C).map f).map dec := by
  unfold natLines
  rw [List.flatMap_map, List.map_map, List.map_eq_flatMap]
  congr 1; funext c; exact words_dec2 _

theorem words_faces (C : ℕ) (nodes : ℕ → ℕ → ℕ) :
    (faceLines C nodes).flatMap words = ((List.range C).flatMap fun c =>
      6 :: (List.range 6).flatMap fun p => 4 :: (List.range 4).map fun q => nodeInPatchInCell nodes c p q).map dec := by
  unfold faceLines
  rw [List.flatMap_assoc, List.map_flatMap]
  congr 1; funext c
  rw [List.flatMap_cons, words_dec2, List.map_cons, List.singleton_append, List.flatMap_map, List.map_flatMap]
  congr 2; funext p
  rw [words_flatMap sp2 (by decide), List.map_cons, List.map_map]
  · rfl
  · intro w hw
    rcases List.mem_cons.1 hw with rfl | hw
    · exact word_dec _
    · obtain ⟨d, -, rfl⟩ := List.mem_map.1 hw; exact word_dec _

theorem mapM_map {α β γ : Type} {f : α → β} {g : β → Option γ} {h : α → γ} (e : ∀ a, g (f a) = some (h a)) (L : List α) :
    (L.map f).mapM g = some (L.map h) := by
  induction L with
  | nil => rfl
  | cons a L ih => rw [List.map_cons, List.mapM_cons, e, ih]; rfl

theorem mapM_dec (L : List ℕ) : (L.map dec).mapM natWord = some L := by
  rw [mapM_map natWord_dec, List.map_id']

/-! ## Lines without a name -/

theorem findAfter_mono {K key l : Text} (h : findAfter key l = none) : findAfter (key ++ K) l = none := by
  induction l with
  | nil => rfl
  | cons c l ih =>
    rw [findAfter] at h ⊢
    split_ifs at h with hk
    rw [if_neg, ih h]
    intro e
    apply hk
    rw [List.isPrefixOf_iff_prefix] at e ⊢
    exact (List.prefix_append key K).trans e

theorem noName_of_na {l : Text} (h : findAfter ['N', 'a'] l = none) (name : String) : hasName name l = false := by
  have e : chars "Name=\"" ++ chars name ++ ['"'] = ['N', 'a'] ++ (chars "me=\"" ++ chars name ++ ['"']) := by
    have : chars "Name=\"" = ['N', 'a'] ++ chars "me=\"" := by decide
    rw [this]; rfl
  unfold hasName
  rw [e, findAfter_mono h]; rfl

theorem noN_dec (n : ℕ) : 'N' ∉ dec n := (num_dec n).notMem (by decide) (by decide) (by decide) (by decide)

theorem noName_piece (name : String) (N C : ℕ) :
    hasName name (chars "<Piece NumberOfPoints=\"" ++ dec N ++ chars "\" NumberOfCells=\"" ++ dec C ++ chars "\">") = false := by
  apply noName_of_na
  simp only [List.append_assoc]
  rw [findAfter_skip (by decide +kernel), findAfter_pass _ (noN_dec N), findAfter_skip (by decide +kernel), findAfter_pass _ (noN_dec C)]
  decide

/-- The line before the coordinates. -/
theorem name_points (nd : ℕ) :
    hasName "Points" (chars "<DataArray type=\"Float64\" Name=\"Points\" NumberOfComponents=\"" ++ dec nd ++ chars "\" format=\"ascii\">") = true := by
  have e : chars "<DataArray type=\"Float64\" Name=\"Points\" NumberOfComponents=\"" =
      chars "<DataArray type=\"Float64\" " ++ ('N' :: chars "ame=\"Points\"" ++ chars " NumberOfComponents=\"") := by decide +kernel
  have k : chars "Name=\"" ++ chars "Points" ++ ['"'] = 'N' :: chars "ame=\"Points\"" := by decide +kernel
  unfold hasName
  rw [e, k]
  simp only [List.append_assoc]
  rw [findAfter_pass _ (by decide +kernel), findAfter_here]; rfl

theorem noName_points {name : String} (h : name ∈ ["cell_gid", "connectivity", "offsets", "types", "faces", "faceoffsets"]) (nd : ℕ) :
    hasName name (chars "<DataArray type=\"Float64\" Name=\"Points\" NumberOfComponents=\"" ++ dec nd ++ chars "\" format=\"ascii\">") = false := by
  have key : ∀ K, (∀ s ∈ (chars "<DataArray type=\"Float64\" Name=\"Points\" NumberOfComponents=\"").tails,
      s = [] ∨ (('N' :: K).isPrefixOf s = false ∧ s.isPrefixOf ('N' :: K) = false)) →
      findAfter ('N' :: K) (chars "<DataArray type=\"Float64\" Name=\"Points\" NumberOfComponents=\"" ++ dec nd ++ chars "\" format=\"ascii\">") = none := by
    intro K hK
    rw [List.append_assoc, findAfter_skip hK, findAfter_pass _ (noN_dec nd)]
    exact findAfter_none _ (by decide +kernel)
  unfold hasName
  simp only [List.mem_cons, List.not_mem_nil, or_false] at h
  rcases h with rfl | rfl | rfl | rfl | rfl | rfl
  · rw [show chars "Name=\"" ++ chars "cell_gid" ++ ['"'] = 'N' :: chars "ame=\"cell_gid\"" by decide +kernel, key _ (by decide +kernel)]; rfl
  · rw [show chars "Name=\"" ++ chars "connectivity" ++ ['"'] = 'N' :: chars "ame=\"connectivity\"" by decide +kernel, key _ (by decide +kernel)]; rfl
  · rw [show chars "Name=\"" ++ chars "offsets" ++ ['"'] = 'N' :: chars "ame=\"offsets\"" by decide +kernel, key _ (by decide +kernel)]; rfl
  · rw [show chars "Name=\"" ++ chars "types" ++ ['"'] = 'N' :: chars "ame=\"types\"" by decide +kernel, key _ (by decide +kernel)]; rfl
  · rw [show chars "Name=\"" ++ chars "faces" ++ ['"'] = 'N' :: chars "ame=\"faces\"" by decide +kernel, key _ (by decide +kernel)]; rfl
  · rw [show chars "Name=\"" ++ chars "faceoffsets" ++ ['"'] = 'N' :: chars "ame=\"faceoffsets\"" by decide +kernel, key _ (by decide +kernel)]; rfl

/-! ## The numbers in the attributes -/

theorem attr_points (N C : ℕ) (A B : List Text) (hA : ∀ l ∈ A, 'N' ∉ l) :
    attr "NumberOfPoints" (A ++ ([chars "<Piece NumberOfPoints=\"" ++ dec N ++ chars "\" NumberOfCells=\"" ++ dec C ++ chars "\">"] ++ B)) = some (N : ℤ) := by
  have k : chars "NumberOfPoints" ++ chars "=\"" = 'N' :: chars "umberOfPoints=\"" := by decide +kernel
  have e : chars "<Piece NumberOfPoints=\"" = chars "<Piece " ++ ('N' :: chars "umberOfPoints=\"") := by decide +kernel
  unfold attr
  rw [k, List.findSome?_append, List.findSome?_eq_none_iff.2 fun l hl => findAfter_none _ (hA l hl), Option.none_or, e]
  simp only [List.append_assoc, List.singleton_append, List.findSome?_cons]
  rw [findAfter_pass _ (by decide +kernel), findAfter_here]
  have := scanD_fmtD (w := []) (by simp) 0 (N : ℤ) (t := chars "\" NumberOfCells=\"" ++ (dec C ++ chars "\">")) (by
    have : chars "\" NumberOfCells=\"" = '"' :: chars " NumberOfCells=\"" := by decide +kernel
    rw [this]; intro c t h; rw [← (List.cons.inj h).1]; decide)
  rw [fmtD_word, List.nil_append] at this
  simp [this]

theorem attr_cells (N C : ℕ) (A B : List Text) (hA : ∀ l ∈ A, 'N' ∉ l) :
    attr "NumberOfCells" (A ++ ([chars "<Piece NumberOfPoints=\"" ++ dec N ++ chars "\" NumberOfCells=\"" ++ dec C ++ chars "\">"] ++ B)) = some (C : ℤ) := by
  have k : chars "NumberOfCells" ++ chars "=\"" = 'N' :: chars "umberOfCells=\"" := by decide +kernel
  have e : chars "\" NumberOfCells=\"" = chars "\" " ++ ('N' :: chars "umberOfCells=\"") := by decide +kernel
  unfold attr
  rw [k, List.findSome?_append, List.findSome?_eq_none_iff.2 fun l hl => findAfter_none _ (hA l hl), Option.none_or, e]
  simp only [List.append_assoc, List.singleton_append, List.findSome?_cons]
  rw [findAfter_skip (by decide +kernel), findAfter_pass _ (noN_dec N), findAfter_pass _ (by decide +kernel), findAfter_here]
  have := scanD_fmtD (w := []) (by simp) 0 (C : ℤ) (t := chars "\">") (by
    have : chars "\">" = '"' :: chars ">" := by decide +kernel
    rw [this]; intro c t h; rw [← (List.cons.inj h).1]; decide)
  rw [fmtD_word, List.nil_append] at this
  simp [this]

end Verif.VtuFile
