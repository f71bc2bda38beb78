import Verif.Ensight.Spec
import Verif.Ensight.Model
import Verif.MeshFile.Mono

/-! # Lemmas: reading case files, whole and cut -/

namespace Verif.Ensight
open MeshFile

theorem linesAux_append {l : List Char} (h : '\n' ∉ l) (acc t : List Char) :
    linesAux acc (l ++ '\n' :: t) = (acc.reverse ++ l) :: lines t := by
  induction l generalizing acc with
  | nil => simp [linesAux, lines]
  | cons c l ih =>
    have hc : c ≠ '\n' := fun e => h (by simp [e])
    rw [List.cons_append, linesAux, if_neg hc, ih (fun e => h (by simp [e]))]
    simp

theorem lines_append {l : List Char} (h : '\n' ∉ l) (t : List Char) : lines (l ++ '\n' :: t) = l :: lines t := by
  unfold lines; rw [linesAux_append h]; rfl

theorem linesAux_prefix {s t : List Char} (h : s <+: t) (acc : List Char) : linesAux acc s <+: linesAux acc t := by
  induction s generalizing acc t with
  | nil => exact List.nil_prefix
  | cons c s ih =>
    obtain ⟨u, rfl⟩ := h
    simp only [List.cons_append, linesAux]
    split_ifs
    · exact (List.prefix_cons_inj _).2 (ih ⟨u, rfl⟩ _)
    · exact ih ⟨u, rfl⟩ _

theorem linesAux_length (acc t : List Char) : (linesAux acc t).length = t.count '\n' := by
  induction t generalizing acc with
  | nil => rfl
  | cons c t ih =>
    rw [linesAux]
    split_ifs with h
    · rw [h, List.count_cons_self, List.length_cons, ih]
    · rw [ih, List.count_cons_of_ne h]

/-- A text that ends with a newline loses a line when it is cut. -/
theorem lines_cut {s t : List Char} (h : s <+: t ++ ['\n']) (hne : s ≠ t ++ ['\n']) :
    lines s <+: lines (t ++ ['\n']) ∧ (lines s).length < (lines (t ++ ['\n'])).length := by
  refine ⟨linesAux_prefix h [], ?_⟩
  unfold lines
  rw [linesAux_length, linesAux_length]
  have : s <+: t := by
    rcases List.prefix_concat_iff.1 h with e | e
    · exact absurd e hne
    · exact e
  have := this.sublist.count_le '\n'
  simp
  omega

theorem findSome_prefix {α β : Type} {f : α → Option β} {l m : List α} (h : l <+: m) {b : β} (e : l.findSome? f = some b) :
    m.findSome? f = some b := by
  obtain ⟨u, rfl⟩ := h
  rw [List.findSome?_append, e]; rfl

theorem number_prefix {key : List Char} {l m : List (List Char)} (h : l <+: m) {z : ℤ} (e : number key l = some z) :
    number key m = some z := by
  unfold number at e ⊢
  cases h1 : l.findSome? (after key) with
  | none => simp [h1] at e
  | some r => rw [findSome_prefix h h1]; rw [h1] at e; exact e

theorem tail_shorter {α : Type} {p : α → Bool} {l m : List α} (h : l <+: m) (hl : l.length < m.length)
    (hm : (m.dropWhile p).drop 1 ≠ []) : ((l.dropWhile p).drop 1).length < ((m.dropWhile p).drop 1).length := by
  induction l generalizing m with
  | nil => exact List.length_pos_iff.2 hm
  | cons a l ih =>
    obtain ⟨u, rfl⟩ := h
    simp only [List.cons_append, List.dropWhile_cons] at hm ⊢
    split_ifs at hm ⊢
    · exact ih ⟨u, rfl⟩ (by simp only [List.cons_append, List.length_cons] at hl; omega) hm
    · simp only [List.cons_append, List.length_cons, List.drop_succ_cons, List.drop_zero] at hl ⊢; omega

/-- A case file that is accepted is not accepted any more when it is cut anywhere. -/
theorem readCase_cut {t : List Char} {c : Case} (h : readCase (t ++ ['\n']) = some c) (h0 : 0 < c.steps) {s : List Char}
    (hs : s <+: t ++ ['\n']) (hne : s ≠ t ++ ['\n']) : readCase s = none := by
  obtain ⟨hp, hl⟩ := lines_cut hs hne
  by_contra hc
  obtain ⟨c', e'⟩ := Option.ne_none_iff_exists'.1 hc
  unfold readCase at h e'
  simp only [bind, Option.bind_eq_some_iff] at h e'
  obtain ⟨n, hn, st, -, times, -, h⟩ := h
  obtain ⟨n', hn', st', -, times', -, e'⟩ := e'
  split_ifs at h with h1
  split_ifs at e' with h2
  have : n = n' := by
    have := number_prefix hp hn'
    rw [hn] at this; exact Option.some.inj this
  subst this
  have := tail_shorter (p := fun x => decide (x ≠ chars "time values: ")) hp hl (by
    intro h3
    have : c.steps = 0 := by cases h; simpa using congrArg List.length h3
    omega)
  have e1 := h1.symm.trans rfl
  rw [← h2] at h1
  have := Int.ofNat.inj h1
  omega

/-! ### Whole files -/

theorem nl_dig {c : Char} (h : isDig c = true) : c ≠ '\n' ∧ c ≠ '/' ∧ c ≠ '.' ∧ c ≠ '*' ∧ c ≠ ' ' := by
  refine ⟨?_, ?_, ?_, ?_, ?_⟩ <;> (rintro rfl; revert h; decide)

theorem fmtD_nl (w : ℕ) (z : ℤ) : '\n' ∉ fmtD w z := by
  intro h
  unfold fmtD pad at h
  rcases List.mem_append.1 h with h | h
  · have := (List.mem_replicate.1 h).2; revert this; decide
  · rcases List.mem_append.1 h with h | h
    · split_ifs at h <;> simp at h
    · exact (nl_dig (dec_dig _ _ h)).1 rfl

theorem text_nl (s : Sci) : '\n' ∉ s.text := by
  intro h
  unfold Sci.text at h
  simp only [List.mem_append] at h
  rcases h with ((((((h | h) | h) | h) | h) | h) | h) | h
  · split_ifs at h <;> simp at h
  · exact (nl_dig (digitsN_dig _ _ _ h)).1 rfl
  · simp at h
  · exact (nl_dig (digitsN_dig _ _ _ h)).1 rfl
  · simp at h
  · split_ifs at h <;> simp at h
  · split_ifs at h <;> simp at h
  · exact (nl_dig (dec_dig _ _ h)).1 rfl

theorem fmtE_nl (rnd : ℝ → ℕ) (w : ℕ) (x : ℝ) : '\n' ∉ fmtE rnd w x := by
  intro h
  unfold fmtE pad at h
  rcases List.mem_append.1 h with h | h
  · have := (List.mem_replicate.1 h).2; revert this; decide
  · exact text_nl _ h

theorem lines_times (rnd : ℝ → ℕ) (times : List ℝ) : lines (timesText rnd times) = times.map (fmtE rnd 12) := by
  induction times with
  | nil => rfl
  | cons t l ih =>
    show lines ((fmtE rnd 12 t ++ ['\n']) ++ timesText rnd l) = _
    rw [List.append_assoc, List.singleton_append, lines_append (fmtE_nl rnd 12 t), ih]; rfl

theorem read_times {rnd : ℝ → ℕ} (h : Nearest rnd) (times : List ℝ) :
    (times.map (fmtE rnd 12)).mapM (fun l => (scanE l).map Prod.fst) = some (times.map (printed rnd)) := by
  induction times with
  | nil => rfl
  | cons t l ih =>
    have := scanE_fmtE h (w := []) (by simp) 12 t (t := []) (by intro c u h; simp at h)
    rw [List.nil_append, List.append_nil] at this
    simp only [List.map_cons, List.mapM_cons, this, ih]
    rfl

theorem timesText_end (rnd : ℝ → ℕ) {times : List ℝ} (h : times ≠ []) : ∃ u, timesText rnd times = u ++ ['\n'] := by
  refine ⟨timesText rnd times.dropLast ++ fmtE rnd 12 (times.getLast h), ?_⟩
  conv_lhs => rw [← List.dropLast_append_getLast h]
  unfold timesText
  rw [List.flatMap_append]
  simp

/-- A line of the time values names no file. -/
theorem filePattern_time (rnd : ℝ → ℕ) (x : ℝ) : filePattern (fmtE rnd 12 x) = none := by
  have hc : ∀ c u, fmtE rnd 12 x = c :: u → c ≠ 'm' ∧ c ≠ 's' ∧ c ≠ 'v' := by
    intro c u h
    have hm : c = ' ' ∨ c = '-' ∨ isDig c = true := by
      unfold fmtE pad at h
      cases hk : 12 - (toSci rnd x).text.length with
      | succ k =>
        rw [hk, List.replicate_succ, List.cons_append] at h
        exact .inl (List.cons.inj h).1.symm
      | zero =>
        rw [hk, List.replicate_zero, List.nil_append] at h
        unfold Sci.text at h
        right
        cases hn : (toSci rnd x).neg
        · right
          have d1 := digitsN_dig 1 ((toSci rnd x).mant / 10 ^ 5)
          have l1 := digitsN_length 1 ((toSci rnd x).mant / 10 ^ 5)
          cases e : digitsN 1 ((toSci rnd x).mant / 10 ^ 5) with
          | nil => rw [e] at l1; simp at l1
          | cons a r =>
            rw [e] at h d1
            simp only [hn, Bool.false_eq_true, if_false, List.nil_append, List.cons_append, List.cons.injEq] at h
            rw [← h.1]; exact d1 a (by simp)
        · left
          simp only [hn, if_true, List.cons_append, List.nil_append, List.cons.injEq] at h
          exact h.1.symm
    rcases hm with rfl | rfl | hm
    · decide
    · decide
    · refine ⟨?_, ?_, ?_⟩ <;> (rintro rfl; revert hm; decide)
  have aft : ∀ (k : Char) (key : List Char), (∀ c u, fmtE rnd 12 x = c :: u → c ≠ k) → after (k :: key) (fmtE rnd 12 x) = none := by
    intro k key h
    unfold after
    cases e : fmtE rnd 12 x with
    | nil => rfl
    | cons c u =>
      have := h c u e
      simp [Ne.symm this]
  have a1 := aft 'm' (chars "odel: ") fun c u h => (hc c u h).1
  have a2 := aft 's' (chars "calar per element: ") fun c u h => (hc c u h).2.1
  have a3 := aft 'v' (chars "ector per node: ") fun c u h => (hc c u h).2.2
  unfold filePattern
  rw [show chars "model: " = 'm' :: chars "odel: " from rfl, show chars "scalar per element: " = 's' :: chars "calar per element: " from rfl,
    show chars "vector per node: " = 'v' :: chars "ector per node: " from rfl, a1, a2, a3]

theorem lines_end {a : List Char} (hend : a.getLast? = some '\n') (t : List Char) : lines (a ++ t) = lines a ++ lines t := by
  obtain ⟨u, rfl⟩ := List.getLast?_eq_some_iff.1 hend
  have key : ∀ (a acc : List Char), linesAux acc (a ++ '\n' :: t) = linesAux acc (a ++ ['\n']) ++ lines t := by
    intro a
    induction a with
    | nil => intro acc; simp [linesAux, lines]
    | cons c a ih =>
      intro acc
      simp only [List.cons_append, linesAux]
      split_ifs
      · rw [ih]; rfl
      · rw [ih]
  unfold lines
  rw [List.append_assoc, List.singleton_append, key]
  rfl

/-- Reading a whole case file: `a` are the sections before the number of steps, `b` what is between it and the time values. -/
theorem readCase_whole {rnd : ℝ → ℕ} (hr : Nearest rnd) {a b : List Char} {B : List (List Char)} {k : ℤ} (ha : a.getLast? = some '\n')
    (hb : b.getLast? = some '\n') (hB : lines b = B ++ [chars "time values: "])
    (h1 : (lines a).findSome? (after (chars "number of steps:")) = none)
    (h2 : (lines a).findSome? (after (chars "filename start number:")) = none)
    (h3 : number (chars "filename start number:") B = some k)
    (h4 : ∀ l ∈ lines a, l ≠ chars "time values: ") (h5 : ∀ l ∈ B, l ≠ chars "time values: ")
    (h6 : (lines b).filterMap filePattern = []) (times : List ℝ) :
    readCase (a ++ (chars "number of steps: " ++ fmtD 4 times.length ++ '\n' :: (b ++ timesText rnd times))) =
      some ⟨(lines a).filterMap filePattern, times.length, k, times.map (printed rnd)⟩ := by
  have hl : lines (a ++ (chars "number of steps: " ++ fmtD 4 times.length ++ '\n' :: (b ++ timesText rnd times))) =
      lines a ++ (chars "number of steps: " ++ fmtD 4 times.length) :: (B ++ chars "time values: " :: times.map (fmtE rnd 12)) := by
    rw [lines_end ha, lines_append, lines_end hb, lines_times, hB]
    · simp
    · intro h
      rcases List.mem_append.1 h with h | h
      · revert h; decide
      · exact fmtD_nl _ _ h
  have e1 : after (chars "number of steps:") (chars "number of steps: " ++ fmtD 4 times.length) = some (' ' :: fmtD 4 times.length) := rfl
  have e2 : after (chars "filename start number:") (chars "number of steps: " ++ fmtD 4 times.length) = none := rfl
  have e3 : filePattern (chars "number of steps: " ++ fmtD 4 times.length) = none := rfl
  have e4 : chars "number of steps: " ++ fmtD 4 times.length ≠ chars "time values: " := by
    intro h
    have := congrArg List.head? h
    revert this
    simp [chars]
  have n1 : number (chars "number of steps:") (lines a ++ (chars "number of steps: " ++ fmtD 4 times.length) ::
      (B ++ chars "time values: " :: times.map (fmtE rnd 12))) = some (times.length : ℤ) := by
    unfold number
    rw [List.findSome?_append, h1, Option.none_or, List.findSome?_cons, e1]
    have := scanD_fmtD (w := [' ']) (by decide) 4 (times.length : ℤ) (t := []) (by intro c u h; simp at h)
    rw [List.append_nil, List.singleton_append] at this
    simp only [Option.bind_some, this, Option.map_some]
  have n2 : number (chars "filename start number:") (lines a ++ (chars "number of steps: " ++ fmtD 4 times.length) ::
      (B ++ chars "time values: " :: times.map (fmtE rnd 12))) = some k := by
    unfold number at h3 ⊢
    rw [List.findSome?_append, h2, Option.none_or, List.findSome?_cons, e2]
    simp only []
    rw [List.findSome?_append]
    cases e : B.findSome? (after (chars "filename start number:")) with
    | none => rw [e] at h3; simp at h3
    | some r => rw [e] at h3; exact h3
  have d : ((lines a ++ (chars "number of steps: " ++ fmtD 4 times.length) ::
      (B ++ chars "time values: " :: times.map (fmtE rnd 12))).dropWhile (· ≠ chars "time values: ")).drop 1 = times.map (fmtE rnd 12) := by
    rw [List.dropWhile_append_of_pos (by intro l hm; simpa using h4 l hm), List.dropWhile_cons_of_pos (by simpa using e4),
      List.dropWhile_append_of_pos (by intro l hm; simpa using h5 l hm), List.dropWhile_cons_of_neg (by simp)]
    rfl
  have f : (lines a ++ (chars "number of steps: " ++ fmtD 4 times.length) ::
      (B ++ chars "time values: " :: times.map (fmtE rnd 12))).filterMap filePattern = (lines a).filterMap filePattern := by
    rw [hB, List.filterMap_append] at h6
    obtain ⟨h6a, h6b⟩ := List.append_eq_nil_iff.1 h6
    rw [List.filterMap_append, List.filterMap_cons, e3]
    simp only []
    rw [List.filterMap_append, h6a, show chars "time values: " :: times.map (fmtE rnd 12) = [chars "time values: "] ++ times.map (fmtE rnd 12) from rfl,
      List.filterMap_append, h6b, List.filterMap_map]
    have : (filePattern ∘ fmtE rnd 12) = fun _ => none := by funext x; exact filePattern_time rnd x
    rw [this]; simp
  unfold readCase
  simp only [hl, n1, n2, d, f, read_times hr, bind, Option.bind_some, List.length_map, if_true]

end Verif.Ensight
