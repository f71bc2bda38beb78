import Verif.MeshFile.CutModel
import Verif.MeshFile.Lemmas

/-!
# Scanning a text that is cut off
-/

namespace Verif.MeshFile

/-! ## Agreement with the strict reader -/

theorem scanDT_of {s : List Char} {z : ℤ} {t : List Char} (h : scanD s = some (z, t)) : scanDT s = (some z, t) := by
  unfold scanD at h
  unfold scanDT
  simp only [] at h ⊢
  split_ifs at h with hd
  all_goals simp_all

theorem scanExpT_of {s : List Char} {z : ℤ} {t : List Char} (h : scanExp s = some (z, t)) : scanExpT s = (some z, t) := by
  have num : ∀ u, scanExp.scanExpNum u = some (z, t) → scanExpT.num u = (some z, t) := by
    intro u h
    unfold scanExp.scanExpNum at h
    unfold scanExpT.num
    simp only [] at h ⊢
    split_ifs at h with hd
    all_goals simp_all
  unfold scanExp at h
  unfold scanExpT
  split at h
  · exact num _ h
  · exact num _ h
  · simp_all

theorem scanET_of {s : List Char} {x : ℝ} {t : List Char} (h : scanE s = some (x, t)) : scanET s = (some x, t) := by
  unfold scanE at h
  unfold scanET
  simp only [] at h ⊢
  by_cases hd : (scanSign (s.dropWhile isSp)).2.takeWhile isDig ++ (scanFrac ((scanSign (s.dropWhile isSp)).2.dropWhile isDig)).1 = []
  · rw [if_pos hd] at h; simp at h
  rw [if_neg hd] at h ⊢
  obtain ⟨⟨e, u⟩, he, h2⟩ := Option.map_eq_some_iff.1 h
  rw [scanExpT_of he]
  simp only [Prod.mk.injEq] at h2
  simp only [Option.map_some, Prod.mk.injEq, Option.some.injEq]
  exact h2

theorem scanWordT_of {n : ℕ} {s t : List Char} (h : scanWord n s = some t) : scanWordT n s = some t := by
  unfold scanWord at h
  unfold scanWordT
  simp only [] at h ⊢
  split_ifs at h with hd
  rw [if_neg (fun hc => hd (Or.inr hc))]
  exact h

/-! ## Cutting a text -/

theorem noDig_take {t : List Char} (h : NoDig t) (k : ℕ) : NoDig (t.take k) := by
  intro c u e
  cases t with
  | nil => simp at e
  | cons x t =>
    cases k with
    | zero => simp at e
    | succ k =>
      rw [List.take_succ_cons] at e
      exact h c t (by rw [(List.cons.inj e).1])

theorem dig_drop {x : List Char} (h : ∀ c ∈ x, isDig c = true) : x.dropWhile isDig = [] := by
  have := (take_digits (t := []) h (by intro c t h; simp at h)).2
  rwa [List.append_nil] at this
theorem sp_drop {x : List Char} (h : ∀ c ∈ x, isSp c = true) : x.dropWhile isSp = [] := by
  have := drop_spaces (t := []) h (by intro c t h; simp at h)
  rwa [List.append_nil] at this
theorem dig_take {x : List Char} (h : ∀ c ∈ x, isDig c = true) : x.takeWhile isDig = x := by
  have := (take_digits (t := []) h (by intro c t h; simp at h)).1
  rwa [List.append_nil] at this

theorem dec_take {z m : ℕ} (h : m < (dec z).length) : (dec z).take ((dec z).length - m) = dec (z / 10 ^ m) := by
  induction m generalizing z with
  | zero => simp
  | succ m ih =>
    by_cases hz : z < 10
    · rw [dec, if_pos hz] at h; simp at h
    · have e : dec z = dec (z / 10) ++ [digitChar (z % 10)] := by rw [dec, if_neg hz]
      rw [e] at h ⊢
      rw [List.length_append, List.length_singleton] at h ⊢
      rw [show (dec (z / 10)).length + 1 - (m + 1) = (dec (z / 10)).length - m by omega,
        List.take_append_of_le_length (by omega), ih (by omega), Nat.div_div_eq_div_mul, pow_succ']

theorem fmtD_nat (w : ℕ) (z : ℕ) : fmtD w (z : ℤ) = List.replicate (w - (dec z).length) ' ' ++ dec z := by
  unfold fmtD pad
  rw [if_neg (by omega), List.nil_append, Int.natAbs_natCast]

theorem fmtD10_length {z : ℕ} (h : z < 10 ^ 10) : (fmtD 10 (z : ℤ)).length = 10 := by
  have := dec_length (k := 10) (by decide) h
  rw [fmtD_nat, List.length_append, List.length_replicate]; omega

theorem scanDT_ws {w : List Char} (hw : Ws w) : scanDT w = (none, []) := by
  unfold scanDT
  rw [sp_drop hw]
  rfl

theorem ws_take {w : List Char} (h : Ws w) (k : ℕ) : Ws (w.take k) := fun c hc => h c (List.mem_of_mem_take hc)
theorem ws_append {a b : List Char} (ha : Ws a) (hb : Ws b) : Ws (a ++ b) := by
  intro c hc
  rcases List.mem_append.1 hc with h | h
  · exact ha c h
  · exact hb c h
theorem ws_blank (n : ℕ) : Ws (List.replicate n ' ') := by
  intro c hc; rw [(List.mem_replicate.1 hc).2]; decide

/-- A positive number of at most ten digits, printed with `%10d` and cut off `m` characters before its end: what remains
is read as the number without its last `m` digits, if a digit remains. -/
theorem scanDT_cut {w : List Char} (hw : Ws w) {z : ℕ} (h10 : z < 10 ^ 10) {t : List Char} (ht : NoDig t) (k : ℕ) (h0 : 0 < z) :
    scanDT ((w ++ (fmtD 10 (z : ℤ) ++ t)).take k) =
      (if z / 10 ^ (w.length + 10 - k) = 0 then none else some ((z / 10 ^ (w.length + 10 - k) : ℕ) : ℤ), t.take (k - (w.length + 10))) := by
  have hl := fmtD10_length h10
  by_cases hk : w.length + 10 ≤ k
  · have e : (w ++ (fmtD 10 (z : ℤ) ++ t)).take k = w ++ (fmtD 10 (z : ℤ) ++ t.take (k - (w.length + 10))) := by
      rw [List.take_append, List.take_append, List.take_of_length_le (by omega), List.take_of_length_le (by omega), hl]
      rw [Nat.sub_sub]
    rw [e, scanDT_of (scanD_fmtD hw _ _ (noDig_take ht _)), show w.length + 10 - k = 0 by omega, pow_zero, Nat.div_one,
      if_neg (by omega)]
  · rw [show k - (w.length + 10) = 0 by omega, List.take_zero]
    have e : (w ++ (fmtD 10 (z : ℤ) ++ t)).take k = w.take k ++ (fmtD 10 (z : ℤ)).take (k - w.length) := by
      rw [List.take_append, List.take_append, show k - w.length - (fmtD 10 (z : ℤ)).length = 0 by omega, List.take_zero, List.append_nil]
    rw [e]
    set m := w.length + 10 - k with hm
    have hL := dec_length (k := 10) (by decide) h10
    by_cases hml : (dec z).length ≤ m
    · have hz : z / 10 ^ m = 0 := by
        apply Nat.div_eq_of_lt
        by_contra hc
        have := dec_length_ge (k := m) (not_lt.1 hc)
        omega
      rw [hz, if_pos rfl]
      apply scanDT_ws
      apply ws_append (ws_take hw _)
      rw [fmtD_nat, List.take_append_of_le_length (by rw [List.length_replicate]; omega)]
      exact ws_take (ws_blank _) _
    · have hL1 : 1 ≤ (dec z).length := List.length_pos_iff.2 (dec_ne z)
      have hz : 10 ^ m ≤ z := by
        by_contra hc
        have := dec_length (k := m) (by omega) (not_le.1 hc)
        omega
      have hp : 0 < 10 ^ m := Nat.pow_pos (by decide)
      have hz' : z / 10 ^ m ≠ 0 := (Nat.div_pos hz hp).ne'
      rw [if_neg hz', List.take_of_length_le (by omega)]
      have e2 : (fmtD 10 (z : ℤ)).take (k - w.length) = List.replicate (10 - (dec z).length) ' ' ++ (fmtD 0 ((z / 10 ^ m : ℕ) : ℤ) ++ []) := by
        rw [fmtD_nat, fmtD_nat, List.take_append, List.take_of_length_le (by rw [List.length_replicate]; omega), List.length_replicate,
          show k - w.length - (10 - (dec z).length) = (dec z).length - m by omega, dec_take (by omega)]
        simp
      rw [e2, ← List.append_assoc]
      exact scanDT_of (scanD_fmtD (ws_append hw (ws_blank _)) _ _ (by intro c t h; simp at h))

/-! ## Floating-point numbers -/

theorem scanExpT_num_dig {x : List Char} (h : ∀ c ∈ x, isDig c = true) (b : Bool) :
    (scanExpT.num ((if b then ['-'] else ['+']) ++ x)).2 = [] := by
  unfold scanExpT.num
  have e : scanSign ((if b then ['-'] else ['+']) ++ x) = (b, x) := by cases b <;> simp [scanSign]
  simp only []
  rw [e]
  simp only []
  by_cases hd : x.takeWhile isDig = []
  · rw [if_pos hd]; rw [dig_take h] at hd; exact hd
  · rw [if_neg hd]; exact dig_drop h

/-- A cut exponent is read to its end. -/
theorem scanExpT_cut {x : List Char} (h : ∀ c ∈ x, isDig c = true) (b : Bool) (j : ℕ) :
    (scanExpT (('e' :: ((if b then ['-'] else ['+']) ++ x)).take j)).2 = [] := by
  match j with
  | 0 => rfl
  | 1 => rfl
  | j + 2 =>
    have e : ('e' :: ((if b then ['-'] else ['+']) ++ x)).take (j + 2) = 'e' :: ((if b then ['-'] else ['+']) ++ x.take j) := by
      cases b <;> simp
    rw [e]
    exact scanExpT_num_dig (fun c hc => h c (List.mem_of_mem_take hc)) b

theorem noDig_nil : NoDig [] := by intro c t h; simp at h

/-- A cut fraction and exponent is read to its end. -/
theorem scanFrac_cut {f x : List Char} (hf : ∀ c ∈ f, isDig c = true) (h : ∀ c ∈ x, isDig c = true) (b : Bool) (j : ℕ) :
    (scanExpT (scanFrac (('.' :: (f ++ ('e' :: ((if b then ['-'] else ['+']) ++ x)))).take j)).2).2 = [] ∧
    (scanFrac (('.' :: (f ++ ('e' :: ((if b then ['-'] else ['+']) ++ x)))).take j)).2.takeWhile isDig = [] ∧
    ((scanFrac (('.' :: (f ++ ('e' :: ((if b then ['-'] else ['+']) ++ x)))).take j)).1 = [] →
      j ≤ 1 ∨ f = []) := by
  cases j with
  | zero => exact ⟨rfl, rfl, fun _ => Or.inl (by omega)⟩
  | succ j =>
    rw [List.take_succ_cons, List.take_append]
    set y := ('e' :: ((if b then ['-'] else ['+']) ++ x)).take (j - f.length) with hy
    have hnd : NoDig y := by
      rw [hy]
      cases hj : j - f.length with
      | zero => rw [List.take_zero]; exact noDig_nil
      | succ n => rw [List.take_succ_cons]; intro c t h; rw [← (List.cons.inj h).1]; decide
    have hf' : ∀ c ∈ f.take j, isDig c = true := fun c hc => hf c (List.mem_of_mem_take hc)
    have e : scanFrac ('.' :: (f.take j ++ y)) = (f.take j, y) := by
      show (List.takeWhile isDig _, List.dropWhile isDig _) = _
      rw [(take_digits hf' hnd).1, (take_digits hf' hnd).2]
    rw [e]
    refine ⟨scanExpT_cut h b _, ?_, ?_⟩
    · show y.takeWhile isDig = []
      cases hyy : y with
      | nil => rfl
      | cons c t => rw [List.takeWhile_cons, hnd c t hyy]; simp
    · intro h0
      simp only [List.take_eq_nil_iff] at h0
      rcases h0 with h0 | h0
      · left; omega
      · right; exact h0

/-- A number that is cut off is read to its end. -/
theorem scanET_rest {w : List Char} (hw : Ws w) (neg : Bool) {d f x : List Char} (hd : ∀ c ∈ d, isDig c = true)
    (hf : ∀ c ∈ f, isDig c = true) (h : ∀ c ∈ x, isDig c = true) (b : Bool) (j : ℕ) (hdn : d ≠ []) :
    (scanET (w ++ ((if neg then ['-'] else []) ++ d ++ ('.' :: (f ++ ('e' :: ((if b then ['-'] else ['+']) ++ x))))).take j)).2 = [] := by
  set sg : List Char := if neg then ['-'] else [] with hsg
  set tl := '.' :: (f ++ ('e' :: ((if b then ['-'] else ['+']) ++ x))) with htl
  rw [List.append_assoc, List.take_append, List.take_append]
  set y := tl.take (j - sg.length - d.length) with hy
  have hnd : NoDig y := by
    rw [hy, htl]
    cases hj : j - sg.length - d.length with
    | zero => rw [List.take_zero]; exact noDig_nil
    | succ n => rw [List.take_succ_cons]; intro c t h; rw [← (List.cons.inj h).1]; decide
  set D := d.take (j - sg.length) with hD
  have hD' : ∀ c ∈ D, isDig c = true := fun c hc => hd c (List.mem_of_mem_take hc)
  by_cases hDn : D = []
  · -- no digits: at most the sign
    have hj : j ≤ sg.length := by
      rw [hD, List.take_eq_nil_iff] at hDn
      rcases hDn with hDn | hDn
      · omega
      · exact absurd hDn hdn
    have hy0 : y = [] := by rw [hy, show j - sg.length - d.length = 0 by omega, List.take_zero]
    rw [hDn, hy0, List.append_nil, List.append_nil]
    cases neg
    · have : sg.take j = [] := by rw [hsg]; simp
      rw [this, List.append_nil]
      unfold scanET
      rw [sp_drop hw]
      simp [scanSign, scanFrac]
    · rw [hsg]
      cases j with
      | zero =>
        simp only [List.take_zero, List.append_nil]
        unfold scanET
        rw [sp_drop hw]
        simp [scanSign, scanFrac]
      | succ j =>
        have e : (w ++ ['-']).dropWhile isSp = ['-'] := drop_spaces hw (by intro c u h; rw [← (List.cons.inj h).1]; decide)
        simp only [if_true, List.take_succ_cons, List.take_nil]
        unfold scanET
        rw [e]
        simp [scanSign, scanFrac]
  · have hj : sg.length ≤ j := by
      by_contra hc
      apply hDn
      rw [hD, show j - sg.length = 0 by omega, List.take_zero]
    rw [List.take_of_length_le hj]
    have e1 : (w ++ (sg ++ (D ++ y))).dropWhile isSp = sg ++ (D ++ y) := by
      rw [← List.append_assoc sg]
      exact drop_spaces hw (signed_head neg hD' hDn y)
    have e2 : scanSign (sg ++ (D ++ y)) = (neg, D ++ y) := by
      rw [← List.append_assoc sg]
      exact scanSign_minus neg hD' hDn y
    unfold scanET
    rw [e1]
    simp only []
    rw [e2]
    simp only []
    rw [(take_digits hD' hnd).1, (take_digits hD' hnd).2, if_neg (by intro h; exact hDn (List.append_eq_nil_iff.1 h).1)]
    exact (scanFrac_cut hf h b _).1

theorem scanET_ws {w : List Char} (hw : Ws w) : scanET w = (none, []) := by
  unfold scanET
  rw [sp_drop hw]
  simp [scanSign, scanFrac]

/-- A coordinate in a file that is cut off. -/
theorem scanET_cut {rnd : ℝ → ℕ} (hr : Nearest rnd) {w : List Char} (hw : Ws w) (x : ℝ) {t : List Char} (ht : NoDig t) (k : ℕ) :
    ∃ v, scanET ((w ++ (fmtE rnd 12 x ++ t)).take k) = (v, t.take (k - (w.length + (fmtE rnd 12 x).length))) ∧
      (w.length + (fmtE rnd 12 x).length ≤ k → v = some (toSci rnd x).val) ∧ (k ≤ w.length → v = none) := by
  have hpos : 0 < (fmtE rnd 12 x).length := by
    unfold fmtE pad Sci.text
    simp only [List.length_append, List.length_cons]; omega
  by_cases hk : w.length + (fmtE rnd 12 x).length ≤ k
  · have e : (w ++ (fmtE rnd 12 x ++ t)).take k = w ++ (fmtE rnd 12 x ++ t.take (k - (w.length + (fmtE rnd 12 x).length))) := by
      rw [List.take_append, List.take_append, List.take_of_length_le (by omega), List.take_of_length_le (by omega)]
      rw [Nat.sub_sub]
    rw [e, scanET_of (scanE_fmtE hr hw _ _ (noDig_take ht _))]
    exact ⟨_, rfl, fun _ => rfl, fun h => by omega⟩
  · rw [show k - (w.length + (fmtE rnd 12 x).length) = 0 by omega, List.take_zero]
    have e : (w ++ (fmtE rnd 12 x ++ t)).take k = w.take k ++ (fmtE rnd 12 x).take (k - w.length) := by
      rw [List.take_append, List.take_append, show k - w.length - (fmtE rnd 12 x).length = 0 by omega, List.take_zero, List.append_nil]
    rw [e]
    refine ⟨(scanET (w.take k ++ (fmtE rnd 12 x).take (k - w.length))).1, Prod.ext rfl ?_, fun h => absurd h hk, ?_⟩
    · simp only []
      set s := toSci rnd x with hs
      have e3 : fmtE rnd 12 x = List.replicate (12 - s.text.length) ' ' ++ ((if s.neg then ['-'] else []) ++ digitsN 1 (s.mant / 10 ^ 5) ++
          ('.' :: (digitsN 5 s.mant ++ ('e' :: ((if decide (s.exp < 0) then ['-'] else ['+']) ++
            ((if s.exp.natAbs < 10 then ['0'] else []) ++ dec s.exp.natAbs)))))) := by
        unfold fmtE pad
        rw [← hs]
        congr 1
        unfold Sci.text
        simp [List.append_assoc]
      rw [e3, List.take_append, ← List.append_assoc]
      apply scanET_rest (ws_append (ws_take hw _) (ws_take (ws_blank _) _)) _ (digitsN_dig _ _) (digitsN_dig _ _)
      · intro c hc
        rcases List.mem_append.1 hc with hc | hc
        · split_ifs at hc
          · rw [List.mem_singleton] at hc; rw [hc]; decide
          · simp at hc
        · exact dec_dig _ c hc
      · intro h; have := digitsN_length 1 (s.mant / 10 ^ 5); rw [h] at this; simp at this
    · intro hkw
      rw [show k - w.length = 0 by omega, List.take_zero, List.append_nil, scanET_ws (ws_take hw _)]

/-- The word in a file that is cut off. -/
theorem scanWordT_cut (t : List Char) (k : ℕ) :
    scanWordT 20 (('\n' :: (chars "hexa8" ++ ('\n' :: t))).take k) = some (('\n' :: t).take (k - 6)) := by
  match k with
  | 0 | 1 | 2 | 3 | 4 | 5 | 6 => rfl
  | k + 7 => rfl

end Verif.MeshFile
