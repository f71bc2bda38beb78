import Verif.MeshFile.CutLemmas

/-!
# Reading a mesh file that is cut off
-/

namespace Verif.MeshFile

theorem take_cons_append (k : ℕ) (c : Char) (t : List Char) : (c :: t).take k = ([c] ++ t).take k := rfl

/-- The coordinate loops of the reader on the text of the writer, cut off after `k` characters. -/
theorem readCoordsT_spec {rnd : ℝ → ℕ} (h : Nearest rnd) (coords : Arr (ℕ → ℝ)) (n : ℕ) (f : ℕ → ℕ → ℝ) (t : List Char) (k : ℕ) :
    ∃ a, readCoordsT n (⟨n, f⟩, ('\n' :: (fm (fun d => fm (coordText rnd coords d) 0 n) 0 3 ++ t)).take k) =
        some (a, ('\n' :: t).take (k - (fm (fun d => fm (coordText rnd coords d) 0 n) 0 3).length)) ∧
      a.size = n ∧ ∀ p < n, ∀ d < 3,
        ((fm (fun d => fm (coordText rnd coords d) 0 n) 0 d).length + (fm (coordText rnd coords d) 0 p).length +
          (1 + (fmtE rnd 12 (coords.val p d)).length) ≤ k → a.val p d = (toSci rnd (coords.val p d)).val) ∧
        (k ≤ (fm (fun d => fm (coordText rnd coords d) 0 n) 0 d).length + (fm (coordText rnd coords d) 0 p).length + 1 → a.val p d = f p d) := by
  set blk : ℕ → List Char := fun d => fm (coordText rnd coords d) 0 n with hblk
  set Good : ℕ → ℕ → ℝ → Prop := fun p d y =>
    ((fm blk 0 d).length + (fm (coordText rnd coords d) 0 p).length +
        (1 + (fmtE rnd 12 (coords.val p d)).length) ≤ k → y = (toSci rnd (coords.val p d)).val) ∧
      (k ≤ (fm blk 0 d).length + (fm (coordText rnd coords d) 0 p).length + 1 → y = f p d) with hGood
  obtain ⟨r, e, h1, h2, h3, -⟩ := loopM_spec (n := 3) (body := fun d => loopM n fun p (s : Arr (ℕ → ℝ) × List Char) => do
      let x := scanET s.2
      let row ← s.1.get p
      let a ← s.1.set p (store row d (x.1.getD (row d)))
      pure (a, x.2)) (s := (⟨n, f⟩, ('\n' :: (fm blk 0 3 ++ t)).take k))
    (fun d s => s.1.size = n ∧ s.2 = ('\n' :: (fm blk d (3 - d) ++ t)).take (k - (fm blk 0 d).length) ∧
      (∀ p < n, ∀ d' < d, Good p d' (s.1.val p d')) ∧ ∀ p < n, ∀ d', d ≤ d' → s.1.val p d' = f p d')
    ⟨rfl, rfl, by intro p _ d hd; omega, fun _ _ _ _ => rfl⟩ (by
      rintro d ⟨⟨N, v⟩, s⟩ hd ⟨h1, h2, h3, h4⟩
      simp only [] at h1 h2 h3 h4
      subst h1 h2
      rw [fm_step _ hd]
      set tail := fm blk (d + 1) (3 - (d + 1)) ++ t with htail
      obtain ⟨r, e, g1, g2, g3, g4, g5⟩ := loopM_spec (n := N) (body := fun p (s : Arr (ℕ → ℝ) × List Char) => do
          let x := scanET s.2
          let row ← s.1.get p
          let a ← s.1.set p (store row d (x.1.getD (row d)))
          pure (a, x.2)) (s := (⟨N, v⟩, ('\n' :: (blk d ++ tail)).take (k - (fm blk 0 d).length)))
        (fun p s => s.1.size = N ∧ s.2 = ('\n' :: (fm (coordText rnd coords d) p (N - p) ++ tail)).take
            (k - ((fm blk 0 d).length + (fm (coordText rnd coords d) 0 p).length)) ∧
          (∀ p' < p, Good p' d (s.1.val p' d)) ∧ (∀ p', p ≤ p' → s.1.val p' d = v p' d) ∧
          ∀ p' d', d' ≠ d → s.1.val p' d' = v p' d')
        ⟨rfl, by rw [fm_zero]; rfl, by intro p hp; omega, fun _ _ => rfl, fun _ _ _ => rfl⟩ (by
          rintro p ⟨⟨M, w⟩, s⟩ hp ⟨g1, g2, g3, g4, g5⟩
          simp only [] at g1 g2 g3 g4 g5
          subst g1 g2
          rw [fm_step _ hp]
          have E : '\n' :: (coordText rnd coords d p ++ fm (coordText rnd coords d) (p + 1) (M - (p + 1)) ++ tail) =
              ['\n'] ++ (fmtE rnd 12 (coords.val p d) ++ ('\n' :: (fm (coordText rnd coords d) (p + 1) (M - (p + 1)) ++ tail))) := by
            unfold coordText
            simp [List.append_assoc]
          obtain ⟨y, ey, y1, y2⟩ := scanET_cut h ws_nl (coords.val p d)
            (noDig_nl (fm (coordText rnd coords d) (p + 1) (M - (p + 1)) ++ tail))
            (k - ((fm blk 0 d).length + (fm (coordText rnd coords d) 0 p).length))
          rw [List.length_singleton] at ey
          rw [E, ey]
          simp only [Option.bind_eq_bind]
          rw [Arr.get_lt (show p < M from hp), Option.bind_some, Arr.set_lt _ (show p < M from hp), Option.bind_some]
          refine ⟨_, rfl, rfl, ?_, ?_, ?_, ?_⟩
          · have hle : (fm (coordText rnd coords d) 0 (p + 1)).length =
                (fm (coordText rnd coords d) 0 p).length + ((fmtE rnd 12 (coords.val p d)).length + 1) := by
              rw [fm_snoc, List.length_append, Nat.zero_add]
              unfold coordText
              rw [List.length_append, List.length_singleton]
            have hsub : k - ((fm blk 0 d).length + (fm (coordText rnd coords d) 0 p).length) - (1 + (fmtE rnd 12 (coords.val p d)).length) =
                k - ((fm blk 0 d).length + (fm (coordText rnd coords d) 0 (p + 1)).length) := by omega
            exact congrArg (fun j => List.take j ('\n' :: (fm (coordText rnd coords d) (p + 1) (M - (p + 1)) ++ tail))) hsub
          · intro p' hp'
            show Good p' d (store w p (store (w p) d (y.getD (w p d))) p' d)
            by_cases hpp : p' = p
            · subst hpp
              rw [store_same, store_same]
              simp only [List.length_singleton] at y1 y2
              refine ⟨fun hk => ?_, fun hk => ?_⟩
              · rw [y1 (by omega)]; rfl
              · rw [y2 (by omega)]
                show w p' d = _
                rw [g4 p' le_rfl]
                exact h4 p' hp d le_rfl
            · rw [store_ne _ _ hpp]; exact g3 p' (by omega)
          · intro p' hp'
            show store w p (store (w p) d (y.getD (w p d))) p' d = _
            rw [store_ne _ _ (by omega)]; exact g4 p' (by omega)
          · intro p' d' hd'
            show store w p (store (w p) d (y.getD (w p d))) p' d' = _
            by_cases hpp : p' = p
            · subst hpp; rw [store_same, store_ne _ _ hd']; exact g5 p' d' hd'
            · rw [store_ne _ _ hpp]; exact g5 p' d' hd')
      refine ⟨r, ?_, g1, ?_, ?_, ?_⟩
      · rw [← e, htail, List.append_assoc]
      · rw [g2, Nat.sub_self, fm_zero, List.nil_append, fm_snoc, List.length_append, Nat.zero_add]
      · intro p hp d' hd'
        by_cases hdd : d' = d
        · subst hdd; exact g3 p hp
        · rw [g5 p d' hdd]; exact h3 p hp d' (by omega)
      · intro p hp d' hd'
        rw [g5 p d' (by omega)]; exact h4 p hp d' (by omega))
  refine ⟨r.1, ?_, h1, h3⟩
  have h2 : r.2 = ('\n' :: t).take (k - (fm blk 0 3).length) := h2
  rw [← h2]; exact e

/-- What the cell loop leaves for node `l` of cell `c`, when the text of the cells, in which that number is `v`, is cut
off after `k` characters. -/
def cellEntry (v : ℕ) (junk : ℤ) (c l k : ℕ) : ℤ :=
  if v / 10 ^ (c * 81 + l * 10 + 11 - k) = 0 then junk - 1 else (v / 10 ^ (c * 81 + l * 10 + 11 - k) : ℕ) - 1

theorem fm_length {f : ℕ → List Char} {w : ℕ} (a n : ℕ) (h : ∀ i, a ≤ i → i < a + n → (f i).length = w) : (fm f a n).length = n * w := by
  induction n with
  | zero => simp [fm_zero]
  | succ n ih =>
    rw [fm_snoc, List.length_append, ih (fun i h1 h2 => h i h1 (by omega)), h _ (by omega) (by omega)]; ring

/-- The cell loops of the reader on the text of the writer, cut off after `k` characters; the reader expects `n` cells,
the text has `C` of them. -/
theorem readCellsT_spec (n C : ℕ) (hn : n ≤ C) (v : ℕ → ℕ → ℕ) (hv : ∀ c < C, ∀ l < 8, 0 < v c l ∧ v c l < 10 ^ 9) (f : ℕ → ℤ) (k : ℕ) :
    ∃ a w, readCellsT n (⟨n * 8, f⟩, ('\n' :: fm (fun c => fm (fun l => fmtD 10 (v c l)) 0 8 ++ ['\n']) 0 C).take k) = some (a, w) ∧
      a.size = n * 8 ∧ ∀ c < n, ∀ l < 8, a.val (c * 8 + l) = cellEntry (v c l) (f (c * 8 + l)) c l k := by
  set blk : ℕ → List Char := fun c => fm (fun l => fmtD 10 (v c l)) 0 8 ++ ['\n'] with hblk
  obtain ⟨r, e, h1, h2, h3, -⟩ := loopM_spec (n := n) (body := fun c => loopM 8 fun l (s : Arr ℤ × List Char) => do
      let v := scanDT s.2
      let old ← s.1.get (c * 8 + l)
      let a ← s.1.set (c * 8 + l) (v.1.getD old)
      let w ← a.get (c * 8 + l)
      let a ← a.set (c * 8 + l) (w - 1)
      pure (a, v.2)) (s := (⟨n * 8, f⟩, ('\n' :: fm blk 0 C).take k))
    (fun c s => s.1.size = n * 8 ∧ s.2 = ('\n' :: fm blk c (C - c)).take (k - c * 81) ∧
      (∀ c' < c, ∀ l < 8, s.1.val (c' * 8 + l) = cellEntry (v c' l) (f (c' * 8 + l)) c' l k) ∧
      ∀ i, c * 8 ≤ i → s.1.val i = f i)
    ⟨rfl, by simp, by intro c hc; omega, fun _ _ => rfl⟩ (by
      rintro c ⟨⟨N, a⟩, s⟩ hc ⟨h1, h2, h3, h4⟩
      simp only [] at h1 h2 h3 h4
      subst h1 h2
      have hcC : c < C := by omega
      rw [fm_step _ hcC]
      set tail := fm blk (c + 1) (C - (c + 1)) with htail
      have hlen : ∀ l < 8, (fmtD 10 (v c l : ℤ)).length = 10 := fun l hl => fmtD10_length (by have := (hv c hcC l hl).2; omega)
      obtain ⟨r, e, g1, g2, g3, g4, g5⟩ := loopM_spec (n := 8) (body := fun l (s : Arr ℤ × List Char) => do
          let v := scanDT s.2
          let old ← s.1.get (c * 8 + l)
          let a ← s.1.set (c * 8 + l) (v.1.getD old)
          let w ← a.get (c * 8 + l)
          let a ← a.set (c * 8 + l) (w - 1)
          pure (a, v.2)) (s := (⟨n * 8, a⟩, ('\n' :: (blk c ++ tail)).take (k - c * 81)))
        (fun l s => s.1.size = n * 8 ∧
          s.2 = ((if l = 0 then ['\n'] else []) ++ (fm (fun l => fmtD 10 (v c l)) l (8 - l) ++ ('\n' :: tail))).take
            (k - (c * 81 + if l = 0 then 0 else l * 10 + 1)) ∧
          (∀ l' < l, s.1.val (c * 8 + l') = cellEntry (v c l') (f (c * 8 + l')) c l' k) ∧
          (∀ i < c * 8, s.1.val i = a i) ∧ ∀ i, c * 8 + l ≤ i → s.1.val i = f i)
        ⟨rfl, by simp [hblk], by intro l hl; omega, fun _ _ => rfl, fun i hi => h4 i (by omega)⟩ (by
          rintro l ⟨⟨M, b⟩, s⟩ hl ⟨g1, g2, g3, g4, g5⟩
          simp only [] at g1 g2 g3 g4 g5
          subst g1 g2
          have hlt : c * 8 + l < n * 8 := by omega
          rw [fm_step _ hl]
          set W : List Char := if l = 0 then ['\n'] else [] with hW
          have hWs : Ws W := by rw [hW]; split_ifs; exacts [ws_nl, ws_nil]
          have hnd : NoDig (fm (fun l => fmtD 10 (v c l)) (l + 1) (8 - (l + 1)) ++ ('\n' :: tail)) := by
            by_cases h8 : l + 1 < 8
            · rw [fm_step _ h8, List.append_assoc, fmtD_nat]
              have := dec_length (k := 9) (by decide) (hv c hcC (l + 1) h8).2
              rw [show 10 - (dec (v c (l + 1))).length = (9 - (dec (v c (l + 1))).length) + 1 by omega, List.replicate_succ]
              intro x u hx
              rw [← (List.cons.inj hx).1]; decide
            · rw [show 8 - (l + 1) = 0 by omega, fm_zero, List.nil_append]
              exact noDig_nl _
          have hWl : W.length + (if l = 0 then 0 else l * 10 + 1) = l * 10 + 1 := by
            rw [hW]; by_cases h0 : l = 0
            · simp [h0]
            · simp [h0]
          have hvl := hv c hcC l hl
          have E := scanDT_cut hWs (z := v c l) (by omega) hnd (k - (c * 81 + if l = 0 then 0 else l * 10 + 1)) hvl.1
          rw [List.append_assoc (fmtD 10 (v c l : ℤ))]
          simp only [Option.bind_eq_bind]
          rw [E]
          simp only []
          rw [Arr.get_lt (show c * 8 + l < n * 8 from hlt), Option.bind_some, Arr.set_lt _ (show c * 8 + l < n * 8 from hlt), Option.bind_some,
            Arr.get_lt (show c * 8 + l < n * 8 from hlt), Option.bind_some,
            Arr.set_lt _ (show c * 8 + l < n * 8 from hlt), Option.bind_some]
          set y : Option ℤ := if v c l / 10 ^ (W.length + 10 - (k - (c * 81 + if l = 0 then 0 else l * 10 + 1))) = 0 then none
            else some ((v c l / 10 ^ (W.length + 10 - (k - (c * 81 + if l = 0 then 0 else l * 10 + 1))) : ℕ) : ℤ) with hy
          have hval : y.getD (b (c * 8 + l)) - 1 = cellEntry (v c l) (f (c * 8 + l)) c l k := by
            rw [g5 (c * 8 + l) le_rfl]
            unfold cellEntry
            by_cases hk : (c * 81 + if l = 0 then 0 else l * 10 + 1) ≤ k
            · rw [hy, show W.length + 10 - (k - (c * 81 + if l = 0 then 0 else l * 10 + 1)) = c * 81 + l * 10 + 11 - k by omega]
              split_ifs <;> rfl
            · have z : ∀ j, 9 ≤ j → v c l / 10 ^ j = 0 := fun j hj =>
                Nat.div_eq_of_lt (lt_of_lt_of_le hvl.2 (Nat.pow_le_pow_right (by decide) hj))
              rw [hy, z _ (by omega), z _ (by omega), if_pos rfl, if_pos rfl]
              rfl
          refine ⟨_, rfl, rfl, ?_, ?_, ?_, ?_⟩
          · have hsub : k - (c * 81 + if l = 0 then 0 else l * 10 + 1) - (W.length + 10) =
                k - (c * 81 + if l + 1 = 0 then 0 else (l + 1) * 10 + 1) := by rw [if_neg (Nat.succ_ne_zero l)]; omega
            rw [← hsub]
            rfl
          · intro l' hl'
            show store (store b (c * 8 + l) (y.getD (b (c * 8 + l)))) (c * 8 + l)
              (store b (c * 8 + l) (y.getD (b (c * 8 + l))) (c * 8 + l) - 1) (c * 8 + l') = _
            by_cases hll : l' = l
            · subst hll; rw [store_same, store_same]; exact hval
            · rw [store_ne _ _ (by omega), store_ne _ _ (by omega)]; exact g3 l' (by omega)
          · intro i hi
            show store (store b (c * 8 + l) (y.getD (b (c * 8 + l)))) (c * 8 + l)
              (store b (c * 8 + l) (y.getD (b (c * 8 + l))) (c * 8 + l) - 1) i = _
            rw [store_ne _ _ (by omega), store_ne _ _ (by omega)]; exact g4 i hi
          · intro i hi
            show store (store b (c * 8 + l) (y.getD (b (c * 8 + l)))) (c * 8 + l)
              (store b (c * 8 + l) (y.getD (b (c * 8 + l))) (c * 8 + l) - 1) i = _
            rw [store_ne _ _ (by omega), store_ne _ _ (by omega)]; exact g5 i (by omega))
      refine ⟨r, e, g1, ?_, ?_, ?_⟩
      · have hsub : k - (c * 81 + if 8 = 0 then 0 else 8 * 10 + 1) = k - (c + 1) * 81 := by rw [if_neg (by decide)]; omega
        rw [g2, hsub, Nat.sub_self, fm_zero]
        rfl
      · intro c' hc' l hl
        by_cases hcc : c' = c
        · subst hcc; exact g3 l hl
        · rw [g4 (c' * 8 + l) (by omega)]; exact h3 c' (by omega) l hl
      · intro i hi
        exact g5 i (by omega))
  exact ⟨r.1, r.2, e, h1, h3⟩

end Verif.MeshFile
