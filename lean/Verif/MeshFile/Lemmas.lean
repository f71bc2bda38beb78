import Verif.MeshFile.Model
import Verif.MeshFile.Round
import Mathlib.Tactic.Ring

/-!
# What the writers write and what the reader reads
-/

namespace Verif.MeshFile

/-- `f a ++ f (a + 1) ++ … ++ f (a + n - 1)` -/
def fm (f : ℕ → List Char) (a n : ℕ) : List Char := (List.range' a n).flatMap f

theorem fm_zero (f : ℕ → List Char) (a : ℕ) : fm f a 0 = [] := rfl
theorem fm_cons (f : ℕ → List Char) (a n : ℕ) : fm f a (n + 1) = f a ++ fm f (a + 1) n := by
  unfold fm; rw [List.range'_succ, List.flatMap_cons]
theorem fm_snoc (f : ℕ → List Char) (a n : ℕ) : fm f a (n + 1) = fm f a n ++ f (a + n) := by
  induction n generalizing a with
  | zero => rw [fm_cons, fm_zero, fm_zero]; simp
  | succ n ih => rw [fm_cons, ih, fm_cons, List.append_assoc, show a + 1 + n = a + (n + 1) by omega]
/-- Peel off the first of the remaining pieces. -/
theorem fm_step (f : ℕ → List Char) {i n : ℕ} (h : i < n) : fm f i (n - i) = f i ++ fm f (i + 1) (n - (i + 1)) := by
  rw [show n - i = (n - (i + 1)) + 1 by omega, fm_cons]

/-- The text of the coordinates of direction `d`. -/
noncomputable def coordText (rnd : ℝ → ℕ) (coords : Arr (ℕ → ℝ)) (d p : ℕ) : List Char := fmtE rnd 12 (coords.val p d) ++ ['\n']

theorem writeCoords_spec (rnd : ℝ → ℕ) (coords : Arr (ℕ → ℝ)) {n : ℕ} (h : n ≤ coords.size) (t : List Char) :
    writeCoords rnd coords n t = some (t ++ fm (fun d => fm (coordText rnd coords d) 0 n) 0 3) := by
  obtain ⟨r, e, hr⟩ := loopM_spec (n := 3) (body := fun d => loopM n fun p t => do
      let x ← coords.get p
      pure (t ++ (fmtE rnd 12 (x d) ++ ['\n']))) (s := t)
    (fun d r => r = t ++ fm (fun d => fm (coordText rnd coords d) 0 n) 0 d) (by rw [fm_zero, List.append_nil]) (by
      intro d s hd hs
      obtain ⟨r, e, hr⟩ := loopM_spec (n := n) (body := fun p t => do
          let x ← coords.get p
          pure (t ++ (fmtE rnd 12 (x d) ++ ['\n']))) (s := s)
        (fun p r => r = s ++ fm (coordText rnd coords d) 0 p) (by rw [fm_zero, List.append_nil]) (by
          intro p u hp hu
          refine ⟨_, by rw [Arr.get_lt (show p < coords.size by omega)]; rfl, ?_⟩
          rw [hu, fm_snoc, List.append_assoc, Nat.zero_add]; rfl)
      refine ⟨r, e, ?_⟩
      rw [hr, hs, fm_snoc, List.append_assoc, Nat.zero_add])
  rw [← hr]; exact e

/-- The cell loops of the two writers. -/
theorem writeCells_spec (cells : Arr ℤ) (conv : ℕ → ℕ) (sep : List Char) {n : ℕ} (hc : ∀ l < 8, conv l < 8)
    (h : n * 8 ≤ cells.size) (t : List Char) :
    loopM n (fun c t => do
      let t ← loopM 8 (fun l t => do
        let v ← cells.get (c * 8 + conv l)
        pure (t ++ (fmtD 10 (v + 1) ++ sep))) t
      pure (t ++ ['\n'])) t =
    some (t ++ fm (fun c => fm (fun l => fmtD 10 (cells.val (c * 8 + conv l) + 1) ++ sep) 0 8 ++ ['\n']) 0 n) := by
  obtain ⟨r, e, hr⟩ := loopM_spec (n := n) (body := fun c t => do
      let t ← loopM 8 (fun l t => do
        let v ← cells.get (c * 8 + conv l)
        pure (t ++ (fmtD 10 (v + 1) ++ sep))) t
      pure (t ++ ['\n'])) (s := t)
    (fun c r => r = t ++ fm (fun c => fm (fun l => fmtD 10 (cells.val (c * 8 + conv l) + 1) ++ sep) 0 8 ++ ['\n']) 0 c)
    (by rw [fm_zero, List.append_nil]) (by
      intro c s hcn hs
      obtain ⟨r, e, hr⟩ := loopM_spec (n := 8) (body := fun l t => do
          let v ← cells.get (c * 8 + conv l)
          pure (t ++ (fmtD 10 (v + 1) ++ sep))) (s := s)
        (fun l r => r = s ++ fm (fun l => fmtD 10 (cells.val (c * 8 + conv l) + 1) ++ sep) 0 l)
        (by rw [fm_zero, List.append_nil]) (by
          intro l u hl hu
          have := hc l hl
          refine ⟨_, by rw [Arr.get_lt (show c * 8 + conv l < cells.size by omega)]; rfl, ?_⟩
          rw [hu, fm_snoc, List.append_assoc, Nat.zero_add])
      refine ⟨r ++ ['\n'], by show (loopM 8 _ s).bind _ = _; rw [e]; rfl, ?_⟩
      conv_rhs => rw [fm_snoc, Nat.zero_add]
      rw [hr, hs, List.append_assoc, List.append_assoc])
  rw [← hr]; exact e

theorem noDig_nl (t : List Char) : NoDig ('\n' :: t) := by
  intro c u h; rw [← (List.cons.inj h).1]; decide

/-- White space. -/
def Ws (w : List Char) : Prop := ∀ c ∈ w, isSp c = true
theorem ws_nl : Ws ['\n'] := by intro c hc; rw [List.mem_singleton] at hc; rw [hc]; decide
theorem ws_nil : Ws [] := by intro c hc; simp at hc

/-- The coordinate loops of the reader on the text of the writer. -/
theorem readCoords_spec {rnd : ℝ → ℕ} (h : Nearest rnd) (coords : Arr (ℕ → ℝ)) (n : ℕ) (f : ℕ → ℕ → ℝ) (t : List Char) :
    ∃ a, readCoords n (⟨n, f⟩, '\n' :: (fm (fun d => fm (coordText rnd coords d) 0 n) 0 3 ++ t)) = some (a, '\n' :: t) ∧
      a.size = n ∧ ∀ p < n, ∀ d < 3, a.val p d = (toSci rnd (coords.val p d)).val := by
  obtain ⟨r, e, h1, h2, h3⟩ := loopM_spec (n := 3) (body := fun d => loopM n fun p (s : Arr (ℕ → ℝ) × List Char) => do
      let x ← scanE s.2
      let row ← s.1.get p
      let a ← s.1.set p (store row d x.1)
      pure (a, x.2)) (s := (⟨n, f⟩, '\n' :: (fm (fun d => fm (coordText rnd coords d) 0 n) 0 3 ++ t)))
    (fun d s => s.1.size = n ∧ s.2 = '\n' :: (fm (fun d => fm (coordText rnd coords d) 0 n) d (3 - d) ++ t) ∧
      ∀ p < n, ∀ d' < d, s.1.val p d' = (toSci rnd (coords.val p d')).val)
    ⟨rfl, rfl, by intro p _ d hd; omega⟩ (by
      rintro d ⟨⟨N, v⟩, s⟩ hd ⟨h1, h2, h3⟩
      simp only [] at h1 h2 h3
      subst h1 h2
      rw [fm_step _ hd]
      obtain ⟨r, e, g1, g2, g3, g4⟩ := loopM_spec (n := N) (body := fun p (s : Arr (ℕ → ℝ) × List Char) => do
          let x ← scanE s.2
          let row ← s.1.get p
          let a ← s.1.set p (store row d x.1)
          pure (a, x.2)) (s := (⟨N, v⟩, '\n' :: (fm (coordText rnd coords d) 0 N ++
            fm (fun d => fm (coordText rnd coords d) 0 N) (d + 1) (3 - (d + 1)) ++ t)))
        (fun p s => s.1.size = N ∧ s.2 = '\n' :: (fm (coordText rnd coords d) p (N - p) ++
            (fm (fun d => fm (coordText rnd coords d) 0 N) (d + 1) (3 - (d + 1)) ++ t)) ∧
          (∀ p' < p, s.1.val p' d = (toSci rnd (coords.val p' d)).val) ∧
          ∀ p' d', d' ≠ d → s.1.val p' d' = v p' d')
        ⟨rfl, by rw [List.append_assoc]; rfl, by intro p hp; omega, fun _ _ _ => rfl⟩ (by
          rintro p ⟨⟨M, w⟩, s⟩ hp ⟨g1, g2, g3, g4⟩
          simp only [] at g1 g2 g3 g4
          subst g1 g2
          rw [fm_step _ hp]
          simp only [Option.bind_eq_bind]
          have E : '\n' :: (coordText rnd coords d p ++ fm (coordText rnd coords d) (p + 1) (M - (p + 1)) ++
              (fm (fun d => fm (coordText rnd coords d) 0 M) (d + 1) (3 - (d + 1)) ++ t)) =
              ['\n'] ++ (fmtE rnd 12 (coords.val p d) ++ ('\n' :: (fm (coordText rnd coords d) (p + 1) (M - (p + 1)) ++
              (fm (fun d => fm (coordText rnd coords d) 0 M) (d + 1) (3 - (d + 1)) ++ t)))) := by
            unfold coordText
            simp [List.append_assoc]
          rw [E, scanE_fmtE h ws_nl _ _ (noDig_nl _), Option.bind_some, Arr.get_lt (show p < M from hp), Option.bind_some,
            Arr.set_lt _ (show p < M from hp), Option.bind_some]
          refine ⟨_, rfl, rfl, rfl, ?_, ?_⟩
          · intro p' hp'
            show store w p (store (w p) d (toSci rnd (coords.val p d)).val) p' d = _
            by_cases hpp : p' = p
            · subst hpp; rw [store_same, store_same]
            · rw [store_ne _ _ hpp]; exact g3 p' (by omega)
          · intro p' d' hd'
            show store w p (store (w p) d (toSci rnd (coords.val p d)).val) p' d' = _
            by_cases hpp : p' = p
            · subst hpp; rw [store_same, store_ne _ _ hd']; exact g4 p' d' hd'
            · rw [store_ne _ _ hpp]; exact g4 p' d' hd')
      refine ⟨r, by rw [← e], g1, ?_, ?_⟩
      · rw [g2, Nat.sub_self, fm_zero, List.nil_append]
      · intro p hp d' hd'
        by_cases hdd : d' = d
        · subst hdd; exact g3 p hp
        · rw [g4 p d' hdd]; exact h3 p hp d' (by omega))
  refine ⟨r.1, ?_, h1, h3⟩
  have h2 : r.2 = '\n' :: t := h2
  rw [← h2]; exact e

/-- The cell loops of the reader on a text of numbers `v c l`, each printed as `tok c l`, that the reader can tell apart. -/
theorem readCells_spec (n : ℕ) (v : ℕ → ℕ → ℤ) (sep : List Char) (hs : Ws sep)
    (hd : ∀ c < n, ∀ l < 8, ∀ t, NoDig (sep ++ (fmtD 10 (v c l) ++ t))) (f : ℕ → ℤ) :
    ∃ a w, readCells n (⟨n * 8, f⟩, '\n' :: fm (fun c => fm (fun l => fmtD 10 (v c l) ++ sep) 0 8 ++ ['\n']) 0 n) = some (a, w) ∧
      a.size = n * 8 ∧ ∀ c < n, ∀ l < 8, a.val (c * 8 + l) = v c l - 1 := by
  obtain ⟨r, e, h1, h2, h3⟩ := loopM_spec (n := n) (body := fun c => loopM 8 fun l (s : Arr ℤ × List Char) => do
      let v ← scanD s.2
      let a ← s.1.set (c * 8 + l) v.1
      let w ← a.get (c * 8 + l)
      let a ← a.set (c * 8 + l) (w - 1)
      pure (a, v.2)) (s := (⟨n * 8, f⟩, '\n' :: fm (fun c => fm (fun l => fmtD 10 (v c l) ++ sep) 0 8 ++ ['\n']) 0 n))
    (fun c s => s.1.size = n * 8 ∧ (∃ w, Ws w ∧ s.2 = w ++ ('\n' :: fm (fun c => fm (fun l => fmtD 10 (v c l) ++ sep) 0 8 ++ ['\n']) c (n - c))) ∧
      ∀ c' < c, ∀ l < 8, s.1.val (c' * 8 + l) = v c' l - 1)
    ⟨rfl, ⟨[], ws_nil, rfl⟩, by intro c hc; omega⟩ (by
      rintro c ⟨⟨N, a⟩, s⟩ hc ⟨h1, ⟨w0, hw0, h2⟩, h3⟩
      simp only [] at h1 h2 h3
      subst h1 h2
      rw [fm_step _ hc]
      have hwn : Ws (w0 ++ ['\n']) := by
        intro x hx
        rcases List.mem_append.1 hx with hx | hx
        · exact hw0 x hx
        · exact ws_nl x hx
      set tail := fm (fun c => fm (fun l => fmtD 10 (v c l) ++ sep) 0 8 ++ ['\n']) (c + 1) (n - (c + 1)) with htail
      obtain ⟨r, e, g1, ⟨w1, hw1, -, g2⟩, g3, g4⟩ := loopM_spec (n := 8) (body := fun l (s : Arr ℤ × List Char) => do
          let v ← scanD s.2
          let a ← s.1.set (c * 8 + l) v.1
          let w ← a.get (c * 8 + l)
          let a ← a.set (c * 8 + l) (w - 1)
          pure (a, v.2)) (s := (⟨n * 8, a⟩, w0 ++ ('\n' :: (fm (fun l => fmtD 10 (v c l) ++ sep) 0 8 ++ ['\n'] ++ tail))))
        (fun l s => s.1.size = n * 8 ∧
          (∃ w, Ws w ∧ (0 < l → w = sep) ∧ s.2 = w ++ (fm (fun l => fmtD 10 (v c l) ++ sep) l (8 - l) ++ ('\n' :: tail))) ∧
          (∀ l' < l, s.1.val (c * 8 + l') = v c l' - 1) ∧ ∀ i < c * 8, s.1.val i = a i)
        ⟨rfl, ⟨w0 ++ ['\n'], hwn, by omega, by simp [List.append_assoc]⟩, by intro l hl; omega, fun _ _ => rfl⟩ (by
          rintro l ⟨⟨M, b⟩, s⟩ hl ⟨g1, ⟨w1, hw1, -, g2⟩, g3, g4⟩
          simp only [] at g1 g2 g3 g4
          subst g1 g2
          have hlt : c * 8 + l < n * 8 := by omega
          rw [fm_step _ hl]
          simp only [Option.bind_eq_bind]
          have E : w1 ++ (fmtD 10 (v c l) ++ sep ++ fm (fun l => fmtD 10 (v c l) ++ sep) (l + 1) (8 - (l + 1)) ++ ('\n' :: tail)) =
              w1 ++ (fmtD 10 (v c l) ++ (sep ++ (fm (fun l => fmtD 10 (v c l) ++ sep) (l + 1) (8 - (l + 1)) ++ ('\n' :: tail)))) := by
            simp [List.append_assoc]
          have hnd : NoDig (sep ++ (fm (fun l => fmtD 10 (v c l) ++ sep) (l + 1) (8 - (l + 1)) ++ ('\n' :: tail))) := by
            by_cases h8 : l + 1 < 8
            · rw [fm_step _ h8, List.append_assoc, List.append_assoc]
              exact hd c hc (l + 1) h8 _
            · rw [show 8 - (l + 1) = 0 by omega, fm_zero, List.nil_append]
              cases hsep : sep with
              | nil => exact noDig_nl _
              | cons x u =>
                intro y z hyz
                have := (List.cons.inj hyz).1
                subst this
                have := hs x (by rw [hsep]; simp)
                by_contra hcon
                rw [sp_of_dig (Bool.of_not_eq_false hcon)] at this
                simp at this
          rw [E, scanD_fmtD hw1 _ _ hnd, Option.bind_some, Arr.set_lt _ (show c * 8 + l < n * 8 from hlt), Option.bind_some,
            Arr.get_lt (show c * 8 + l < n * 8 from hlt), Option.bind_some,
            Arr.set_lt _ (show c * 8 + l < n * 8 from hlt), Option.bind_some]
          refine ⟨_, rfl, rfl, ⟨sep, hs, fun _ => rfl, rfl⟩, ?_, ?_⟩
          · intro l' hl'
            show store (store b (c * 8 + l) (v c l)) (c * 8 + l) (store b (c * 8 + l) (v c l) (c * 8 + l) - 1) (c * 8 + l') = _
            by_cases hll : l' = l
            · subst hll; rw [store_same, store_same]
            · rw [store_ne _ _ (by omega), store_ne _ _ (by omega)]; exact g3 l' (by omega)
          · intro i hi
            show store (store b (c * 8 + l) (v c l)) (c * 8 + l) (store b (c * 8 + l) (v c l) (c * 8 + l) - 1) i = _
            rw [store_ne _ _ (by omega), store_ne _ _ (by omega)]; exact g4 i hi)
      · refine ⟨r, e, g1, ⟨w1, hw1, ?_⟩, ?_⟩
        · rw [g2, Nat.sub_self, fm_zero, List.nil_append]
        · intro c' hc' l hl
          by_cases hcc : c' = c
          · subst hcc; exact g3 l hl
          · rw [g4 (c' * 8 + l) (by omega)]; exact h3 c' (by omega) l hl)
  exact ⟨r.1, r.2, e, h1, h3⟩

theorem convIn_lt : ∀ l < 8, convIn l < 8 := by decide
theorem convOut_lt : ∀ l < 8, convOut l < 8 := by decide

/-- The renumbering of the reader. -/
theorem convertCells_spec (n : ℕ) (a : Arr ℤ) (ha : a.size = n * 8) (tmp : ℕ → ℤ) :
    ∃ b u, convertCells n (a, tmp) = some (b, u) ∧ b.size = n * 8 ∧
      ∀ c < n, ∀ l < 8, b.val (c * 8 + l) = a.val (c * 8 + convIn l) := by
  obtain ⟨r, e, h1, h2, h3⟩ := loopM_spec (n := n) (body := fun c (s : Arr ℤ × (ℕ → ℤ)) => do
      let tmp ← loopM 8 (fun l tmp => do
        let v ← s.1.get (c * 8 + convIn l)
        pure (store tmp l v)) s.2
      let a ← loopM 8 (fun l a => a.set (c * 8 + l) (tmp l)) s.1
      pure (a, tmp)) (s := (a, tmp))
    (fun c s => s.1.size = n * 8 ∧ (∀ c' < c, ∀ l < 8, s.1.val (c' * 8 + l) = a.val (c' * 8 + convIn l)) ∧
      ∀ i, c * 8 ≤ i → s.1.val i = a.val i)
    ⟨ha, by intro c hc; omega, fun _ _ => rfl⟩ (by
      rintro c ⟨⟨N, b⟩, u⟩ hc ⟨h1, h2, h3⟩
      simp only [] at h1 h2 h3
      subst h1
      obtain ⟨t, et, ht⟩ := loopM_spec (n := 8) (body := fun l tmp => do
          let v ← (⟨n * 8, b⟩ : Arr ℤ).get (c * 8 + convIn l)
          pure (store tmp l v)) (s := u)
        (fun l t => ∀ l' < l, t l' = b (c * 8 + convIn l')) (by intro l hl; omega) (by
          intro l t hl ht
          have := convIn_lt l hl
          refine ⟨_, by rw [Arr.get_lt (show c * 8 + convIn l < n * 8 by omega)]; rfl, ?_⟩
          intro l' hl'
          by_cases hll : l' = l
          · subst hll; rw [store_same]
          · rw [store_ne _ _ hll]; exact ht l' (by omega))
      obtain ⟨b', eb, g1, g2, g3⟩ := loopM_spec (n := 8) (body := fun l (a : Arr ℤ) => a.set (c * 8 + l) (t l)) (s := ⟨n * 8, b⟩)
        (fun l a => a.size = n * 8 ∧ (∀ l' < l, a.val (c * 8 + l') = t l') ∧ ∀ i, (i < c * 8 ∨ c * 8 + l ≤ i) → a.val i = b i)
        ⟨rfl, by intro l hl; omega, fun _ _ => rfl⟩ (by
          rintro l ⟨M, y⟩ hl ⟨g1, g2, g3⟩
          simp only [] at g1 g2 g3
          subst g1
          refine ⟨_, Arr.set_lt _ (show c * 8 + l < n * 8 by omega), rfl, ?_, ?_⟩
          · intro l' hl'
            show store y (c * 8 + l) (t l) (c * 8 + l') = _
            by_cases hll : l' = l
            · subst hll; rw [store_same]
            · rw [store_ne _ _ (by omega)]; exact g2 l' (by omega)
          · intro i hi
            show store y (c * 8 + l) (t l) i = _
            rw [store_ne _ _ (by omega)]; exact g3 i (by omega))
      refine ⟨(b', t), ?_, g1, ?_, ?_⟩
      · show (loopM 8 _ u).bind _ = _
        rw [et, Option.bind_some]
        show (loopM 8 _ _).bind _ = _
        rw [eb]
        rfl
      · intro c' hc' l hl
        by_cases hcc : c' = c
        · subst hcc
          rw [g2 l hl, ht l hl]
          exact h3 _ (by omega)
        · rw [g3 _ (by omega)]; exact h2 c' (by omega) l hl
      · intro i hi
        rw [g3 i (by omega)]; exact h3 i (by omega))
  exact ⟨r.1, r.2, e, h1, h2⟩

theorem skipLine_append {l : List Char} (h : '\n' ∉ l) (t : List Char) : skipLine (l ++ ('\n' :: t)) = some t := by
  induction l with
  | nil => rfl
  | cons c l ih =>
    have : c ≠ '\n' := fun e => h (by rw [e]; simp)
    show (if c = '\n' then _ else _) = _
    rw [if_neg this]
    exact ih fun e => h (List.mem_cons_of_mem _ e)

/-- A file with eight header lines, coordinates and cells is read completely. -/
theorem readMesh_spec {rnd : ℝ → ℕ} (h : Nearest rnd) (coords : Arr (ℕ → ℝ)) (N C : ℕ) (v : ℕ → ℕ → ℤ) (sep : List Char)
    (hs : Ws sep) (hd : ∀ c < C, ∀ l < 8, ∀ t, NoDig (sep ++ (fmtD 10 (v c l) ++ t)))
    (head : List Char) (hh : ∀ t, loopM 8 (fun _ s => skipLine s) (head ++ t) = some t) (q : Junk) :
    ∃ r, readMesh q (head ++ (fmtD 10 N ++ ('\n' :: (fm (fun d => fm (coordText rnd coords d) 0 N) 0 3 ++
        (chars "hexa8\n" ++ (fmtD 10 C ++ ('\n' :: fm (fun c => fm (fun l => fmtD 10 (v c l) ++ sep) 0 8 ++ ['\n']) 0 C))))))) = some r ∧
      r.coords.size = N ∧ (∀ p < N, ∀ d < 3, r.coords.val p d = (toSci rnd (coords.val p d)).val) ∧
      r.cells.size = C * 8 ∧ ∀ c < C, ∀ l < 8, r.cells.val (c * 8 + l) = v c (convIn l) - 1 := by
  obtain ⟨a, ea, a1, a2⟩ := readCoords_spec h coords N q.r
    (chars "hexa8\n" ++ (fmtD 10 C ++ ('\n' :: fm (fun c => fm (fun l => fmtD 10 (v c l) ++ sep) 0 8 ++ ['\n']) 0 C)))
  obtain ⟨b, w, eb, b1, b2⟩ := readCells_spec C v sep hs hd q.z
  obtain ⟨k, u, ek, k1, k2⟩ := convertCells_spec C b b1 q.tmp
  refine ⟨⟨a, k⟩, ?_, a1, a2, k1, ?_⟩
  · unfold readMesh
    simp only [Option.bind_eq_bind]
    rw [hh, Option.bind_some]
    rw [show scanD (fmtD 10 N ++ ('\n' :: (fm (fun d => fm (coordText rnd coords d) 0 N) 0 3 ++
        (chars "hexa8\n" ++ (fmtD 10 C ++ ('\n' :: fm (fun c => fm (fun l => fmtD 10 (v c l) ++ sep) 0 8 ++ ['\n']) 0 C)))))) = _ from
        scanD_fmtD ws_nil 10 N (noDig_nl _), Option.bind_some]
    rw [if_neg (by simp)]
    simp only [Int.toNat_natCast]
    rw [ea, Option.bind_some]
    have ew : scanWord 20 ('\n' :: (chars "hexa8\n" ++ (fmtD 10 C ++ ('\n' :: fm (fun c => fm (fun l => fmtD 10 (v c l) ++ sep) 0 8 ++ ['\n']) 0 C)))) =
        some ('\n' :: (fmtD 10 C ++ ('\n' :: fm (fun c => fm (fun l => fmtD 10 (v c l) ++ sep) 0 8 ++ ['\n']) 0 C))) := by
      generalize fmtD 10 C ++ ('\n' :: fm (fun c => fm (fun l => fmtD 10 (v c l) ++ sep) 0 8 ++ ['\n']) 0 C) = z
      rfl
    rw [ew, Option.bind_some]
    rw [show scanD ('\n' :: (fmtD 10 C ++ ('\n' :: fm (fun c => fm (fun l => fmtD 10 (v c l) ++ sep) 0 8 ++ ['\n']) 0 C))) = _ from
        scanD_fmtD ws_nl 10 C (noDig_nl _), Option.bind_some]
    rw [if_neg (by simp)]
    simp only [Int.toNat_natCast]
    rw [eb, Option.bind_some, ek, Option.bind_some]
    rfl
  · intro c hc l hl
    rw [k2 c hc l hl, b2 c hc _ (convIn_lt l hl)]

end Verif.MeshFile
