import Verif.MeshFile.CutRead
import Verif.MeshFile.Theorems
import Mathlib.Algebra.BigOperators.Group.Finset.Basic

/-!
# C102: mesh files that are cut short
-/

namespace Verif.MeshFile
open Verif.MeshBox (Box getId)
open Finset (range)

/-! ## Specification: where things are in the file -/

/-- Number of characters of the eight header lines of the box mesh writer. -/
def headLen : ℕ := 200
/-- Position of the first character of coordinate `d` of point `p` (the points are printed one per line). -/
noncomputable def coordPos (rnd : ℝ → ℕ) (coords : Arr (ℕ → ℝ)) (N d p : ℕ) : ℕ :=
  headLen + 11 + ∑ d' ∈ range d, ∑ p' ∈ range N, ((fmtE rnd 12 (coords.val p' d')).length + 1) +
    ∑ p' ∈ range p, ((fmtE rnd 12 (coords.val p' d)).length + 1)
/-- Position of the first character after the number of cells. -/
noncomputable def countEnd (rnd : ℝ → ℕ) (coords : Arr (ℕ → ℝ)) (N : ℕ) : ℕ := coordPos rnd coords N 3 0 + 6 + 10
/-- Position of the first character after node number `l` of cell `c` (ten characters per number, one line per cell). -/
noncomputable def nodeEnd (rnd : ℝ → ℕ) (coords : Arr (ℕ → ℝ)) (N c l : ℕ) : ℕ := countEnd rnd coords N + 1 + c * 81 + (l + 1) * 10

/-! ## The header -/

theorem fgetcLoop_of {s t : List Char} (h : skipLine s = some t) {fuel : ℕ} (hf : s.length ≤ fuel) : fgetcLoop fuel s = some t := by
  induction s generalizing fuel with
  | nil => simp [skipLine] at h
  | cons c s ih =>
    cases fuel with
    | zero => simp at hf
    | succ fuel =>
      unfold skipLine at h
      unfold fgetcLoop
      split_ifs at h ⊢ with hc
      · exact h
      · exact ih h (by simpa using hf)

theorem fgetcLoop_count {fuel : ℕ} {s t : List Char} (h : fgetcLoop fuel s = some t) : s.count '\n' = t.count '\n' + 1 ∧ t.length ≤ s.length := by
  induction fuel generalizing s with
  | zero => simp [fgetcLoop] at h
  | succ fuel ih =>
    cases s with
    | nil => have := ih (s := []) h; simp at this
    | cons c s =>
      unfold fgetcLoop at h
      split_ifs at h with hc
      · simp only [Option.some.injEq] at h; subst h; rw [hc, List.count_cons_self]; simp
      · have := ih h; rw [List.count_cons_of_ne hc]; exact ⟨this.1, by rw [List.length_cons]; omega⟩

theorem skipLine_length {s t : List Char} (h : skipLine s = some t) : t.length ≤ s.length :=
  (fgetcLoop_count (fgetcLoop_of h le_rfl)).2

/-- The loop over the header lines does not end on a text with fewer than eight newlines. -/
theorem headerLoop_none (fuel : ℕ) {s : List Char} (h : s.count '\n' < 8) : headerLoop fuel s = none := by
  by_contra hc
  obtain ⟨t, ht⟩ := Option.ne_none_iff_exists'.1 hc
  have := loopM_inv ht (fun i r => s.count '\n' = r.count '\n' + i) (by simp) (by
    intro i r r' hi hr hb
    have := (fgetcLoop_count hb).1
    omega)
  omega

theorem headerLoop_of {s t : List Char} (h : loopM 8 (fun _ s => skipLine s) s = some t) {fuel : ℕ} (hf : s.length ≤ fuel) :
    headerLoop fuel s = some t := by
  have : ∀ n t, loopM n (fun _ s => skipLine s) s = some t → loopM n (fun _ s => fgetcLoop fuel s) s = some t ∧ t.length ≤ s.length := by
    intro n
    induction n with
    | zero => intro t h; simp only [loopM_zero, Option.some.injEq] at h ⊢; subst h; exact ⟨rfl, le_rfl⟩
    | succ n ih =>
      intro t h
      rw [loopM_succ] at h
      obtain ⟨u, hu, h⟩ := Option.bind_eq_some_iff.1 h
      obtain ⟨h1, h2⟩ := ih u hu
      refine ⟨?_, (skipLine_length h).trans h2⟩
      rw [loopM_succ, h1, Option.bind_some]
      exact fgetcLoop_of h (by omega)
  exact (this 8 t h).1

/-- Agreement of a loop with one that is defined more often. -/
theorem loopM_mono {σ : Type*} {n : ℕ} {f g : ℕ → σ → Option σ} {s r : σ} (h : loopM n f s = some r)
    (hfg : ∀ i s r, f i s = some r → g i s = some r) : loopM n g s = some r := by
  induction n generalizing r with
  | zero => exact h
  | succ n ih =>
    rw [loopM_succ] at h ⊢
    obtain ⟨u, hu, h⟩ := Option.bind_eq_some_iff.1 h
    rw [ih hu, Option.bind_some]
    exact hfg _ _ _ h

/-- Whatever the strict reader reads, `read_mesh` reads. -/
theorem readMeshT_of_readMesh {q : JunkT} {s : List Char} {m : MeshIn} (h : readMesh q.toJunk s = some m) {fuel : ℕ} (hf : s.length ≤ fuel) :
    readMeshT fuel q s = some m := by
  unfold readMesh at h
  simp only [Option.bind_eq_bind] at h
  obtain ⟨s1, e1, h⟩ := Option.bind_eq_some_iff.1 h
  obtain ⟨⟨n, s2⟩, e2, h⟩ := Option.bind_eq_some_iff.1 h
  by_cases hn : n < 0
  · rw [if_pos hn] at h; simp at h
  rw [if_neg hn] at h
  obtain ⟨r, e3, h⟩ := Option.bind_eq_some_iff.1 h
  obtain ⟨s3, e4, h⟩ := Option.bind_eq_some_iff.1 h
  obtain ⟨⟨e, s4⟩, e5, h⟩ := Option.bind_eq_some_iff.1 h
  by_cases he : e < 0
  · rw [if_pos he] at h; simp at h
  rw [if_neg he] at h
  obtain ⟨c, e6, h⟩ := Option.bind_eq_some_iff.1 h
  unfold readMeshT
  simp only [Option.bind_eq_bind]
  rw [headerLoop_of e1 hf, Option.bind_some]
  unfold readBody
  simp only [Option.bind_eq_bind]
  rw [scanDT_of e2]
  simp only [Option.getD_some]
  rw [if_neg hn]
  have e3' : readCoordsT n.toNat (⟨n.toNat, q.r⟩, s2) = some r := by
    refine loopM_mono e3 fun d s r hs => loopM_mono hs fun p s r hs => ?_
    simp only [Option.bind_eq_bind] at hs ⊢
    obtain ⟨⟨x, u⟩, ex, hs⟩ := Option.bind_eq_some_iff.1 hs
    rw [scanET_of ex]
    exact hs
  rw [e3', Option.bind_some, scanWordT_of e4, Option.bind_some, scanDT_of e5]
  simp only [Option.getD_some]
  rw [if_neg he]
  have e6' : readCellsT e.toNat (⟨e.toNat * 8, q.z⟩, s4) = some c := by
    refine loopM_mono e6 fun d s r hs => loopM_mono hs fun p s r hs => ?_
    simp only [Option.bind_eq_bind] at hs ⊢
    obtain ⟨⟨x, u⟩, ex, hs⟩ := Option.bind_eq_some_iff.1 hs
    rw [scanDT_of ex]
    obtain ⟨a, ea, hs'⟩ := Option.bind_eq_some_iff.1 hs
    have hlt : d * 8 + p < s.1.size := by
      by_contra hc
      rw [Arr.set_ge _ (not_lt.1 hc)] at ea
      simp at ea
    rw [Arr.get_lt hlt, Option.bind_some]
    simp only [Option.getD_some]
    exact hs
  rw [e6', Option.bind_some]
  exact h

/-! ## The text of the writer -/

/-- The header lines of the box mesh writer. -/
def boxHead : List Char := chars "This is the 1st description line of the EnSight Gold geometry file\n" ++
    (chars "This is the 2nd description line of the EnSight Gold geometry file\n" ++ (chars "node id assign\n" ++
    (chars "element id assign\n" ++ (chars "part\n" ++ ((fmtD 10 1 ++ ['\n']) ++ (chars "Mesh\n" ++ chars "coordinates\n"))))))

theorem boxHead_eq : boxHead = chars ("This is the 1st description line of the EnSight Gold geometry file\n" ++
    "This is the 2nd description line of the EnSight Gold geometry file\nnode id assign\nelement id assign\npart\n" ++
    "         1\nMesh\ncoordinates\n") := by
  unfold boxHead
  rw [show fmtD 10 1 = chars "         1" by unfold fmtD pad; rw [show dec (1 : ℤ).natAbs = ['1'] by rw [dec]; rfl]; rfl]
  decide +kernel

theorem boxHead_length : boxHead.length = headLen := by rw [boxHead_eq]; decide +kernel
theorem boxHead_count : (boxHead.take 199).count '\n' = 7 := by rw [boxHead_eq]; decide +kernel

theorem fm_sum (f : ℕ → List Char) (a n : ℕ) : (fm f a n).length = ∑ i ∈ range n, (f (a + i)).length := by
  induction n with
  | zero => rfl
  | succ n ih => rw [fm_snoc, List.length_append, ih, Finset.sum_range_succ]

/-- The text after the header. -/
noncomputable def bodyText (rnd : ℝ → ℕ) (coords : Arr (ℕ → ℝ)) (v : ℕ → ℕ → ℕ) (N C : ℕ) : List Char :=
  fmtD 10 N ++ ('\n' :: (fm (fun d => fm (coordText rnd coords d) 0 N) 0 3 ++
    (chars "hexa8" ++ ('\n' :: (fmtD 10 C ++ ('\n' :: fm (fun c => fm (fun l => fmtD 10 (v c l)) 0 8 ++ ['\n']) 0 C))))))

theorem coord_length (rnd : ℝ → ℕ) (coords : Arr (ℕ → ℝ)) (d p : ℕ) :
    (fm (coordText rnd coords d) 0 p).length = ∑ p' ∈ range p, ((fmtE rnd 12 (coords.val p' d)).length + 1) := by
  rw [fm_sum]
  refine Finset.sum_congr rfl fun i _ => ?_
  unfold coordText
  rw [List.length_append, Nat.zero_add]; rfl

theorem coordPos_eq (rnd : ℝ → ℕ) (coords : Arr (ℕ → ℝ)) (N d p : ℕ) : coordPos rnd coords N d p =
    headLen + 11 + ((fm (fun d => fm (coordText rnd coords d) 0 N) 0 d).length + (fm (coordText rnd coords d) 0 p).length) := by
  unfold coordPos
  rw [coord_length, fm_sum, Nat.add_assoc]
  simp only [Nat.zero_add, coord_length]

theorem body_length (rnd : ℝ → ℕ) (coords : Arr (ℕ → ℝ)) (v : ℕ → ℕ → ℕ) {N C : ℕ} (hN : N < 10 ^ 9) (hC : C < 10 ^ 9)
    (hv : ∀ c < C, ∀ l < 8, v c l < 10 ^ 9) :
    headLen + (bodyText rnd coords v N C).length = countEnd rnd coords N + 1 + C * 81 := by
  have e : (fm (fun c => fm (fun l => fmtD 10 (v c l)) 0 8 ++ ['\n']) 0 C).length = C * 81 := by
    apply fm_length
    intro c _ hc
    rw [List.length_append, fm_length (w := 10)]
    · rfl
    · intro l _ hl
      exact fmtD10_length (by have := hv c (by omega) l (by omega); omega)
  have e5 : (chars "hexa8").length = 5 := rfl
  unfold bodyText countEnd
  rw [coordPos_eq, fm_zero]
  simp only [List.length_append, List.length_cons, List.length_nil]
  rw [fmtD10_length (by omega : N < 10 ^ 10), fmtD10_length (by omega : C < 10 ^ 10), e, e5]
  omega

/-- Reading the text after the header, cut off after `k ≥ 10` characters. -/
theorem readBody_cut {rnd : ℝ → ℕ} (h : Nearest rnd) (coords : Arr (ℕ → ℝ)) (v : ℕ → ℕ → ℕ) {N C : ℕ} (hN : 0 < N) (hN' : N < 10 ^ 9)
    (hC : 0 < C) (hC' : C < 10 ^ 9) (hv : ∀ c < C, ∀ l < 8, 0 < v c l ∧ v c l < 10 ^ 9) (q : JunkT) (k : ℕ) (hk : 10 ≤ k) :
    ∃ m, readBody q ((bodyText rnd coords v N C).take k) = some m ∧ m.coords.size = N ∧
      (∀ p < N, ∀ d < 3,
        (coordPos rnd coords N d p + (fmtE rnd 12 (coords.val p d)).length ≤ headLen + k → m.coords.val p d = (toSci rnd (coords.val p d)).val) ∧
        (headLen + k ≤ coordPos rnd coords N d p → m.coords.val p d = q.r p d)) ∧
      m.cells.size = C / 10 ^ (countEnd rnd coords N - (headLen + k)) * 8 ∧
      ∀ c < C / 10 ^ (countEnd rnd coords N - (headLen + k)), ∀ l < 8, m.cells.val (c * 8 + l) =
        if v c (convIn l) / 10 ^ (nodeEnd rnd coords N c (convIn l) - (headLen + k)) = 0 then q.z (c * 8 + convIn l) - 1
        else (v c (convIn l) / 10 ^ (nodeEnd rnd coords N c (convIn l) - (headLen + k)) : ℕ) - 1 := by
  set cellsT := fm (fun c => fm (fun l => fmtD 10 (v c l)) 0 8 ++ ['\n']) 0 C with hcells
  set crd := fm (fun d => fm (coordText rnd coords d) 0 N) 0 3 with hcrd
  have hce : countEnd rnd coords N = headLen + 11 + crd.length + 16 := by
    unfold countEnd; rw [coordPos_eq, fm_zero]; rfl
  obtain ⟨a, ea, a1, a2⟩ := readCoordsT_spec h coords N q.r (chars "hexa8" ++ ('\n' :: (fmtD 10 C ++ ('\n' :: cellsT)))) (k - 10)
  rw [← hcrd] at ea
  set K := k - 10 - crd.length - 6 with hK
  have eC := scanDT_cut ws_nl (z := C) (by omega) (noDig_nl cellsT) K hC
  rw [List.length_singleton] at eC
  have hm : C / 10 ^ (1 + 10 - K) = C / 10 ^ (countEnd rnd coords N - (headLen + k)) := by
    have z : ∀ j, 9 ≤ j → C / 10 ^ j = 0 := fun j hj => Nat.div_eq_of_lt (lt_of_lt_of_le hC' (Nat.pow_le_pow_right (by decide) hj))
    by_cases hc : crd.length + 16 ≤ k
    · congr 2; omega
    · rw [z _ (by omega), z _ (by omega)]
  rw [hm] at eC
  set n := C / 10 ^ (countEnd rnd coords N - (headLen + k)) with hn
  have hnC : n ≤ C := Nat.div_le_self _ _
  obtain ⟨b, w, eb, b1, b2⟩ := readCellsT_spec n C hnC v hv q.z (K - 11)
  obtain ⟨y, u, ey, y1, y2⟩ := convertCells_spec n b b1 q.tmp
  refine ⟨⟨a, y⟩, ?_, a1, ?_, y1, ?_⟩
  · unfold readBody
    simp only [Option.bind_eq_bind]
    have eN := scanDT_cut ws_nil (z := N) (by omega) (noDig_nl (crd ++ (chars "hexa8" ++ ('\n' :: (fmtD 10 C ++ ('\n' :: cellsT)))))) k hN
    rw [List.nil_append, List.length_nil, Nat.zero_add, show 10 - k = 0 by omega, pow_zero, Nat.div_one, if_neg (by omega)] at eN
    have e0 : bodyText rnd coords v N C = fmtD 10 N ++ ('\n' :: (crd ++ (chars "hexa8" ++ ('\n' :: (fmtD 10 C ++ ('\n' :: cellsT)))))) := rfl
    rw [e0, eN]
    simp only [Option.getD_some, Int.toNat_natCast]
    rw [if_neg (by omega), ea, Option.bind_some]
    simp only []
    rw [scanWordT_cut, Option.bind_some, take_cons_append, eC]
    simp only []
    have hg : (if n = 0 then none else some (n : ℤ)).getD 0 = (n : ℤ) := by
      split_ifs with h0
      · rw [h0]; rfl
      · rfl
    rw [hg, if_neg (by omega), Int.toNat_natCast, eb, Option.bind_some, ey, Option.bind_some]
    rfl
  · intro p hp d hd
    have := a2 p hp d hd
    rw [coordPos_eq]
    exact ⟨fun hle => this.1 (by omega), fun hle => this.2 (by omega)⟩
  · intro c hc l hl
    have hcl := convIn_lt l hl
    rw [y2 c hc l hl, b2 c hc _ hcl]
    unfold cellEntry nodeEnd
    have hv' := hv c (by omega) _ hcl
    have hpe : v c (convIn l) / 10 ^ (c * 81 + convIn l * 10 + 11 - (K - 11)) =
        v c (convIn l) / 10 ^ (countEnd rnd coords N + 1 + c * 81 + (convIn l + 1) * 10 - (headLen + k)) := by
      have z : ∀ j, 9 ≤ j → v c (convIn l) / 10 ^ j = 0 := fun j hj =>
        Nat.div_eq_of_lt (lt_of_lt_of_le hv'.2 (Nat.pow_le_pow_right (by decide) hj))
      by_cases hc : crd.length + 27 ≤ k
      · congr 2; omega
      · rw [z _ (by omega), z _ (by omega)]
    rw [hpe]

/-- Reading the text after the header, cut off inside the number of nodes. -/
theorem readBody_short {rnd : ℝ → ℕ} (h : Nearest rnd) (coords : Arr (ℕ → ℝ)) (v : ℕ → ℕ → ℕ) {N C : ℕ} (hN : 0 < N) (hN' : N < 10 ^ 9)
    (q : JunkT) (k : ℕ) (hk : k ≤ 10) (hd : N / 10 ^ (10 - k) ≠ 0) :
    ∃ m, readBody q ((bodyText rnd coords v N C).take k) = some m ∧ m.coords.size = N / 10 ^ (10 - k) ∧ m.cells.size = 0 ∧
      ∀ p < N / 10 ^ (10 - k), ∀ d < 3, m.coords.val p d = q.r p d := by
  set n := N / 10 ^ (10 - k) with hn
  obtain ⟨a, ea, a1, a2⟩ := readCoordsT_spec h coords n q.r [] 0
  rw [List.take_zero, Nat.zero_sub, List.take_zero] at ea
  refine ⟨⟨a, ⟨0 * 8, q.z⟩⟩, ?_, a1, rfl, fun p hp d hd => (a2 p hp d hd).2 (by omega)⟩
  unfold readBody
  simp only [Option.bind_eq_bind]
  have eN := scanDT_cut ws_nil (z := N) (by omega) (noDig_nl (fm (fun d => fm (coordText rnd coords d) 0 N) 0 3 ++
    (chars "hexa8" ++ ('\n' :: (fmtD 10 C ++ ('\n' :: fm (fun c => fm (fun l => fmtD 10 (v c l)) 0 8 ++ ['\n']) 0 C)))))) k hN
  rw [List.nil_append, List.length_nil, Nat.zero_add, ← hn, if_neg hd, show k - 10 = 0 by omega, List.take_zero] at eN
  unfold bodyText
  rw [eN]
  simp only [Option.getD_some, Int.toNat_natCast]
  rw [if_neg (by omega), ea, Option.bind_some]
  rfl

/-- The text of the box mesh writer. -/
theorem writeBox_text (rnd : ℝ → ℕ) (coords : Arr (ℕ → ℝ)) (cells : Arr ℤ) {N C : ℕ} (h1 : N ≤ coords.size) (h2 : C * 8 ≤ cells.size)
    (h3 : ∀ i < C * 8, 0 ≤ cells.val i) :
    writeBox rnd coords cells N C = some (boxHead ++ bodyText rnd coords (fun c l => (cells.val (c * 8 + l)).toNat + 1) N C) := by
  unfold writeBox
  simp only [Option.bind_eq_bind]
  rw [writeCoords_spec rnd coords h1, Option.bind_some]
  have := writeCells_spec cells (fun l => l) [] (n := C) (fun l hl => hl) h2
  simp only [List.append_nil, Option.bind_eq_bind] at this
  rw [this]
  have e : fm (fun c => fm (fun l => fmtD 10 (cells.val (c * 8 + l) + 1)) 0 8 ++ ['\n']) 0 C =
      fm (fun c => fm (fun l => fmtD 10 (((cells.val (c * 8 + l)).toNat + 1 : ℕ) : ℤ)) 0 8 ++ ['\n']) 0 C := by
    unfold fm
    rw [List.flatMap_def, List.flatMap_def]
    congr 1
    refine List.map_congr_left fun c hc => ?_
    rw [List.mem_range'_1] at hc
    congr 1
    rw [List.flatMap_def, List.flatMap_def]
    congr 1
    refine List.map_congr_left fun l hl => ?_
    rw [List.mem_range'_1] at hl
    have := h3 (c * 8 + l) (by omega)
    rw [show cells.val (c * 8 + l) + 1 = (((cells.val (c * 8 + l)).toNat + 1 : ℕ) : ℤ) by omega]
  rw [e]
  unfold boxHead bodyText
  have e2 : chars "hexa8\n" = chars "hexa8" ++ ['\n'] := rfl
  rw [e2]
  simp only [List.append_assoc, List.cons_append, List.nil_append]

/-- **C102 (what happens).**  A mesh with `N` points and `C` cells (both below `10 ^ 9`) is written by the box mesh writer,
the file is cut off after `k` characters, for any `k`, and read by `read_mesh`, with any contents `q` of uninitialised
memory.  Cut inside the header: the reader never returns.  Cut inside the number of points, after at least one digit: it
returns a mesh with that many points, all of them uninitialised, and no cells.  Cut anywhere later: it returns, without any sign of
an error, a mesh with `N` points, of which the coordinates that are complete in the file are right and those that are
missing are uninitialised; the number of cells has lost the digits that were cut off (no digit: no cells); a node number in
a cell has lost the digits that were cut off, and is uninitialised memory when no digit is left. -/
theorem C102_cut_partial {rnd : ℝ → ℕ} (h : Nearest rnd) (coords : Arr (ℕ → ℝ)) (cells : Arr ℤ) {N C : ℕ} (h1 : N ≤ coords.size)
    (h2 : C * 8 ≤ cells.size) (h3 : ∀ i < C * 8, 0 ≤ cells.val i ∧ cells.val i + 1 < 10 ^ 9) (hN : 0 < N) (hN' : N < 10 ^ 9)
    (hC : 0 < C) (hC' : C < 10 ^ 9) :
    ∃ t, writeBox rnd coords cells N C = some t ∧ t.length = nodeEnd rnd coords N (C - 1) 7 + 1 ∧ ∀ (q : JunkT) (k : ℕ),
      (k < headLen → ∀ fuel, readMeshT fuel q (t.take k) = none) ∧
      (headLen ≤ k → k < headLen + 10 → N / 10 ^ (headLen + 10 - k) ≠ 0 → ∀ fuel ≥ t.length, ∃ m, readMeshT fuel q (t.take k) = some m ∧
        m.coords.size = N / 10 ^ (headLen + 10 - k) ∧ m.cells.size = 0 ∧
        ∀ p < N / 10 ^ (headLen + 10 - k), ∀ d < 3, m.coords.val p d = q.r p d) ∧
      (headLen + 10 ≤ k → ∀ fuel ≥ t.length, ∃ m, readMeshT fuel q (t.take k) = some m ∧ m.coords.size = N ∧
        (∀ p < N, ∀ d < 3,
          (coordPos rnd coords N d p + (fmtE rnd 12 (coords.val p d)).length ≤ k → m.coords.val p d = (toSci rnd (coords.val p d)).val) ∧
          (k ≤ coordPos rnd coords N d p → m.coords.val p d = q.r p d)) ∧
        m.cells.size = C / 10 ^ (countEnd rnd coords N - k) * 8 ∧
        ∀ c < C / 10 ^ (countEnd rnd coords N - k), ∀ l < 8,
          ∃ x : ℕ, x = (cells.val (c * 8 + convIn l) + 1).toNat / 10 ^ (nodeEnd rnd coords N c (convIn l) - k) ∧
          m.cells.val (c * 8 + l) = (if x = 0 then q.z (c * 8 + convIn l) else x) - 1) := by
  have hv : ∀ c < C, ∀ l < 8, 0 < (cells.val (c * 8 + l)).toNat + 1 ∧ (cells.val (c * 8 + l)).toNat + 1 < 10 ^ 9 := by
    intro c hc l hl
    have := h3 (c * 8 + l) (by omega)
    omega
  set v : ℕ → ℕ → ℕ := fun c l => (cells.val (c * 8 + l)).toNat + 1 with hvdef
  have hlen : (boxHead ++ bodyText rnd coords v N C).length = nodeEnd rnd coords N (C - 1) 7 + 1 := by
    rw [List.length_append, boxHead_length, body_length rnd coords v hN' hC' (fun c hc l hl => (hv c hc l hl).2)]
    unfold nodeEnd
    omega
  have htake : ∀ k, headLen ≤ k → (boxHead ++ bodyText rnd coords v N C).take k = boxHead ++ (bodyText rnd coords v N C).take (k - headLen) := by
    intro k hk
    rw [List.take_append, List.take_of_length_le (by rw [boxHead_length]; exact hk), boxHead_length]
  have hread : ∀ (q : JunkT) k, headLen ≤ k → ∀ fuel ≥ (boxHead ++ bodyText rnd coords v N C).length,
      readMeshT fuel q ((boxHead ++ bodyText rnd coords v N C).take k) = readBody q ((bodyText rnd coords v N C).take (k - headLen)) := by
    intro q k hk fuel hf
    rw [htake k hk]
    unfold readMeshT
    simp only [Option.bind_eq_bind]
    have hl : (boxHead ++ (bodyText rnd coords v N C).take (k - headLen)).length ≤ fuel := by
      refine le_trans ?_ hf
      rw [List.length_append, List.length_append]
      exact Nat.add_le_add_left (List.length_take_le' _ _) _
    have hh : loopM 8 (fun _ s => skipLine s) (boxHead ++ (bodyText rnd coords v N C).take (k - headLen)) =
        some ((bodyText rnd coords v N C).take (k - headLen)) := box_header _
    rw [headerLoop_of hh hl, Option.bind_some]
  refine ⟨_, writeBox_text rnd coords cells h1 h2 (fun i hi => (h3 i hi).1), hlen, fun q k => ⟨fun hk fuel => ?_, fun hk hk' hd fuel hf => ?_,
    fun hk fuel hf => ?_⟩⟩
  · unfold readMeshT
    simp only [Option.bind_eq_bind]
    rw [headerLoop_none, Option.bind_none]
    rw [List.take_append, show k - boxHead.length = 0 by rw [boxHead_length]; omega, List.take_zero, List.append_nil]
    have hp : boxHead.take k <+: boxHead.take 199 := by
      have : k ≤ 199 := by unfold headLen at hk; omega
      exact List.take_prefix_take_left this
    have := hp.sublist.count_le '\n'
    rw [boxHead_count] at this
    omega
  · have hs : 10 - (k - headLen) = headLen + 10 - k := by omega
    obtain ⟨m, e, m1, m2, m3⟩ := readBody_short (C := C) h coords v hN hN' q (k - headLen) (by omega) (by rw [hs]; exact hd)
    rw [hs] at m1 m3
    exact ⟨m, by rw [hread q k hk fuel hf]; exact e, m1, m2, m3⟩
  · obtain ⟨m, e, m1, m2, m3, m4⟩ := readBody_cut h coords v hN hN' hC hC' hv q (k - headLen) (by omega)
    rw [show headLen + (k - headLen) = k by omega] at m2 m3 m4
    refine ⟨m, ?_, m1, m2, m3, fun c hc l hl => ⟨_, rfl, ?_⟩⟩
    · rw [hread q k (by omega) fuel hf]; exact e
    · rw [m4 c hc l hl]
      have := h3 (c * 8 + convIn l) (by
        have := convIn_lt l hl
        have : C / 10 ^ (countEnd rnd coords N - k) ≤ C := Nat.div_le_self _ _
        omega)
      rw [show v c (convIn l) = (cells.val (c * 8 + convIn l) + 1).toNat by rw [hvdef]; simp only []; omega]
      split_ifs <;> rfl

theorem _root_.Verif.MeshBox.nid_last {i j k : ℕ} (hi : 1 ≤ i) (hj : 1 ≤ j) (hk : 1 ≤ k) :
    MeshBox.nid (i - 1) (j - 1) (k - 1) i j = i * j * k - 1 := by
  obtain ⟨i, rfl⟩ := Nat.exists_eq_add_of_le' hi
  obtain ⟨j, rfl⟩ := Nat.exists_eq_add_of_le' hj
  obtain ⟨k, rfl⟩ := Nat.exists_eq_add_of_le' hk
  unfold MeshBox.nid
  apply Nat.eq_sub_of_add_eq
  simp only [Nat.add_sub_cancel]
  ring

/-- **C102 (the claim fails).**  For every box mesh with at least eleven (and fewer than `10 ^ 9`) points: cut the last two
characters off its file (the newline and one digit).  `read_mesh` returns a mesh with the same points and cells as from
the complete file, except that one node of the last cell is another one; no uninitialised memory is involved. -/
theorem C102_negation (b : Box) (hb : b.Ok) (hn : b.points < 10 ^ 9) (h11 : 11 ≤ b.points) (q : MeshBox.Junk) {rnd : ℝ → ℕ} (h : Nearest rnd)
    (q' : JunkT) : ∃ r t, MeshBox.build b q = some r ∧ writeBox rnd r.coords r.cellPoints b.points b.cells = some t ∧
      ∀ fuel ≥ t.length, ∃ m m', readMeshT fuel q' t = some m ∧ readMeshT fuel q' (t.take (t.length - 2)) = some m' ∧
        m.coords.size = b.points ∧ m'.coords.size = b.points ∧ (∀ p < b.points, ∀ d < 3, m'.coords.val p d = m.coords.val p d) ∧
        m.cells.size = b.cells * 8 ∧ m'.cells.size = b.cells * 8 ∧
        (∀ i < b.cells * 8, i ≠ b.cells * 8 - 2 → m'.cells.val i = m.cells.val i) ∧
        m.cells.val (b.cells * 8 - 2) = b.points - 2 ∧ m'.cells.val (b.cells * 8 - 2) = ((b.points - 1) / 10 : ℕ) - 1 := by
  obtain ⟨r, e, ⟨r1, r2⟩, ⟨-, r3, r4⟩, -⟩ := MeshBox.build_spec b hb q
  have ho : ∀ l < 8, ∀ d, d < 3 → MeshBox.feOff l d ≤ 1 := by decide
  have hv : ∀ i < b.cells * 8, 0 ≤ r.cellPoints.val i ∧ r.cellPoints.val i + 1 < 10 ^ 9 := by
    intro x hx
    have hx8 : x / 8 < b.cells := by omega
    obtain ⟨s1, s2, s3, s4⟩ := lex3_surj (show x / 8 < b.ci * b.cj * b.ck from hx8)
    have hl : x % 8 < 8 := Nat.mod_lt _ (by decide)
    have := (r4 _ s3 _ s2 _ s1).2 (x % 8) hl
    have hid : MeshBox.nid (x / 8 % b.ci) (x / 8 / b.ci % b.cj) (x / 8 / b.ci / b.cj) b.ci b.cj = x / 8 := s4
    rw [hid, show x / 8 * 8 + x % 8 = x by omega] at this
    rw [this]
    have o0 := ho _ hl 0 (by omega); have o1 := ho _ hl 1 (by omega); have o2 := ho _ hl 2 (by omega)
    have hlt := MeshBox.nid_lt (ni := b.pi) (nj := b.pj) (nk := b.pk) (i := x / 8 % b.ci + MeshBox.feOff (x % 8) 0)
      (j := x / 8 / b.ci % b.cj + MeshBox.feOff (x % 8) 1) (k := x / 8 / b.ci / b.cj + MeshBox.feOff (x % 8) 2)
      (by unfold Box.pi; omega) (by unfold Box.pj; omega) (by unfold Box.pk; omega)
    have hlt : _ < b.points := hlt
    omega
  obtain ⟨hi, hj, hk⟩ := hb
  have hcpos : 0 < b.cells := Nat.mul_pos (Nat.mul_pos hi hj) hk
  have hcp : b.cells ≤ b.points := Nat.mul_le_mul (Nat.mul_le_mul (by unfold Box.pi; omega) (by unfold Box.pj; omega)) (by unfold Box.pk; omega)
  have hlast : r.cellPoints.val (b.cells * 8 - 1) = b.points - 2 := by
    have := (r4 (b.ck - 1) (by omega) (b.cj - 1) (by omega) (b.ci - 1) (by omega)).2 7 (by omega)
    rw [MeshBox.nid_last hi hj hk, show b.ci * b.cj * b.ck - 1 = b.cells - 1 from rfl] at this
    rw [show b.cells * 8 - 1 = (b.cells - 1) * 8 + 7 by omega, this, show MeshBox.feOff 7 0 = 0 from rfl, show MeshBox.feOff 7 1 = 1 from rfl,
      show MeshBox.feOff 7 2 = 1 from rfl]
    have hp := MeshBox.nid_last (i := b.pi) (j := b.pj) (k := b.pk) (by unfold Box.pi; omega) (by unfold Box.pj; omega) (by unfold Box.pk; omega)
    rw [show b.pi * b.pj * b.pk - 1 = b.points - 1 from rfl] at hp
    have hs : MeshBox.nid (b.pi - 1) (b.pj - 1) (b.pk - 1) b.pi b.pj = MeshBox.nid (b.ci - 1 + 0) (b.cj - 1 + 1) (b.ck - 1 + 1) b.pi b.pj + 1 := by
      unfold MeshBox.nid
      rw [show b.pi - 1 = b.ci - 1 + 0 + 1 by unfold Box.pi; omega, show b.pj - 1 = b.cj - 1 + 1 by unfold Box.pj; omega,
        show b.pk - 1 = b.ck - 1 + 1 by unfold Box.pk; omega]
      ring
    rw [hs] at hp
    omega
  obtain ⟨t, et, tl, H⟩ := C102_cut_partial h r.coords r.cellPoints (N := b.points) (C := b.cells) (by omega) (by omega) hv (by omega) hn
    hcpos (by omega)
  refine ⟨r, t, e, et, fun fuel hf => ?_⟩
  have hNE : ∀ c < b.cells, ∀ l < 8, nodeEnd rnd r.coords b.points c l + ((b.cells - 1 - c) * 81 + (7 - l) * 10) + 1 = t.length := by
    intro c hc l hl
    rw [tl]; unfold nodeEnd; omega
  have hCE : countEnd rnd r.coords b.points + 80 ≤ t.length - 2 := by
    rw [tl]; unfold nodeEnd; omega
  have hHE : headLen + 10 ≤ countEnd rnd r.coords b.points := by
    unfold countEnd; rw [coordPos_eq]; omega
  have hPE : ∀ p < b.points, ∀ d < 3, coordPos rnd r.coords b.points d p + (fmtE rnd 12 (r.coords.val p d)).length ≤
      countEnd rnd r.coords b.points := by
    intro p hp d hd
    unfold countEnd coordPos
    have a1 : ∑ p' ∈ range p, ((fmtE rnd 12 (r.coords.val p' d)).length + 1) + ((fmtE rnd 12 (r.coords.val p d)).length + 1) ≤
        ∑ p' ∈ range b.points, ((fmtE rnd 12 (r.coords.val p' d)).length + 1) := by
      rw [← Finset.sum_range_succ (fun p' => (fmtE rnd 12 (r.coords.val p' d)).length + 1)]
      exact Finset.sum_le_sum_of_subset (Finset.range_subset_range.2 hp)
    have a2 : ∑ d' ∈ range d, ∑ p' ∈ range b.points, ((fmtE rnd 12 (r.coords.val p' d')).length + 1) +
        ∑ p' ∈ range b.points, ((fmtE rnd 12 (r.coords.val p' d)).length + 1) ≤
        ∑ d' ∈ range 3, ∑ p' ∈ range b.points, ((fmtE rnd 12 (r.coords.val p' d')).length + 1) := by
      rw [← Finset.sum_range_succ (fun d' => ∑ p' ∈ range b.points, ((fmtE rnd 12 (r.coords.val p' d')).length + 1))]
      exact Finset.sum_le_sum_of_subset (Finset.range_subset_range.2 hd)
    omega
  obtain ⟨m, em, m1, m2, m3, m4⟩ := (H q' t.length).2.2 (by omega) fuel hf
  obtain ⟨m', em', m1', m2', m3', m4'⟩ := (H q' (t.length - 2)).2.2 (by omega) fuel hf
  rw [List.take_length] at em
  rw [show countEnd rnd r.coords b.points - t.length = 0 by omega, pow_zero, Nat.div_one] at m3 m4
  rw [show countEnd rnd r.coords b.points - (t.length - 2) = 0 by omega, pow_zero, Nat.div_one] at m3' m4'
  have full : ∀ c < b.cells, ∀ l < 8, m.cells.val (c * 8 + l) = r.cellPoints.val (c * 8 + convIn l) := by
    intro c hc l hl
    have hcl := convIn_lt l hl
    obtain ⟨x, hx, ex⟩ := m4 c hc l hl
    have := hNE c hc _ hcl
    have hv' := hv (c * 8 + convIn l) (by omega)
    rw [show nodeEnd rnd r.coords b.points c (convIn l) - t.length = 0 by omega, pow_zero, Nat.div_one] at hx
    rw [ex, if_neg (by omega)]
    omega
  refine ⟨m, m', em, em', m1, m1', ?_, m3, m3', ?_, ?_, ?_⟩
  · intro p hp d hd
    have := hPE p hp d hd
    rw [(m2 p hp d hd).1 (by omega), (m2' p hp d hd).1 (by omega)]
  · intro i hi' hne
    have hc : i / 8 < b.cells := by omega
    have hl : i % 8 < 8 := Nat.mod_lt _ (by decide)
    have hcl := convIn_lt _ hl
    have hc7 : ∀ l < 8, convIn l = 7 → l = 6 := by decide
    obtain ⟨x, hx, ex⟩ := m4' (i / 8) hc (i % 8) hl
    have hE := hNE _ hc _ hcl
    have hv' := hv (i / 8 * 8 + convIn (i % 8)) (by omega)
    have hz : nodeEnd rnd r.coords b.points (i / 8) (convIn (i % 8)) - (t.length - 2) = 0 := by
      by_cases h7 : convIn (i % 8) = 7
      · have := hc7 _ hl h7
        omega
      · omega
    rw [hz, pow_zero, Nat.div_one] at hx
    have hf' := full _ hc _ hl
    rw [show i / 8 * 8 + i % 8 = i by omega] at hf' ex
    rw [hf', ex, if_neg (by omega)]
    omega
  · have := full (b.cells - 1) (by omega) 6 (by omega)
    rw [show (b.cells - 1) * 8 + 6 = b.cells * 8 - 2 by omega, show convIn 6 = 7 from rfl,
      show (b.cells - 1) * 8 + 7 = b.cells * 8 - 1 by omega, hlast] at this
    exact this
  · obtain ⟨x, hx, ex⟩ := m4' (b.cells - 1) (by omega) 6 (by omega)
    have hE := hNE (b.cells - 1) (by omega) 7 (by omega)
    rw [show (b.cells - 1) * 8 + 6 = b.cells * 8 - 2 by omega] at ex
    rw [show convIn 6 = 7 from rfl] at ex hx
    rw [show (b.cells - 1) * 8 + 7 = b.cells * 8 - 1 by omega] at ex hx
    rw [hlast, show nodeEnd rnd r.coords b.points (b.cells - 1) 7 - (t.length - 2) = 1 by omega, pow_one,
      show ((b.points : ℤ) - 2 + 1).toNat = b.points - 1 by omega] at hx
    rw [ex, if_neg (by omega), hx]

/-- The box of `3 × 2 × 4` cells has 60 points: it meets the hypotheses of `C102_negation`, and its last node number
(59) is read from the cut file as 5. -/
example : ∃ b : Box, b.Ok ∧ b.points < 10 ^ 9 ∧ 11 ≤ b.points ∧ ((b.points : ℤ) - 2 = 58 ∧ ((b.points - 1) / 10 : ℕ) - 1 = 4) ∧ ∃ rnd, Nearest rnd :=
  ⟨⟨3, 2, 4, fun _ => 1, fun _ => 0⟩, ⟨by decide, by decide, by decide⟩, by decide, by decide, by decide, nearest_exists⟩

/-- One cube: the hypotheses of `C102_cut_partial` hold, and there are cut points in every part of the file. -/
example {rnd : ℝ → ℕ} (h : Nearest rnd) : ∃ t, writeBox rnd ⟨8, fun p d => if d = 0 then (p % 2 : ℕ) else if d = 1 then (p / 2 % 2 : ℕ) else (p / 4 : ℕ)⟩
    ⟨8, fun i => i⟩ 8 1 = some t ∧ headLen + 10 < t.length := by
  obtain ⟨t, e, tl, -⟩ := C102_cut_partial h ⟨8, fun p d => if d = 0 then (p % 2 : ℕ) else if d = 1 then (p / 2 % 2 : ℕ) else (p / 4 : ℕ)⟩
    ⟨8, fun i => i⟩ (N := 8) (C := 1) le_rfl le_rfl (fun i hi => ⟨by simp, by simp only []; omega⟩) (by omega) (by omega) (by omega) (by omega)
  refine ⟨t, e, ?_⟩
  rw [tl]; unfold nodeEnd countEnd coordPos; omega

end Verif.MeshFile
