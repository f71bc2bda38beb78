import Verif.VtuFile.File

/-!
# C106: what a viewer reads from the `.vtu` file of the Average example
-/

namespace Verif.VtuFile
open MeshFile
open Ensight (lines Text Disk Proc Crash Op exec step parent fmt05 sprintf write)
open Average (slice readPoly ClosedCube vtkWriter flatMap_length flatMap_slice)

variable {rnd : ℝ → ℕ} {f32 : ℕ → ℝ} (num_dim N C : ℕ) (x : ℕ → ℕ → ℝ) (nodes : ℕ → ℕ → ℕ)

/-- Natural numbers up to 2^24 are single precision numbers. -/
theorem Single.exact (h : Single f32) {c : ℕ} (hc : c ≤ 2 ^ 24) : f32 c = c := by
  have h1 : |f32 c - c| ≤ 0 := by
    rcases hc.lt_or_eq with hc | rfl
    · simpa using (h c).2 c 0 hc
    · refine ((h (2 ^ 24)).2 (2 ^ 23) 1 (by norm_num)).trans ?_
      norm_num
  have := abs_nonpos_iff.1 h1
  linarith

/-- 2^24 + 1 is not: it becomes one of its neighbours. -/
theorem Single.collide (h : Single f32) : f32 (2 ^ 24 + 1) = f32 (2 ^ 24) ∨ f32 (2 ^ 24 + 1) = f32 (2 ^ 24 + 2) := by
  have e2 : f32 (2 ^ 24 + 2) = 2 ^ 24 + 2 := by
    have h1 := (h (2 ^ 24 + 2)).2 (2 ^ 23 + 1) 1 (by norm_num)
    norm_num at h1
    norm_num; linarith [sub_eq_zero.1 h1]
  have e0 : f32 (2 ^ 24) = 2 ^ 24 := by rw [h.exact (le_refl (2 ^ 24)), Nat.cast_pow]; rfl
  rw [e0, e2]
  obtain ⟨⟨m, e, hm, hv⟩, hn⟩ := h (2 ^ 24 + 1)
  have hn := hn (2 ^ 23) 1 (by norm_num)
  norm_num [abs_le] at hn
  have he : 1 ≤ e := by
    by_contra hc
    have h1 : (2 : ℝ) ^ e ≤ 1 := by
      rw [show (1 : ℝ) = 2 ^ (0 : ℤ) by norm_num]; exact zpow_le_zpow_right₀ (by norm_num) (by omega)
    have h2 : (m : ℝ) + 1 ≤ 2 ^ 24 := by exact_mod_cast hm
    have h3 : (m : ℝ) * 2 ^ e ≤ m := mul_le_of_le_one_right (Nat.cast_nonneg m) h1
    rw [← hv] at h3
    norm_num at h2 h3
    linarith [hn.1]
  obtain ⟨k, rfl⟩ : ∃ k : ℕ, e = k + 1 := ⟨(e - 1).toNat, by omega⟩
  have hi : f32 (2 ^ 24 + 1) = ((2 * (m * 2 ^ k) : ℕ) : ℝ) := by
    rw [hv, zpow_add₀ (by norm_num)]; push_cast; rw [zpow_natCast]; ring
  rw [hi]
  norm_num at hi
  rw [hi] at hn
  have b1 : (16777216 : ℝ) ≤ ((2 * (m * 2 ^ k) : ℕ) : ℝ) := by push_cast; linarith [hn.1]
  have b2 : ((2 * (m * 2 ^ k) : ℕ) : ℝ) ≤ ((16777218 : ℕ) : ℝ) := by push_cast; linarith [hn.2]
  have b1 : 16777216 ≤ 2 * (m * 2 ^ k) := by exact_mod_cast b1
  have b2 : 2 * (m * 2 ^ k) ≤ 16777218 := by exact_mod_cast b2
  have : 2 * (m * 2 ^ k) = 16777216 ∨ 2 * (m * 2 ^ k) = 16777218 := by omega
  rcases this with e | e <;> rw [e] <;> norm_num

theorem points_get {n d : ℕ} (hn : n < N) (hd : d < 3) :
    ((List.range N).flatMap fun n => (List.range 3).map (x n))[3 * n + d]? = some (x n d) := by
  have h := flatMap_slice (fun n => (List.range 3).map (x n)) (w := 3) (fun n => by simp) hn
  have h2 : ((List.range 3).map (x n))[d]? = some (x n d) := by simp [hd]
  rw [← h, List.getElem?_take, if_pos hd, List.getElem?_drop] at h2
  exact h2

/-- **C106.**  The file written for any mesh is accepted, and a viewer gets: the numbers of points and cells; every coordinate of every
node within half a unit of the sixth decimal; for every cell a polyhedron with its eight nodes in order and the six faces of the cube
between them; and the number of the cell as its data, for cells up to 2^24. -/
theorem C106_vtu (hr : Nearest rnd) (hf : Single f32) :
    ∃ g, readVtu (vtuText rnd f32 num_dim N C x nodes) = some g ∧
      g.numPoints = N ∧ g.numCells = C ∧ g.points.length = 3 * N ∧ g.data.length = C ∧ g.types.length = C ∧ g.offsets.length = C ∧
      g.faceoffsets.length = C ∧ g.connectivity.length = 8 * C ∧ g.faces.length = 31 * C ∧
      (∀ n < N, ∀ d < 3, ∃ v, g.points[3 * n + d]? = some v ∧ |v - x n d| ≤ 5 / 10 ^ 7 ∧ ∀ z : ℤ, x n d = z / 10 ^ 6 → v = x n d) ∧
      ∃ F : List (List ℕ), ClosedCube F ∧ ∀ c < C, g.types[c]? = some 42 ∧
        slice g.connectivity g.offsets c = some ((List.range 8).map (nodes c)) ∧
        (slice g.faces g.faceoffsets c).bind readPoly = some (F.map fun f => f.map (nodes c)) ∧
        (c ≤ 2 ^ 24 → g.data[c]? = some (c : ℝ)) := by
  obtain ⟨-, -, h1, h2, h3, -, h5, h6, F, hF, hc⟩ := Average.C76_vtu N C nodes
  refine ⟨_, readVtu_vtu rnd f32 num_dim N C x nodes, rfl, rfl, ?_, by simp, h1, h2, h3, h5, h6, ?_, F, hF, ?_⟩
  · rw [List.length_map, flatMap_length (w := 3) _ fun n => by simp]
  · intro n hn d hd
    refine ⟨fixed rnd (x n d), by rw [List.getElem?_map, points_get N x hn hd]; rfl, fixed_err hr _, fun z hz => ?_⟩
    rw [hz, fixed_exact hr]
  · intro c hcC
    obtain ⟨-, g2, g3, g4⟩ := hc c hcC
    refine ⟨g2, g3, g4, fun h24 => ?_⟩
    show ((List.range C).map fun c => fixed rnd (f32 c))[c]? = _
    rw [List.getElem?_map, List.getElem?_range hcC, Option.map_some, hf.exact h24]
    have := fixed_exact hr (c * 10 ^ 6 : ℤ)
    have e : (((c : ℤ) * 10 ^ 6 : ℤ) : ℝ) / 10 ^ 6 = c := by push_cast; norm_num
    rw [e] at this
    rw [this]

/-- A rounding to single precision exists. -/
theorem single_exists : ∃ f, Single f := by
  have key : ∀ n : ℕ, ∃ v : ℝ, (∃ (m : ℕ) (e : ℤ), m < 2 ^ 24 ∧ v = m * (2 : ℝ) ^ e) ∧
      ∀ (m : ℕ) (e : ℤ), m < 2 ^ 24 → |v - n| ≤ |(m : ℝ) * (2 : ℝ) ^ e - n| := by
    intro n
    by_cases hn : n < 2 ^ 24
    · exact ⟨n, ⟨n, 0, hn, by simp⟩, fun m e _ => by simp⟩
    push Not at hn
    obtain ⟨e, q, r, hnq, hr, hq1, hq2⟩ : ∃ e q r : ℕ, n = q * 2 ^ e + r ∧ r < 2 ^ e ∧ 2 ^ 23 ≤ q ∧ q < 2 ^ 24 := by
      have h0 : n ≠ 0 := by omega
      have h1 := Nat.pow_log_le_self 2 h0
      have h2 := Nat.lt_pow_succ_log_self (b := 2) (by norm_num) n
      have h3 : 24 ≤ Nat.log 2 n := Nat.le_log_of_pow_le (by norm_num) hn
      obtain ⟨k, hk⟩ : ∃ k, Nat.log 2 n = k + 23 := ⟨Nat.log 2 n - 23, by omega⟩
      rw [hk] at h1 h2
      refine ⟨k, n / 2 ^ k, n % 2 ^ k, (Nat.div_add_mod' n (2 ^ k)).symm, Nat.mod_lt _ (by positivity), ?_, ?_⟩
      · rw [Nat.le_div_iff_mul_le (by positivity), ← pow_add, Nat.add_comm]; exact h1
      · rw [Nat.div_lt_iff_lt_mul (by positivity), ← pow_add]; convert h2 using 2; omega
    have hlow : ∀ (m : ℕ) (e' : ℤ), m < 2 ^ 24 → ((r : ℝ) ≤ |(m : ℝ) * (2 : ℝ) ^ e' - n|) ∨ (2 : ℝ) ^ e - r ≤ |(m : ℝ) * (2 : ℝ) ^ e' - n| := by
      intro m e' hm
      have hn' : (n : ℝ) = q * 2 ^ e + r := by rw [hnq]; push_cast; ring
      by_cases he : (e : ℤ) ≤ e'
      · obtain ⟨j, rfl⟩ : ∃ j : ℕ, e' = e + j := ⟨(e' - e).toNat, by omega⟩
        have ek : (m : ℝ) * (2 : ℝ) ^ ((e : ℤ) + j) = ((m * 2 ^ j : ℕ) : ℝ) * 2 ^ e := by
          rw [zpow_add₀ (by norm_num), zpow_natCast, zpow_natCast]; push_cast; ring
        rw [ek, hn']
        by_cases hk : m * 2 ^ j ≤ q
        · left
          have : ((m * 2 ^ j : ℕ) : ℝ) * 2 ^ e ≤ q * 2 ^ e := by gcongr
          rw [abs_sub_comm]; refine le_trans ?_ (le_abs_self _); linarith
        · right
          have h1 : q + 1 ≤ m * 2 ^ j := by omega
          have : ((q + 1 : ℕ) : ℝ) * 2 ^ e ≤ ((m * 2 ^ j : ℕ) : ℝ) * 2 ^ e := by gcongr
          push_cast at this ⊢
          refine le_trans ?_ (le_abs_self _); linarith
      · left
        have h1 : (m : ℝ) ≤ 2 ^ 24 := by exact_mod_cast hm.le
        have h2 : (2 : ℝ) ^ e' ≤ 2 ^ ((e : ℤ) - 1) := zpow_le_zpow_right₀ (by norm_num) (by omega)
        have h3 : (m : ℝ) * 2 ^ e' ≤ 2 ^ 24 * 2 ^ ((e : ℤ) - 1) := mul_le_mul h1 h2 (zpow_nonneg (by norm_num) e') (by norm_num)
        have h4 : (2 : ℝ) ^ ((e : ℤ) - 1) = 2 ^ e / 2 := by rw [zpow_sub₀ (by norm_num), zpow_natCast, zpow_one]
        have h5 : (2 : ℝ) ^ 23 * 2 ^ e ≤ q * 2 ^ e := by
          have : (2 : ℝ) ^ 23 ≤ q := by exact_mod_cast hq1
          gcongr
        rw [h4] at h3
        rw [abs_sub_comm, hn']; refine le_trans ?_ (le_abs_self _)
        have : (2 : ℝ) ^ 24 * (2 ^ e / 2) = 2 ^ 23 * 2 ^ e := by ring
        linarith
    have hn' : (n : ℝ) = q * 2 ^ e + r := by rw [hnq]; push_cast; ring
    have hr' : (r : ℝ) < 2 ^ e := by exact_mod_cast hr
    by_cases hh : 2 * r ≤ 2 ^ e
    · have hh' : 2 * (r : ℝ) ≤ 2 ^ e := by exact_mod_cast hh
      refine ⟨q * 2 ^ e, ⟨q, e, hq2, by rw [zpow_natCast]⟩, fun m e' hm => ?_⟩
      have e1 : |(q : ℝ) * 2 ^ e - n| = r := by rw [hn', abs_sub_comm, abs_of_nonneg] <;> simp
      rw [e1]
      rcases hlow m e' hm with h | h <;> linarith
    · have hh' : (2 : ℝ) ^ e < 2 * r := by exact_mod_cast not_le.1 hh
      refine ⟨(q + 1) * 2 ^ e, ?_, fun m e' hm => ?_⟩
      · by_cases hq : q + 1 < 2 ^ 24
        · exact ⟨q + 1, e, hq, by rw [zpow_natCast]; push_cast; ring⟩
        · refine ⟨2 ^ 23, e + 1, by norm_num, ?_⟩
          have : q = 2 ^ 24 - 1 := by omega
          rw [this, zpow_add₀ (by norm_num), zpow_natCast]; norm_num; ring
      · have e1 : |((q : ℝ) + 1) * 2 ^ e - n| = 2 ^ e - r := by
          rw [hn', abs_of_nonneg] <;> linarith
        rw [e1]
        rcases hlow m e' hm with h | h <;> linarith
  choose f hf using key
  exact ⟨f, hf⟩

/-- Nodes a millionth apart, one cell on nodes 0 to 7: what C106 asks for is there, and the coordinates are read exactly. -/
example : ∃ (rnd : ℝ → ℕ) (f32 : ℕ → ℝ) (g : Grid), Nearest rnd ∧ Single f32 ∧
    readVtu (vtuText rnd f32 3 8 1 (fun n d => ((n * d : ℤ) : ℝ) / 10 ^ 6) fun _ l => l) = some g ∧
      g.points[3 * 7 + 2]? = some (14 / 10 ^ 6) ∧ slice g.connectivity g.offsets 0 = some [0, 1, 2, 3, 4, 5, 6, 7] := by
  obtain ⟨rnd, hr⟩ := nearest_exists
  obtain ⟨f32, hf⟩ := single_exists
  obtain ⟨g, hg, -, -, -, -, -, -, -, -, -, hp, F, -, hc⟩ := C106_vtu 3 8 1 (fun n d => ((n * d : ℤ) : ℝ) / 10 ^ 6) (fun _ l => l) hr hf
  obtain ⟨v, hv, -, he⟩ := hp 7 (by norm_num) 2 (by norm_num)
  refine ⟨rnd, f32, g, hr, hf, hg, ?_, (hc 0 (by norm_num)).2.1⟩
  rw [hv, he 14 (by norm_num)]; norm_num

/-- **C106**: a file that is cut anywhere is not accepted. -/
theorem C106_cut (rnd : ℝ → ℕ) (f32 : ℕ → ℝ) {t : Text} (h : t <+: vtuText rnd f32 num_dim N C x nodes)
    (hne : t ≠ vtuText rnd f32 num_dim N C x nodes) : readVtu t = none := by
  obtain ⟨L, hL, hend⟩ := end_vtu rnd f32 num_dim N C x nodes
  have e : vtuText rnd f32 num_dim N C x nodes = (unl L ++ chars "</VTKFile> ") ++ ['\n'] := by
    rw [vtuText_lines, hL, unl_append]; simp [unl]
  have hl := lines_vtu rnd f32 num_dim N C x nodes
  rw [e] at h hne hl
  obtain ⟨h1, h2⟩ := Ensight.lines_cut h hne
  rw [hl, hL] at h1 h2
  have h3 : lines t <+: L := by
    rcases List.prefix_concat_iff.1 h1 with e | e
    · rw [e] at h2; omega
    · exact e
  unfold readVtu
  rw [if_neg]
  rw [Bool.not_eq_true, List.any_eq_false]
  intro l hl; rw [hend l (h3.subset hl)]; simp

/-- There is always something to cut. -/
example (rnd : ℝ → ℕ) (f32 : ℕ → ℝ) : readVtu ((vtuText rnd f32 3 8 1 x nodes).dropLast) = none := by
  refine C106_cut 3 8 1 x nodes rnd f32 (List.dropLast_prefix _) fun h => ?_
  have h1 := congrArg List.length h
  rw [List.length_dropLast] at h1
  have : vtuText rnd f32 3 8 1 x nodes = [] := List.length_eq_zero_iff.1 (by omega)
  obtain ⟨L, hL, -⟩ := end_vtu rnd f32 3 8 1 x nodes
  rw [vtuText_lines, hL, unl_append] at this
  simp [unl] at this

/-- **C106**, not guaranteed: nodes that are different stay different in the file. -/
theorem C106_collapse_negation (hr : Nearest rnd) :
    ∃ (x : ℕ → ℕ → ℝ) (g : Grid), x 0 0 ≠ x 1 0 ∧ readVtu (vtuText rnd f32 3 2 0 x nodes) = some g ∧
      ∀ d < 3, g.points[3 * 0 + d]? = g.points[3 * 1 + d]? ∧ (g.points[3 * 1 + d]?).isSome := by
  refine ⟨fun n _ => n / 10 ^ 7, _, by norm_num, readVtu_vtu rnd f32 3 2 0 _ nodes, fun d hd => ?_⟩
  have h0 : fixed rnd 0 = 0 := by simpa using fixed_exact hr 0
  have h1 : fixed rnd (1 / 10 ^ 7) = 0 := by
    have h := hr (|(1 : ℝ) / 10 ^ 7| * 10 ^ 6) (by positivity)
    have e : |(1 : ℝ) / 10 ^ 7| * 10 ^ 6 = 1 / 10 := by rw [abs_of_pos (by norm_num)]; norm_num
    have : rnd (|(1 : ℝ) / 10 ^ 7| * 10 ^ 6) = 0 := by
      rw [e] at h ⊢
      by_contra hc
      have : (1 : ℝ) ≤ rnd (1 / 10) := by exact_mod_cast Nat.one_le_iff_ne_zero.2 hc
      rw [abs_le] at h; linarith [h.2]
    unfold fixed; rw [this]; simp
  simp only [List.getElem?_map]
  rw [points_get 2 _ (by norm_num) hd, points_get 2 _ (by norm_num) hd]
  simp only [Option.map_some]
  norm_num at h1 ⊢
  rw [h0, h1]

/-- **C106**, not guaranteed: the data identify the cells.  With more than 2^24 + 2 cells two of them have the same number. -/
theorem C106_ids_negation (hf : Single f32) (hC : 2 ^ 24 + 3 ≤ C) :
    ∃ (g : Grid) (c c' : ℕ), readVtu (vtuText rnd f32 num_dim N C x nodes) = some g ∧ c < c' ∧ c' < C ∧ g.data[c]? = g.data[c']? := by
  have key : ∀ c c', c < C → c' < C → f32 c = f32 c' →
      ((List.range C).map fun c => fixed rnd (f32 c))[c]? = ((List.range C).map fun c => fixed rnd (f32 c))[c']? := by
    intro c c' h h' e
    rw [List.getElem?_map, List.getElem?_map, List.getElem?_range h, List.getElem?_range h', Option.map_some, Option.map_some, e]
  rcases hf.collide with e | e
  · exact ⟨_, 2 ^ 24, 2 ^ 24 + 1, readVtu_vtu .., by norm_num, by omega, key _ _ (by omega) (by omega) e.symm⟩
  · exact ⟨_, 2 ^ 24 + 1, 2 ^ 24 + 2, readVtu_vtu .., by norm_num, by omega, key _ _ (by omega) (by omega) e⟩

example (hf : Single f32) : ∃ (g : Grid) (c c' : ℕ), readVtu (vtuText rnd f32 3 0 20000000 x nodes) = some g ∧ c < c' ∧ c' < 20000000 ∧
    g.data[c]? = g.data[c']? := C106_ids_negation 3 0 20000000 x nodes hf (by norm_num)

/-! ## The file on disk -/

theorem mkdir_ok {d : Disk} {p : Text} (hp : d.dirs (parent p) = true) (h : d.dirs p = true ∨ d.files p = none) :
    step ⟨d, none⟩ (.mkdir p) = some ⟨{ d with dirs := Function.update d.dirs p true }, none⟩ := by
  simp only [step]
  by_cases hd : d.dirs p = true
  · have : Function.update d.dirs p true = d.dirs := by rw [← hd, Function.update_eq_self]
    rw [if_pos (by simp [hd]), this]
  · have hf : d.files p = none := by rcases h with h | h
                                     · exact absurd h hd
                                     · exact h
    rw [if_neg (by simp [hd, hf]), if_pos hp]

/-- The name of the file. -/
def vtuName (graphics_id : ℕ) : Text := chars "vtk/data/Testing_" ++ fmt05 graphics_id ++ chars "_0.vtu"

theorem fmt05_dig (n : ℕ) : ∀ c ∈ fmt05 n, isDig c = true := by
  intro c hc
  rcases List.mem_append.1 hc with h | h
  · rw [(List.mem_replicate.1 h).2]; decide
  · exact dec_dig n c h

theorem parent_vtu (n : ℕ) : parent (vtuName n) = chars "vtk/data" := by
  have h : '/' ∉ chars "Testing_" ++ fmt05 n ++ chars "_0.vtu" := by
    simp only [List.mem_append, not_or]
    refine ⟨⟨by decide +kernel, fun h => ?_⟩, by decide +kernel⟩
    have := fmt05_dig n _ h; revert this; decide
  have e : vtuName n = chars "vtk/data" ++ ['/'] ++ (chars "Testing_" ++ fmt05 n ++ chars "_0.vtu") := by
    have : chars "vtk/data/Testing_" = chars "vtk/data" ++ ['/'] ++ chars "Testing_" := by decide +kernel
    unfold vtuName; rw [this]; simp
  rw [e]
  generalize chars "Testing_" ++ fmt05 n ++ chars "_0.vtu" = w at h
  unfold parent
  rw [List.reverse_append, List.dropWhile_append_of_pos (by
    intro c hc
    have : c ≠ '/' := by rintro rfl; exact h (List.mem_reverse.1 hc)
    simp [this])]
  decide +kernel

/-- **C106**: the operating system's view.  In a directory where `vtk` and `vtk/data` are directories or do not exist, `vtk_writer`
comes back and leaves the complete file; a process that dies at any moment leaves all other files alone and, instead of the file, what
was there before, a file that is not accepted, or the complete file. -/
theorem C106_crash (rnd : ℝ → ℕ) (f32 : ℕ → ℝ) {graphics_id : ℕ} (hid : graphics_id < 2 ^ 31) (d : Disk) (h0 : d.dirs [] = true)
    (h1 : d.dirs (chars "vtk") = true ∨ d.files (chars "vtk") = none)
    (h2 : d.dirs (chars "vtk/data") = true ∨ d.files (chars "vtk/data") = none)
    (h3 : d.dirs (vtuName graphics_id) = false) :
    ∃ ops, vtkOps rnd f32 num_dim N C x nodes graphics_id = some ops ∧
      (∃ s, exec ops ⟨d, none⟩ = some s ∧ s.cur = none ∧ s.disk.files (vtuName graphics_id) = some (vtuText rnd f32 num_dim N C x nodes)) ∧
      ∀ d', Crash ⟨d, none⟩ ops d' → (∀ q, q ≠ vtuName graphics_id → d'.files q = d.files q) ∧
        (d'.files (vtuName graphics_id) = d.files (vtuName graphics_id) ∨
          d'.files (vtuName graphics_id) = some (vtuText rnd f32 num_dim N C x nodes) ∨
          ∃ t, d'.files (vtuName graphics_id) = some t ∧ readVtu t = none) := by
  have hp : chars "vtk/data/Testing_" ++ fmt05 graphics_id ++ chars "_" ++ fmtD 0 0 ++ chars ".vtu" = vtuName graphics_id := by
    have e1 : fmtD 0 0 = dec 0 := fmtD_word 0
    have e2 : chars "_0.vtu" = chars "_" ++ dec 0 ++ chars ".vtu" := by rw [dec, if_pos (by norm_num)]; decide +kernel
    unfold vtuName; rw [e1, e2]; simp only [List.append_assoc]
  have hlen : (vtuName graphics_id).length + 1 ≤ 128 := by
    have := dec_length (n := graphics_id) (k := 10) (by norm_num) (by omega)
    have a : (chars "vtk/data/Testing_").length = 17 := by decide +kernel
    have b : (chars "_0.vtu").length = 6 := by decide +kernel
    unfold vtuName fmt05
    simp only [List.length_append, List.length_replicate, a, b]
    omega
  refine ⟨_, by unfold vtkOps; rw [hp, sprintf, if_pos hlen]; rfl, ?_⟩
  have ne1 : chars "vtk/data" ≠ chars "vtk" := by decide
  have p1 : parent (chars "vtk") = [] := by decide
  have p2 : parent (chars "vtk/data") = chars "vtk" := by decide
  have s1 := mkdir_ok (d := d) (p := chars "vtk") (by rw [p1]; exact h0) h1
  let d1 : Disk := { d with dirs := Function.update d.dirs (chars "vtk") true }
  have s2 := mkdir_ok (d := d1) (p := chars "vtk/data") (by rw [p2]; simp [d1]) (by simpa [d1, Function.update_of_ne ne1] using h2)
  let d2 : Disk := { d1 with dirs := Function.update d1.dirs (chars "vtk/data") true }
  have hx : exec [.mkdir (chars "vtk"), .mkdir (chars "vtk/data")] ⟨d, none⟩ = some ⟨d2, none⟩ := by
    simp only [exec, s1, Option.bind_some]
    rw [show ({ d with dirs := Function.update d.dirs (chars "vtk") true } : Disk) = d1 from rfl, s2]; rfl
  have hv : ∀ w : Text, w.length ≤ 8 → vtuName graphics_id ≠ w := by
    intro w hw e
    have a : (chars "vtk/data/Testing_").length = 17 := by decide +kernel
    have := congrArg List.length e
    unfold vtuName at this
    simp only [List.length_append, a] at this
    omega
  have ok : d2.Ok (vtuName graphics_id) := by
    refine ⟨by rw [parent_vtu]; simp [d2], ?_⟩
    simp only [d2, d1]
    rw [Function.update_of_ne (hv _ (by decide)), Function.update_of_ne (hv _ (by decide)), h3]
  constructor
  · refine ⟨_, by rw [Ensight.exec_append, hx, Option.bind_some, Ensight.exec_write ok], rfl, ?_⟩
    exact Disk.put_same ..
  · intro d' hd'
    rcases hd'.append with h | ⟨s, hs, h⟩
    · have : d'.files = d.files := by
        cases h with
        | now h => rw [show d' = d from h]
        | later e h =>
          rw [s1] at e; cases e
          cases h with
          | now h => rw [show d' = d1 from h]
          | later e h =>
            rw [show ({ d with dirs := Function.update d.dirs (chars "vtk") true } : Disk) = d1 from rfl, s2] at e; cases e
            cases h with
            | now h => rw [show d' = d2 from h]
      exact ⟨fun q _ => by rw [this], .inl (by rw [this])⟩
    · rw [hx] at hs; cases hs
      rcases Ensight.crash_write h with rfl | ⟨u, hu, rfl⟩
      · exact ⟨fun q _ => rfl, .inl rfl⟩
      · refine ⟨fun q hq => by rw [Disk.put_ne _ _ hq], .inr ?_⟩
        rw [Disk.put_same]
        by_cases hu' : u = vtuText rnd f32 num_dim N C x nodes
        · left; rw [hu']
        · exact .inr ⟨u, rfl, C106_cut num_dim N C x nodes rnd f32 hu hu'⟩

/-- An empty working directory. -/
def empty : Disk := ⟨fun p => decide (p = []), fun _ => none⟩

example (rnd : ℝ → ℕ) (f32 : ℕ → ℝ) : ∃ ops s, vtkOps rnd f32 3 8 1 x nodes 7 = some ops ∧ exec ops ⟨empty, none⟩ = some s ∧
    s.disk.files (chars "vtk/data/Testing_00007_0.vtu") = some (vtuText rnd f32 3 8 1 x nodes) := by
  obtain ⟨ops, ho, ⟨s, hs, -, hf⟩, -⟩ := C106_crash 3 8 1 x nodes rnd f32 (graphics_id := 7) (by norm_num) empty rfl (.inr rfl) (.inr rfl)
    (by simp [empty, vtuName]; decide +kernel)
  refine ⟨ops, s, ho, hs, ?_⟩
  have : chars "vtk/data/Testing_00007_0.vtu" = vtuName 7 := by
    unfold vtuName fmt05; rw [dec, if_pos (by norm_num)]; decide +kernel
  rw [this]; exact hf

/-- **C106**, not guaranteed: a file written before under the same number survives.  (The number is only changed by `ensight`.) -/
theorem C106_lost_negation (rnd : ℝ → ℕ) (f32 : ℕ → ℝ) (old : Text) : ∃ (d d' : Disk) (ops : List Op),
    d.files (vtuName 0) = some old ∧ vtkOps rnd f32 num_dim N C x nodes 0 = some ops ∧ Crash ⟨d, none⟩ ops d' ∧
      d'.files (vtuName 0) = some [] ∧ readVtu [] = none := by
  let d : Disk := ⟨fun p => decide (p = [] ∨ p = chars "vtk" ∨ p = chars "vtk/data"), fun p => if p = vtuName 0 then some old else none⟩
  have hn : chars "vtk/data/Testing_" ++ fmt05 0 ++ chars "_" ++ fmtD 0 0 ++ chars ".vtu" = vtuName 0 := by
    have e1 : fmtD 0 0 = dec 0 := fmtD_word 0
    have e2 : chars "_0.vtu" = chars "_" ++ dec 0 ++ chars ".vtu" := by rw [dec, if_pos (by norm_num)]; decide +kernel
    unfold vtuName; rw [e1, e2]; simp only [List.append_assoc]
  have hv : vtuName 0 = chars "vtk/data/Testing_00000_0.vtu" := by
    unfold vtuName fmt05; rw [dec, if_pos (by norm_num)]; decide +kernel
  have hlen : (vtuName 0).length + 1 ≤ 128 := by rw [hv]; decide +kernel
  have ok : d.Ok (vtuName 0) := ⟨by rw [parent_vtu]; simp [d], by rw [hv]; simp only [d]; decide +kernel⟩
  refine ⟨d, d.put (vtuName 0) [], _, by simp [d], by unfold vtkOps; rw [hn, sprintf, if_pos hlen]; rfl, ?_, Disk.put_same .., ?_⟩
  · refine Crash.right (s' := ⟨d, none⟩) ?_ (Ensight.write_crash ok List.nil_prefix)
    simp [exec, step, d]
  · unfold readVtu; rw [if_neg (by decide)]

end Verif.VtuFile
