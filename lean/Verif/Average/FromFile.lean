import Verif.Average.MainTheorems
import Verif.MeshFile.Theorems

/-!
# C79: from the box mesh generator to the end of the Average example
-/

namespace Verif.Average
open Verif.Swage Verif.MeshBox
open Verif.MeshFile (Nearest toSci toSci_spec readMesh writeBox box_spec)

/-- The Average example started with a mesh file: `read_mesh` (average.cpp:355-470), then the rest of `main` (average.cpp:147-347,
`program`).  Node numbers, stored as integers by the model of the reader, are converted with `Int.toNat`. -/
noncomputable def programFile (q' : MeshFile.Junk) (q : SetupJunk) (u : ℕ → Fill) (j1 j2 : ℕ → ℕ → ℝ) (jt : ℕ → ℝ)
    (file : List Char) : Option (Mesh × Run) := do
  let m ← readMesh q' file
  program (m.cells.size / 8) m.coords.size (fun c l => (m.cells.val (c * 8 + l)).toNat) m.coords.val q u j1 j2 jt

/-- The mesh spacing is at least a thousandth of the largest coordinate, in each direction. -/
def Fine (b : Box) : Prop := ∀ d < 3, 0 < b.len d ∧ |b.shift d| ≤ 1000 * b.step d ∧ |b.shift d + b.len d| ≤ 1000 * b.step d

/-- Number of cells in direction `d`. -/
def cnt (b : Box) (d : ℕ) : ℕ := if d = 0 then b.ci else if d = 1 then b.cj else b.ck

theorem step_cnt {b : Box} (hb : b.Ok) {d : ℕ} (hd : d < 3) : b.step d * cnt b d = b.len d := by
  obtain ⟨h1, h2, h3⟩ := hb
  have c1 : (b.ci : ℝ) ≠ 0 := by have : b.ci ≠ 0 := by omega
                                 exact_mod_cast this
  have c2 : (b.cj : ℝ) ≠ 0 := by have : b.cj ≠ 0 := by omega
                                 exact_mod_cast this
  have c3 : (b.ck : ℝ) ≠ 0 := by have : b.ck ≠ 0 := by omega
                                 exact_mod_cast this
  unfold Box.step cnt
  interval_cases d <;> simp [Box.pi, Box.pj, Box.pk] <;> field_simp

/-- Position of printed plane `i`. -/
noncomputable def plane (rnd : ℝ → ℕ) (b : Box) (d i : ℕ) : ℝ := (toSci rnd (b.shift d + i * b.step d)).val

/-- Printing error of plane `i`. -/
noncomputable def err (rnd : ℝ → ℕ) (b : Box) (d i : ℕ) : ℝ := plane rnd b d i - (b.shift d + i * b.step d)

/-- The planes of the mesh in the file, continued at both ends. -/
noncomputable def boxX (rnd : ℝ → ℕ) (b : Box) (d : ℕ) (z : ℤ) : ℝ :=
  b.shift d + z * b.step d + err rnd b d (min z.toNat (cnt b d))

section
variable {rnd : ℝ → ℕ} {b : Box}

theorem boxX_plane {d i : ℕ} (hi : i ≤ cnt b d) : boxX rnd b d i = plane rnd b d i := by
  unfold boxX err
  rw [Int.toNat_natCast, Nat.min_eq_left hi]
  push_cast; ring

theorem step_pos (hb : b.Ok) (hf : Fine b) {d : ℕ} (hd : d < 3) : 0 < b.step d := by
  have h1 := step_cnt hb hd
  have h2 := (hf d hd).1
  by_contra hc
  have : b.step d * cnt b d ≤ 0 := mul_nonpos_of_nonpos_of_nonneg (not_lt.1 hc) (Nat.cast_nonneg _)
  linarith

theorem err_le (h : Nearest rnd) (hb : b.Ok) (hf : Fine b) {d i : ℕ} (hd : d < 3) (hi : i ≤ cnt b d) :
    |err rnd b d i| ≤ b.step d / 200 := by
  have hs := step_pos hb hf hd
  obtain ⟨-, h2, h3⟩ := hf d hd
  rw [abs_le] at h2 h3
  have h4 := step_cnt hb hd
  have h5 : (i : ℝ) * b.step d ≤ b.len d := by
    rw [← h4, mul_comm (b.step d)]
    exact mul_le_mul_of_nonneg_right (by exact_mod_cast hi) hs.le
  have h6 : 0 ≤ (i : ℝ) * b.step d := by positivity
  have h7 : |b.shift d + i * b.step d| ≤ 1000 * b.step d := by
    rw [abs_le]; constructor <;> linarith
  unfold err plane
  refine (toSci_spec h _).2.trans ?_
  have := mul_le_mul_of_nonneg_left h7 (show (0 : ℝ) ≤ 5 / 10 ^ 6 by norm_num)
  refine this.trans (le_of_eq ?_)
  ring

theorem width (h : Nearest rnd) (hb : b.Ok) (hf : Fine b) {d : ℕ} (hd : d < 3) (z : ℤ) :
    0.99 * b.step d ≤ boxX rnd b d (z + 1) - boxX rnd b d z ∧ boxX rnd b d (z + 1) - boxX rnd b d z ≤ 1.01 * b.step d := by
  have e1 := abs_le.1 (err_le h hb hf hd (Nat.min_le_right (z + 1).toNat (cnt b d)))
  have e2 := abs_le.1 (err_le h hb hf hd (Nat.min_le_right z.toNat (cnt b d)))
  unfold boxX
  push_cast
  norm_num
  constructor <;> nlinarith [e1.1, e1.2, e2.1, e2.2]

/-- Position of cell `c` of the box. -/
def boxPos (b : Box) (c d : ℕ) : ℤ :=
  ((if d = 0 then c % b.ci else if d = 1 then c / b.ci % b.cj else c / b.ci / b.cj : ℕ) : ℤ)

/-- The tables read from the file of a box mesh. -/
structure Read (rnd : ℝ → ℕ) (b : Box) (m : MeshFile.MeshIn) : Prop where
  points : m.coords.size = b.points
  cells : m.cells.size = b.cells * 8
  coords : ∀ i ≤ b.ci, ∀ j ≤ b.cj, ∀ k ≤ b.ck, ∀ d < 3, m.coords.val (nid i j k b.pi b.pj) d = (toSci rnd (ptOf b i j k d)).val
  nodes : ∀ i < b.ci, ∀ j < b.cj, ∀ k < b.ck, ∀ a < 2, ∀ e < 2, ∀ f < 2,
    m.cells.val (nid i j k b.ci b.cj * 8 + (a + 2 * e + 4 * f)) = nid (i + a) (j + e) (k + f) b.pi b.pj

/-- `nodes_in_cell(c, l)` of the mesh read. -/
def readNode (m : MeshFile.MeshIn) (c l : ℕ) : ℕ := (m.cells.val (c * 8 + l)).toNat

variable {m : MeshFile.MeshIn}

theorem Read.node (R : Read rnd b m) {c l : ℕ} (hc : c < b.cells) (hl : l < 8) : readNode m c l =
    nid (c % b.ci + l % 2) (c / b.ci % b.cj + l / 2 % 2) (c / b.ci / b.cj + l / 4) b.pi b.pj := by
  obtain ⟨s1, s2, s3, s4⟩ := lex3_surj (show c < b.ci * b.cj * b.ck from hc)
  have h := R.nodes _ s1 _ s2 _ s3 (l % 2) (by omega) (l / 2 % 2) (by omega) (l / 4) (by omega)
  have hid : nid (c % b.ci) (c / b.ci % b.cj) (c / b.ci / b.cj) b.ci b.cj = c := s4
  rw [hid, show l % 2 + 2 * (l / 2 % 2) + 4 * (l / 4) = l by omega] at h
  unfold readNode
  rw [h, Int.toNat_natCast]

theorem Read.coord (R : Read rnd b m) {c l d : ℕ} (hc : c < b.cells) (hl : l < 8) (hd : d < 3) :
    m.coords.val (readNode m c l) d = boxX rnd b d (boxPos b c d + Key.bit l d) := by
  obtain ⟨s1, s2, s3, -⟩ := lex3_surj (show c < b.ci * b.cj * b.ck from hc)
  obtain ⟨b0, b1, b2⟩ := Refine.bit_digs l hl
  rw [R.node hc hl, R.coords _ (by omega) _ (by omega) _ (by omega) d hd]
  have : d = 0 ∨ d = 1 ∨ d = 2 := by omega
  rcases this with rfl | rfl | rfl
  · rw [b0]
    have e : boxPos b c 0 + ((l % 2 : ℕ) : ℤ) = ((c % b.ci + l % 2 : ℕ) : ℤ) := by simp [boxPos]
    rw [e, boxX_plane (show c % b.ci + l % 2 ≤ b.ci by omega)]
    rfl
  · rw [b1]
    have e : boxPos b c 1 + ((l / 2 % 2 : ℕ) : ℤ) = ((c / b.ci % b.cj + l / 2 % 2 : ℕ) : ℤ) := by simp [boxPos]
    rw [e, boxX_plane (show c / b.ci % b.cj + l / 2 % 2 ≤ b.cj by omega)]
    rfl
  · rw [b2]
    have e : boxPos b c 2 + ((l / 4 : ℕ) : ℤ) = ((c / b.ci / b.cj + l / 4 : ℕ) : ℤ) := by simp [boxPos]
    rw [e, boxX_plane (show c / b.ci / b.cj + l / 4 ≤ b.ck by omega)]
    rfl

theorem incr_inj {f : ℤ → ℝ} (h : ∀ z, f z < f (z + 1)) {a c : ℤ} (hac : f a = f c) : a = c :=
  (strictMono_int_of_lt_succ h).injective hac

/-- The mesh read from the file of a box mesh is a rectilinear grid of nearly equal cells. -/
theorem Read.grid (R : Read rnd b m) (h : Nearest rnd) (hb : b.Ok) (hf : Fine b) :
    Key.Grid b.cells b.points (readNode m) m.coords.val (boxX rnd b) (boxPos b) := by
  have hinc : ∀ d < 3, ∀ z, boxX rnd b d z < boxX rnd b d (z + 1) := by
    intro d hd z
    have h1 := (width h hb hf hd z).1
    have h2 := step_pos hb hf hd
    norm_num at h1
    linarith
  have hpos : ∀ c < b.cells, c % b.ci < b.ci ∧ c / b.ci % b.cj < b.cj ∧ c / b.ci / b.cj < b.ck := fun c hc => by
    obtain ⟨s1, s2, s3, -⟩ := lex3_surj (show c < b.ci * b.cj * b.ck from hc)
    exact ⟨s1, s2, s3⟩
  refine ⟨?_, ?_, hinc, ?_, fun c hc l hl d hd => R.coord hc hl hd, ?_, ?_⟩
  · obtain ⟨h1, h2, h3⟩ := hb
    exact Nat.mul_pos (Nat.mul_pos h1 h2) h3
  · intro c hc l hl
    obtain ⟨s1, s2, s3⟩ := hpos c hc
    rw [R.node hc hl]
    exact nid_lt (by unfold Box.pi; omega) (by unfold Box.pj; omega) (by unfold Box.pk; omega)
  · intro d hd z
    have h1 := (width h hb hf hd z).1
    have h2 := (width h hb hf hd (boxPos b (b.cells - 1) d)).2
    have h3 := step_pos hb hf hd
    norm_num at h1 h2 ⊢
    linarith
  · intro c hc l hl c' hc' l' hl' hx
    have key : ∀ d < 3, boxPos b c d + Key.bit l d = boxPos b c' d + Key.bit l' d := by
      intro d hd
      have := hx d hd
      rw [R.coord hc hl hd, R.coord hc' hl' hd] at this
      exact incr_inj (hinc d hd) this
    obtain ⟨b0, b1, b2⟩ := Refine.bit_digs l hl
    obtain ⟨b0', b1', b2'⟩ := Refine.bit_digs l' hl'
    have k0 := key 0 (by omega)
    have k1 := key 1 (by omega)
    have k2 := key 2 (by omega)
    rw [b0, b0'] at k0; rw [b1, b1'] at k1; rw [b2, b2'] at k2
    unfold boxPos at k0 k1 k2
    norm_num at k0 k1 k2
    rw [R.node hc hl, R.node hc' hl']
    congr 1
    · exact_mod_cast k0
    · exact_mod_cast k1
    · exact_mod_cast k2
  · intro c hc c' hc' hx
    obtain ⟨-, -, -, s4⟩ := lex3_surj (show c < b.ci * b.cj * b.ck from hc)
    obtain ⟨-, -, -, s4'⟩ := lex3_surj (show c' < b.ci * b.cj * b.ck from hc')
    have k0 := hx 0 (by omega)
    have k1 := hx 1 (by omega)
    have k2 := hx 2 (by omega)
    unfold boxPos at k0 k1 k2
    simp only [if_true, one_ne_zero, if_false, OfNat.ofNat_ne_zero, OfNat.ofNat_ne_one] at k0 k1 k2
    rw [← s4, ← s4']
    rw [Nat.cast_inj.1 k0, Nat.cast_inj.1 k1, Nat.cast_inj.1 k2]

/-- The first vertex belongs to cell 0 only. -/
theorem Read.first (R : Read rnd b m) (hb : b.Ok) : ∀ c < b.cells, ∀ l < 8, readNode m c l = readNode m 0 0 → c = 0 ∧ l = 0 := by
  intro c hc l hl he
  have h0 : 0 < b.cells := by omega
  rw [R.node hc hl, R.node h0 (by omega)] at he
  obtain ⟨s1, s2, s3, s4⟩ := lex3_surj (show c < b.ci * b.cj * b.ck from hc)
  obtain ⟨h1, h2, h3⟩ := hb
  obtain ⟨e1, e2, e3⟩ := nid_inj (n := b.pi) (m := b.pj) (by unfold Box.pi; omega) (by unfold Box.pj; omega)
    (by unfold Box.pi; simp) (by unfold Box.pj; simp) he
  simp at e1 e2 e3
  constructor
  · rw [← s4]; simp [e1.1, e2.1]
    have := e3.1
    omega
  · omega

/-- If there are two cells, some two cells share a node. -/
theorem Read.share (R : Read rnd b m) (hb : b.Ok) (h2 : 2 ≤ b.cells) :
    ∃ c < b.cells, ∃ c' < b.cells, c' ≠ c ∧ Share 8 (readNode m) c c' := by
  obtain ⟨h1, h2', h3⟩ := hb
  have h0 : 0 < b.cells := by omega
  have n0 : ∀ l < 8, readNode m 0 l = nid (l % 2) (l / 2 % 2) (l / 4) b.pi b.pj := by
    intro l hl
    rw [R.node h0 hl]; simp
  refine ⟨0, h0, 1, by omega, by omega, ?_⟩
  by_cases hi : 2 ≤ b.ci
  · refine ⟨1, by omega, 0, by omega, ?_⟩
    rw [n0 1 (by omega), R.node (by omega) (by omega), Nat.mod_eq_of_lt (show 1 < b.ci by omega), Nat.div_eq_of_lt (show 1 < b.ci by omega)]
    simp
  · have hci : b.ci = 1 := by omega
    by_cases hj : 2 ≤ b.cj
    · refine ⟨2, by omega, 0, by omega, ?_⟩
      rw [n0 2 (by omega), R.node (by omega) (by omega), hci]
      simp [Nat.mod_eq_of_lt (show 1 < b.cj by omega), Nat.div_eq_of_lt (show 1 < b.cj by omega)]
    · have hcj : b.cj = 1 := by omega
      refine ⟨4, by omega, 0, by omega, ?_⟩
      rw [n0 4 (by omega), R.node (by omega) (by omega), hci, hcj]

/-- Numbers with six digits are printed exactly. -/
theorem toSci_exact (h : Nearest rnd) {x : ℝ} (hx : x ≠ 0) {n : ℕ} (hn : |x| / (10 : ℝ) ^ (Int.log 10 |x| - 5) = n) :
    (toSci rnd x).val = x := by
  have hr : rnd (n : ℝ) = n := by
    have := h n (Nat.cast_nonneg n)
    rw [abs_le] at this
    have h1 : (rnd (n : ℝ) : ℝ) < (n : ℝ) + 1 := by linarith [this.2]
    have h2 : (n : ℝ) < (rnd (n : ℝ) : ℝ) + 1 := by linarith [this.1]
    have h3 : rnd (n : ℝ) < n + 1 := by exact_mod_cast h1
    have h4 : n < rnd (n : ℝ) + 1 := by exact_mod_cast h2
    omega
  have hP : (0 : ℝ) < (10 : ℝ) ^ (Int.log 10 |x| - 5) := zpow_pos (by norm_num) _
  have hx' : |x| = n * (10 : ℝ) ^ (Int.log 10 |x| - 5) := by rw [← hn]; field_simp
  have sgn : (if x < 0 then (-1 : ℝ) else 1) * |x| = x := by
    split_ifs with hs
    · rw [abs_of_neg hs]; ring
    · rw [abs_of_nonneg (not_lt.1 hs)]; ring
  unfold toSci
  rw [if_neg hx]
  simp only [hn, hr]
  split_ifs with h6
  · unfold MeshFile.Sci.val
    simp only [decide_eq_true_eq]
    rw [show Int.log 10 |x| + 1 - 5 = (Int.log 10 |x| - 5) + 1 by ring, zpow_add₀ (by norm_num : (10 : ℝ) ≠ 0), zpow_one]
    rw [h6] at hx'
    push_cast at hx' ⊢
    generalize (10 : ℝ) ^ (Int.log 10 |x| - 5) = P at hx' ⊢
    rw [show ∀ s : ℝ, s * 100000 * (P * 10) = s * (1000000 * P) from fun s => by ring, ← hx', sgn]
  · unfold MeshFile.Sci.val
    simp only [decide_eq_true_eq]
    rw [mul_assoc, ← hx', sgn]

theorem toSci_two (h : Nearest rnd) : (toSci rnd 2).val = 2 := by
  have hl : Int.log 10 |(2 : ℝ)| = 0 := by
    rw [abs_of_pos (by norm_num), show (2 : ℝ) = ((2 : ℕ) : ℝ) by norm_num, Int.log_natCast]
    norm_num
  refine toSci_exact h (by norm_num) (n := 200000) ?_
  rw [hl, abs_of_pos (by norm_num)]
  norm_num

theorem toSci_zero : (toSci rnd 0).val = 0 := by
  unfold toSci MeshFile.Sci.val; simp

end

/-- **C79 (from the generator to the results).**  For every box of at least two cells (and fewer than `10 ^ 9` points) whose spacing is at
least a thousandth of the largest coordinate in each direction and at most 6.9 in some direction: the mesh generator writes a file from
which the Average example with the settings of `input` runs to the end without undefined behaviour, whatever uninitialised memory
contains.  The refined mesh has 216 cells per cell of the box, different nodes at different places and no isolated node; 51 dumps are
written; all nodal and cell values, and all cell values in all dumps, lie in `[0, 10]`.  If the box begins at `x = 0` the nodal field is 10
at all nodes there, and if it also ends at `x = 2`, the nodal field is 0 at all nodes there. -/
theorem C79_box_to_average (b : Box) (hb : b.Ok) (hn : b.points < 10 ^ 9) (h2 : 2 ≤ b.cells) (hf : Fine b)
    (hsmall : ∃ d < 3, b.step d ≤ 6.9) (hs : 1 / 10 ^ 5 ≤ b.step 0) {rnd : ℝ → ℕ} (h : Nearest rnd) (qb : MeshBox.Junk)
    (q' : MeshFile.Junk) (q : SetupJunk) (u : ℕ → Fill) (j1 j2 : ℕ → ℕ → ℝ) (jt : ℕ → ℝ) :
    ∃ r t, MeshBox.build b qb = some r ∧ writeBox rnd r.coords r.cellPoints b.points b.cells = some t ∧
    ∃ m run, programFile q' q u j1 j2 jt t = some (m, run) ∧ m.Ready ∧ m.cells = b.cells * 216 ∧
      run.state.node.size = m.nodes ∧ run.state.cell.size = m.cells ∧
      (b.shift 0 = 0 → (∀ n < m.nodes, m.coords.val n 0 = 0 → run.state.node.val n = 10) ∧
        (b.len 0 = 2 → ∀ n < m.nodes, m.coords.val n 0 = 2 → run.state.node.val n = 0)) ∧
      Within 0 10 run.state.node ∧ Within 0 10 run.state.cell ∧
      run.dumps.length = 51 ∧ ∀ j < 51, ∃ d, run.dumps[j]? = some d ∧ d.id = j ∧ d.fields.size = m.cells ∧
        (∀ c < m.cells, 0 ≤ d.fields.val c 0 ∧ d.fields.val c 0 ≤ 10) ∧ d.times = (List.range (j + 1)).map fun i : ℕ => (i : ℝ) / 100 := by
  obtain ⟨r, t, mi, e1, e2, e3, m1, m2, m3, m4⟩ := box_spec b hb hn qb h q'
  have R : Read rnd b mi := ⟨m1, m2, m3, m4⟩
  have hG := R.grid h hb hf
  obtain ⟨m, run, p1, p2, p3, p4, p5, p6, p7⟩ := C78_program_partial b.cells b.points (readNode mi) mi.coords.val (boxX rnd b) (boxPos b)
    hG (by
      obtain ⟨d, hd, hle⟩ := hsmall
      have := (width h hb hf hd (boxPos b (b.cells - 1) d)).2
      refine ⟨d, hd, this.trans ?_⟩
      norm_num at hle ⊢
      linarith) (R.first hb) (R.share hb h2) (by
      have := (width h hb hf (show 0 < 3 by omega) (boxPos b (b.cells - 1) 0)).1
      refine le_trans ?_ this
      norm_num at hs ⊢
      linarith) q u j1 j2 jt
  refine ⟨r, t, e1, e2, m, run, ?_, p2, p3, p4, p5, fun h0 => ?_, p7⟩
  · unfold programFile
    rw [e3]
    show program (mi.cells.size / 8) mi.coords.size (readNode mi) mi.coords.val q u j1 j2 jt = _
    rw [m1, m2, Nat.mul_div_cancel _ (by omega)]
    exact p1
  · have x0 : boxX rnd b 0 0 = 0 := by
      have := boxX_plane (rnd := rnd) (b := b) (d := 0) (i := 0) (Nat.zero_le _)
      rw [Nat.cast_zero] at this
      rw [this]
      unfold plane
      rw [h0]
      simp [toSci_zero]
    have b0 : Key.Bounds b.cells (boxPos b) 0 0 := Or.inl fun c hc => by unfold boxPos; positivity
    obtain ⟨g1, g2⟩ := p6 0 b0 x0
    refine ⟨g1, fun hl => g2 (b.ci : ℤ) (Or.inr fun c hc => ?_) ?_⟩
    · obtain ⟨s1, -⟩ := lex3_surj (show c < b.ci * b.cj * b.ck from hc)
      unfold boxPos
      rw [if_pos rfl]
      exact_mod_cast s1
    · have h3 := step_cnt hb (show 0 < 3 by omega)
      have h4 : cnt b 0 = b.ci := rfl
      rw [boxX_plane (show b.ci ≤ cnt b 0 from le_rfl)]
      unfold plane
      rw [h0, zero_add, mul_comm, ← h4, h3, hl, toSci_two h]

/-- The hypotheses of `C79_box_to_average` hold for the box shipped with the generator (`10 × 10 × 100` with `15 × 15 × 150` cells). -/
example : ∃ b : Box, b.ci = 15 ∧ b.ck = 150 ∧ b.Ok ∧ b.points < 10 ^ 9 ∧ 2 ≤ b.cells ∧ Fine b ∧ (∃ d < 3, b.step d ≤ 6.9) ∧ 1 / 10 ^ 5 ≤ b.step 0 ∧
    b.shift 0 = 0 ∧ ∃ rnd, Nearest rnd := by
  refine ⟨⟨15, 15, 150, fun d => if d = 2 then 100 else 10, fun _ => 0⟩, rfl, rfl, ⟨by decide, by decide, by decide⟩, by decide, by decide, ?_,
    ⟨0, by omega, by norm_num [Box.step, Box.pi]⟩, by norm_num [Box.step, Box.pi], rfl, MeshFile.nearest_exists⟩
  intro d hd
  interval_cases d <;> norm_num [Box.step, Box.pi, Box.pj, Box.pk]

/-- The hypotheses of `C79_box_to_average` hold for `1000 × 2 × 2` cells of the cube `[0, 2]³`. -/
example : ∃ b : Box, b.ci = 1000 ∧ b.Ok ∧ b.points < 10 ^ 9 ∧ 2 ≤ b.cells ∧ Fine b ∧ (∃ d < 3, b.step d ≤ 6.9) ∧ 1 / 10 ^ 5 ≤ b.step 0 ∧
    b.shift 0 = 0 ∧ b.len 0 = 2 := by
  refine ⟨⟨1000, 2, 2, fun _ => 2, fun _ => 0⟩, rfl, ⟨by decide, by decide, by decide⟩, by decide, by decide, ?_,
    ⟨0, by omega, by norm_num [Box.step, Box.pi]⟩, by norm_num [Box.step, Box.pi], rfl, rfl⟩
  intro d hd
  interval_cases d <;> norm_num [Box.step, Box.pi, Box.pj, Box.pk]

end Verif.Average
