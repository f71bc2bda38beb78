import Verif.MeshFile.Lemmas
import Verif.MeshBox.Theorems
import Verif.Geometry.HexVolume

/-!
# C53: mesh files round-trip
-/

namespace Verif.MeshFile
open Verif.MeshBox (Box getId)

theorem fmtD_no_nl (w : ℕ) (z : ℤ) : '\n' ∉ fmtD w z := by
  unfold fmtD pad
  intro h
  rcases List.mem_append.1 h with h | h
  · exact absurd (List.mem_replicate.1 h).2 (by decide)
  · rcases List.mem_append.1 h with h | h
    · split_ifs at h
      · rw [List.mem_singleton] at h; exact absurd h (by decide)
      · simp at h
    · exact absurd (dec_dig _ _ h) (by decide)

theorem skip_chars {s : List Char} (l : List Char) (e : s = l ++ ['\n']) (h : '\n' ∉ l) (t : List Char) :
    skipLine (s ++ t) = some t := by
  rw [e, List.append_assoc]; exact skipLine_append h t

/-- The eight header lines of the box mesh writer. -/
theorem box_header (t : List Char) : loopM 8 (fun _ s => skipLine s)
    ((chars "This is the 1st description line of the EnSight Gold geometry file\n" ++
    (chars "This is the 2nd description line of the EnSight Gold geometry file\n" ++ (chars "node id assign\n" ++
    (chars "element id assign\n" ++ (chars "part\n" ++ ((fmtD 10 1 ++ ['\n']) ++ (chars "Mesh\n" ++ chars "coordinates\n"))))))) ++ t) = some t := by
  simp only [List.append_assoc, loopM_succ, loopM_zero, Option.bind_some]
  rw [skip_chars (chars "This is the 1st description line of the EnSight Gold geometry file") (by decide) (by decide), Option.bind_some,
    skip_chars (chars "This is the 2nd description line of the EnSight Gold geometry file") (by decide) (by decide), Option.bind_some,
    skip_chars (chars "node id assign") (by decide) (by decide), Option.bind_some,
    skip_chars (chars "element id assign") (by decide) (by decide), Option.bind_some,
    skip_chars (chars "part") (by decide) (by decide), Option.bind_some,
    show skipLine (fmtD 10 1 ++ (['\n'] ++ (chars "Mesh\n" ++ (chars "coordinates\n" ++ t)))) = some (chars "Mesh\n" ++ (chars "coordinates\n" ++ t)) from skipLine_append (fmtD_no_nl _ _) _,
    Option.bind_some,
    skip_chars (chars "Mesh") (by decide) (by decide), Option.bind_some]
  exact skip_chars (chars "coordinates") (by decide) (by decide) t

/-- The eight header lines of the writer of the averaging example. -/
theorem avg_header (t : List Char) : loopM 8 (fun _ s => skipLine s)
    ((chars "A graphics dump by Cercion \n" ++ (chars "EnSight Gold geometry\n" ++ (chars "node id assign\n" ++
    (chars "element id assign\n" ++ (chars "part\n" ++ ((fmtD 10 1 ++ ['\n']) ++ (chars "Mesh\n" ++ chars "coordinates\n"))))))) ++ t) = some t := by
  simp only [List.append_assoc, loopM_succ, loopM_zero, Option.bind_some]
  rw [skip_chars (chars "A graphics dump by Cercion ") (by decide) (by decide), Option.bind_some,
    skip_chars (chars "EnSight Gold geometry") (by decide) (by decide), Option.bind_some,
    skip_chars (chars "node id assign") (by decide) (by decide), Option.bind_some,
    skip_chars (chars "element id assign") (by decide) (by decide), Option.bind_some,
    skip_chars (chars "part") (by decide) (by decide), Option.bind_some,
    show skipLine (fmtD 10 1 ++ (['\n'] ++ (chars "Mesh\n" ++ (chars "coordinates\n" ++ t)))) = some (chars "Mesh\n" ++ (chars "coordinates\n" ++ t)) from skipLine_append (fmtD_no_nl _ _) _,
    Option.bind_some,
    skip_chars (chars "Mesh") (by decide) (by decide), Option.bind_some]
  exact skip_chars (chars "coordinates") (by decide) (by decide) t

/-- A number below `10 ^ 9` printed with `%10d` starts with a blank. -/
theorem fmtD_blank {z : ℤ} (h0 : 0 ≤ z) (h : z < 10 ^ 9) (t : List Char) : NoDig (fmtD 10 z ++ t) := by
  have hl : (dec z.natAbs).length ≤ 9 := dec_length (by decide) (by omega)
  have e : fmtD 10 z = ' ' :: (List.replicate (9 - (dec z.natAbs).length) ' ' ++ dec z.natAbs) := by
    unfold fmtD pad
    rw [if_neg (by omega), List.nil_append, show 10 - (dec z.natAbs).length = (9 - (dec z.natAbs).length) + 1 by omega,
      List.replicate_succ, List.cons_append]
  rw [e]
  intro c u hc
  rw [← (List.cons.inj hc).1]; decide

/-- What comes back when a mesh is written by the box mesh writer and read: the printed coordinates, and cell node `l` is
the node the writer was given as number `convIn l`.  Node numbers must have at most nine digits. -/
theorem box_roundtrip {rnd : ℝ → ℕ} (h : Nearest rnd) (coords : Arr (ℕ → ℝ)) (cells : Arr ℤ) {N C : ℕ} (h1 : N ≤ coords.size)
    (h2 : C * 8 ≤ cells.size) (h3 : ∀ i < C * 8, 0 ≤ cells.val i ∧ cells.val i + 1 < 10 ^ 9) (q : Junk) :
    ∃ t r, writeBox rnd coords cells N C = some t ∧ readMesh q t = some r ∧
      r.coords.size = N ∧ (∀ p < N, ∀ d < 3, r.coords.val p d = (toSci rnd (coords.val p d)).val) ∧
      r.cells.size = C * 8 ∧ ∀ c < C, ∀ l < 8, r.cells.val (c * 8 + l) = cells.val (c * 8 + convIn l) := by
  obtain ⟨r, e, r1, r2, r3, r4⟩ := readMesh_spec h coords N C (fun c l => cells.val (c * 8 + l) + 1) [] ws_nil (by
    intro c hc l hl t
    have := h3 (c * 8 + l) (by omega)
    exact fmtD_blank (by omega) (by omega) t) _ box_header q
  refine ⟨_, r, ?_, e, r1, r2, r3, ?_⟩
  · unfold writeBox
    simp only [Option.bind_eq_bind]
    rw [writeCoords_spec rnd coords h1, Option.bind_some]
    have := writeCells_spec cells (fun l => l) [] (n := C) (fun l hl => hl) h2
    simp only [List.append_nil, Option.bind_eq_bind] at this
    rw [this]
    simp only [List.append_assoc, List.append_nil, List.cons_append, List.nil_append]
  · intro c hc l hl
    rw [r4 c hc l hl]; ring

/-- The box mesh read back from its file: the printed coordinates, and the cells in i-j-k order. -/
theorem box_spec (b : Box) (hb : b.Ok) (hn : b.points < 10 ^ 9) (q : MeshBox.Junk) {rnd : ℝ → ℕ} (h : Nearest rnd) (q' : Junk) :
    ∃ r t m, MeshBox.build b q = some r ∧ writeBox rnd r.coords r.cellPoints b.points b.cells = some t ∧ readMesh q' t = some m ∧
      m.coords.size = b.points ∧ m.cells.size = b.cells * 8 ∧
      (∀ i ≤ b.ci, ∀ j ≤ b.cj, ∀ k ≤ b.ck, ∀ d < 3, m.coords.val (MeshBox.nid i j k b.pi b.pj) d =
        (toSci rnd (MeshBox.ptOf b i j k d)).val) ∧
      ∀ i < b.ci, ∀ j < b.cj, ∀ k < b.ck, ∀ a < 2, ∀ e < 2, ∀ f < 2,
        m.cells.val (MeshBox.nid i j k b.ci b.cj * 8 + (a + 2 * e + 4 * f)) = MeshBox.nid (i + a) (j + e) (k + f) b.pi b.pj := by
  obtain ⟨r, e, ⟨r1, r2⟩, ⟨-, r3, r4⟩, -⟩ := MeshBox.build_spec b hb q
  have ho : ∀ l < 8, ∀ d, d < 3 → MeshBox.feOff l d ≤ 1 := by decide
  have hv : ∀ i < b.cells * 8, 0 ≤ r.cellPoints.val i ∧ r.cellPoints.val i + 1 < 10 ^ 9 := by
    intro x hx
    have hx8 : x / 8 < b.cells := by omega
    obtain ⟨s1, s2, s3, s4⟩ := lex3_surj (show x / 8 < b.ci * b.cj * b.ck from hx8)
    have hl : x % 8 < 8 := Nat.mod_lt _ (by decide)
    have := (r4 _ s3 _ s2 _ s1).2 (x % 8) hl
    have hid : MeshBox.nid (x / 8 % b.ci) (x / 8 / b.ci % b.cj) (x / 8 / b.ci / b.cj) b.ci b.cj = x / 8 := s4
    rw [hid, show x / 8 * 8 + x % 8 = x by omega] at this
    rw [this]
    have o0 := ho _ hl 0 (by omega); have o1 := ho _ hl 1 (by omega); have o2 := ho _ hl 2 (by omega)
    have hlt := MeshBox.nid_lt (ni := b.pi) (nj := b.pj) (nk := b.pk) (i := x / 8 % b.ci + MeshBox.feOff (x % 8) 0)
      (j := x / 8 / b.ci % b.cj + MeshBox.feOff (x % 8) 1) (k := x / 8 / b.ci / b.cj + MeshBox.feOff (x % 8) 2)
      (by unfold Box.pi; omega) (by unfold Box.pj; omega) (by unfold Box.pk; omega)
    have hlt : _ < b.points := hlt
    omega
  obtain ⟨t, m, e1, e2, m1, m2, m3, m4⟩ := box_roundtrip h r.coords r.cellPoints (N := b.points) (C := b.cells) (by omega) (by omega) hv q'
  refine ⟨r, t, m, e, e1, e2, m1, m3, ?_, ?_⟩
  · intro i hi j hj k hk d hd
    have hlt : MeshBox.nid i j k b.pi b.pj < b.points :=
      MeshBox.nid_lt (by unfold Box.pi; omega) (by unfold Box.pj; omega) (by unfold Box.pk; omega)
    rw [m2 _ hlt d hd, r2 k (by unfold Box.pk; omega) j (by unfold Box.pj; omega) i (by unfold Box.pi; omega)]
  · intro i hi j hj k hk a ha y hy f hf
    have hc : MeshBox.nid i j k b.ci b.cj < b.cells := MeshBox.nid_lt hi hj hk
    rw [m4 _ hc _ (by omega), (r4 k hk j hj i hi).2 _ (convIn_lt _ (by omega))]
    have ho : ∀ a < 2, ∀ y < 2, ∀ f < 2, MeshBox.feOff (convIn (a + 2 * y + 4 * f)) 0 = a ∧
      MeshBox.feOff (convIn (a + 2 * y + 4 * f)) 1 = y ∧ MeshBox.feOff (convIn (a + 2 * y + 4 * f)) 2 = f := by decide
    obtain ⟨o1, o2, o3⟩ := ho a ha y hy f hf
    rw [o1, o2, o3]

/-- **C53 (box mesh).**  A mesh created by the box mesh generator with fewer than `10 ^ 9` points, written to a file and
read by `read_mesh`: no undefined behaviour; every point comes back at its lattice position up to a relative error of
`5e-6` per coordinate; every cell comes back with its eight lattice points in i-j-k order. -/
theorem C53_box (b : Box) (hb : b.Ok) (hn : b.points < 10 ^ 9) (q : MeshBox.Junk) {rnd : ℝ → ℕ} (h : Nearest rnd) (q' : Junk) :
    ∃ r t m, MeshBox.build b q = some r ∧ writeBox rnd r.coords r.cellPoints b.points b.cells = some t ∧ readMesh q' t = some m ∧
      m.coords.size = (b.ci + 1) * (b.cj + 1) * (b.ck + 1) ∧ m.cells.size = b.ci * b.cj * b.ck * 8 ∧
      (∀ i ≤ b.ci, ∀ j ≤ b.cj, ∀ k ≤ b.ck, ∃ x, m.coords.get (getId i j k (b.ci + 1 : ℕ) (b.cj + 1 : ℕ)).toNat = some x ∧
        |x 0 - (b.shift 0 + i * (b.len 0 / b.ci))| ≤ 5 / 10 ^ 6 * |b.shift 0 + i * (b.len 0 / b.ci)| ∧
        |x 1 - (b.shift 1 + j * (b.len 1 / b.cj))| ≤ 5 / 10 ^ 6 * |b.shift 1 + j * (b.len 1 / b.cj)| ∧
        |x 2 - (b.shift 2 + k * (b.len 2 / b.ck))| ≤ 5 / 10 ^ 6 * |b.shift 2 + k * (b.len 2 / b.ck)|) ∧
      ∀ i < b.ci, ∀ j < b.cj, ∀ k < b.ck, ∀ a < 2, ∀ e < 2, ∀ f < 2,
        m.cells.get ((getId i j k b.ci b.cj).toNat * 8 + (a + 2 * e + 4 * f)) =
          some (getId (i + a : ℕ) (j + e : ℕ) (k + f : ℕ) (b.ci + 1 : ℕ) (b.cj + 1 : ℕ)) := by
  obtain ⟨r, t, m, e, e1, e2, m1, m3, m2, m4⟩ := box_spec b hb hn q h q'
  have hst : b.step 0 = b.len 0 / b.ci ∧ b.step 1 = b.len 1 / b.cj ∧ b.step 2 = b.len 2 / b.ck := by
    simp [Box.step, Box.pi, Box.pj, Box.pk]
  refine ⟨r, t, m, e, e1, e2, m1, m3, ?_, ?_⟩
  · intro i hi j hj k hk
    have hlt : MeshBox.nid i j k b.pi b.pj < b.points :=
      MeshBox.nid_lt (by unfold Box.pi; omega) (by unfold Box.pj; omega) (by unfold Box.pk; omega)
    refine ⟨_, by rw [MeshBox.getId_nat, Int.toNat_natCast]; exact Arr.get_lt (by rw [m1]; exact hlt), ?_⟩
    have key : ∀ d < 3, |m.coords.val (MeshBox.nid i j k b.pi b.pj) d - MeshBox.ptOf b i j k d| ≤ 5 / 10 ^ 6 * |MeshBox.ptOf b i j k d| := by
      intro d hd
      rw [m2 i hi j hj k hk d hd]
      exact (toSci_spec h _).2
    rw [← hst.1, ← hst.2.1, ← hst.2.2]
    exact ⟨key 0 (by omega), key 1 (by omega), key 2 (by omega)⟩
  · intro i hi j hj k hk a ha y hy f hf
    have hc : MeshBox.nid i j k b.ci b.cj < b.cells := MeshBox.nid_lt hi hj hk
    rw [MeshBox.getId_nat, Int.toNat_natCast, Arr.get_lt (by rw [m3]; omega), m4 i hi j hj k hk a ha y hy f hf, MeshBox.getId_nat]
    rfl

/-- Mirror image of local node `l = i + 2 j + 4 k` in the first direction: `(1 - i, j, k)`. -/
def mirror (l : ℕ) : ℕ := if l % 2 = 0 then l + 1 else l - 1

/-- **C53 (restart, what happens).**  For every mesh, the graphics file written by `ensight` is read by `read_mesh` without
error, with the printed coordinates, but local node `(i, j, k)` of every cell comes back as local node `(1 - i, j, k)`. -/
theorem C53_restart_partial {rnd : ℝ → ℕ} (h : Nearest rnd) (coords : Arr (ℕ → ℝ)) (cells : Arr ℤ) {N C : ℕ} (h1 : coords.size = N)
    (h2 : cells.size = C * 8) (q : Junk) :
    ∃ t r, writeAvg rnd coords cells N C = some t ∧ readMesh q t = some r ∧
      r.coords.size = N ∧ (∀ p < N, ∀ d < 3, |r.coords.val p d - coords.val p d| ≤ 5 / 10 ^ 6 * |coords.val p d|) ∧
      (∀ p < N, ∀ d < 3, r.coords.val p d = (toSci rnd (coords.val p d)).val) ∧
      r.cells.size = C * 8 ∧ ∀ c < C, ∀ l < 8, r.cells.val (c * 8 + l) = cells.val (c * 8 + mirror l) := by
  obtain ⟨r, e, r1, r2, r3, r4⟩ := readMesh_spec h coords N C (fun c l => cells.val (c * 8 + convOut l) + 1) ['\t']
    (by intro c hc; rw [List.mem_singleton] at hc; rw [hc]; decide) (by
    intro c hc l hl t x u hx
    rw [← (List.cons.inj hx).1]; decide) _ avg_header q
  refine ⟨_, r, ?_, e, r1, ?_, r2, r3, ?_⟩
  · unfold writeAvg
    simp only [Option.bind_eq_bind]
    rw [writeCoords_spec rnd coords h1.ge, Option.bind_some]
    have := writeCells_spec cells convOut ['\t'] (n := C) convOut_lt h2.ge
    simp only [Option.bind_eq_bind] at this
    rw [this]
    simp only [List.append_assoc, List.cons_append, List.nil_append]
  · intro p hp d hd
    rw [r2 p hp d hd]
    exact (toSci_spec h _).2
  · intro c hc l hl
    rw [r4 c hc l hl]
    have : ∀ l < 8, convOut (convIn l) = mirror l := by decide
    rw [this l hl]; ring

theorem volume_congr {X Y : ℕ → ℕ → ℝ} (h : ∀ l < 8, ∀ d < 3, X l d = Y l d) : Geometry.volume X = Geometry.volume Y := by
  have hc : ∀ l < 8, Geometry.cCon (Geometry.cCon l) = l := by decide
  rw [← Geometry.hexVol_eq X (fun l => X (Geometry.cCon l)) (fun l hl d _ => by rw [hc l hl]),
    ← Geometry.hexVol_eq Y (fun l => X (Geometry.cCon l)) (fun l hl d hd => by rw [hc l hl]; exact h l hl d hd)]

/-- Reflecting the vertex numbering of a hexahedron changes the sign of its volume. -/
theorem volume_mirror (X : ℕ → ℕ → ℝ) : Geometry.volume (fun l => X (mirror l)) = - Geometry.volume X := by
  have hc : ∀ l < 8, Geometry.cCon (Geometry.cCon l) = l := by decide
  rw [← Geometry.hexVol_eq X (fun l => X (Geometry.cCon l)) (fun l hl d _ => by rw [hc l hl]),
    ← Geometry.hexVol_eq (fun l => X (mirror l)) (fun l => X (mirror (Geometry.cCon l))) (fun l hl d _ => by rw [hc l hl])]
  simp only [Geometry.hexVol, Geometry.cCon, mirror, List.getD_cons_zero, List.getD_cons_succ]
  norm_num
  ring

/-- **C53 (restart, the claim fails).**  For every mesh, in the mesh read back from the graphics file every cell whose
first two nodes differ has a different node list, and the volume of every cell is minus the volume it was written with
(with the printed coordinates): all cells are turned inside out. -/
theorem C53_restart_negation {rnd : ℝ → ℕ} (h : Nearest rnd) (coords : Arr (ℕ → ℝ)) (cells : Arr ℤ) {N C : ℕ} (h1 : coords.size = N)
    (h2 : cells.size = C * 8) (h3 : ∀ i < C * 8, 0 ≤ cells.val i ∧ cells.val i < N) (q : Junk) :
    ∃ t r, writeAvg rnd coords cells N C = some t ∧ readMesh q t = some r ∧ ∀ c < C,
      (cells.val (c * 8) ≠ cells.val (c * 8 + 1) → ¬ ∀ l < 8, r.cells.val (c * 8 + l) = cells.val (c * 8 + l)) ∧
      Geometry.volume (fun l d => r.coords.val (r.cells.val (c * 8 + l)).toNat d) =
        - Geometry.volume (fun l d => (toSci rnd (coords.val (cells.val (c * 8 + l)).toNat d)).val) := by
  obtain ⟨t, r, e1, e2, -, -, r1, -, r2⟩ := C53_restart_partial h coords cells h1 h2 q
  refine ⟨t, r, e1, e2, fun c hc => ⟨fun hne hall => ?_, ?_⟩⟩
  · have g1 := hall 0 (by omega)
    have g2 := r2 c hc 0 (by omega)
    exact hne (g1.symm.trans g2)
  · rw [← volume_mirror]
    refine volume_congr fun l hl d hd => ?_
    have hm : ∀ l < 8, mirror l < 8 := by decide
    have hb := h3 (c * 8 + mirror l) (by have := hm l hl; omega)
    rw [r2 c hc l hl, r1 _ (by omega) d hd]

/-- The box of `3 × 2 × 4` cells satisfies the hypotheses of `C53_box`. -/
example : ∃ b : Box, b.Ok ∧ b.points < 10 ^ 9 ∧ b.cells = 24 ∧ ∃ rnd, Nearest rnd :=
  ⟨⟨3, 2, 4, fun _ => 1, fun _ => 0⟩, ⟨by decide, by decide, by decide⟩, by decide, by decide, nearest_exists⟩

/-- The unit cube satisfies the hypotheses of the restart theorems, and its volume is not zero. -/
example : ∃ (coords : Arr (ℕ → ℝ)) (cells : Arr ℤ), coords.size = 8 ∧ cells.size = 1 * 8 ∧
    (∀ i < 1 * 8, 0 ≤ cells.val i ∧ cells.val i < (8 : ℕ)) ∧ cells.val (0 * 8) ≠ cells.val (0 * 8 + 1) ∧
    Geometry.volume (fun l d => coords.val (cells.val (0 * 8 + l)).toNat d) = 1 := by
  refine ⟨⟨8, fun p d => if d = 0 then (p % 2 : ℕ) else if d = 1 then (p / 2 % 2 : ℕ) else (p / 4 : ℕ)⟩, ⟨8, fun i => i⟩, rfl, rfl,
    fun i hi => ⟨by simp, by simp only []; omega⟩, by simp, ?_⟩
  rw [Geometry.volume_affine 1 (fun _ => 0)]
  · simp
  · intro l hl d
    match d with
    | 0 => simp
    | 1 => simp
    | 2 => simp

end Verif.MeshFile
