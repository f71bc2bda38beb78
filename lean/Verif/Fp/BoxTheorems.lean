import Verif.Fp.BoxModel
import Verif.Fp.JacobiLemmas
import Verif.Fp.Eval64
import Verif.MeshFile.Mono
import Verif.MeshFile.Theorems

/-!
# C101: box meshes after floating-point arithmetic and six printed digits
-/

namespace Verif.Fp.MeshBox
open Verif.Fp Verif.MeshBox
open Verif.MeshFile (Nearest printed printed_mono printed_err)

variable {R : Rounding}

theorem fl_zero : R.fl 0 = 0 := by
  have := R.err 0
  simpa using this

/-- Coordinate of plane `i` in direction `d` in the generator. -/
noncomputable def made (R : Rounding) (b : Box) (d i : ℕ) : ℝ := R.fl (b.shift d + R.fl (i * step R b d))

/-- Coordinate of plane `i` in direction `d` in the reader. -/
noncomputable def plane (R : Rounding) (rnd : ℝ → ℕ) (b : Box) (d i : ℕ) : ℝ := R.fl (printed rnd (made R b d i))

theorem pointLoop_spec (b : Box) (a : Arr (ℕ → ℝ)) (h : a.size = b.points) :
    ∃ a', pointLoop R b a = some a' ∧ a'.size = b.points ∧
      ∀ k < b.pk, ∀ j < b.pj, ∀ i < b.pi, a'.val (nid i j k b.pi b.pj) = row3 (made R b 0 i) (made R b 1 j) (made R b 2 k) := by
  unfold pointLoop loop3
  obtain ⟨a', h1, h2, h3⟩ := loopM3_spec (s := a)
    (body := fun k j i a => setZ a (getId i j k b.pi b.pj)
      (row3 (R.fl (b.shift 0 + R.fl (i * step R b 0))) (R.fl (b.shift 1 + R.fl (j * step R b 1))) (R.fl (b.shift 2 + R.fl (k * step R b 2)))))
    (fun t (a : Arr (ℕ → ℝ)) => a.size = b.points ∧
      ∀ k < b.pk, ∀ j < b.pj, ∀ i < b.pi, nid i j k b.pi b.pj < t →
        a.val (nid i j k b.pi b.pj) = row3 (made R b 0 i) (made R b 1 j) (made R b 2 k))
    ⟨h, by intro k _ j _ i _ h; omega⟩
    (nk := b.pk) (nj := b.pj) (ni := b.pi)
    (by
      rintro k j i a hk hj hi ⟨h1, h2⟩
      have hlt : nid i j k b.pi b.pj < a.size := by rw [h1]; exact nid_lt hi hj hk
      refine ⟨⟨a.size, store a.val (nid i j k b.pi b.pj) (row3 (made R b 0 i) (made R b 1 j) (made R b 2 k))⟩,
        by rw [getId_nat]; exact setZ_nat hlt _, h1, ?_⟩
      intro k' hk' j' hj' i' hi' hlt'
      by_cases he : nid i' j' k' b.pi b.pj = nid i j k b.pi b.pj
      · obtain ⟨rfl, rfl, rfl⟩ := nid_inj hi' hj' hi hj he
        simp only [store_same]
      · simp only [store_ne _ _ he]
        refine h2 k' hk' j' hj' i' hi' ?_
        have : nid i' j' k' b.pi b.pj < nid i j k b.pi b.pj + 1 := hlt'
        show _ < nid i j k b.pi b.pj
        omega)
  exact ⟨a', h1, h2, fun k hk j hj i hi => h3 k hk j hj i hi (nid_lt hi hj hk)⟩

theorem cellLoop_spec (b : Box) (s : Arr (ℕ → ℝ) × Arr ℤ) (h1 : s.1.size = b.cells) (h2 : s.2.size = b.cells * 8) :
    ∃ s', cellLoop R b s = some s' ∧ s'.1.size = b.cells ∧ s'.2.size = b.cells * 8 ∧
      ∀ k < b.ck, ∀ j < b.cj, ∀ i < b.ci,
        ∀ l < 8, s'.2.val (nid i j k b.ci b.cj * 8 + l) = nid (i + feOff l 0) (j + feOff l 1) (k + feOff l 2) b.pi b.pj := by
  unfold cellLoop loop3
  simp only [Option.bind_eq_bind]
  obtain ⟨a', e1, e2, e3, e4⟩ := loopM3_spec (s := s)
    (body := fun k j i (s : Arr (ℕ → ℝ) × Arr ℤ) => (setZ s.1 (getId i j k b.ci b.cj)
      (row3 (R.fl (R.fl (i * step R b 0) + R.fl (step R b 0 / 2))) (R.fl (R.fl (j * step R b 1) + R.fl (step R b 1 / 2)))
        (R.fl (R.fl (k * step R b 2) + R.fl (step R b 2 / 2))))).bind fun c =>
      (cellPoints b i j k s.2).bind fun p => pure (c, p))
    (fun t (s : Arr (ℕ → ℝ) × Arr ℤ) => s.1.size = b.cells ∧ s.2.size = b.cells * 8 ∧
      ∀ k < b.ck, ∀ j < b.cj, ∀ i < b.ci, nid i j k b.ci b.cj < t →
        ∀ l < 8, s.2.val (nid i j k b.ci b.cj * 8 + l) = nid (i + feOff l 0) (j + feOff l 1) (k + feOff l 2) b.pi b.pj)
    ⟨h1, h2, by intro k _ j _ i _ h; omega⟩
    (nk := b.ck) (nj := b.cj) (ni := b.ci)
    (by
      rintro k j i a hk hj hi ⟨h1, h2, h3⟩
      have hlt : nid i j k b.ci b.cj < a.1.size := by rw [h1]; exact nid_lt hi hj hk
      obtain ⟨p, p1, p2, p3, p4⟩ := cellPoints_spec b hi hj hk a.2 h2
      refine ⟨(⟨a.1.size, store a.1.val (nid i j k b.ci b.cj)
        (row3 (R.fl (R.fl (i * step R b 0) + R.fl (step R b 0 / 2))) (R.fl (R.fl (j * step R b 1) + R.fl (step R b 1 / 2)))
        (R.fl (R.fl (k * step R b 2) + R.fl (step R b 2 / 2))))⟩, p), ?_, h1, by rw [p2, h2], ?_⟩
      · rw [getId_nat, setZ_nat hlt, Option.bind_some, p1]; rfl
      intro k' hk' j' hj' i' hi' hlt'
      by_cases he : nid i' j' k' b.ci b.cj = nid i j k b.ci b.cj
      · obtain ⟨rfl, rfl, rfl⟩ := nid_inj hi' hj' hi hj he
        exact p3
      · have hlt'' : nid i' j' k' b.ci b.cj < nid i j k b.ci b.cj + 1 := hlt'
        have f2 := h3 k' hk' j' hj' i' hi' (show _ < nid i j k b.ci b.cj by omega)
        intro l hl
        simp only []
        rw [p4 _ (by omega)]
        exact f2 l hl)
  exact ⟨a', e1, e2, e3, fun k hk j hj i hi => e4 k hk j hj i hi (nid_lt hi hj hk)⟩

/-- The mesh in the reader. -/
theorem roundTrip_spec (b : Box) (hb : b.Ok) (hn : b.points < 10 ^ 9) (q : Junk) {rnd : ℝ → ℕ} (h : Nearest rnd) (q' : MeshFile.Junk) :
    ∃ m, roundTrip R rnd b q q' = some m ∧ m.coords.size = b.points ∧ m.cells.size = b.cells * 8 ∧
      (∀ i ≤ b.ci, ∀ j ≤ b.cj, ∀ k ≤ b.ck, ∀ d < 3, m.coords.val (nid i j k b.pi b.pj) d =
        plane R rnd b d (if d = 0 then i else if d = 1 then j else k)) ∧
      ∀ i < b.ci, ∀ j < b.cj, ∀ k < b.ck, ∀ a < 2, ∀ e < 2, ∀ f < 2,
        m.cells.val (nid i j k b.ci b.cj * 8 + (a + 2 * e + 4 * f)) = nid (i + a) (j + e) (k + f) b.pi b.pj := by
  obtain ⟨a, a1, r1, r2⟩ := pointLoop_spec (R := R) b ⟨b.points, q.r 0⟩ rfl
  obtain ⟨c, c1, -, r3, r4⟩ := cellLoop_spec (R := R) b (⟨b.cells, q.r 1⟩, ⟨b.cells * 8, q.z 0⟩) rfl rfl
  obtain ⟨f, f1, -⟩ := faceLoop_spec b ⟨⟨b.faces * 4, q.z 1⟩, ⟨b.faces * 2, q.z 2⟩, ⟨b.cells * 6, q.z 3⟩, 0⟩ rfl rfl rfl rfl
  have h6 : ¬ b.faces < 6 := by
    obtain ⟨h1, h2, h3⟩ := hb
    unfold Box.faces Box.pi Box.pj Box.pk
    simp only [Nat.add_sub_cancel]
    have e1 : 1 * 1 * 2 ≤ b.ci * b.cj * (b.ck + 1) := Nat.mul_le_mul (Nat.mul_le_mul h1 h2) (by omega)
    have e2 : 2 * 1 * 1 ≤ (b.ci + 1) * b.cj * b.ck := Nat.mul_le_mul (Nat.mul_le_mul (by omega) h2) h3
    have e3 : 1 * 2 * 1 ≤ b.ci * (b.cj + 1) * b.ck := Nat.mul_le_mul (Nat.mul_le_mul h1 (by omega)) h3
    omega
  have ho : ∀ l < 8, ∀ d, d < 3 → feOff l d ≤ 1 := by decide
  have hv : ∀ i < b.cells * 8, 0 ≤ c.2.val i ∧ c.2.val i + 1 < 10 ^ 9 := by
    intro x hx
    have hx8 : x / 8 < b.cells := by omega
    obtain ⟨s1, s2, s3, s4⟩ := lex3_surj (show x / 8 < b.ci * b.cj * b.ck from hx8)
    have hl : x % 8 < 8 := Nat.mod_lt _ (by decide)
    have := r4 _ s3 _ s2 _ s1 (x % 8) hl
    have hid : nid (x / 8 % b.ci) (x / 8 / b.ci % b.cj) (x / 8 / b.ci / b.cj) b.ci b.cj = x / 8 := s4
    rw [hid, show x / 8 * 8 + x % 8 = x by omega] at this
    rw [this]
    have o0 := ho _ hl 0 (by omega); have o1 := ho _ hl 1 (by omega); have o2 := ho _ hl 2 (by omega)
    have hlt := nid_lt (ni := b.pi) (nj := b.pj) (nk := b.pk) (i := x / 8 % b.ci + feOff (x % 8) 0)
      (j := x / 8 / b.ci % b.cj + feOff (x % 8) 1) (k := x / 8 / b.ci / b.cj + feOff (x % 8) 2)
      (by unfold Box.pi; omega) (by unfold Box.pj; omega) (by unfold Box.pk; omega)
    have hlt : _ < b.points := hlt
    omega
  obtain ⟨t, m, e1, e2, m1, m2, m3, m4⟩ := MeshFile.box_roundtrip h a c.2 (N := b.points) (C := b.cells) (by omega) (by omega) hv q'
  refine ⟨{ m with coords := ⟨m.coords.size, fun p d => R.fl (m.coords.val p d)⟩ }, ?_, m1, m3, ?_, ?_⟩
  · unfold roundTrip build
    rw [if_neg h6]
    simp only [Option.bind_eq_bind]
    rw [a1, Option.bind_some, c1, Option.bind_some, f1]
    simp only [Option.bind_some, Option.pure_def]
    rw [e1, Option.bind_some]
    unfold readMesh
    rw [e2]; rfl
  · intro i hi j hj k hk d hd
    have hlt : nid i j k b.pi b.pj < b.points :=
      nid_lt (by unfold Box.pi; omega) (by unfold Box.pj; omega) (by unfold Box.pk; omega)
    simp only []
    rw [m2 _ hlt d hd, r2 k (by unfold Box.pk; omega) j (by unfold Box.pj; omega) i (by unfold Box.pi; omega)]
    unfold plane printed
    interval_cases d <;> simp [row3]
  · intro i hi j hj k hk a ha y hy f hf
    have hc : nid i j k b.ci b.cj < b.cells := nid_lt hi hj hk
    simp only []
    rw [m4 _ hc _ (by omega), r4 k hk j hj i hi _ (MeshFile.convIn_lt _ (by omega))]
    have ho : ∀ a < 2, ∀ y < 2, ∀ f < 2, feOff (MeshFile.convIn (a + 2 * y + 4 * f)) 0 = a ∧
      feOff (MeshFile.convIn (a + 2 * y + 4 * f)) 1 = y ∧ feOff (MeshFile.convIn (a + 2 * y + 4 * f)) 2 = f := by decide
    obtain ⟨o1, o2, o3⟩ := ho a ha y hy f hf
    rw [o1, o2, o3]

/-- The vertices of cell `c` of a mesh, in i-j-k order. -/
def vertices (m : MeshFile.MeshIn) (c l d : ℕ) : ℝ := m.coords.val (m.cells.val (c * 8 + l)).toNat d

/-- Volume of a box. -/
theorem volume_box (lo hi : ℕ → ℝ) (X : ℕ → ℕ → ℝ)
    (h : ∀ l < 8, X l 0 = (if l % 2 = 0 then lo 0 else hi 0) ∧ X l 1 = (if l / 2 % 2 = 0 then lo 1 else hi 1) ∧
      X l 2 = if l / 4 = 0 then lo 2 else hi 2) :
    Geometry.volume X = (hi 0 - lo 0) * (hi 1 - lo 1) * (hi 2 - lo 2) := by
  rw [Geometry.volume_affine !![hi 0 - lo 0, 0, 0; 0, hi 1 - lo 1, 0; 0, 0, hi 2 - lo 2] lo X]
  · simp [Matrix.det_fin_three]
  · intro l hl d
    obtain ⟨h0, h1, h2⟩ := h l hl
    fin_cases d
    · show X l 0 = _
      rw [h0]
      rcases (by omega : l % 2 = 0 ∨ l % 2 = 1) with e | e <;> simp [e]
    · show X l 1 = _
      rw [h1]
      rcases (by omega : l / 2 % 2 = 0 ∨ l / 2 % 2 = 1) with e | e <;> simp [e]
    · show X l 2 = _
      rw [h2]
      rcases (by omega : l / 4 = 0 ∨ l / 4 = 1) with e | e <;> simp [e]

/-- The volume of a cell in the reader is the product of the three distances of its planes. -/
theorem cell_volume (b : Box) (hb : b.Ok) (hn : b.points < 10 ^ 9) (q : Junk) {rnd : ℝ → ℕ} (h : Nearest rnd) (q' : MeshFile.Junk) :
    ∃ m, roundTrip R rnd b q q' = some m ∧ m.coords.size = b.points ∧ m.cells.size = b.cells * 8 ∧
      ∀ i < b.ci, ∀ j < b.cj, ∀ k < b.ck, Geometry.volume (vertices m (nid i j k b.ci b.cj)) =
        (plane R rnd b 0 (i + 1) - plane R rnd b 0 i) * (plane R rnd b 1 (j + 1) - plane R rnd b 1 j) *
          (plane R rnd b 2 (k + 1) - plane R rnd b 2 k) := by
  obtain ⟨m, e, s1, s2, p, c⟩ := roundTrip_spec (R := R) b hb hn q h q'
  refine ⟨m, e, s1, s2, fun i hi j hj k hk => ?_⟩
  refine volume_box (fun d => plane R rnd b d (if d = 0 then i else if d = 1 then j else k))
    (fun d => plane R rnd b d (if d = 0 then i + 1 else if d = 1 then j + 1 else k + 1)) _ ?_
  intro l hl
  have hc := c i hi j hj k hk (l % 2) (by omega) (l / 2 % 2) (by omega) (l / 4) (by omega)
  rw [show l % 2 + 2 * (l / 2 % 2) + 4 * (l / 4) = l by omega] at hc
  unfold vertices
  rw [hc, Int.toNat_natCast]
  have P := p (i + l % 2) (by omega) (j + l / 2 % 2) (by omega) (k + l / 4) (by omega)
  rw [P 0 (by omega), P 1 (by omega), P 2 (by omega)]
  simp only [if_true, one_ne_zero, if_false, OfNat.ofNat_ne_zero, OfNat.ofNat_ne_one]
  refine ⟨?_, ?_, ?_⟩
  · rcases (by omega : l % 2 = 0 ∨ l % 2 = 1) with e | e <;> simp [e]
  · rcases (by omega : l / 2 % 2 = 0 ∨ l / 2 % 2 = 1) with e | e <;> simp [e]
  · rcases (by omega : l / 4 = 0 ∨ l / 4 = 1) with e | e <;> simp [e]

/-! ### Order -/

/-- Number of cells in direction `d`. -/
def cnt (b : Box) (d : ℕ) : ℕ := if d = 0 then b.ci else if d = 1 then b.cj else b.ck

theorem step_nonneg {b : Box} {d : ℕ} (hl : 0 ≤ b.len d) : 0 ≤ step R b d := by
  have h0 := fl_zero (R := R)
  unfold step
  rw [← h0]
  refine R.mono (div_nonneg hl ?_)
  rw [← h0]
  refine R.mono ?_
  split_ifs <;> simp [Box.pi, Box.pj, Box.pk]

theorem made_mono {b : Box} {d : ℕ} (hl : 0 ≤ b.len d) : Monotone (made R b d) := by
  refine monotone_nat_of_le_succ fun i => R.mono (add_le_add_right (R.mono (mul_le_mul_of_nonneg_right ?_ (step_nonneg hl))) _)
  push_cast; linarith

theorem plane_mono {rnd : ℝ → ℕ} (h : Nearest rnd) {b : Box} {d : ℕ} (hl : 0 ≤ b.len d) : Monotone (plane R rnd b d) :=
  fun _ _ hij => R.mono (printed_mono h (made_mono hl hij))

/-- **C101 (order).**  A box mesh with non-negative lengths and fewer than `10^9` points, generated in any rounded arithmetic, written to a
file and read back: no undefined behaviour, and no cell is inside out: all volumes are at least zero. -/
theorem C101_order (b : Box) (hb : b.Ok) (hn : b.points < 10 ^ 9) (hl : ∀ d < 3, 0 ≤ b.len d) (q : Junk) {rnd : ℝ → ℕ} (h : Nearest rnd)
    (q' : MeshFile.Junk) :
    ∃ m, roundTrip R rnd b q q' = some m ∧ m.coords.size = b.points ∧ m.cells.size = b.cells * 8 ∧
      ∀ c < b.cells, 0 ≤ Geometry.volume (vertices m c) := by
  obtain ⟨m, e, s1, s2, v⟩ := cell_volume (R := R) b hb hn q h q'
  refine ⟨m, e, s1, s2, fun c hc => ?_⟩
  obtain ⟨h1, h2, h3, h4⟩ := lex3_surj (show c < b.ci * b.cj * b.ck from hc)
  have := v _ h1 _ h2 _ h3
  rw [show nid (c % b.ci) (c / b.ci % b.cj) (c / b.ci / b.cj) b.ci b.cj = c from h4] at this
  rw [this]
  have P : ∀ d < 3, ∀ i, 0 ≤ plane R rnd b d (i + 1) - plane R rnd b d i := fun d hd i =>
    sub_nonneg.2 (plane_mono h (hl d hd) (Nat.le_succ i))
  exact mul_nonneg (mul_nonneg (P 0 (by omega) _) (P 1 (by omega) _)) (P 2 (by omega) _)

/-! ### Distances -/

theorem step_eq (hbits : 10 ^ 9 ≤ 2 ^ R.bits) {b : Box} {d : ℕ} (hc : cnt b d < 10 ^ 9) : step R b d = R.fl (b.len d / cnt b d) := by
  have e : (((if d = 0 then b.pi else if d = 1 then b.pj else b.pk : ℕ) : ℝ) - 1) = cnt b d := by
    unfold cnt; split_ifs <;> simp [Box.pi, Box.pj, Box.pk]
  unfold step
  rw [e, Legendre.exact_nat (R := R) (cnt b d) (by omega)]

/-- Errors of the planes. -/
theorem made_err (hu : R.u ≤ 1 / 10 ^ 12) (hbits : 10 ^ 9 ≤ 2 ^ R.bits) {b : Box} {d : ℕ} (hc : cnt b d < 10 ^ 9) (h0 : 0 < cnt b d)
    (hl : 0 ≤ b.len d) {M : ℝ} (h1 : |b.shift d| ≤ M) (h2 : |b.shift d + b.len d| ≤ M) {i : ℕ} (hi : i ≤ cnt b d) :
    |made R b d i - (b.shift d + i * (b.len d / cnt b d))| ≤ 8 / 10 ^ 12 * M ∧ |b.shift d + i * (b.len d / cnt b d)| ≤ M := by
  have u0 := R.u_nonneg
  have c0 : (0 : ℝ) < cnt b d := by exact_mod_cast h0
  have hi' : (i : ℝ) ≤ cnt b d := by exact_mod_cast hi
  set n : ℝ := (cnt b d : ℝ)
  have i0 : (0 : ℝ) ≤ i := Nat.cast_nonneg i
  set s := b.shift d
  set L := b.len d
  have M0 : 0 ≤ M := (abs_nonneg _).trans h1
  obtain ⟨a1, a2⟩ := abs_le.1 h1
  obtain ⟨b1, b2⟩ := abs_le.1 h2
  set t := (i : ℝ) * (L / n) with ht
  have t0 : 0 ≤ t := by positivity
  have tL : t ≤ L := by
    rw [ht, ← mul_div_assoc, div_le_iff₀ c0, mul_comm]
    exact mul_le_mul_of_nonneg_left hi' hl
  have ex : |s + t| ≤ M := by rw [abs_le]; constructor <;> linarith
  refine ⟨?_, ex⟩
  unfold made
  rw [step_eq hbits hc]
  have e1 := R.err (L / n)
  rw [abs_of_nonneg (show 0 ≤ L / n by positivity)] at e1
  set H := R.fl (L / n)
  have e2 : |i * H - t| ≤ R.u * t := by
    rw [ht, ← mul_sub, abs_mul, abs_of_nonneg i0]
    have := mul_le_mul_of_nonneg_left e1 i0
    linarith
  have e3 := R.err (i * H)
  set p := R.fl (i * H)
  have e4 : |i * H| ≤ (1 + R.u) * t := by
    have := abs_add_le (i * H - t) t
    rw [sub_add_cancel, abs_of_nonneg t0] at this
    linarith
  have t2 : t ≤ 2 * M := by linarith
  have ut : R.u * t ≤ 1 / 10 ^ 12 * (2 * M) := mul_le_mul hu t2 t0 (by norm_num)
  have uut : R.u * (R.u * t) ≤ 1 / 10 ^ 12 * (1 / 10 ^ 12 * (2 * M)) := mul_le_mul hu ut (by positivity) (by norm_num)
  have e5 : |p - t| ≤ 5 / 10 ^ 12 * M := by
    have q1 := mul_le_mul_of_nonneg_left e4 u0
    have := abs_sub_le p (i * H) t
    have : |p - t| ≤ R.u * t + R.u * (R.u * t) + R.u * t := by linarith
    refine this.trans ?_
    norm_num at ut uut ⊢
    linarith
  have e6 := R.err (s + p)
  have e7 : |s + p| ≤ (1 + 5 / 10 ^ 12) * M := by
    have := abs_add_le (s + t) (p - t)
    rw [show s + t + (p - t) = s + p by ring] at this
    linarith
  have e8 : R.u * |s + p| ≤ 1 / 10 ^ 12 * ((1 + 5 / 10 ^ 12) * M) := mul_le_mul hu e7 (abs_nonneg _) (by norm_num)
  have := abs_sub_le (R.fl (s + p)) (s + p) (s + t)
  rw [show s + p - (s + t) = p - t by ring] at this
  norm_num at e8 e5 ⊢
  linarith

theorem plane_err (hu : R.u ≤ 1 / 10 ^ 12) (hbits : 10 ^ 9 ≤ 2 ^ R.bits) {rnd : ℝ → ℕ} (h : Nearest rnd) {b : Box} {d : ℕ}
    (hc : cnt b d < 10 ^ 9) (h0 : 0 < cnt b d)
    (hl : 0 ≤ b.len d) {M : ℝ} (h1 : |b.shift d| ≤ M) (h2 : |b.shift d + b.len d| ≤ M) {i : ℕ} (hi : i ≤ cnt b d) :
    |plane R rnd b d i - (b.shift d + i * (b.len d / cnt b d))| ≤ 500002 / 10 ^ 11 * M := by
  obtain ⟨e1, e2⟩ := made_err hu hbits hc h0 hl h1 h2 hi
  have M0 : 0 ≤ M := (abs_nonneg _).trans h1
  set x := b.shift d + i * (b.len d / cnt b d)
  set y := made R b d i
  have e3 : |y| ≤ (1 + 8 / 10 ^ 12) * M := by
    have := abs_add_le (y - x) x
    rw [sub_add_cancel] at this
    linarith
  have e4 := printed_err h y
  unfold plane
  set z := printed rnd y
  have e5 : |z| ≤ 2 * M := by
    have := abs_add_le (z - y) y
    rw [sub_add_cancel] at this
    norm_num at e4 e3 ⊢
    linarith
  have e6 := R.err z
  have e7 : R.u * |z| ≤ 1 / 10 ^ 12 * (2 * M) := mul_le_mul hu e5 (abs_nonneg _) (by norm_num)
  have := abs_sub_le (R.fl z) z x
  have := abs_sub_le z y x
  norm_num at e1 e3 e4 e7 ⊢
  linarith

theorem cnt_lt {b : Box} (hn : b.points < 10 ^ 9) (d : ℕ) : cnt b d < 10 ^ 9 := by
  have h1 : b.pi ≤ b.points := by
    unfold Box.points
    exact (Nat.le_mul_of_pos_right _ (by unfold Box.pj; omega)).trans (Nat.le_mul_of_pos_right _ (by unfold Box.pk; omega))
  have h2 : b.pj ≤ b.points := by
    unfold Box.points
    exact (Nat.le_mul_of_pos_left _ (by unfold Box.pi; omega)).trans (Nat.le_mul_of_pos_right _ (by unfold Box.pk; omega))
  have h3 : b.pk ≤ b.points := by
    unfold Box.points
    exact Nat.le_mul_of_pos_left _ (Nat.mul_pos (by unfold Box.pi; omega) (by unfold Box.pj; omega))
  unfold Box.pi at h1; unfold Box.pj at h2; unfold Box.pk at h3
  unfold cnt; split_ifs <;> omega

theorem cnt_pos {b : Box} (hb : b.Ok) (d : ℕ) : 0 < cnt b d := by
  obtain ⟨h1, h2, h3⟩ := hb
  unfold cnt; split_ifs <;> omega

/-- **C101 (positive volumes).**  With unit roundoff at most `10^{-12}` and a mesh spacing of at least `1.00001e-5` times the largest
coordinate in each direction, every point comes back within `5.00002e-6` times that coordinate of its place, and every cell has positive
volume. -/
theorem C101_positive_partial (hu : R.u ≤ 1 / 10 ^ 12) (hbits : 10 ^ 9 ≤ 2 ^ R.bits) (b : Box) (hb : b.Ok) (hn : b.points < 10 ^ 9)
    (M : ℕ → ℝ) (hM : ∀ d < 3, |b.shift d| ≤ M d ∧ |b.shift d + b.len d| ≤ M d) (hl : ∀ d < 3, 0 < b.len d)
    (hs : ∀ d < 3, 100001 / 10 ^ 10 * M d ≤ b.len d / cnt b d) (q : Junk) {rnd : ℝ → ℕ} (h : Nearest rnd) (q' : MeshFile.Junk) :
    ∃ m, roundTrip R rnd b q q' = some m ∧ m.coords.size = b.points ∧ m.cells.size = b.cells * 8 ∧
      (∀ i ≤ b.ci, ∀ j ≤ b.cj, ∀ k ≤ b.ck, ∀ d < 3, |m.coords.val (nid i j k b.pi b.pj) d -
        (b.shift d + (if d = 0 then i else if d = 1 then j else k : ℕ) * (b.len d / cnt b d))| ≤ 500002 / 10 ^ 11 * M d) ∧
      ∀ c < b.cells, 0 < Geometry.volume (vertices m c) := by
  obtain ⟨m, e, s1, s2, v⟩ := cell_volume (R := R) b hb hn q h q'
  obtain ⟨m', e', -, -, p, -⟩ := roundTrip_spec (R := R) b hb hn q h q'
  obtain rfl : m = m' := Option.some.inj (e.symm.trans e')
  have E : ∀ d < 3, ∀ i ≤ cnt b d, |plane R rnd b d i - (b.shift d + i * (b.len d / cnt b d))| ≤ 500002 / 10 ^ 11 * M d :=
    fun d hd i hi => plane_err hu hbits h (cnt_lt hn d) (cnt_pos hb d) (hl d hd).le (hM d hd).1 (hM d hd).2 hi
  refine ⟨m, e, s1, s2, ?_, fun c hc => ?_⟩
  · intro i hi j hj k hk d hd
    rw [p i hi j hj k hk d hd]
    refine E d hd _ ?_
    unfold cnt; split_ifs <;> assumption
  obtain ⟨h1, h2, h3, h4⟩ := lex3_surj (show c < b.ci * b.cj * b.ck from hc)
  have := v _ h1 _ h2 _ h3
  rw [show nid (c % b.ci) (c / b.ci % b.cj) (c / b.ci / b.cj) b.ci b.cj = c from h4] at this
  rw [this]
  have P : ∀ d < 3, ∀ i < cnt b d, 0 < plane R rnd b d (i + 1) - plane R rnd b d i := by
    intro d hd i hi
    have a1 := abs_le.1 (E d hd i hi.le)
    have a2 := abs_le.1 (E d hd (i + 1) hi)
    have a3 := hs d hd
    have M1 : 0 < M d := by
      obtain ⟨k1, k2⟩ := hM d hd
      have k1 := abs_le.1 k1
      have k2 := abs_le.1 k2
      linarith [hl d hd]
    push_cast at a2
    rw [add_mul, one_mul] at a2
    norm_num at a1 a2 a3
    linarith
  exact mul_pos (mul_pos (P 0 (by omega) _ h1) (P 1 (by omega) _ h2)) (P 2 (by omega) _ h3)

/-! ### Collapse -/

theorem log_eq {x : ℝ} {e : ℤ} (h1 : (10 : ℝ) ^ e ≤ x) (h2 : x < (10 : ℝ) ^ (e + 1)) : Int.log 10 x = e := by
  have x0 : 0 < x := (zpow_pos (by norm_num) _).trans_le h1
  have a : e ≤ Int.log 10 x := (Int.zpow_le_iff_le_log (by decide) x0).1 (by exact_mod_cast h1)
  have c : Int.log 10 x < e + 1 := (Int.lt_zpow_iff_log_lt (by decide) x0).1 (by exact_mod_cast h2)
  omega

/-- A sequence of integers that goes up by less than its length has two equal neighbours. -/
theorem stall (r : ℕ → ℕ) (n : ℕ) (hm : Monotone r) (h : r n < r 0 + n) : ∃ i < n, r (i + 1) = r i := by
  by_contra hc
  have k : ∀ i ≤ n, r 0 + i ≤ r i := by
    intro i
    induction i with
    | zero => intro _; omega
    | succ i ih =>
      intro hi
      have h1 := ih (by omega)
      have h2 : r i ≤ r (i + 1) := hm (Nat.le_succ i)
      have h3 : r (i + 1) ≠ r i := fun e => hc ⟨i, by omega, e⟩
      omega
  have := k n le_rfl
  omega

/-- **C101 (collapse).**  When all x coordinates computed by the generator lie in one decade `[10^e, 10^{e+1})` and there are more cells in
the x direction than `1 +` the length divided by `10^{e-5}`, some layer of cells has volume zero in the reader, whatever the rounding. -/
theorem C101_collapse (b : Box) (hb : b.Ok) (hn : b.points < 10 ^ 9) (hl : ∀ d < 3, 0 ≤ b.len d) (e : ℤ)
    (h1 : (10 : ℝ) ^ e ≤ made R b 0 0) (h2 : made R b 0 b.ci < (10 : ℝ) ^ (e + 1))
    (h3 : (made R b 0 b.ci - made R b 0 0) / (10 : ℝ) ^ (e - 5) + 1 < b.ci) (q : Junk) {rnd : ℝ → ℕ} (h : Nearest rnd) (q' : MeshFile.Junk) :
    ∃ m, roundTrip R rnd b q q' = some m ∧ ∃ i < b.ci, ∀ j < b.cj, ∀ k < b.ck,
      Geometry.volume (vertices m (nid i j k b.ci b.cj)) = 0 := by
  obtain ⟨m, em, -, -, v⟩ := cell_volume (R := R) b hb hn q h q'
  refine ⟨m, em, ?_⟩
  have mono := made_mono (R := R) (hl 0 (by omega))
  set G := (10 : ℝ) ^ (e - 5)
  have G0 : 0 < G := zpow_pos (by norm_num) _
  have pos : ∀ i, 0 < made R b 0 i := fun i => (zpow_pos (by norm_num) _).trans_le (h1.trans (mono (Nat.zero_le i)))
  have pr : ∀ i ≤ b.ci, printed rnd (made R b 0 i) = rnd (made R b 0 i / G) * G := by
    intro i hi
    rw [MeshFile.printed_pos (pos i), log_eq (h1.trans (mono (Nat.zero_le i))) ((mono hi).trans_lt h2)]
  have rm : Monotone fun i => rnd (made R b 0 i / G) := fun i j hij =>
    h.mono (div_nonneg (pos i).le G0.le) (div_le_div_of_nonneg_right (mono hij) G0.le)
  obtain ⟨i, hi, ei⟩ := stall (fun i => rnd (made R b 0 i / G)) b.ci rm (by
    have a1 := abs_le.1 (h (made R b 0 b.ci / G) (div_nonneg (pos _).le G0.le))
    have a2 := abs_le.1 (h (made R b 0 0 / G) (div_nonneg (pos _).le G0.le))
    rw [sub_div] at h3
    have : (rnd (made R b 0 b.ci / G) : ℝ) < rnd (made R b 0 0 / G) + b.ci := by linarith
    exact_mod_cast this)
  refine ⟨i, hi, fun j hj k hk => ?_⟩
  rw [v i hi j hj k hk]
  have : plane R rnd b 0 (i + 1) = plane R rnd b 0 i := by
    unfold plane
    rw [pr i hi.le, pr (i + 1) hi, ei]
  rw [this]; ring

/-- The box of 1000 cells from x = 1000 to x = 1001. -/
noncomputable def thin : Box := ⟨1000, 1, 1, fun _ => 1, fun d => if d = 0 then 1000 else 0⟩

/-- **C101 (the claim fails).**  The box of 1000 × 1 × 1 cells from x = 1000 to x = 1001, generated in double precision, comes back with a
cell of volume zero. -/
theorem C101_negation (q : Junk) {rnd : ℝ → ℕ} (h : Nearest rnd) (q' : MeshFile.Junk) :
    ∃ m, roundTrip Rounding.binary64 rnd thin q q' = some m ∧ ∃ c < thin.cells, Geometry.volume (vertices m c) = 0 := by
  have hb : thin.Ok := by unfold Box.Ok thin; norm_num
  have hn : thin.points < 10 ^ 9 := by norm_num [Box.points, Box.pi, Box.pj, Box.pk, thin]
  have hu : Rounding.binary64.u ≤ 1 / 10 ^ 12 := by rw [Rounding.binary64_u]; norm_num
  have hbits : 10 ^ 9 ≤ 2 ^ Rounding.binary64.bits := by rw [Rounding.binary64_bits]; norm_num
  have m0 : made Rounding.binary64 thin 0 0 = 1000 := by
    unfold made
    rw [Nat.cast_zero, zero_mul, fl_zero, add_zero]
    have := Legendre.exact_nat (R := Rounding.binary64) 1000 (by rw [Rounding.binary64_bits]; norm_num)
    simpa [thin] using this
  have m1 := (made_err hu hbits (b := thin) (d := 0) (cnt_lt hn 0) (cnt_pos hb 0) (by norm_num [thin]) (M := 1001)
    (by norm_num [thin]) (by norm_num [thin]) (i := 1000) (by norm_num [cnt, thin])).1
  have e0 : thin.shift 0 + (1000 : ℕ) * (thin.len 0 / cnt thin 0) = 1001 := by norm_num [cnt, thin]
  rw [e0] at m1
  obtain ⟨k1, k2⟩ := abs_le.1 m1
  norm_num at k1 k2
  have ci : thin.ci = 1000 := rfl
  obtain ⟨m, em, i, hi, z⟩ := C101_collapse (R := Rounding.binary64) thin hb hn (fun d _ => by norm_num [thin]) 3
    (by rw [m0]; norm_num) (by rw [ci]; norm_num; linarith) (by
      rw [m0, ci, show (10 : ℝ) ^ ((3 : ℤ) - 5) = 1 / 100 by norm_num, show ((1000 : ℕ) : ℝ) = 1000 by norm_num]
      rw [div_div_eq_mul_div, div_one]
      linarith) q h q'
  exact ⟨m, em, nid i 0 0 thin.ci thin.cj, nid_lt hi (by norm_num [thin]) (by norm_num [thin]), z 0 (by norm_num [thin]) 0 (by norm_num [thin])⟩

/-- The hypotheses of `C101_positive_partial` hold for the box of the generator as distributed (10 × 10 × 100 long) in double precision with
100 cells in each direction. -/
example : ∃ (b : Box) (M : ℕ → ℝ), b.Ok ∧ b.points < 10 ^ 9 ∧ (∀ d < 3, |b.shift d| ≤ M d ∧ |b.shift d + b.len d| ≤ M d) ∧
    (∀ d < 3, 0 < b.len d) ∧ (∀ d < 3, 100001 / 10 ^ 10 * M d ≤ b.len d / cnt b d) ∧ Rounding.binary64.u ≤ 1 / 10 ^ 12 ∧
    10 ^ 9 ≤ 2 ^ Rounding.binary64.bits := by
  refine ⟨⟨100, 100, 100, fun d => if d = 2 then 100 else 10, fun _ => 0⟩, fun _ => 100, by unfold Box.Ok; norm_num,
    by norm_num [Box.points, Box.pi, Box.pj, Box.pk], fun d hd => ?_, fun d hd => ?_, fun d hd => ?_, ?_, ?_⟩
  · interval_cases d <;> norm_num
  · interval_cases d <;> norm_num
  · interval_cases d <;> norm_num [cnt]
  · rw [Rounding.binary64_u]; norm_num
  · rw [Rounding.binary64_bits]; norm_num

end Verif.Fp.MeshBox
