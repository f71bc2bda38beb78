import Verif.MeshBox.Model
import Verif.Loop3

/-!
# Loops of the box mesh creator
-/

namespace Verif.MeshBox
open Finset

/-- Number of the lattice point (or cell) `(i, j, k)`. -/
def nid (i j k ni nj : ℕ) : ℕ := i + j * ni + k * ni * nj

theorem getId_nat (i j k ni nj : ℕ) : getId i j k ni nj = (nid i j k ni nj : ℕ) := by
  unfold getId nid; push_cast; ring

theorem setZ_nat {α : Type} {a : Arr α} {n : ℕ} (h : n < a.size) (v : α) :
    setZ a (n : ℤ) v = some ⟨a.size, store a.val n v⟩ := by
  unfold setZ; rw [if_pos (by omega), Int.toNat_natCast, Arr.set_lt _ h]

theorem nid_lt {i j k ni nj nk : ℕ} (hi : i < ni) (hj : j < nj) (hk : k < nk) : nid i j k ni nj < ni * nj * nk := lex3_lt hi hj hk

theorem nid_inj {i j k i' j' k' n m : ℕ} (hi : i < n) (hj : j < m) (hi' : i' < n) (hj' : j' < m)
    (h : nid i j k n m = nid i' j' k' n m) : i = i' ∧ j = j' ∧ k = k' := lex3_inj hi hj hi' hj' h

/-- Coordinate `d` of the lattice point `(i, j, k)`. -/
noncomputable def ptOf (b : Box) (i j k : ℕ) : ℕ → ℝ :=
  row3 (b.shift 0 + i * b.step 0) (b.shift 1 + j * b.step 1) (b.shift 2 + k * b.step 2)

theorem pointLoop_spec (b : Box) (a : Arr (ℕ → ℝ)) (h : a.size = b.points) :
    ∃ a', pointLoop b a = some a' ∧ a'.size = b.points ∧
      ∀ k < b.pk, ∀ j < b.pj, ∀ i < b.pi, a'.val (nid i j k b.pi b.pj) = ptOf b i j k := by
  unfold pointLoop loop3
  obtain ⟨a', h1, h2, h3⟩ := loopM3_spec (s := a)
    (body := fun k j i a => setZ a (getId i j k b.pi b.pj)
      (row3 (b.shift 0 + i * b.step 0) (b.shift 1 + j * b.step 1) (b.shift 2 + k * b.step 2)))
    (fun t (a : Arr (ℕ → ℝ)) => a.size = b.points ∧
      ∀ k < b.pk, ∀ j < b.pj, ∀ i < b.pi, nid i j k b.pi b.pj < t → a.val (nid i j k b.pi b.pj) = ptOf b i j k)
    ⟨h, by intro k _ j _ i _ h; omega⟩
    (nk := b.pk) (nj := b.pj) (ni := b.pi)
    (by
      rintro k j i a hk hj hi ⟨h1, h2⟩
      have hlt : nid i j k b.pi b.pj < a.size := by rw [h1]; exact nid_lt hi hj hk
      refine ⟨⟨a.size, store a.val (nid i j k b.pi b.pj) (ptOf b i j k)⟩, by rw [getId_nat]; exact setZ_nat hlt _, h1, ?_⟩
      intro k' hk' j' hj' i' hi' hlt'
      by_cases he : nid i' j' k' b.pi b.pj = nid i j k b.pi b.pj
      · obtain ⟨rfl, rfl, rfl⟩ := nid_inj hi' hj' hi hj he
        simp only [store_same]
      · simp only [store_ne _ _ he]
        refine h2 k' hk' j' hj' i' hi' ?_
        have : nid i' j' k' b.pi b.pj < nid i j k b.pi b.pj + 1 := hlt'
        show _ < nid i j k b.pi b.pj
        omega)
  exact ⟨a', h1, h2, fun k hk j hj i hi => h3 k hk j hj i hi (nid_lt hi hj hk)⟩

/-! ### Cells -/

/-- Offset of local vertex `l` in finite element order. -/
def feOff (l d : ℕ) : ℕ :=
  if d = 0 then [0, 1, 1, 0, 0, 1, 1, 0].getD l 0 else if d = 1 then [0, 0, 1, 1, 0, 0, 1, 1].getD l 0
  else [0, 0, 0, 0, 1, 1, 1, 1].getD l 0

theorem cellPoints_spec (b : Box) {i j k : ℕ} (hi : i < b.ci) (hj : j < b.cj) (hk : k < b.ck) (a : Arr ℤ)
    (h : a.size = b.cells * 8) :
    ∃ a', cellPoints b i j k a = some a' ∧ a'.size = a.size ∧
      (∀ l < 8, a'.val (nid i j k b.ci b.cj * 8 + l) = nid (i + feOff l 0) (j + feOff l 1) (k + feOff l 2) b.pi b.pj) ∧
      ∀ t, t / 8 ≠ nid i j k b.ci b.cj → a'.val t = a.val t := by
  have hc : nid i j k b.ci b.cj < b.cells := nid_lt hi hj hk
  unfold cellPoints loop3
  simp only [Option.bind_eq_bind]
  obtain ⟨⟨a', n⟩, h1, h2, -, h3, h4⟩ := loopM3_spec (s := (a, 0)) (nk := 2) (nj := 2) (ni := 2)
    (body := fun kk jj ii (s : Arr ℤ × ℕ) =>
      (setZ s.1 (getId i j k b.ci b.cj * 8 + convert s.2) (getId (i + ii : ℕ) (j + jj : ℕ) (k + kk : ℕ) b.pi b.pj)).bind fun a =>
        pure (a, s.2 + 1))
    (fun t (s : Arr ℤ × ℕ) => s.1.size = a.size ∧ s.2 = t ∧
      (∀ u < t, u < 8 → s.1.val (nid i j k b.ci b.cj * 8 + convert u) =
        nid (i + u % 2) (j + u / 2 % 2) (k + u / 4) b.pi b.pj) ∧
      ∀ t, t / 8 ≠ nid i j k b.ci b.cj → s.1.val t = a.val t)
    ⟨rfl, rfl, by intro u hu; omega, fun _ _ => rfl⟩
    (by
      rintro kk jj ii ⟨a', t⟩ hkk hjj hii ⟨z, e, h2, h3⟩
      simp only [] at z e h2 h3
      subst e
      have e8 : ∀ u < 8, convert u < 8 := by decide
      have ht : ii + jj * 2 + kk * 2 * 2 < 8 := by omega
      refine ⟨(⟨a'.size, store a'.val (nid i j k b.ci b.cj * 8 + convert (ii + jj * 2 + kk * 2 * 2))
        (nid (i + ii) (j + jj) (k + kk) b.pi b.pj : ℕ)⟩, ii + jj * 2 + kk * 2 * 2 + 1), ?_, z, rfl, ?_, ?_⟩
      · have := e8 _ ht
        have e : getId i j k b.ci b.cj * 8 + (convert (ii + jj * 2 + kk * 2 * 2) : ℕ) =
            ((nid i j k b.ci b.cj * 8 + convert (ii + jj * 2 + kk * 2 * 2) : ℕ) : ℤ) := by
          rw [getId_nat]; push_cast; ring
        rw [getId_nat (i + ii)]
        simp only [e]
        rw [setZ_nat (by rw [z, h]; omega)]
        rfl
      · intro u hu hu8
        by_cases he : u = ii + jj * 2 + kk * 2 * 2
        · subst he
          simp only [store_same]
          congr 2 <;> omega
        · have inj : ∀ u < 8, ∀ v < 8, convert u = convert v → u = v := by decide
          simp only []
          rw [store_ne _ _ (fun hh => he (inj u hu8 _ ht (by omega)))]
          exact h2 u (by omega) hu8
      · intro t ht'
        simp only []
        rw [store_ne]
        · exact h3 t ht'
        · have := e8 _ ht
          intro hh; apply ht'; rw [hh]; omega)
  simp only [] at h2 h3 h4
  refine ⟨a', ?_, h2, ?_, h4⟩
  · rw [h1]; rfl
  · intro l hl
    have hcv : ∀ l < 8, convert (convert l) = l ∧ convert l < 8 ∧ convert l % 2 = feOff l 0 ∧ convert l / 2 % 2 = feOff l 1 ∧
        convert l / 4 = feOff l 2 := by decide
    obtain ⟨c1, c2, c3, c4, c5⟩ := hcv l hl
    have := h3 (convert l) c2 c2
    rw [c1, c3, c4, c5] at this
    exact this

/-- Centre of cell `(i, j, k)` as stored. -/
noncomputable def ctrOf (b : Box) (i j k : ℕ) : ℕ → ℝ :=
  row3 (i * b.step 0 + b.step 0 / 2) (j * b.step 1 + b.step 1 / 2) (k * b.step 2 + b.step 2 / 2)

theorem cellLoop_spec (b : Box) (s : Arr (ℕ → ℝ) × Arr ℤ) (h1 : s.1.size = b.cells) (h2 : s.2.size = b.cells * 8) :
    ∃ s', cellLoop b s = some s' ∧ s'.1.size = b.cells ∧ s'.2.size = b.cells * 8 ∧
      ∀ k < b.ck, ∀ j < b.cj, ∀ i < b.ci, s'.1.val (nid i j k b.ci b.cj) = ctrOf b i j k ∧
        ∀ l < 8, s'.2.val (nid i j k b.ci b.cj * 8 + l) = nid (i + feOff l 0) (j + feOff l 1) (k + feOff l 2) b.pi b.pj := by
  unfold cellLoop loop3
  simp only [Option.bind_eq_bind]
  obtain ⟨a', e1, e2, e3, e4⟩ := loopM3_spec (s := s)
    (body := fun k j i (s : Arr (ℕ → ℝ) × Arr ℤ) => (setZ s.1 (getId i j k b.ci b.cj)
      (row3 (i * b.step 0 + b.step 0 / 2) (j * b.step 1 + b.step 1 / 2) (k * b.step 2 + b.step 2 / 2))).bind fun c =>
      (cellPoints b i j k s.2).bind fun p => pure (c, p))
    (fun t (s : Arr (ℕ → ℝ) × Arr ℤ) => s.1.size = b.cells ∧ s.2.size = b.cells * 8 ∧
      ∀ k < b.ck, ∀ j < b.cj, ∀ i < b.ci, nid i j k b.ci b.cj < t → s.1.val (nid i j k b.ci b.cj) = ctrOf b i j k ∧
        ∀ l < 8, s.2.val (nid i j k b.ci b.cj * 8 + l) = nid (i + feOff l 0) (j + feOff l 1) (k + feOff l 2) b.pi b.pj)
    ⟨h1, h2, by intro k _ j _ i _ h; omega⟩
    (nk := b.ck) (nj := b.cj) (ni := b.ci)
    (by
      rintro k j i a hk hj hi ⟨h1, h2, h3⟩
      have hlt : nid i j k b.ci b.cj < a.1.size := by rw [h1]; exact nid_lt hi hj hk
      obtain ⟨p, p1, p2, p3, p4⟩ := cellPoints_spec b hi hj hk a.2 h2
      refine ⟨(⟨a.1.size, store a.1.val (nid i j k b.ci b.cj) (ctrOf b i j k)⟩, p), ?_, h1, by rw [p2, h2], ?_⟩
      · rw [getId_nat, setZ_nat hlt, Option.bind_some, p1]; rfl
      intro k' hk' j' hj' i' hi' hlt'
      by_cases he : nid i' j' k' b.ci b.cj = nid i j k b.ci b.cj
      · obtain ⟨rfl, rfl, rfl⟩ := nid_inj hi' hj' hi hj he
        exact ⟨by simp only [store_same], p3⟩
      · have hlt'' : nid i' j' k' b.ci b.cj < nid i j k b.ci b.cj + 1 := hlt'
        obtain ⟨f1, f2⟩ := h3 k' hk' j' hj' i' hi' (show _ < nid i j k b.ci b.cj by omega)
        refine ⟨by simp only [store_ne _ _ he]; exact f1, fun l hl => ?_⟩
        simp only []
        rw [p4 _ (by omega)]
        exact f2 l hl)
  exact ⟨a', e1, e2, e3, fun k hk j hj i hi => e4 k hk j hj i hi (nid_lt hi hj hk)⟩

end Verif.MeshBox
