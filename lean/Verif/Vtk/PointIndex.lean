import Verif.Vtk.GridTheorems

/-!
# The numbering of VTK

`vtkHigherOrderHexahedron::PointIndexFromIJK` is not in /repo; this is a transcription from the documentation of VTK (corners, then
edges, then faces, then the interior), in both versions that exist: VTK changed the order of the last two edges along `k` with version 9.
It shows that what the theorems on `swage2vtk` ask of VTK, `Numbering`, holds for every order; nothing else depends on it.
-/

namespace Verif.Vtk

/-- `PointIndexFromIJK(i, j, k)` of a hexahedron of order `(p, p, p)`; `old`: before VTK 9. -/
def vtkIndex (old : Bool) : PointIndex := fun p i j k =>
  let n := p - 1
  let ib := i = 0 ∨ i = p
  let jb := j = 0 ∨ j = p
  let kb := k = 0 ∨ k = p
  if ib ∧ jb ∧ kb then (if i ≠ 0 then (if j ≠ 0 then 2 else 1) else if j ≠ 0 then 3 else 0) + if k ≠ 0 then 4 else 0
  else if ¬ ib ∧ jb ∧ kb then (i - 1) + (if j ≠ 0 then n + n else 0) + (if k ≠ 0 then 2 * (n + n) else 0) + 8
  else if ib ∧ ¬ jb ∧ kb then (j - 1) + (if i ≠ 0 then n else 2 * n + n) + (if k ≠ 0 then 2 * (n + n) else 0) + 8
  else if ib ∧ jb then (k - 1) + n * (if i ≠ 0 then (if j ≠ 0 then (if old then 3 else 2) else 1) else if j ≠ 0 then (if old then 2 else 3) else 0) +
    (8 + 4 * n + 4 * n)
  else if ib then (j - 1) + n * (k - 1) + (if i ≠ 0 then n * n else 0) + (8 + 4 * (n + n + n))
  else if jb then (i - 1) + n * (k - 1) + (if j ≠ 0 then n * n else 0) + (8 + 4 * (n + n + n) + 2 * n * n)
  else if kb then (i - 1) + n * (j - 1) + (if k ≠ 0 then n * n else 0) + (8 + 4 * (n + n + n) + 2 * n * n + 2 * n * n)
  else (8 + 4 * (n + n + n) + 2 * n * n + 2 * n * n + 2 * n * n) + (i - 1) + n * ((j - 1) + n * (k - 1))

/-- A coordinate is the first, the last or an inner one. -/
theorem coord_cases {n i : ℕ} (h : i ≤ n + 1) : i = 0 ∨ i = n + 1 ∨ ∃ a, a < n ∧ i = a + 1 := by
  rcases Nat.eq_zero_or_pos i with h1 | h1
  · exact Or.inl h1
  · rcases Nat.lt_or_ge n i with h2 | h2
    · exact Or.inr (Or.inl (by omega))
    · exact Or.inr (Or.inr ⟨i - 1, by omega, by omega⟩)

theorem lex2_lt {n a b : ℕ} (ha : a < n) (hb : b < n) : a + n * b < n * n := by
  have : n * (b + 1) ≤ n * n := Nat.mul_le_mul_left _ hb
  rw [Nat.mul_add] at this; omega

theorem cube_eq (n : ℕ) : (n + 1 + 1) ^ 3 = 8 + 12 * n + 6 * (n * n) + n * (n * n) := by ring

/-- The first (`false`) or last (`true`) coordinate. -/
def side (n : ℕ) (s : Bool) : ℕ := if s then n + 1 else 0

/-- `PointIndexFromIJK` on corners, edges, faces and inside. -/
theorem vtkIndex_corner (old : Bool) (n : ℕ) (s t u : Bool) : vtkIndex old (n + 1) (side n s) (side n t) (side n u) =
    (if s then (if t then 2 else 1) else if t then 3 else 0) + if u then 4 else 0 := by
  unfold vtkIndex side
  cases s <;> cases t <;> cases u <;> simp

theorem vtkIndex_edgeI (old : Bool) (n a : ℕ) (ha : a < n) (t u : Bool) : vtkIndex old (n + 1) (a + 1) (side n t) (side n u) =
    8 + n * ((if t then 2 else 0) + if u then 4 else 0) + a := by
  have h : ¬ a = n := by omega
  unfold vtkIndex side
  cases t <;> cases u <;> simp [h] <;> ring

theorem vtkIndex_edgeJ (old : Bool) (n b : ℕ) (hb : b < n) (s u : Bool) : vtkIndex old (n + 1) (side n s) (b + 1) (side n u) =
    8 + n * ((if s then 1 else 3) + if u then 4 else 0) + b := by
  have h : ¬ b = n := by omega
  unfold vtkIndex side
  cases s <;> cases u <;> simp [h] <;> ring

theorem vtkIndex_edgeK (old : Bool) (n c : ℕ) (hc : c < n) (s t : Bool) : vtkIndex old (n + 1) (side n s) (side n t) (c + 1) =
    8 + n * (8 + if s then (if t then (if old then 3 else 2) else 1) else if t then (if old then 2 else 3) else 0) + c := by
  have h : ¬ c = n := by omega
  unfold vtkIndex side
  cases s <;> cases t <;> cases old <;> simp [h] <;> ring

theorem vtkIndex_faceI (old : Bool) (n b c : ℕ) (hb : b < n) (hc : c < n) (s : Bool) : vtkIndex old (n + 1) (side n s) (b + 1) (c + 1) =
    8 + 12 * n + n * n * (if s then 1 else 0) + (b + n * c) := by
  have h : ¬ b = n := by omega
  have h' : ¬ c = n := by omega
  unfold vtkIndex side
  cases s <;> simp [h, h'] <;> ring

theorem vtkIndex_faceJ (old : Bool) (n a c : ℕ) (ha : a < n) (hc : c < n) (t : Bool) : vtkIndex old (n + 1) (a + 1) (side n t) (c + 1) =
    8 + 12 * n + n * n * (2 + if t then 1 else 0) + (a + n * c) := by
  have h : ¬ a = n := by omega
  have h' : ¬ c = n := by omega
  unfold vtkIndex side
  cases t <;> simp [h, h'] <;> ring

theorem vtkIndex_faceK (old : Bool) (n a b : ℕ) (ha : a < n) (hb : b < n) (u : Bool) : vtkIndex old (n + 1) (a + 1) (b + 1) (side n u) =
    8 + 12 * n + n * n * (4 + if u then 1 else 0) + (a + n * b) := by
  have h : ¬ a = n := by omega
  have h' : ¬ b = n := by omega
  unfold vtkIndex side
  cases u <;> simp [h, h'] <;> ring

theorem vtkIndex_inside (old : Bool) (n a b c : ℕ) (ha : a < n) (hb : b < n) (hc : c < n) : vtkIndex old (n + 1) (a + 1) (b + 1) (c + 1) =
    8 + 12 * n + n * n * 6 + (a + b * n + c * n * n) := by
  have h : ¬ a = n := by omega
  have h' : ¬ b = n := by omega
  have h'' : ¬ c = n := by omega
  unfold vtkIndex
  simp [h, h', h'']; ring

/-- A coordinate is on a side or an inner one. -/
theorem coord_side {n i : ℕ} (h : i ≤ n + 1) : (∃ s, i = side n s) ∨ ∃ a, a < n ∧ i = a + 1 := by
  rcases coord_cases h with h | h | h
  · exact Or.inl ⟨false, h⟩
  · exact Or.inl ⟨true, h⟩
  · exact Or.inr h

theorem vtkIndex_lt (old : Bool) (n i j k : ℕ) (hi : i ≤ n + 1) (hj : j ≤ n + 1) (hk : k ≤ n + 1) :
    vtkIndex old (n + 1) i j k < (n + 1 + 1) ^ 3 := by
  rw [cube_eq]
  rcases coord_side hi with ⟨s, rfl⟩ | ⟨a, ha, rfl⟩ <;> rcases coord_side hj with ⟨t, rfl⟩ | ⟨b, hb, rfl⟩ <;>
    rcases coord_side hk with ⟨u, rfl⟩ | ⟨c, hc, rfl⟩
  · rw [vtkIndex_corner]
    cases s <;> cases t <;> cases u <;> simp <;> omega
  · rw [vtkIndex_edgeK _ _ _ hc]
    cases s <;> cases t <;> cases old <;> simp <;> omega
  · rw [vtkIndex_edgeJ _ _ _ hb]
    cases s <;> cases u <;> simp <;> omega
  · rw [vtkIndex_faceI _ _ _ _ hb hc]
    have := lex2_lt hb hc
    cases s <;> simp <;> omega
  · rw [vtkIndex_edgeI _ _ _ ha]
    cases t <;> cases u <;> simp <;> omega
  · rw [vtkIndex_faceJ _ _ _ _ ha hc]
    have := lex2_lt ha hc
    cases t <;> simp <;> omega
  · rw [vtkIndex_faceK _ _ _ _ ha hb]
    have := lex2_lt ha hb
    cases u <;> simp <;> omega
  · rw [vtkIndex_inside _ _ _ _ _ ha hb hc]
    have := lex3_lt (l := n) ha hb hc
    rw [Nat.mul_assoc n n n] at this
    omega

/-- Every number below `8 + 12 n + 6 n² + n³` is reached. -/
theorem vtkIndex_surj (old : Bool) (n x : ℕ) (hx : x < (n + 1 + 1) ^ 3) :
    ∃ i j k, i ≤ n + 1 ∧ j ≤ n + 1 ∧ k ≤ n + 1 ∧ vtkIndex old (n + 1) i j k = x := by
  rw [cube_eq] at hx
  have hs : ∀ s, side n s ≤ n + 1 := fun s => by cases s <;> simp [side]
  rcases lt_or_ge x 8 with h8 | h8
  · have hc := vtkIndex_corner old n
    have : ∃ s t u : Bool, (if s then (if t then 2 else 1) else if t then 3 else 0) + (if u then 4 else 0) = x := by
      interval_cases x <;> decide
    obtain ⟨s, t, u, e⟩ := this
    exact ⟨_, _, _, hs s, hs t, hs u, by rw [hc, e]⟩
  rcases lt_or_ge x (8 + 12 * n) with h12 | h12
  · have hn : 0 < n := by omega
    have h1 : (x - 8) % n < n := Nat.mod_lt _ hn
    have h2 : n * ((x - 8) / n) + (x - 8) % n = x - 8 := Nat.div_add_mod _ _
    have h3 : (x - 8) / n < 12 := Nat.div_lt_of_lt_mul (by omega)
    generalize (x - 8) / n = q at *
    generalize (x - 8) % n = a at *
    have : (∃ t u : Bool, (if t then 2 else 0) + (if u then 4 else 0) = q) ∨ (∃ s u : Bool, (if s then 1 else 3) + (if u then 4 else 0) = q) ∨
        ∃ s t : Bool, (8 + if s then (if t then (if old then 3 else 2) else 1) else if t then (if old then 2 else 3) else 0) = q := by
      cases old <;> interval_cases q <;> decide
    rcases this with ⟨t, u, e⟩ | ⟨s, u, e⟩ | ⟨s, t, e⟩
    · exact ⟨_, _, _, (by omega : a + 1 ≤ n + 1), hs t, hs u, by rw [vtkIndex_edgeI _ _ _ h1, e]; omega⟩
    · exact ⟨_, _, _, hs s, (by omega : a + 1 ≤ n + 1), hs u, by rw [vtkIndex_edgeJ _ _ _ h1, e]; omega⟩
    · exact ⟨_, _, _, hs s, hs t, (by omega : a + 1 ≤ n + 1), by rw [vtkIndex_edgeK _ _ _ h1, e]; omega⟩
  have hn : 0 < n := by
    rcases Nat.eq_zero_or_pos n with rfl | h
    · omega
    · exact h
  rcases lt_or_ge x (8 + 12 * n + n * n * 6) with h6 | h6
  · have hnn : 0 < n * n := Nat.mul_pos hn hn
    have h2 : n * n * ((x - (8 + 12 * n)) / (n * n)) + (x - (8 + 12 * n)) % (n * n) = x - (8 + 12 * n) := Nat.div_add_mod _ _
    have h1 : (x - (8 + 12 * n)) % (n * n) < n * n := Nat.mod_lt _ hnn
    have h3 : (x - (8 + 12 * n)) / (n * n) < 6 := Nat.div_lt_of_lt_mul (by omega)
    generalize (x - (8 + 12 * n)) / (n * n) = q at *
    generalize (x - (8 + 12 * n)) % (n * n) = y at *
    have h4 : y % n < n := Nat.mod_lt _ hn
    have h5 : y / n < n := Nat.div_lt_of_lt_mul h1
    have h7 : y % n + n * (y / n) = y := by rw [Nat.add_comm]; exact Nat.div_add_mod _ _
    generalize y % n = a at *
    generalize y / n = b at *
    have : (∃ s : Bool, (if s then 1 else 0) = q) ∨ (∃ t : Bool, (2 + if t then 1 else 0) = q) ∨ ∃ u : Bool, (4 + if u then 1 else 0) = q := by
      interval_cases q <;> decide
    rcases this with ⟨s, e⟩ | ⟨t, e⟩ | ⟨u, e⟩
    · exact ⟨_, _, _, hs s, (by omega : a + 1 ≤ n + 1), (by omega : b + 1 ≤ n + 1), by rw [vtkIndex_faceI _ _ _ _ h4 h5, e]; omega⟩
    · exact ⟨_, _, _, (by omega : a + 1 ≤ n + 1), hs t, (by omega : b + 1 ≤ n + 1), by rw [vtkIndex_faceJ _ _ _ _ h4 h5, e]; omega⟩
    · exact ⟨_, _, _, (by omega : a + 1 ≤ n + 1), (by omega : b + 1 ≤ n + 1), hs u, by rw [vtkIndex_faceK _ _ _ _ h4 h5, e]; omega⟩
  · obtain ⟨a1, a2, a3, a4⟩ := lex3_surj (p := x - (8 + 12 * n + n * n * 6)) (n := n) (m := n) (l := n) (by rw [Nat.mul_assoc n n n]; omega)
    exact ⟨_, _, _, Nat.succ_le_succ a1.le, Nat.succ_le_succ a2.le, Nat.succ_le_succ a3.le, by
      rw [vtkIndex_inside _ _ _ _ _ a1 a2 a3, a4]; omega⟩

/-- The numbering of VTK, in both versions, is a numbering of the lattice without repetition, for every order. -/
theorem vtkIndex_numbering (old : Bool) (p : ℕ) : Numbering (vtkIndex old) p := by
  rcases p with _ | n
  · refine ⟨?_, ?_⟩
    · intro I J K hI hJ hK
      obtain rfl : I = 0 := by omega
      obtain rfl : J = 0 := by omega
      obtain rfl : K = 0 := by omega
      simp [vtkIndex]
    · intros; omega
  refine ⟨fun I J K => vtkIndex_lt old n I J K, ?_⟩
  have hN : (n + 1 + 1) ^ 3 = (n + 1 + 1) * (n + 1 + 1) * (n + 1 + 1) := by ring
  let w := n + 1 + 1
  have b : ∀ x : Fin (w ^ 3), x.1 % w < w ∧ x.1 / w % w < w ∧ x.1 / w / w < w ∧
      x.1 % w + (x.1 / w % w) * w + (x.1 / w / w) * w * w = x.1 := fun x => lex3_surj (by rw [← hN]; exact x.2)
  let f : Fin (w ^ 3) → Fin (w ^ 3) := fun x => ⟨vtkIndex old (n + 1) (x.1 % w) (x.1 / w % w) (x.1 / w / w),
    vtkIndex_lt old n _ _ _ (Nat.lt_succ_iff.1 (b x).1) (Nat.lt_succ_iff.1 (b x).2.1) (Nat.lt_succ_iff.1 (b x).2.2.1)⟩
  have code : ∀ i j k, i < w → j < w → k < w → ∃ x : Fin (w ^ 3), x.1 = i + j * w + k * w * w ∧ (f x).1 = vtkIndex old (n + 1) i j k := by
    intro i j k hi hj hk
    have h := lex3_lt (l := w) hi hj hk
    rw [← hN] at h
    refine ⟨⟨_, h⟩, rfl, ?_⟩
    obtain ⟨e1, e2, e3⟩ := lex3_inj (b ⟨_, h⟩).1 (b ⟨_, h⟩).2.1 hi hj (b ⟨_, h⟩).2.2.2
    show vtkIndex old (n + 1) _ _ _ = _
    rw [e1, e2, e3]
  have fs : Function.Surjective f := by
    intro y
    obtain ⟨i, j, k, hi, hj, hk, e⟩ := vtkIndex_surj old n y.1 y.2
    obtain ⟨x, -, hx⟩ := code i j k (Nat.lt_succ_of_le hi) (Nat.lt_succ_of_le hj) (Nat.lt_succ_of_le hk)
    exact ⟨x, Fin.ext (by rw [hx, e])⟩
  have fi := Finite.injective_iff_surjective.2 fs
  intro I J K I' J' K' hI hJ hK hI' hJ' hK' h
  obtain ⟨x, x1, x2⟩ := code I J K (Nat.lt_succ_of_le hI) (Nat.lt_succ_of_le hJ) (Nat.lt_succ_of_le hK)
  obtain ⟨y, y1, y2⟩ := code I' J' K' (Nat.lt_succ_of_le hI') (Nat.lt_succ_of_le hJ') (Nat.lt_succ_of_le hK')
  have : x = y := fi (Fin.ext (by rw [x2, y2, h]))
  rw [this, y1] at x1
  obtain ⟨r1, r2, r3⟩ := lex3_inj (Nat.lt_succ_of_le hI') (Nat.lt_succ_of_le hJ') (Nat.lt_succ_of_le hI) (Nat.lt_succ_of_le hJ) x1
  exact ⟨r1.symm, r2.symm, r3.symm⟩

/-- Check against the figures in the documentation of VTK: the quadratic hexahedron. -/
example : (List.range 3).map (fun k => (List.range 3).map fun j => (List.range 3).map fun i => vtkIndex false 2 i j k) =
    [[[0, 8, 1], [11, 24, 9], [3, 10, 2]], [[16, 22, 17], [20, 26, 21], [19, 23, 18]], [[4, 12, 5], [15, 25, 13], [7, 14, 6]]] := by decide

end Verif.Vtk
