import Verif.RefElem.SplitLemmas

/-!
# The patches of `ref_element::init`

A side of a cell is identified with its centre, in coordinates where cell `(i, j, k)` is the cube
`[2i, 2i+2] × [2j, 2j+2] × [2k, 2k+2]`.
-/

namespace Verif.RefElem
open scoped Classical

/-- Centre of side `s` of cell `(i, j, k)`; the sides are in the order -x, +x, -y, +y, -z, +z. -/
def ctr (i j k s : ℕ) : ℕ × ℕ × ℕ :=
  if s = 0 then (2 * i, 2 * j + 1, 2 * k + 1)
  else if s = 1 then (2 * i + 2, 2 * j + 1, 2 * k + 1)
  else if s = 2 then (2 * i + 1, 2 * j, 2 * k + 1)
  else if s = 3 then (2 * i + 1, 2 * j + 2, 2 * k + 1)
  else if s = 4 then (2 * i + 1, 2 * j + 1, 2 * k)
  else (2 * i + 1, 2 * j + 1, 2 * k + 2)

/-- The flat number of a side: side `t % 6` of cell `t / 6`. -/
def ctrF (C t : ℕ) : ℕ × ℕ × ℕ := ctr (t / 6 % C) (t / 6 / C % C) (t / 6 / C / C) (t % 6)

theorem ctrF_eq {C i j k s : ℕ} (hi : i < C) (hj : j < C) (hs : s < 6) : ctrF C (s + rid C i j k * 6) = ctr i j k s := by
  have := lex3_mod (k := k) hi hj
  unfold ctrF rid
  rw [show (s + (i + j * C + k * C * C) * 6) / 6 = i + j * C + k * C * C by omega,
    show (s + (i + j * C + k * C * C) * 6) % 6 = s by omega, this.1, this.2.1, this.2.2]

theorem side_surj {C t : ℕ} (ht : t < C * C * C * 6) :
    ∃ i j k s, i < C ∧ j < C ∧ k < C ∧ s < 6 ∧ t = s + rid C i j k * 6 := by
  obtain ⟨i, j, k, hi, hj, hk, e⟩ := rid_surj (w := C) (m := t / 6) (by omega)
  exact ⟨i, j, k, t % 6, hi, hj, hk, by omega, by omega⟩

theorem side_lt {C i j k s : ℕ} (hi : i < C) (hj : j < C) (hk : k < C) (hs : s < 6) :
    s + rid C i j k * 6 < C * C * C * 6 := by
  have := rid_lt hi hj hk
  omega

/-- No earlier side has the same centre. -/
def First (C t : ℕ) : Prop := ∀ t' < t, ctrF C t' ≠ ctrF C t

/-- The first side with the same centre. -/
noncomputable def rep (C t : ℕ) : ℕ := Nat.find (p := fun t' => ctrF C t' = ctrF C t) ⟨t, rfl⟩

theorem ctrF_rep (C t : ℕ) : ctrF C (rep C t) = ctrF C t := Nat.find_spec (p := fun t' => ctrF C t' = ctrF C t) ⟨t, rfl⟩
theorem rep_le {C t t' : ℕ} (h : ctrF C t' = ctrF C t) : rep C t ≤ t' :=
  Nat.find_min' (p := fun t' => ctrF C t' = ctrF C t) ⟨t, rfl⟩ h
theorem rep_le_self (C t : ℕ) : rep C t ≤ t := rep_le rfl
theorem rep_congr {C t t' : ℕ} (h : ctrF C t = ctrF C t') : rep C t = rep C t' :=
  le_antisymm (rep_le (by rw [ctrF_rep, h])) (rep_le (by rw [ctrF_rep, h]))
theorem first_rep (C t : ℕ) : First C (rep C t) := by
  intro t' h1 h2
  rw [ctrF_rep] at h2
  exact absurd (rep_le h2) (by omega)
theorem first_iff {C t : ℕ} : First C t ↔ rep C t = t := by
  constructor
  · intro h
    by_contra h2
    exact h _ (lt_of_le_of_ne (rep_le_self C t) h2) (ctrF_rep C t)
  · intro h; rw [← h]; exact first_rep C t

/-- The neighbour's side has the same centre, and no third side has. -/
theorem ctr_unique {C i j k s i' j' k' s' : ℕ} (hi' : i' < C) (hj' : j' < C) (hk' : k' < C)
    (hs : s < 6) (hs' : s' < 6) (h : ctr i j k s = ctr i' j' k' s') :
    (i' = i ∧ j' = j ∧ k' = k ∧ s' = s) ∨
      (neighborCell C i j k s = some (rid C i' j' k') ∧ s' = neighborSide s) := by
  have c : s = 0 ∨ s = 1 ∨ s = 2 ∨ s = 3 ∨ s = 4 ∨ s = 5 := by omega
  have c' : s' = 0 ∨ s' = 1 ∨ s' = 2 ∨ s' = 3 ∨ s' = 4 ∨ s' = 5 := by omega
  rcases c with rfl | rfl | rfl | rfl | rfl | rfl <;> rcases c' with rfl | rfl | rfl | rfl | rfl | rfl <;>
    simp [ctr, neighborCell, neighborSide] at h ⊢ <;> first
    | omega
    | (obtain ⟨h1, h2, h3⟩ := h
       have e1 : i' = i ∨ i' = i + 1 ∨ i = i' + 1 := by omega
       have e2 : j' = j ∨ j' = j + 1 ∨ j = j' + 1 := by omega
       have e3 : k' = k ∨ k' = k + 1 ∨ k = k' + 1 := by omega
       rcases e1 with rfl | rfl | rfl <;> rcases e2 with rfl | rfl | rfl <;> rcases e3 with rfl | rfl | rfl <;>
         first
         | omega
         | simp )

theorem ctr_neighbor {C i j k s m : ℕ} (hi : i < C) (hj : j < C) (hk : k < C) (hs : s < 6)
    (h : neighborCell C i j k s = some m) :
    neighborSide s < 6 ∧ m < C * C * C ∧ ctrF C (neighborSide s + m * 6) = ctr i j k s ∧
      ∃ i' j' k', i' < C ∧ j' < C ∧ k' < C ∧ m = rid C i' j' k' := by
  have c : s = 0 ∨ s = 1 ∨ s = 2 ∨ s = 3 ∨ s = 4 ∨ s = 5 := by omega
  have key : neighborSide s < 6 ∧ ∃ i' j' k', i' < C ∧ j' < C ∧ k' < C ∧ m = rid C i' j' k' ∧
      ctr i' j' k' (neighborSide s) = ctr i j k s := by
    rcases c with rfl | rfl | rfl | rfl | rfl | rfl <;> simp [neighborCell, neighborSide] at h ⊢
    · exact ⟨i - 1, by omega, j, hj, k, hk, h.2.symm, by simp [ctr]; omega⟩
    · exact ⟨i + 1, by omega, j, hj, k, hk, h.2.symm, by simp [ctr]; omega⟩
    · exact ⟨i, hi, j - 1, by omega, k, hk, h.2.symm, by simp [ctr]; omega⟩
    · exact ⟨i, hi, j + 1, by omega, k, hk, h.2.symm, by simp [ctr]; omega⟩
    · exact ⟨i, hi, j, hj, k - 1, by omega, h.2.symm, by simp [ctr]; omega⟩
    · exact ⟨i, hi, j, hj, k + 1, by omega, h.2.symm, by simp [ctr]; omega⟩
  obtain ⟨h1, i', j', k', hi', hj', hk', rfl, h2⟩ := key
  exact ⟨h1, rid_lt hi' hj' hk', by rw [ctrF_eq hi' hj' h1, h2], i', j', k', hi', hj', hk', rfl⟩

/-! ### The number of patches -/

/-- The centres of the faces of the cells of the `C × C × C` lattice: one even coordinate. -/
def centres (C : ℕ) : Finset (ℕ × ℕ × ℕ) :=
  ((Finset.range (C + 1) ×ˢ Finset.range C ×ˢ Finset.range C).image fun p => (2 * p.1, 2 * p.2.1 + 1, 2 * p.2.2 + 1)) ∪
  ((Finset.range C ×ˢ Finset.range (C + 1) ×ˢ Finset.range C).image fun p => (2 * p.1 + 1, 2 * p.2.1, 2 * p.2.2 + 1)) ∪
  ((Finset.range C ×ˢ Finset.range C ×ˢ Finset.range (C + 1)).image fun p => (2 * p.1 + 1, 2 * p.2.1 + 1, 2 * p.2.2))

theorem card_centres (C : ℕ) : (centres C).card = (C + 1) * (C * C) * 3 := by
  unfold centres
  rw [Finset.card_union_of_disjoint, Finset.card_union_of_disjoint, Finset.card_image_of_injective,
    Finset.card_image_of_injective, Finset.card_image_of_injective]
  · simp only [Finset.card_product, Finset.card_range]; ring
  · rintro ⟨a, b, c⟩ ⟨a', b', c'⟩ h; simp at h ⊢; omega
  · rintro ⟨a, b, c⟩ ⟨a', b', c'⟩ h; simp at h ⊢; omega
  · rintro ⟨a, b, c⟩ ⟨a', b', c'⟩ h; simp at h ⊢; omega
  · rw [Finset.disjoint_left]
    intro x h1 h2
    simp only [Finset.mem_image] at h1 h2
    obtain ⟨⟨a, b, c⟩, -, rfl⟩ := h1
    obtain ⟨⟨a', b', c'⟩, -, h⟩ := h2
    simp at h; omega
  · rw [Finset.disjoint_left]
    intro x h1 h2
    simp only [Finset.mem_image, Finset.mem_union] at h1 h2
    obtain ⟨⟨a', b', c'⟩, -, h⟩ := h2
    rcases h1 with ⟨⟨a, b, c⟩, -, rfl⟩ | ⟨⟨a, b, c⟩, -, rfl⟩ <;> · simp at h; omega

theorem mem_centres {C i j k s : ℕ} (hi : i < C) (hj : j < C) (hk : k < C) : ctr i j k s ∈ centres C := by
  unfold ctr centres
  simp only [Finset.mem_union, Finset.mem_image, Finset.mem_product, Finset.mem_range]
  split
  · exact Or.inl (Or.inl ⟨(i, j, k), ⟨by simp only []; omega, hj, hk⟩, rfl⟩)
  split
  · exact Or.inl (Or.inl ⟨(i + 1, j, k), ⟨by simp only []; omega, hj, hk⟩, rfl⟩)
  split
  · exact Or.inl (Or.inr ⟨(i, j, k), ⟨hi, by simp only []; omega, hk⟩, rfl⟩)
  split
  · exact Or.inl (Or.inr ⟨(i, j + 1, k), ⟨hi, by simp only []; omega, hk⟩, rfl⟩)
  split
  · exact Or.inr ⟨(i, j, k), ⟨hi, hj, by simp only []; omega⟩, rfl⟩
  · exact Or.inr ⟨(i, j, k + 1), ⟨hi, hj, by simp only []; omega⟩, rfl⟩

theorem centres_surj {C : ℕ} {x : ℕ × ℕ × ℕ} (h : x ∈ centres C) :
    ∃ i j k s, i < C ∧ j < C ∧ k < C ∧ s < 6 ∧ ctr i j k s = x := by
  unfold centres at h
  simp only [Finset.mem_union, Finset.mem_image, Finset.mem_product, Finset.mem_range] at h
  rcases h with (⟨⟨a, b, c⟩, ⟨h1, h2, h3⟩, rfl⟩ | ⟨⟨a, b, c⟩, ⟨h1, h2, h3⟩, rfl⟩) | ⟨⟨a, b, c⟩, ⟨h1, h2, h3⟩, rfl⟩ <;>
    simp only [] at h1 h2 h3
  · by_cases e : a < C
    · exact ⟨a, b, c, 0, e, h2, h3, by omega, by simp [ctr]⟩
    · exact ⟨a - 1, b, c, 1, by omega, h2, h3, by omega, by simp [ctr]; omega⟩
  · by_cases e : b < C
    · exact ⟨a, b, c, 2, h1, e, h3, by omega, by simp [ctr]⟩
    · exact ⟨a, b - 1, c, 3, h1, by omega, h3, by omega, by simp [ctr]; omega⟩
  · by_cases e : c < C
    · exact ⟨a, b, c, 4, h1, h2, e, by omega, by simp [ctr]⟩
    · exact ⟨a, b, c - 1, 5, h1, h2, by omega, by omega, by simp [ctr]; omega⟩

theorem count_first (C : ℕ) : Nat.count (First C) (C * C * C * 6) = (C + 1) * (C * C) * 3 := by
  rw [Nat.count_eq_card_filter_range, ← card_centres C]
  refine Finset.card_bij (fun t _ => ctrF C t) ?_ ?_ ?_
  · intro t ht
    rw [Finset.mem_filter, Finset.mem_range] at ht
    obtain ⟨i, j, k, s, hi, hj, hk, hs, rfl⟩ := side_surj ht.1
    rw [ctrF_eq hi hj hs]
    exact mem_centres hi hj hk
  · intro a ha b hb h
    rw [Finset.mem_filter] at ha hb
    rw [← first_iff.1 ha.2, ← first_iff.1 hb.2, rep_congr h]
  · intro x hx
    obtain ⟨i, j, k, s, hi, hj, hk, hs, rfl⟩ := centres_surj hx
    refine ⟨rep C (s + rid C i j k * 6), ?_, ?_⟩
    · rw [Finset.mem_filter, Finset.mem_range]
      exact ⟨lt_of_le_of_lt (rep_le_self _ _) (side_lt hi hj hk hs), first_rep _ _⟩
    · rw [ctrF_rep, ctrF_eq hi hj hs]

end Verif.RefElem
