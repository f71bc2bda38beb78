import Verif.RefElem.Lemmas

/-!
# The corner loop of `ref_element::init`
-/

namespace Verif.RefElem

/-- Contents of the corner arrays after `T` corners, in the order of the loops. -/
structure CornersDone (n C : ℕ) (part : ℕ → ℕ → ℝ) (T : ℕ) (s : Corners) : Prop where
  index : s.index = T
  size1 : s.corners.size = (2 * C) * (2 * C) * (2 * C)
  size2 : s.nodes.size = (2 * C) * (2 * C) * (2 * C)
  size3 : s.normals.size = (2 * C) * (2 * C) * (2 * C)
  size4 : s.weights.size = (2 * C) * (2 * C) * (2 * C)
  corners : ∀ i j k, i < C → j < C → k < C → ∀ ii jj kk, ii < 2 → jj < 2 → kk < 2 →
    rid C i j k * 8 + rid 2 ii jj kk < T →
    s.corners.val (rid C i j k * 8 + rid 2 ii jj kk) = rid (2 * C) (2 * i + ii) (2 * j + jj) (2 * k + kk)
  nodes : ∀ i j k, i < C → j < C → k < C → ∀ ii jj kk, ii < 2 → jj < 2 → kk < 2 →
    rid C i j k * 8 + rid 2 ii jj kk < T →
    s.nodes.val (rid C i j k * 8 + rid 2 ii jj kk) = rid n (i + ii) (j + jj) (k + kk)
  normals : ∀ i j k, i < C → j < C → k < C → ∀ ii jj kk, ii < 2 → jj < 2 → kk < 2 →
    rid C i j k * 8 + rid 2 ii jj kk < T →
    s.normals.val (rid (2 * C) (2 * i + ii) (2 * j + jj) (2 * k + kk)) = surfVec (rid 2 ii jj kk)
  weights : ∀ i j k, i < C → j < C → k < C → ∀ ii jj kk, ii < 2 → jj < 2 → kk < 2 →
    rid C i j k * 8 + rid 2 ii jj kk < T →
    s.weights.val (rid (2 * C) (2 * i + ii) (2 * j + jj) (2 * k + kk)) =
      surfWeight (part (rid (2 * C) (2 * i + ii) (2 * j + jj) (2 * k + kk))) (rid 2 ii jj kk)

/-- Store at a slot of the cell-by-cell order. -/
theorem slot_store {α : Type*} {C T : ℕ} {v : ℕ → α} {F : ℕ → ℕ → ℕ → ℕ → ℕ → ℕ → α} {i j k ii jj kk : ℕ}
    (hi : i < C) (hj : j < C) (hii : ii < 2) (hjj : jj < 2) (hkk : kk < 2)
    (h : ∀ i j k, i < C → j < C → k < C → ∀ ii' jj' kk', ii' < 2 → jj' < 2 → kk' < 2 →
      rid C i j k * 8 + rid 2 ii' jj' kk' < T → v (rid C i j k * 8 + rid 2 ii' jj' kk') = F i j k ii' jj' kk')
    (hT : T = rid C i j k * 8 + rid 2 ii jj kk) {x : α} (hx : x = F i j k ii jj kk)
    (i' j' k' : ℕ) (hi' : i' < C) (hj' : j' < C) (hk' : k' < C) (ii' jj' kk' : ℕ) (hii' : ii' < 2) (hjj' : jj' < 2)
    (hkk' : kk' < 2) (hlt : rid C i' j' k' * 8 + rid 2 ii' jj' kk' < T + 1) :
    store v T x (rid C i' j' k' * 8 + rid 2 ii' jj' kk') = F i' j' k' ii' jj' kk' := by
  have b1 := rid_lt hii hjj hkk
  have b2 := rid_lt hii' hjj' hkk'
  by_cases e : rid C i' j' k' * 8 + rid 2 ii' jj' kk' = T
  · obtain ⟨rfl, rfl, rfl⟩ := rid_inj hi' hj' hi hj (show rid C i' j' k' = rid C i j k by omega)
    obtain ⟨rfl, rfl, rfl⟩ := rid_inj hii' hjj' hii hjj (show rid 2 ii' jj' kk' = rid 2 ii jj kk by omega)
    rw [e, store_same, hx]
  · rw [store_ne _ _ e]; exact h i' j' k' hi' hj' hk' ii' jj' kk' hii' hjj' hkk' (by omega)

/-- Store at the corner. -/
theorem corner_store {α : Type*} {C T : ℕ} {v : ℕ → α} {F : ℕ → ℕ → ℕ → ℕ → ℕ → ℕ → α} {i j k ii jj kk : ℕ}
    (hi : i < C) (hj : j < C) (hii : ii < 2) (hjj : jj < 2) (hkk : kk < 2)
    (h : ∀ i j k, i < C → j < C → k < C → ∀ ii' jj' kk', ii' < 2 → jj' < 2 → kk' < 2 →
      rid C i j k * 8 + rid 2 ii' jj' kk' < T →
      v (rid (2 * C) (2 * i + ii') (2 * j + jj') (2 * k + kk')) = F i j k ii' jj' kk')
    (hT : T = rid C i j k * 8 + rid 2 ii jj kk) {x : α} (hx : x = F i j k ii jj kk)
    (i' j' k' : ℕ) (hi' : i' < C) (hj' : j' < C) (hk' : k' < C) (ii' jj' kk' : ℕ) (hii' : ii' < 2) (hjj' : jj' < 2)
    (hkk' : kk' < 2) (hlt : rid C i' j' k' * 8 + rid 2 ii' jj' kk' < T + 1) :
    store v (rid (2 * C) (2 * i + ii) (2 * j + jj) (2 * k + kk)) x
      (rid (2 * C) (2 * i' + ii') (2 * j' + jj') (2 * k' + kk')) = F i' j' k' ii' jj' kk' := by
  by_cases e : rid (2 * C) (2 * i' + ii') (2 * j' + jj') (2 * k' + kk') = rid (2 * C) (2 * i + ii) (2 * j + jj) (2 * k + kk)
  · obtain ⟨h1, h2, h3⟩ := rid_inj (by omega) (by omega) (by omega) (by omega) e
    obtain rfl : i' = i := by omega
    obtain rfl : j' = j := by omega
    obtain rfl : k' = k := by omega
    obtain rfl : ii' = ii := by omega
    obtain rfl : jj' = jj := by omega
    obtain rfl : kk' = kk := by omega
    rw [store_same, hx]
  · rw [store_ne _ _ e]
    refine h i' j' k' hi' hj' hk' ii' jj' kk' hii' hjj' hkk' ?_
    have : rid C i' j' k' * 8 + rid 2 ii' jj' kk' ≠ T := by
      intro e2
      apply e
      have b1 := rid_lt hii hjj hkk
      have b2 := rid_lt hii' hjj' hkk'
      obtain ⟨rfl, rfl, rfl⟩ := rid_inj hi' hj' hi hj (show rid C i' j' k' = rid C i j k by omega)
      obtain ⟨rfl, rfl, rfl⟩ := rid_inj hii' hjj' hii hjj (show rid 2 ii' jj' kk' = rid 2 ii jj kk by omega)
      rfl
    omega

theorem crn_eq (C i j k ii jj kk : ℕ) : 2 * i + 2 * (2 * C) * j + 2 * (2 * C) * (2 * C) * k + ii + (2 * C) * jj + (2 * C) * (2 * C) * kk =
    rid (2 * C) (2 * i + ii) (2 * j + jj) (2 * k + kk) := by
  unfold rid; ring

theorem cornerLoop_spec {n C : ℕ} {part : Arr (ℕ → ℝ)} (hp : part.size = (2 * C) * (2 * C) * (2 * C)) {s : Corners}
    (h : CornersDone n C part.val 0 s) :
    ∃ r, cornerLoop n C (2 * C) part s = some r ∧ CornersDone n C part.val ((2 * C) * (2 * C) * (2 * C)) r := by
  unfold cornerLoop
  have key := loop3_spec (w := C) (body := fun k j i (s : Corners) => do
      let r ← loop3 2 (fun kk jj ii => cornerBody n (2 * C) part k j i kk jj ii) (s, 0)
      pure r.1) (s := s) (fun m s => CornersDone n C part.val (m * 8) s) (by simpa using h)
    (by
      intro k j i s hk hj hi hs
      obtain ⟨r, e1, e2, e3⟩ := loop3_spec (w := 2)
        (body := fun kk jj ii => cornerBody n (2 * C) part k j i kk jj ii) (s := (s, 0))
        (fun t r => CornersDone n C part.val (rid C i j k * 8 + t) r.1 ∧ r.2 = t) ⟨by simpa using hs, rfl⟩
        (by
          rintro kk jj ii ⟨s, l⟩ hkk hjj hii ⟨hs, rfl⟩
          simp only [] at hs
          have hcrn : rid (2 * C) (2 * i + ii) (2 * j + jj) (2 * k + kk) < 2 * C * (2 * C) * (2 * C) :=
            rid_lt (by omega) (by omega) (by omega)
          have hb := rid_lt hi hj hk
          have hb2 := rid_lt hii hjj hkk
          have h8 : 2 * C * (2 * C) * (2 * C) = C * C * C * 8 := by ring
          obtain ⟨⟨z1, v1⟩, ⟨z2, v2⟩, ⟨z3, v3⟩, ⟨z4, v4⟩, idx⟩ := s
          obtain ⟨h0, h1, h2, h3, h4, h5, h6, h7, h8'⟩ := hs
          simp only [] at h0 h1 h2 h3 h4 h5 h6 h7 h8'
          subst h0
          refine ⟨(⟨⟨z1, store v1 (rid C i j k * 8 + rid 2 ii jj kk) (rid (2 * C) (2 * i + ii) (2 * j + jj) (2 * k + kk))⟩,
            ⟨z2, store v2 (rid C i j k * 8 + rid 2 ii jj kk) (rid n (i + ii) (j + jj) (k + kk))⟩,
            ⟨z3, store v3 (rid (2 * C) (2 * i + ii) (2 * j + jj) (2 * k + kk)) (surfVec (rid 2 ii jj kk))⟩,
            ⟨z4, store v4 (rid (2 * C) (2 * i + ii) (2 * j + jj) (2 * k + kk))
              (surfWeight (part.val (rid (2 * C) (2 * i + ii) (2 * j + jj) (2 * k + kk))) (rid 2 ii jj kk))⟩,
            rid C i j k * 8 + rid 2 ii jj kk + 1⟩, rid 2 ii jj kk + 1), ?_, ⟨rfl, h1, h2, h3, h4, ?_, ?_, ?_, ?_⟩, rfl⟩
          · unfold cornerBody
            simp only [Option.bind_eq_bind, crn_eq]
            rw [Arr.set_lt _ (show rid C i j k * 8 + rid 2 ii jj kk < z1 by omega), Option.bind_some,
              Arr.set_lt _ (show rid C i j k * 8 + rid 2 ii jj kk < z2 by omega), Option.bind_some,
              Arr.set_lt _ (show rid (2 * C) (2 * i + ii) (2 * j + jj) (2 * k + kk) < z3 by omega), Option.bind_some,
              Arr.get_lt (show rid (2 * C) (2 * i + ii) (2 * j + jj) (2 * k + kk) < part.size by omega), Option.bind_some,
              Arr.set_lt _ (show rid (2 * C) (2 * i + ii) (2 * j + jj) (2 * k + kk) < z4 by omega), Option.bind_some]
            rfl
          · exact slot_store (F := fun i j k ii jj kk => rid (2 * C) (2 * i + ii) (2 * j + jj) (2 * k + kk))
              hi hj hii hjj hkk h5 rfl rfl
          · exact slot_store (F := fun i j k ii jj kk => rid n (i + ii) (j + jj) (k + kk)) hi hj hii hjj hkk h6 rfl rfl
          · exact corner_store (F := fun i j k ii jj kk => surfVec (rid 2 ii jj kk)) hi hj hii hjj hkk h7 rfl rfl
          · exact corner_store (F := fun i j k ii jj kk =>
              surfWeight (part.val (rid (2 * C) (2 * i + ii) (2 * j + jj) (2 * k + kk))) (rid 2 ii jj kk))
              hi hj hii hjj hkk h8' rfl rfl)
      refine ⟨r.1, ?_, ?_⟩
      · simp only [Option.bind_eq_bind]
        rw [e1]; rfl
      · rw [show (rid C i j k + 1) * 8 = rid C i j k * 8 + 2 * 2 * 2 by ring]; exact e2)
  rw [show (2 * C) * (2 * C) * (2 * C) = C * C * C * 8 by ring]
  exact key

end Verif.RefElem
