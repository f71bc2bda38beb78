import Verif.RefElem.PatchLemmas

/-!
# The patch loop of `ref_element::init`
-/

namespace Verif.RefElem
open scoped Classical

/-- Coordinate of a face centre: Lobatto point on the lattice planes, Legendre point in between. -/
noncomputable def crd (lob leg : ℕ → ℝ) (c : ℕ) : ℝ := if c % 2 = 0 then lob (c / 2) else leg (c / 2)
/-- 1-D factor of the weight of a face. -/
noncomputable def fac (legw : ℕ → ℝ) (c : ℕ) : ℝ := if c % 2 = 0 then 1 else legw (c / 2)
/-- Position of the face with the given centre. -/
noncomputable def posOf (lob leg : ℕ → ℝ) (x : ℕ × ℕ × ℕ) : ℕ → ℝ :=
  row3 (crd lob leg x.1) (crd lob leg x.2.1) (crd lob leg x.2.2)
/-- Weight of the face with the given centre. -/
noncomputable def wOf (legw : ℕ → ℝ) (x : ℕ × ℕ × ℕ) : ℝ := fac legw x.1 * fac legw x.2.1 * fac legw x.2.2

theorem crd_even (lob leg : ℕ → ℝ) (i : ℕ) : crd lob leg (2 * i) = lob i := by
  unfold crd; rw [if_pos (by omega), show 2 * i / 2 = i by omega]
theorem crd_even' (lob leg : ℕ → ℝ) (i : ℕ) : crd lob leg (2 * i + 2) = lob (i + 1) := by
  unfold crd; rw [if_pos (by omega), show (2 * i + 2) / 2 = i + 1 by omega]
theorem crd_odd (lob leg : ℕ → ℝ) (i : ℕ) : crd lob leg (2 * i + 1) = leg i := by
  unfold crd; rw [if_neg (by omega), show (2 * i + 1) / 2 = i by omega]
theorem fac_even (legw : ℕ → ℝ) (i : ℕ) : fac legw (2 * i) = 1 := by unfold fac; rw [if_pos (by omega)]
theorem fac_even' (legw : ℕ → ℝ) (i : ℕ) : fac legw (2 * i + 2) = 1 := by unfold fac; rw [if_pos (by omega)]
theorem fac_odd (legw : ℕ → ℝ) (i : ℕ) : fac legw (2 * i + 1) = legw i := by
  unfold fac; rw [if_neg (by omega), show (2 * i + 1) / 2 = i by omega]

theorem patchPos_eq {C : ℕ} {lob leg : Arr ℝ} (h1 : C + 1 ≤ lob.size) (h2 : C ≤ leg.size) {i j k s : ℕ} (hi : i < C)
    (hj : j < C) (hk : k < C) (hs : s < 6) : patchPos lob leg i j k s = some (posOf lob.val leg.val (ctr i j k s)) := by
  have c : s = 0 ∨ s = 1 ∨ s = 2 ∨ s = 3 ∨ s = 4 ∨ s = 5 := by omega
  have a1 : lob.get i = some (lob.val i) := Arr.get_lt (by omega)
  have a2 : lob.get j = some (lob.val j) := Arr.get_lt (by omega)
  have a3 : lob.get k = some (lob.val k) := Arr.get_lt (by omega)
  have b1 : lob.get (i + 1) = some (lob.val (i + 1)) := Arr.get_lt (by omega)
  have b2 : lob.get (j + 1) = some (lob.val (j + 1)) := Arr.get_lt (by omega)
  have b3 : lob.get (k + 1) = some (lob.val (k + 1)) := Arr.get_lt (by omega)
  have c1 : leg.get i = some (leg.val i) := Arr.get_lt (by omega)
  have c2 : leg.get j = some (leg.val j) := Arr.get_lt (by omega)
  have c3 : leg.get k = some (leg.val k) := Arr.get_lt (by omega)
  rcases c with rfl | rfl | rfl | rfl | rfl | rfl <;>
    simp [patchPos, ctr, posOf, a1, a2, a3, b1, b2, b3, c1, c2, c3, crd_even, crd_even', crd_odd]

theorem patchWeight_eq {C : ℕ} {legw : Arr ℝ} (h2 : C ≤ legw.size) {i j k s : ℕ} (hi : i < C)
    (hj : j < C) (hk : k < C) (hs : s < 6) : patchWeight legw i j k s = some (wOf legw.val (ctr i j k s)) := by
  have c : s = 0 ∨ s = 1 ∨ s = 2 ∨ s = 3 ∨ s = 4 ∨ s = 5 := by omega
  have c1 : legw.get i = some (legw.val i) := Arr.get_lt (by omega)
  have c2 : legw.get j = some (legw.val j) := Arr.get_lt (by omega)
  have c3 : legw.get k = some (legw.val k) := Arr.get_lt (by omega)
  rcases c with rfl | rfl | rfl | rfl | rfl | rfl <;>
    simp [patchWeight, ctr, wOf, c1, c2, c3, fac_even, fac_even', fac_odd]

/-- The patch arrays after `T` sides. -/
structure PatchesDone (C : ℕ) (lob leg legw : ℕ → ℝ) (T : ℕ) (s : Patches) : Prop where
  count : s.count = Nat.count (First C) T
  lsize : s.list.size = C * C * C * 6
  psize : s.pos.size = (C + 1) * (C * C) * 3
  wsize : s.weights.size = (C + 1) * (C * C) * 3
  list : ∀ t < C * C * C * 6, s.list.val t = if rep C t < T then (Nat.count (First C) (rep C t) : ℤ) else -1
  pos : ∀ t < T, First C t → s.pos.val (Nat.count (First C) t) = posOf lob leg (ctrF C t)
  weights : ∀ t < T, First C t → s.weights.val (Nat.count (First C) t) = wOf legw (ctrF C t)

theorem count_fill {α : Type*} {P : ℕ → Prop} [DecidablePred P] {v f : ℕ → α} {m : ℕ} (h : ∀ p < m, P p → v (Nat.count P p) = f p)
    {x : α} (hx : x = f m) (p : ℕ) (hp : p < m + 1) (hP : P p) : store v (Nat.count P m) x (Nat.count P p) = f p := by
  by_cases e : p = m
  · subst e; rw [store_same, hx]
  · have : Nat.count P p < Nat.count P m := Nat.count_strict_mono hP (by omega)
    rw [store_ne _ _ (by omega)]
    exact h p (by omega) hP

theorem sideBody_spec {C : ℕ} {lob leg legw : Arr ℝ} (h1 : C + 1 ≤ lob.size) (h2 : C ≤ leg.size) (h3 : C ≤ legw.size)
    {i j k sd : ℕ} (hi : i < C) (hj : j < C) (hk : k < C) (hs : sd < 6) {s : Patches}
    (h : PatchesDone C lob.val leg.val legw.val (sd + rid C i j k * 6) s) :
    ∃ s', sideBody C lob leg legw k j i sd s = some s' ∧
      PatchesDone C lob.val leg.val legw.val (sd + rid C i j k * 6 + 1) s' ∧
      s'.cellPos = s.cellPos ∧ s'.cellWeights = s.cellWeights := by
  obtain ⟨⟨zl, vl⟩, c, ⟨zp, vp⟩, ⟨zw, vw⟩, cp, cw⟩ := s
  obtain ⟨e0, e1, e2, e3, e4, e5, e6⟩ := h
  simp only [] at e0 e1 e2 e3 e4 e5 e6
  have ht := side_lt hi hj hk hs
  have hc := ctrF_eq (k := k) hi hj hs
  set t := sd + rid C i j k * 6 with hT
  subst e1
  by_cases hf : First C t
  · have hrep := first_iff.1 hf
    have hv : vl t = -1 := by rw [e4 t ht, if_neg (by omega)]
    have hlt : c < (C + 1) * (C * C) * 3 := by
      rw [e0, ← count_first]; exact Nat.count_strict_mono hf ht
    -- the list after the two stores
    obtain ⟨vl', hl1, hl2⟩ : ∃ vl', writeNeighbor C ⟨C * C * C * 6, store vl t (c : ℤ)⟩ (neighborCell C i j k sd) sd c =
        some ⟨C * C * C * 6, vl'⟩ ∧
        ∀ t' < C * C * C * 6, vl' t' = if ctrF C t' = ctrF C t then (c : ℤ) else vl t' := by
      have hu : ∀ t' < C * C * C * 6, ctrF C t' = ctrF C t → t' = t ∨
          ∃ m, neighborCell C i j k sd = some m ∧ t' = neighborSide sd + m * 6 := by
        intro t' ht' he
        obtain ⟨i', j', k', s', hi', hj', hk', hs', rfl⟩ := side_surj ht'
        rw [ctrF_eq hi' hj' hs', hc] at he
        rcases ctr_unique hi' hj' hk' hs hs' he.symm with ⟨rfl, rfl, rfl, rfl⟩ | ⟨a, b⟩
        · exact Or.inl rfl
        · exact Or.inr ⟨_, a, by rw [b]⟩
      cases hn : neighborCell C i j k sd with
      | none =>
        refine ⟨store vl t (c : ℤ), rfl, ?_⟩
        intro t' ht'
        by_cases e : ctrF C t' = ctrF C t
        · rcases hu t' ht' e with rfl | ⟨m, hm, -⟩
          · rw [store_same, if_pos rfl]
          · rw [hn] at hm; cases hm
        · rw [if_neg e, store_ne]; rintro rfl; exact e rfl
      | some m =>
        obtain ⟨b1, b2, b3, -⟩ := ctr_neighbor hi hj hk hs hn
        refine ⟨store (store vl t (c : ℤ)) (neighborSide sd + m * 6) (c : ℤ), ?_, ?_⟩
        · simp only [writeNeighbor]
          rw [if_pos b2, Arr.set_lt _ (show neighborSide sd + m * 6 < C * C * C * 6 by omega)]
        · intro t' ht'
          by_cases e : ctrF C t' = ctrF C t
          · rw [if_pos e]
            by_cases e2 : t' = neighborSide sd + m * 6
            · subst e2; rw [store_same]
            · rw [store_ne _ _ e2]
              rcases hu t' ht' e with rfl | ⟨m', hm, h⟩
              · rw [store_same]
              · rw [hn] at hm; cases hm; exact absurd h e2
          · rw [if_neg e, store_ne, store_ne]
            · rintro rfl; exact e rfl
            · rintro rfl; rw [b3, hc] at e; exact e rfl
    refine ⟨⟨⟨C * C * C * 6, vl'⟩, c + 1, ⟨zp, store vp c (posOf lob.val leg.val (ctr i j k sd))⟩,
      ⟨zw, store vw c (wOf legw.val (ctr i j k sd))⟩, cp, cw⟩, ?_, ⟨?_, rfl, e2, e3, ?_, ?_, ?_⟩, rfl, rfl⟩
    · unfold sideBody
      simp only [Option.bind_eq_bind, ← hT]
      rw [Arr.get_lt (show t < C * C * C * 6 from ht), Option.bind_some]
      simp only [hv, if_true]
      rw [Arr.set_lt _ (show t < C * C * C * 6 from ht), Option.bind_some, patchPos_eq h1 h2 hi hj hk hs, Option.bind_some,
        Arr.set_lt _ (show c < zp by omega), Option.bind_some, patchWeight_eq h3 hi hj hk hs, Option.bind_some,
        Arr.set_lt _ (show c < zw by omega), Option.bind_some]
      rw [hl1]; rfl
    · simp only [Nat.count_succ, if_pos hf, e0]
    · intro t' ht'
      simp only []
      rw [hl2 t' ht']
      by_cases e : ctrF C t' = ctrF C t
      · rw [if_pos e, rep_congr e, hrep, if_pos (by omega), e0]
      · rw [if_neg e, e4 t' ht']
        have : rep C t' ≠ t := by intro h; apply e; rw [← h, ctrF_rep]
        by_cases g : rep C t' < t
        · rw [if_pos g, if_pos (by omega)]
        · rw [if_neg g, if_neg (by omega)]
    · subst e0; rw [← hc]; exact count_fill (f := fun t => posOf lob.val leg.val (ctrF C t)) e5 rfl
    · subst e0; rw [← hc]; exact count_fill (f := fun t => wOf legw.val (ctrF C t)) e6 rfl
  · have hlt : rep C t < t := lt_of_le_of_ne (rep_le_self C t) (fun h => hf (first_iff.2 h))
    have hv : vl t ≠ -1 := by rw [e4 t ht, if_pos hlt]; omega
    have hne : ∀ t', rep C t' ≠ t := by intro t' h; apply hf; rw [← h]; exact first_rep C t'
    refine ⟨⟨⟨C * C * C * 6, vl⟩, c, ⟨zp, vp⟩, ⟨zw, vw⟩, cp, cw⟩, ?_, ⟨?_, rfl, e2, e3, ?_, ?_, ?_⟩, rfl, rfl⟩
    · unfold sideBody
      simp only [Option.bind_eq_bind, ← hT]
      rw [Arr.get_lt (show t < C * C * C * 6 from ht), Option.bind_some]
      simp only [if_neg hv]
    · simp only [Nat.count_succ, if_neg hf, e0]; rfl
    · intro t' ht'
      simp only []
      rw [e4 t' ht']
      have := hne t'
      by_cases g : rep C t' < t
      · rw [if_pos g, if_pos (by omega)]
      · rw [if_neg g, if_neg (by omega)]
    · intro t' h1 h2
      exact e5 t' (by have : t' ≠ t := by rintro rfl; exact hf h2
                      omega) h2
    · intro t' h1 h2
      exact e6 t' (by have : t' ≠ t := by rintro rfl; exact hf h2
                      omega) h2

theorem patchLoop_spec {C : ℕ} {lob leg legw : Arr ℝ} (h1 : C + 1 ≤ lob.size) (h2 : C ≤ leg.size) (h3 : C ≤ legw.size)
    {s : Patches} (h : PatchesDone C lob.val leg.val legw.val 0 s) (hs1 : s.cellPos.size = C * C * C)
    (hs2 : s.cellWeights.size = C * C * C) :
    ∃ r, patchLoop C lob leg legw s = some r ∧ PatchesDone C lob.val leg.val legw.val (C * C * C * 6) r ∧
      r.cellPos.size = C * C * C ∧ r.cellWeights.size = C * C * C ∧
      ∀ i j k, i < C → j < C → k < C →
        r.cellPos.val (rid C i j k) = row3 (leg.val i) (leg.val j) (leg.val k) ∧
        r.cellWeights.val (rid C i j k) = legw.val i * legw.val j * legw.val k := by
  unfold patchLoop
  obtain ⟨r, e, a, b, c, d, f⟩ := loop3_spec (w := C) (body := fun k j i (s : Patches) => do
      let x ← leg.get i
      let y ← leg.get j
      let z ← leg.get k
      let cp ← s.cellPos.set (rid C i j k) (row3 x y z)
      let a ← legw.get i
      let b ← legw.get j
      let c ← legw.get k
      let cw ← s.cellWeights.set (rid C i j k) (a * b * c)
      loopM 6 (sideBody C lob leg legw k j i) { s with cellPos := cp, cellWeights := cw }) (s := s)
    (fun m r => PatchesDone C lob.val leg.val legw.val (m * 6) r ∧ r.cellPos.size = C * C * C ∧
      r.cellWeights.size = C * C * C ∧
      (∀ i j k, i < C → j < C → k < C → rid C i j k < m →
        r.cellPos.val (rid C i j k) = row3 (leg.val i) (leg.val j) (leg.val k)) ∧
      (∀ i j k, i < C → j < C → k < C → rid C i j k < m →
        r.cellWeights.val (rid C i j k) = legw.val i * legw.val j * legw.val k))
    ⟨by simpa using h, hs1, hs2, fun _ _ _ _ _ _ h => by omega, fun _ _ _ _ _ _ h => by omega⟩
    (by
      rintro k j i ⟨l, c, p, w, ⟨z1, cp⟩, ⟨z2, cw⟩⟩ hk hj hi ⟨e1, e2, e3, e4, e5⟩
      simp only [] at e2 e3 e4 e5
      subst e2 e3
      have hb := rid_lt hi hj hk
      obtain ⟨s', f1, f2, f3, f4⟩ := loopM_spec (n := 6) (body := sideBody C lob leg legw k j i)
        (s := ⟨l, c, p, w, ⟨C * C * C, store cp (rid C i j k) (row3 (leg.val i) (leg.val j) (leg.val k))⟩,
          ⟨C * C * C, store cw (rid C i j k) (legw.val i * legw.val j * legw.val k)⟩⟩)
        (fun sd r => PatchesDone C lob.val leg.val legw.val (sd + rid C i j k * 6) r ∧
          r.cellPos = ⟨C * C * C, store cp (rid C i j k) (row3 (leg.val i) (leg.val j) (leg.val k))⟩ ∧
          r.cellWeights = ⟨C * C * C, store cw (rid C i j k) (legw.val i * legw.val j * legw.val k)⟩)
        ⟨by
          rw [Nat.zero_add]
          exact ⟨e1.count, e1.lsize, e1.psize, e1.wsize, e1.list, e1.pos, e1.weights⟩, rfl, rfl⟩
        (by
          rintro sd s hsd ⟨g1, g2, g3⟩
          obtain ⟨s', k1, k2, k3, k4⟩ := sideBody_spec h1 h2 h3 hi hj hk hsd g1
          refine ⟨s', k1, ?_, k3.trans g2, k4.trans g3⟩
          rw [show sd + 1 + rid C i j k * 6 = sd + rid C i j k * 6 + 1 by omega]
          exact k2)
      refine ⟨s', ?_, ?_, by rw [f3], by rw [f4], ?_, ?_⟩
      · simp only [Option.bind_eq_bind]
        rw [Arr.get_lt (show i < leg.size by omega), Option.bind_some, Arr.get_lt (show j < leg.size by omega),
          Option.bind_some, Arr.get_lt (show k < leg.size by omega), Option.bind_some, Arr.set_lt _ hb, Option.bind_some,
          Arr.get_lt (show i < legw.size by omega), Option.bind_some, Arr.get_lt (show j < legw.size by omega),
          Option.bind_some, Arr.get_lt (show k < legw.size by omega), Option.bind_some, Arr.set_lt _ hb, Option.bind_some]
        exact f1
      · rw [show (rid C i j k + 1) * 6 = 6 + rid C i j k * 6 by ring]; exact f2
      · rw [f3]; exact filled_step (F := fun i j k => row3 (leg.val i) (leg.val j) (leg.val k)) hi hj e4 rfl
      · rw [f4]; exact filled_step (F := fun i j k => legw.val i * legw.val j * legw.val k) hi hj e5 rfl)
  exact ⟨r, e, a, b, c, fun i j k hi hj hk => ⟨d i j k hi hj hk (rid_lt hi hj hk), f i j k hi hj hk (rid_lt hi hj hk)⟩⟩

theorem clearLoop_spec {S : ℕ} (v : ℕ → ℤ) : ∃ r, clearLoop S ⟨S, v⟩ = some r ∧ r.size = S ∧ ∀ t < S, r.val t = -1 := by
  unfold clearLoop
  refine loopM_spec (fun m (r : Arr ℤ) => r.size = S ∧ ∀ t < m, r.val t = -1) ⟨rfl, fun _ h => by omega⟩ ?_
  rintro i ⟨z, v⟩ hi ⟨rfl, h⟩
  refine ⟨⟨z, store v i (-1)⟩, Arr.set_lt _ hi, rfl, ?_⟩
  intro t ht
  by_cases e : t = i
  · subst e; exact store_same _ _ _
  · exact (store_ne _ _ e).trans (h t (by omega))

end Verif.RefElem
