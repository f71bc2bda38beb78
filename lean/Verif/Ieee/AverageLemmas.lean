import Verif.Ieee.AverageModel
import Verif.Fp.AverageGrid

/-! # Lemmas for C108 -/

namespace Verif.Average
open Finset Verif.Swage Verif.Fp

/-- The accumulation `t = 0; for x: t += x / k`. -/
noncomputable def accumI (A : Ieee) (k : ℝ) (L : List ℝ) : Option ℝ :=
  L.foldlM (fun t x => (A.rnd (x / k)).bind fun q => A.rnd (t + q)) 0

theorem accumI_append (A : Ieee) (k : ℝ) (L : List ℝ) (x : ℝ) :
    accumI A k (L ++ [x]) = (accumI A k L).bind fun t => (A.rnd (x / k)).bind fun q => A.rnd (t + q) := by
  unfold accumI
  rw [List.foldlM_append]
  simp only [List.foldlM_cons, List.foldlM_nil, bind_pure, Option.bind_eq_bind]

/-- No overflow, and the forward error. -/
theorem accumI_err (A : Ieee) (k : ℝ) (hk : 0 ≤ k) (L : List ℝ)
    (ht : ((L.map fun x => |x|).sum / k + 2 * L.length * A.δ) * (1 + A.u) ^ (L.length + 1) < A.top) :
    ∃ v, accumI A k L = some v ∧
      |v - L.sum / k| ≤ ((1 + A.u) ^ (L.length + 1) - 1) * ((L.map fun x => |x|).sum / k + 2 * L.length * A.δ) := by
  have hu := A.u_nonneg
  have hδ := A.δ_nonneg
  induction L using List.reverseRecOn with
  | nil => exact ⟨0, rfl, by simp⟩
  | append_singleton L x ih =>
    rw [accumI_append]
    rw [List.map_append, List.sum_append, List.length_append] at ht ⊢
    rw [List.sum_append]
    simp only [List.map_cons, List.map_nil, List.sum_cons, List.sum_nil, List.length_cons, List.length_nil, add_zero, zero_add] at ht ⊢
    rw [add_div] at ht ⊢
    rw [add_div]
    set S := L.sum / k with hS
    set B := (L.map fun x => |x|).sum / k with hB
    set a := |x| / k with ha
    have ha0 : 0 ≤ a := div_nonneg (abs_nonneg _) hk
    have hB0 : 0 ≤ B := div_nonneg (List.sum_nonneg (by simp)) hk
    have hSB : |S| ≤ B := by
      rw [hS, hB, abs_div, abs_of_nonneg hk]
      refine div_le_div_of_nonneg_right ?_ hk
      exact List.le_sum_of_subadditive_on_pred _ (fun _ => True) (by simp) (by trivial) (fun a b _ _ => abs_add_le a b) (by simp) L (by simp) |>.trans
        (by simp)
    have hxa : |x / k| = a := by rw [abs_div, abs_of_nonneg hk]
    have hpow : (1 + A.u) ^ (L.length + 1 + 1) = (1 + A.u) ^ (L.length + 1) * (1 + A.u) := pow_succ _ _
    have hP2 : 1 + A.u ≤ (1 + A.u) ^ (L.length + 1) := by
      calc (1 + A.u) = (1 + A.u) ^ 1 := (pow_one _).symm
        _ ≤ _ := pow_le_pow_right₀ (by linarith) (by omega)
    rw [hpow] at ht ⊢
    push_cast at ht ⊢
    set P := (1 + A.u) ^ (L.length + 1) with hP
    have hP1 : 1 ≤ P := by linarith
    set B' := B + 2 * (L.length : ℝ) * A.δ with hB'
    set a' := a + 2 * A.δ with ha'
    have hB'0 : 0 ≤ B' := by positivity
    have ha'0 : 0 ≤ a' := by positivity
    have hBB : B ≤ B' := by rw [hB']; have : 0 ≤ 2 * (L.length : ℝ) * A.δ := by positivity
                            linarith
    have hsum : B + a + 2 * ((L.length : ℝ) + 1) * A.δ = B' + a' := by rw [hB', ha']; ring
    rw [hsum] at ht ⊢
    have hlt : B' * P < A.top := by
      refine lt_of_le_of_lt ?_ ht
      have : B' * P ≤ (B' + a') * P := mul_le_mul_of_nonneg_right (by linarith) (by linarith)
      have h2 : 0 ≤ (B' + a') * P := by positivity
      nlinarith
    obtain ⟨t, et, hte⟩ := ih hlt
    rw [et, Option.bind_some]
    have e1 : |A.fl (x / k) - x / k| ≤ A.u * (a + A.δ) := by
      have := A.err (x / k); rwa [hxa] at this
    have q1 : |A.fl (x / k)| < A.top := by
      have := A.fl_abs_le (x / k)
      rw [hxa] at this
      refine lt_of_le_of_lt (this.trans ?_) ht
      have g1 : (a' + 0) * (1 * (1 + A.u)) ≤ (B' + a') * (P * (1 + A.u)) := by
        refine mul_le_mul (by linarith) ?_ (by nlinarith) (by linarith)
        exact mul_le_mul_of_nonneg_right hP1 (by linarith)
      have g2 : a + A.u * (a + A.δ) ≤ a' * (1 + A.u) := by
        rw [ha']
        nlinarith [mul_nonneg hu hδ]
      linarith
    rw [Ieee.rnd_some q1, Option.bind_some]
    set s := t + A.fl (x / k) with hs
    have e2 : |s - (S + x / k)| ≤ (P - 1) * B' + A.u * (a + A.δ) := by
      rw [show s - (S + x / k) = (t - S) + (A.fl (x / k) - x / k) by rw [hs]; ring]
      exact (abs_add_le _ _).trans (add_le_add hte e1)
    have e3 : |S + x / k| ≤ B + a := (abs_add_le _ _).trans (add_le_add hSB hxa.le)
    have e4 := A.err s
    have e5 : |s| ≤ B + a + ((P - 1) * B' + A.u * (a + A.δ)) := by
      have := abs_add_le (S + x / k) (s - (S + x / k))
      rw [show S + x / k + (s - (S + x / k)) = s by ring] at this
      linarith
    have e6 := abs_add_le (A.fl s - s) (s - (S + x / k))
    rw [show A.fl s - s + (s - (S + x / k)) = A.fl s - (S + x / k) by ring] at e6
    have e7 : A.u * (|s| + A.δ) ≤ A.u * (B + a + ((P - 1) * B' + A.u * (a + A.δ)) + A.δ) := mul_le_mul_of_nonneg_left (by linarith) hu
    have hPa : (1 + A.u) * a' ≤ P * a' := mul_le_mul_of_nonneg_right hP2 ha'0
    have main : |A.fl s - (S + x / k)| ≤ (P * (1 + A.u) - 1) * (B' + a') := by
      have haa : a + A.δ ≤ a' := by rw [ha']; linarith
      have m1 : A.u * (a + A.δ) ≤ A.u * a' := mul_le_mul_of_nonneg_left haa hu
      have m2 : A.u * (B + a + A.δ) ≤ A.u * (B' + a') := mul_le_mul_of_nonneg_left (by linarith) hu
      have m3 : A.u * (A.u * (a + A.δ)) ≤ A.u * (A.u * a') := mul_le_mul_of_nonneg_left m1 hu
      have m4 : A.u * ((1 + A.u) * a') ≤ A.u * (P * a') := mul_le_mul_of_nonneg_left hPa hu
      nlinarith
    have hfin : |A.fl s| < A.top := by
      refine lt_of_le_of_lt ?_ ht
      have := abs_add_le (A.fl s - (S + x / k)) (S + x / k)
      rw [sub_add_cancel] at this
      have : |A.fl s| ≤ (P * (1 + A.u) - 1) * (B' + a') + (B + a) := by linarith
      have h2 : B + a ≤ B' + a' := by rw [ha']; linarith
      linarith
    exact ⟨_, Ieee.rnd_some hfin, main⟩

/-- When the multiples of the bounds are representable, the accumulation of `k` numbers in `[lo, hi]` lies in `[lo, hi]`. -/
theorem accumI_within (A : Ieee) (k : ℕ) (hk : 0 < k) (lo hi : ℝ) (hlo : lo ≤ 0) (hhi : 0 ≤ hi) (tl : -A.top < lo) (th : hi < A.top)
    (h1 : ∀ j : ℕ, j ≤ k → A.fl (j * (lo / k)) = j * (lo / k)) (h2 : ∀ j : ℕ, j ≤ k → A.fl (j * (hi / k)) = j * (hi / k))
    (L : List ℝ) (hL : L.length ≤ k) (hb : ∀ x ∈ L, lo ≤ x ∧ x ≤ hi) :
    ∃ v, accumI A k L = some v ∧ L.length * (lo / k) ≤ v ∧ v ≤ L.length * (hi / k) := by
  have hk' : (0 : ℝ) < k := by exact_mod_cast hk
  induction L using List.reverseRecOn with
  | nil => exact ⟨0, rfl, by simp⟩
  | append_singleton L x ih =>
    rw [List.length_append] at hL ⊢
    simp only [List.length_cons, List.length_nil, zero_add] at hL ⊢
    obtain ⟨t, et, i1, i2⟩ := ih (by omega) fun y hy => hb y (by simp [hy])
    obtain ⟨b1, b2⟩ := hb x (by simp)
    rw [accumI_append, et, Option.bind_some]
    have g1 := h1 1 (by omega)
    have g2 := h2 1 (by omega)
    rw [Nat.cast_one, one_mul] at g1 g2
    have x1 : lo / k ≤ A.fl (x / k) := by
      rw [← g1]; exact A.mono (div_le_div_of_nonneg_right b1 hk'.le)
    have x2 : A.fl (x / k) ≤ hi / k := by
      rw [← g2]; exact A.mono (div_le_div_of_nonneg_right b2 hk'.le)
    -- multiples of the bounds are below the threshold
    have fr : ∀ j : ℕ, j ≤ k → lo ≤ j * (lo / k) ∧ j * (hi / k) ≤ hi := by
      intro j hj
      have hj' : (j : ℝ) ≤ k := by exact_mod_cast hj
      have hc : (j : ℝ) / k ≤ 1 := by rw [div_le_one hk']; exact hj'
      constructor
      · rw [show (j : ℝ) * (lo / k) = j / k * lo by ring]; nlinarith
      · rw [show (j : ℝ) * (hi / k) = j / k * hi by ring]; nlinarith
    have f1 := fr 1 (by omega)
    rw [Nat.cast_one, one_mul, one_mul] at f1
    rw [Ieee.rnd_some (abs_lt.2 ⟨by linarith, by linarith⟩), Option.bind_some]
    have y1 : ((L.length + 1 : ℕ) : ℝ) * (lo / k) ≤ A.fl (t + A.fl (x / k)) := by
      rw [← h1 _ hL]
      refine A.mono ?_
      push_cast; linarith
    have y2 : A.fl (t + A.fl (x / k)) ≤ ((L.length + 1 : ℕ) : ℝ) * (hi / k) := by
      rw [← h2 _ hL]
      refine A.mono ?_
      push_cast; linarith
    have f2 := fr _ hL
    exact ⟨_, Ieee.rnd_some (abs_lt.2 ⟨by linarith, by linarith⟩), y1, y2⟩

section
variable {A : Ieee}

theorem cellAverageI_eq {m : Mesh} (h : m.Ok) {node : Arr ℝ} (hn : node.size = m.nodes) {c : ℕ} (hc : c < m.cells) :
    cellAverageI A m node c = accumI A 8 ((List.range 8).map fun l => node.val (m.nodesInCell.val (c * 8 + l))) := by
  have key : ∀ k ≤ 8, loopM k (fun l t => do
      let n ← m.nodesInCell.get (c * 8 + l)
      let v ← node.get n
      let q ← A.rnd (v / 8)
      A.rnd (t + q)) (0 : ℝ) = accumI A 8 ((List.range k).map fun l => node.val (m.nodesInCell.val (c * 8 + l))) := by
    intro k hk
    induction k with
    | zero => rfl
    | succ k ih =>
      have h1 : c * 8 + k < m.cells * 8 := by omega
      rw [loopM_succ, ih (by omega), List.range_succ, List.map_append, List.map_singleton, accumI_append]
      simp only [Option.bind_eq_bind]
      rw [Arr.get_lt (by rw [h.size]; exact h1)]
      simp only [Option.bind_some]
      rw [Arr.get_lt (by rw [hn]; exact h.lt _ h1)]
      rfl
  exact key 8 (le_refl _)

theorem nodeAverageI_eq {m : Mesh} (h : m.Ok) {cell : Arr ℝ} (hc : cell.size = m.cells) {n : ℕ} (hn : n < m.nodes) :
    nodeAverageI A m cell n = accumI A (m.cellsOf n).length ((m.cellsOf n).map cell.val) := by
  unfold nodeAverageI
  rw [h.num n hn]
  simp only [Option.bind_eq_bind, Option.bind_some]
  have hl := h.list n hn
  have hmem : ∀ c ∈ m.cellsOf n, c < m.cells := fun c hc => (mem_cellsOf.1 hc).1
  generalize m.cellsOf n = L at hl hmem ⊢
  have key : ∀ k ≤ L.length, loopM k (fun l t => (m.conn.cellsInNode n l).bind fun c =>
      (cell.get c).bind fun v => (A.rnd (v / (L.length : ℝ))).bind fun q => A.rnd (t + q)) (0 : ℝ)
        = accumI A L.length ((L.take k).map cell.val) := by
    intro k hk
    induction k with
    | zero => rfl
    | succ k ih =>
      have hk' : k < L.length := hk
      have e1 : m.conn.cellsInNode n k = some L[k] := by
        have := congrArg (fun z => z[k]?) hl
        simpa [hk'] using this
      rw [loopM_succ, ih (by omega), List.take_succ_eq_append_getElem hk', List.map_append, List.map_singleton, accumI_append]
      rw [e1]
      simp only [Option.bind_some]
      rw [Arr.get_lt (by rw [hc]; exact hmem _ (List.getElem_mem hk'))]
      rfl
  rw [key _ (le_refl _), List.take_length]

/-- The smoothing pass: if every cell mean exists and satisfies `Pc`, and from such cell values every node mean exists and satisfies
`Pn`, the pass succeeds, and every new value is a mean or an old value. -/
theorem smoothElementI_spec (m : Mesh) (he : m.ElemOk) (s : State) (h1 : s.node.size = m.nodes) (h2 : s.cell.size = m.cells)
    (Pc Pn : ℕ → ℝ → Prop)
    (hc : ∀ c < m.cells, (∃ v, cellAverageI A m s.node c = some v ∧ ((∃ x < m.elems * m.cellsPerElem, m.cellsInElem.val x = c) → Pc c v)) ∧
      ((∀ x < m.elems * m.cellsPerElem, m.cellsInElem.val x ≠ c) → Pc c (s.cell.val c)))
    (hn : ∀ cell : Arr ℝ, cell.size = m.cells → (∀ c < m.cells, Pc c (cell.val c)) → ∀ n < m.nodes,
      (∃ v, nodeAverageI A m cell n = some v ∧ ((∃ x < m.elems * m.nodesPerElem, m.nodesInElem.val x = n) → Pn n v)) ∧
      ((∀ x < m.elems * m.nodesPerElem, m.nodesInElem.val x ≠ n) → Pn n (s.node.val n))) :
    ∃ s', smoothElementI A m s = some s' ∧ s'.node.size = m.nodes ∧ s'.cell.size = m.cells ∧
      (∀ c < m.cells, Pc c (s'.cell.val c)) ∧ ∀ n < m.nodes, Pn n (s'.node.val n) := by
  classical
  have hF : ∀ c, ∃ v, c < m.cells → cellAverageI A m s.node c = some v ∧
      ((∃ x < m.elems * m.cellsPerElem, m.cellsInElem.val x = c) → Pc c v) := fun c => by
    by_cases h : c < m.cells
    · obtain ⟨v, hv⟩ := (hc c h).1; exact ⟨v, fun _ => hv⟩
    · exact ⟨0, fun g => absurd g h⟩
  choose f hf using hF
  obtain ⟨cell, e1, c1, c2⟩ := scatter_spec (F := cellAverageI A m s.node) (f := f) he.cellSize he.cellLt (fun c h => (hf c h).1) s.cell h2
  have pc : ∀ c < m.cells, Pc c (cell.val c) := by
    intro c hcl
    by_cases hx : ∃ x < m.elems * m.cellsPerElem, m.cellsInElem.val x = c
    · rw [(c2 c hcl).1 hx]; exact (hf c hcl).2 hx
    · have hx' : ∀ x < m.elems * m.cellsPerElem, m.cellsInElem.val x ≠ c := fun x h hxc => hx ⟨x, h, hxc⟩
      rw [(c2 c hcl).2 hx']; exact (hc c hcl).2 hx'
  have hn' := hn cell c1 pc
  have hG : ∀ n, ∃ v, n < m.nodes → nodeAverageI A m cell n = some v ∧
      ((∃ x < m.elems * m.nodesPerElem, m.nodesInElem.val x = n) → Pn n v) := fun n => by
    by_cases h : n < m.nodes
    · obtain ⟨v, hv⟩ := (hn' n h).1; exact ⟨v, fun _ => hv⟩
    · exact ⟨0, fun g => absurd g h⟩
  choose g hg using hG
  obtain ⟨node, e2, n1, n2⟩ := scatter_spec (F := nodeAverageI A m cell) (f := g) he.nodeSize he.nodeLt (fun n h => (hg n h).1) s.node h1
  have pn : ∀ n < m.nodes, Pn n (node.val n) := by
    intro n hnl
    by_cases hx : ∃ x < m.elems * m.nodesPerElem, m.nodesInElem.val x = n
    · rw [(n2 n hnl).1 hx]; exact (hg n hnl).2 hx
    · have hx' : ∀ x < m.elems * m.nodesPerElem, m.nodesInElem.val x ≠ n := fun x h hxc => hx ⟨x, h, hxc⟩
      rw [(n2 n hnl).2 hx']; exact (hn' n hnl).2 hx'
  refine ⟨⟨node, cell⟩, ?_, n1, c1, pc, pn⟩
  unfold smoothElementI
  show (loopM m.elems _ s.cell).bind _ = _
  rw [e1, Option.bind_some]
  show (loopM m.elems _ s.node).bind _ = _
  rw [e2]; rfl

end
end Verif.Average
