import Verif.Fp.AverageModel
import Verif.Average.Converge

/-!
# C88: the smoothing of the Average example in rounded arithmetic
-/

namespace Verif.Average
open Finset Verif.Swage Verif.Fp

/-- The accumulation `t = 0; for x: t += x / k`, rounded. -/
noncomputable def accum (R : Rounding) (k : ℝ) (L : List ℝ) : ℝ := L.foldl (fun t x => R.fl (t + R.fl (x / k))) 0

/-- The rounded means. -/
noncomputable def Mesh.cellMeanR (m : Mesh) (R : Rounding) (f : ℕ → ℝ) (c : ℕ) : ℝ :=
  accum R 8 ((List.range 8).map fun l => f (m.nodesInCell.val (c * 8 + l)))
noncomputable def Mesh.nodeMeanR (m : Mesh) (R : Rounding) (g : ℕ → ℝ) (n : ℕ) : ℝ :=
  accum R (m.cellsOf n).length ((m.cellsOf n).map g)

theorem accum_append (R : Rounding) (k : ℝ) (L : List ℝ) (x : ℝ) : accum R k (L ++ [x]) = R.fl (accum R k L + R.fl (x / k)) := by
  unfold accum; rw [List.foldl_append]; rfl

/-- Forward error of the accumulation. -/
theorem accum_err (R : Rounding) (k : ℝ) (hk : 0 ≤ k) (L : List ℝ) :
    |accum R k L - L.sum / k| ≤ ((1 + R.u) ^ (L.length + 1) - 1) * ((L.map fun x => |x|).sum / k) := by
  have hu := R.u_nonneg
  induction L using List.reverseRecOn with
  | nil => simp [accum]
  | append_singleton L x ih =>
    rw [accum_append, List.map_append, List.sum_append, List.sum_append, List.length_append]
    simp only [List.map_cons, List.map_nil, List.sum_cons, List.sum_nil, List.length_cons, List.length_nil, add_zero, zero_add]
    set t := accum R k L
    set S := L.sum / k with hS
    set A := (L.map fun x => |x|).sum / k with hA
    set a := |x| / k with ha
    have ha0 : 0 ≤ a := div_nonneg (abs_nonneg _) hk
    have hA0 : 0 ≤ A := div_nonneg (List.sum_nonneg (by simp)) hk
    have e1 : |R.fl (x / k) - x / k| ≤ R.u * a := by
      have := R.err (x / k)
      rwa [abs_div, abs_of_nonneg hk] at this
    have hSA : |S| ≤ A := by
      rw [hS, hA, abs_div, abs_of_nonneg hk]
      refine div_le_div_of_nonneg_right ?_ hk
      exact List.le_sum_of_subadditive_on_pred _ (fun _ => True) (by simp) (by trivial) (fun a b _ _ => abs_add_le a b) (by simp) L (by simp) |>.trans
        (by simp)
    have hxa : |x / k| = a := by rw [abs_div, abs_of_nonneg hk]
    set s := t + R.fl (x / k)
    set P := (1 + R.u) ^ (L.length + 1) with hP
    have hP1 : 1 ≤ P := one_le_pow₀ (by linarith)
    have e2 : |s - (S + x / k)| ≤ (P - 1) * A + R.u * a := by
      rw [show s - (S + x / k) = (t - S) + (R.fl (x / k) - x / k) by ring]
      exact (abs_add_le _ _).trans (add_le_add ih e1)
    have e3 : |S + x / k| ≤ A + a := (abs_add_le _ _).trans (add_le_add hSA hxa.le)
    have e4 := R.err s
    have e5 : |s| ≤ A + a + ((P - 1) * A + R.u * a) := by
      have := abs_add_le (S + x / k) (s - (S + x / k))
      rw [show S + x / k + (s - (S + x / k)) = s by ring] at this
      linarith
    rw [add_div, add_div, ← hS, ← hA, ← ha]
    have e6 := abs_add_le (R.fl s - s) (s - (S + x / k))
    rw [show R.fl s - s + (s - (S + x / k)) = R.fl s - (S + x / k) by ring] at e6
    have e7 : R.u * |s| ≤ R.u * (A + a + ((P - 1) * A + R.u * a)) := mul_le_mul_of_nonneg_left e5 hu
    have hpow : (1 + R.u) ^ (L.length + 1 + 1) = P * (1 + R.u) := pow_succ _ _
    rw [hpow]
    have hPa : (1 + R.u) * a ≤ P * a := mul_le_mul_of_nonneg_right (by
      rw [hP]; calc (1 + R.u) = (1 + R.u) ^ 1 := (pow_one _).symm
        _ ≤ _ := pow_le_pow_right₀ (by linarith) (by omega)) ha0
    nlinarith [mul_nonneg hu ha0, mul_nonneg hu (mul_nonneg hu ha0), mul_le_mul_of_nonneg_left hPa hu]

/-- When the multiples of the bounds are representable, the accumulation of `k` numbers in `[lo, hi]` lies in `[lo, hi]`. -/
theorem accum_within (R : Rounding) (k : ℕ) (hk : 0 < k) (lo hi : ℝ)
    (h1 : ∀ j : ℕ, j ≤ k → R.fl (j * (lo / k)) = j * (lo / k)) (h2 : ∀ j : ℕ, j ≤ k → R.fl (j * (hi / k)) = j * (hi / k))
    (L : List ℝ) (hL : L.length ≤ k) (hb : ∀ x ∈ L, lo ≤ x ∧ x ≤ hi) :
    L.length * (lo / k) ≤ accum R k L ∧ accum R k L ≤ L.length * (hi / k) := by
  have hk' : (0 : ℝ) < k := by exact_mod_cast hk
  induction L using List.reverseRecOn with
  | nil => simp [accum]
  | append_singleton L x ih =>
    rw [List.length_append] at hL ⊢
    simp only [List.length_cons, List.length_nil, zero_add] at hL ⊢
    obtain ⟨i1, i2⟩ := ih (by omega) fun y hy => hb y (by simp [hy])
    obtain ⟨b1, b2⟩ := hb x (by simp)
    rw [accum_append]
    have g1 := h1 1 (by omega)
    have g2 := h2 1 (by omega)
    rw [Nat.cast_one, one_mul] at g1 g2
    have x1 : lo / k ≤ R.fl (x / k) := by
      rw [← g1]; exact R.mono (div_le_div_of_nonneg_right b1 hk'.le)
    have x2 : R.fl (x / k) ≤ hi / k := by
      rw [← g2]; exact R.mono (div_le_div_of_nonneg_right b2 hk'.le)
    constructor
    · rw [← h1 _ hL]
      refine R.mono ?_
      push_cast; linarith
    · rw [← h2 _ hL]
      refine R.mono ?_
      push_cast; linarith

/-- Without rounding the accumulation is the mean. -/
theorem accum_none (b : ℕ) (k : ℝ) (L : List ℝ) : accum (Rounding.none b) k L = L.sum / k := by
  induction L using List.reverseRecOn with
  | nil => simp [accum]
  | append_singleton L x ih =>
    rw [accum_append, ih, List.sum_append]
    show L.sum / k + x / k = _
    simp [add_div]

section
variable {R : Rounding}

theorem cellAverageR_spec {m : Mesh} (h : m.Ok) {node : Arr ℝ} (hn : node.size = m.nodes) {c : ℕ} (hc : c < m.cells) :
    cellAverageR R m node c = some (m.cellMeanR R node.val c) := by
  obtain ⟨r, e, hr⟩ := loopM_spec (n := 8) (body := fun l t => do
      let n ← m.nodesInCell.get (c * 8 + l)
      let v ← node.get n
      pure (R.fl (t + R.fl (v / 8)))) (s := (0 : ℝ))
    (fun k t => t = accum R 8 ((List.range k).map fun l => node.val (m.nodesInCell.val (c * 8 + l)))) (by simp [accum]) (by
      intro l t hl ht
      have h1 : c * 8 + l < m.cells * 8 := by omega
      refine ⟨R.fl (t + R.fl (node.val (m.nodesInCell.val (c * 8 + l)) / 8)), ?_, ?_⟩
      · simp only [Option.bind_eq_bind]
        rw [Arr.get_lt (by rw [h.size]; exact h1), Option.bind_some, Arr.get_lt (by rw [hn]; exact h.lt _ h1)]
        rfl
      · rw [List.range_succ, List.map_append, List.map_singleton, accum_append, ht])
  unfold cellAverageR Mesh.cellMeanR
  rw [e, hr]

theorem nodeAverageR_spec {m : Mesh} (h : m.Ok) {cell : Arr ℝ} (hc : cell.size = m.cells) {n : ℕ} (hn : n < m.nodes) :
    nodeAverageR R m cell n = some (m.nodeMeanR R cell.val n) := by
  unfold nodeAverageR Mesh.nodeMeanR
  rw [h.num n hn]
  simp only [Option.bind_eq_bind, Option.bind_some]
  have hl := h.list n hn
  have hmem : ∀ c ∈ m.cellsOf n, c < m.cells := fun c hc => (mem_cellsOf.1 hc).1
  generalize m.cellsOf n = L at hl hmem ⊢
  obtain ⟨r, e, hr⟩ := loopM_spec (n := L.length) (body := fun l t => (m.conn.cellsInNode n l).bind fun c =>
      (cell.get c).bind fun v => pure (R.fl (t + R.fl (v / (L.length : ℝ))))) (s := (0 : ℝ))
    (fun k t => t = accum R L.length ((L.take k).map cell.val)) (by simp [accum]) (by
      intro l t hl' ht
      have e1 : m.conn.cellsInNode n l = some L[l] := by
        have := congrArg (fun z => z[l]?) hl
        simpa [hl'] using this
      refine ⟨R.fl (t + R.fl (cell.val L[l] / L.length)), ?_, ?_⟩
      · rw [e1, Option.bind_some, Arr.get_lt (by rw [hc]; exact hmem _ (List.getElem_mem hl'))]
        rfl
      · rw [List.take_succ_eq_append_getElem hl', List.map_append, List.map_singleton, accum_append, ht])
  rw [e, hr, List.take_length]

theorem smoothElementR_spec (m : Mesh) (h : m.Ok) (he : m.ElemOk) (s : State) (h1 : s.node.size = m.nodes) (h2 : s.cell.size = m.cells) :
    ∃ s', smoothElementR R m s = some s' ∧ s'.node.size = m.nodes ∧ s'.cell.size = m.cells ∧
      (∀ c < m.cells, ((∃ x < m.elems * m.cellsPerElem, m.cellsInElem.val x = c) → s'.cell.val c = m.cellMeanR R s.node.val c) ∧
        ((∀ x < m.elems * m.cellsPerElem, m.cellsInElem.val x ≠ c) → s'.cell.val c = s.cell.val c)) ∧
      ∀ n < m.nodes, ((∃ x < m.elems * m.nodesPerElem, m.nodesInElem.val x = n) → s'.node.val n = m.nodeMeanR R s'.cell.val n) ∧
        ((∀ x < m.elems * m.nodesPerElem, m.nodesInElem.val x ≠ n) → s'.node.val n = s.node.val n) := by
  obtain ⟨cell, e1, c1, c2⟩ := scatter_spec (F := cellAverageR R m s.node) he.cellSize he.cellLt (fun c hc => cellAverageR_spec h h1 hc) s.cell h2
  obtain ⟨node, e2, n1, n2⟩ := scatter_spec (F := nodeAverageR R m cell) he.nodeSize he.nodeLt (fun n hn => nodeAverageR_spec h c1 hn) s.node h1
  refine ⟨⟨node, cell⟩, ?_, n1, c1, c2, n2⟩
  unfold smoothElementR
  show (loopM m.elems _ s.cell).bind _ = _
  rw [e1, Option.bind_some]
  show (loopM m.elems _ s.node).bind _ = _
  rw [e2]; rfl

end

/-- Without rounding these are the routines of the exact model. -/
theorem cyclesR_none (b : ℕ) (m : Mesh) (k : ℕ) (s : State) : cyclesR (Rounding.none b) m k s = cycles m k s := rfl

/-- `lo` and `hi` and their multiples needed by a sum over `k` terms are representable. -/
def Exact (R : Rounding) (lo hi : ℝ) (k : ℕ) : Prop :=
  ∀ j : ℕ, j ≤ k → R.fl (j * (lo / k)) = j * (lo / k) ∧ R.fl (j * (hi / k)) = j * (hi / k)

/-- Numbers with few significant bits and powers of two. -/
theorem exact_pow (R : Rounding) (a b : ℤ) (e : ℤ) (i : ℕ) (ha : |a| * 2 ^ i ≤ 2 ^ R.bits) (hb : |b| * 2 ^ i ≤ 2 ^ R.bits) :
    Exact R (a * 2 ^ e) (b * 2 ^ e) (2 ^ i) := by
  have key : ∀ (a : ℤ), |a| * 2 ^ i ≤ 2 ^ R.bits → ∀ j : ℕ, j ≤ 2 ^ i →
      R.fl (j * ((a : ℝ) * 2 ^ e / ((2 ^ i : ℕ) : ℝ))) = j * ((a : ℝ) * 2 ^ e / ((2 ^ i : ℕ) : ℝ)) := by
    intro a ha j hj
    have : (j : ℝ) * ((a : ℝ) * 2 ^ e / ((2 ^ i : ℕ) : ℝ)) = ((j * a : ℤ) : ℝ) * 2 ^ (e - i) := by
      rw [zpow_sub₀ (by norm_num)]
      push_cast
      rw [zpow_natCast]; ring
    rw [this]
    refine R.exact _ _ (le_trans ?_ ha)
    rw [abs_mul, mul_comm]
    refine mul_le_mul_of_nonneg_left ?_ (abs_nonneg _)
    rw [Int.abs_natCast]
    exact_mod_cast hj
  exact fun j hj => ⟨key a ha j hj, key b hb j hj⟩

/-- **C88 (bounds).**  The cycle loop of `main` in rounded arithmetic, on a mesh without isolated nodes.  If `lo ≤ 0` and `hi ≥ 10`, the
multiples `j/8` and `j/k` of the bounds are representable (`k` the number of cells of a node, `j ≤ k`) and the initial values lie in
`[lo, hi]`, then all values lie in `[lo, hi]` after any number of cycles: rounding does not break the maximum principle. -/
theorem C88_bounds (R : Rounding) (m : Mesh) (h : m.Ok) (he : m.ElemOk) (hiso : ∀ n < m.nodes, m.cellsOf n ≠ []) (h0 : m.SetOk 0) (h3 : m.SetOk 3)
    (lo hi : ℝ) (hlo : lo ≤ 0) (hhi : 10 ≤ hi) (hx8 : Exact R lo hi 8) (hxn : ∀ n < m.nodes, Exact R lo hi (m.cellsOf n).length)
    (s : State) (h1 : s.node.size = m.nodes) (h2 : s.cell.size = m.cells)
    (w1 : Within lo hi s.node) (w2 : Within lo hi s.cell) (k : ℕ) :
    ∃ s', cyclesR R m k s = some s' ∧ s'.node.size = m.nodes ∧ s'.cell.size = m.cells ∧ Within lo hi s'.node ∧ Within lo hi s'.cell ∧
      (0 < k → ∀ n, (m.OnSet 0 n → s'.node.val n = 10) ∧ (m.OnSet 3 n → ¬ m.OnSet 0 n → s'.node.val n = 0)) := by
  refine loopM_spec (fun k (s' : State) => s'.node.size = m.nodes ∧ s'.cell.size = m.cells ∧ Within lo hi s'.node ∧ Within lo hi s'.cell ∧
      (0 < k → ∀ n, (m.OnSet 0 n → s'.node.val n = 10) ∧ (m.OnSet 3 n → ¬ m.OnSet 0 n → s'.node.val n = 0)))
    ⟨h1, h2, w1, w2, by omega⟩ ?_
  rintro i s - ⟨g1, g2, g3, g4, -⟩
  obtain ⟨t, e, z1, z2, c1, n1⟩ := smoothElementR_spec (R := R) m h he s g1 g2
  obtain ⟨r, e', y1, y2, y3⟩ := C54_boundary m h0 h3 t z1
  have hc : ∀ c < m.cells, lo ≤ t.cell.val c ∧ t.cell.val c ≤ hi := by
    intro c hc
    by_cases hx : ∃ x < m.elems * m.cellsPerElem, m.cellsInElem.val x = c
    · rw [(c1 c hc).1 hx]
      have := accum_within R 8 (by omega) lo hi (fun j hj => (hx8 j hj).1) (fun j hj => (hx8 j hj).2)
        ((List.range 8).map fun l => s.node.val (m.nodesInCell.val (c * 8 + l))) (by simp) (by
          intro x hx
          obtain ⟨l, hl, rfl⟩ := List.mem_map.1 hx
          have := List.mem_range.1 hl
          exact g3 _ (by rw [g1]; exact h.lt _ (by omega)))
      rw [List.length_map, List.length_range] at this
      unfold Mesh.cellMeanR
      push_cast at this
      constructor <;> linarith [this.1, this.2]
    · rw [(c1 c hc).2 fun x hx' hxc => hx ⟨x, hx', hxc⟩]
      exact g4 c (by omega)
  have hn : ∀ n < m.nodes, lo ≤ t.node.val n ∧ t.node.val n ≤ hi := by
    intro n hn
    by_cases hx : ∃ x < m.elems * m.nodesPerElem, m.nodesInElem.val x = n
    · rw [(n1 n hn).1 hx]
      have hpos : 0 < (m.cellsOf n).length := List.length_pos_iff.2 (hiso n hn)
      have := accum_within R _ hpos lo hi (fun j hj => (hxn n hn j hj).1) (fun j hj => (hxn n hn j hj).2)
        ((m.cellsOf n).map t.cell.val) (by simp) (by
          intro x hx
          obtain ⟨c, hc', rfl⟩ := List.mem_map.1 hx
          exact hc c (mem_cellsOf.1 hc').1)
      rw [List.length_map] at this
      have hpos' : ((m.cellsOf n).length : ℝ) ≠ 0 := by positivity
      rw [mul_div_cancel₀ _ hpos', mul_div_cancel₀ _ hpos'] at this
      exact this
    · rw [(n1 n hn).2 fun x hx' hxc => hx ⟨x, hx', hxc⟩]
      exact g3 n (by omega)
  refine ⟨r, ?_, y1, by rw [y2]; exact z2, ?_, ?_, fun _ n => ⟨(y3 n).1, (y3 n).2.1⟩⟩
  · show (smoothElementR R m s).bind _ = _
    rw [e, Option.bind_some]; exact e'
  · intro n hn'
    by_cases o0 : m.OnSet 0 n
    · rw [(y3 n).1 o0]; constructor <;> linarith
    · by_cases o3 : m.OnSet 3 n
      · rw [(y3 n).2.1 o3 o0]; constructor <;> linarith
      · rw [(y3 n).2.2 o3 o0]; exact hn n (by omega)
  · rw [y2]
    intro c hc'
    exact hc c (by omega)

/-- Distance of two fields. -/
def Close (D : ℝ) (a b : Arr ℝ) : Prop := ∀ i < a.size, |a.val i - b.val i| ≤ D

theorem accum_close (R : Rounding) {ι : Type*} (k : ℕ) (hk : 0 < k) (K : ℕ) (hK : k ≤ K) (L : List ι) (hL : L.length = k) (f g : ι → ℝ) (M D : ℝ)
    (hD : 0 ≤ D) (hM : 0 ≤ M) (hg : ∀ i ∈ L, |g i| ≤ M) (hf : ∀ i ∈ L, |f i - g i| ≤ D) :
    |accum R k (L.map f) - (L.map g).sum / k| ≤ (M + D) * (1 + R.u) ^ (K + 1) - M := by
  have hu := R.u_nonneg
  have hk' : (0 : ℝ) < k := by exact_mod_cast hk
  have e1 := accum_err R k hk'.le (L.map f)
  rw [List.length_map, hL, List.map_map] at e1
  have e2 : (L.map ((fun x => |x|) ∘ f)).sum ≤ k * (M + D) := by
    have := List.sum_le_card_nsmul (L.map ((fun x => |x|) ∘ f)) (M + D) (by
      intro x hx
      obtain ⟨i, hi, rfl⟩ := List.mem_map.1 hx
      have := abs_add_le (g i) (f i - g i)
      rw [show g i + (f i - g i) = f i by ring] at this
      have h1 := hg i hi
      have h2 := hf i hi
      show |f i| ≤ _
      linarith)
    rwa [List.length_map, hL, nsmul_eq_mul] at this
  have e3 : |(L.map f).sum / k - (L.map g).sum / k| ≤ D := by
    rw [← sub_div, abs_div, abs_of_pos hk', div_le_iff₀ hk']
    have h1 : (L.map f).sum - (L.map g).sum = (L.map fun i => f i - g i).sum := by
      clear hL hg hf e1 e2
      induction L with
      | nil => simp
      | cons a L ih => simp only [List.map_cons, List.sum_cons]; rw [← ih]; ring
    have h2 := List.sum_le_card_nsmul (L.map fun i => f i - g i) D (by
      intro x hx
      obtain ⟨i, hi, rfl⟩ := List.mem_map.1 hx
      exact (abs_le.1 (hf i hi)).2)
    have h3 := List.card_nsmul_le_sum (L.map fun i => f i - g i) (-D) (by
      intro x hx
      obtain ⟨i, hi, rfl⟩ := List.mem_map.1 hx
      exact (abs_le.1 (hf i hi)).1)
    rw [List.length_map, hL, nsmul_eq_mul] at h2 h3
    rw [h1, abs_le]
    constructor <;> linarith
  have e4 : (L.map ((fun x => |x|) ∘ f)).sum / k ≤ M + D := by rw [div_le_iff₀ hk']; linarith
  have hp : (1 + R.u) ^ (k + 1) ≤ (1 + R.u) ^ (K + 1) := pow_le_pow_right₀ (by linarith) (by omega)
  have hp1 : 1 ≤ (1 + R.u) ^ (k + 1) := one_le_pow₀ (by linarith)
  have e5 : ((1 + R.u) ^ (k + 1) - 1) * ((L.map ((fun x => |x|) ∘ f)).sum / k) ≤ ((1 + R.u) ^ (K + 1) - 1) * (M + D) :=
    (mul_le_mul_of_nonneg_left e4 (by linarith)).trans (mul_le_mul_of_nonneg_right (by linarith) (by linarith))
  have e6 := abs_add_le (accum R k (L.map f) - (L.map f).sum / k) ((L.map f).sum / k - (L.map g).sum / k)
  rw [sub_add_sub_cancel] at e6
  linarith

theorem list_range_sum (k : ℕ) (f : ℕ → ℝ) : ((List.range k).map f).sum = ∑ l ∈ range k, f l := by
  induction k with
  | zero => simp
  | succ k ih => rw [List.range_succ, List.map_append, List.sum_append, ih, sum_range_succ]; simp

/-- **C88 (accuracy).**  After any number `k` of cycles the rounded fields differ from the exact ones by at most
`M ((1+u)^((K+10)k) - 1)`, where `M` bounds the initial values and 10, and no node has more than `K` cells. -/
theorem C88_accuracy (R : Rounding) (m : Mesh) (h : m.Ok) (he : m.ElemOk) (hiso : ∀ n < m.nodes, m.cellsOf n ≠ []) (h0 : m.SetOk 0)
    (h3 : m.SetOk 3) (K : ℕ) (hK : ∀ n < m.nodes, (m.cellsOf n).length ≤ K) (M : ℝ) (hM : 10 ≤ M)
    (s : State) (h1 : s.node.size = m.nodes) (h2 : s.cell.size = m.cells)
    (w1 : Within (-M) M s.node) (w2 : Within (-M) M s.cell) (k : ℕ) :
    ∃ s' t, cyclesR R m k s = some s' ∧ cycles m k s = some t ∧ s'.node.size = m.nodes ∧ s'.cell.size = m.cells ∧
      Close (M * ((1 + R.u) ^ ((K + 10) * k) - 1)) s'.node t.node ∧ Close (M * ((1 + R.u) ^ ((K + 10) * k) - 1)) s'.cell t.cell := by
  have hu := R.u_nonneg
  induction k with
  | zero => exact ⟨s, s, rfl, rfl, h1, h2, fun i _ => by simp, fun i _ => by simp⟩
  | succ k ih =>
    obtain ⟨a, b, ea, eb, a1, a2, cn, cc⟩ := ih
    obtain ⟨b', eb', b1, b2, bn, bc, -⟩ := C54_cycles m h he hiso h0 h3 (-M) M (by linarith) hM s h1 h2 w1 w2 k
    rw [eb] at eb'
    obtain rfl := Option.some.inj eb'
    obtain ⟨p, ep, p1, p2, pc, pn⟩ := smoothElementR_spec (R := R) m h he a a1 a2
    obtain ⟨q, eq, q1, q2, qc, qn⟩ := smoothElement_spec m h he b b1 b2
    obtain ⟨p', ep', p1', p2', p3'⟩ := C54_boundary m h0 h3 p p1
    obtain ⟨q', eq', q1', q2', q3'⟩ := C54_boundary m h0 h3 q q1
    set D := M * ((1 + R.u) ^ ((K + 10) * k) - 1) with hDdef
    have hpow1 : 1 ≤ (1 + R.u) ^ ((K + 10) * k) := one_le_pow₀ (by linarith)
    have hD : 0 ≤ D := mul_nonneg (by linarith) (by linarith)
    have hM0 : 0 ≤ M := by linarith
    set D1 := (M + D) * (1 + R.u) ^ 9 - M with hD1def
    have h9 : 1 ≤ (1 + R.u) ^ 9 := one_le_pow₀ (by linarith)
    have hK1 : 1 ≤ (1 + R.u) ^ (K + 1) := one_le_pow₀ (by linarith)
    have hDD1 : D ≤ D1 := by rw [hD1def]; nlinarith
    have hfinal : M * ((1 + R.u) ^ ((K + 10) * (k + 1)) - 1) = (M + D1) * (1 + R.u) ^ (K + 1) - M := by
      rw [hD1def, hDdef, show (K + 10) * (k + 1) = (K + 10) * k + 9 + (K + 1) by ring, pow_add, pow_add]; ring
    have hD1f : D1 ≤ M * ((1 + R.u) ^ ((K + 10) * (k + 1)) - 1) := by rw [hfinal]; nlinarith
    have bnd : ∀ n < m.nodes, |b.node.val n| ≤ M := fun n hn => abs_le.2 (bn n (by omega))
    have bcd : ∀ c < m.cells, |b.cell.val c| ≤ M := fun c hc => abs_le.2 (bc c (by omega))
    have hcells : ∀ c < m.cells, |p.cell.val c - q.cell.val c| ≤ D1 ∧ |q.cell.val c| ≤ M := by
      intro c hc
      by_cases hx : ∃ x < m.elems * m.cellsPerElem, m.cellsInElem.val x = c
      · rw [(pc c hc).1 hx, (qc c hc).1 hx]
        constructor
        · have := accum_close R 8 (by omega) 8 (le_refl _) (List.range 8) (by simp) (fun l => a.node.val (m.nodesInCell.val (c * 8 + l)))
            (fun l => b.node.val (m.nodesInCell.val (c * 8 + l))) M D hD hM0
            (fun l hl => bnd _ (h.lt _ (by have := List.mem_range.1 hl; omega)))
            (fun l hl => cn _ (by rw [a1]; exact h.lt _ (by have := List.mem_range.1 hl; omega)))
          rw [list_range_sum] at this
          exact this
        · exact abs_le.2 (cellMean_within h (fun n hn => abs_le.1 (bnd n hn)) hc)
      · rw [(pc c hc).2 fun x hx' hxc => hx ⟨x, hx', hxc⟩, (qc c hc).2 fun x hx' hxc => hx ⟨x, hx', hxc⟩]
        exact ⟨(cc c (by omega)).trans hDD1, bcd c hc⟩
    have hnodes : ∀ n < m.nodes, |p.node.val n - q.node.val n| ≤ M * ((1 + R.u) ^ ((K + 10) * (k + 1)) - 1) := by
      intro n hn
      by_cases hx : ∃ x < m.elems * m.nodesPerElem, m.nodesInElem.val x = n
      · rw [(pn n hn).1 hx, (qn n hn).1 hx, hfinal]
        exact accum_close R _ (List.length_pos_iff.2 (hiso n hn)) K (hK n hn) (m.cellsOf n) rfl p.cell.val q.cell.val M D1 (by linarith) hM0
          (fun c hc => (hcells c (mem_cellsOf.1 hc).1).2) (fun c hc => (hcells c (mem_cellsOf.1 hc).1).1)
      · rw [(pn n hn).2 fun x hx' hxc => hx ⟨x, hx', hxc⟩, (qn n hn).2 fun x hx' hxc => hx ⟨x, hx', hxc⟩]
        exact (cn n (by omega)).trans (hDD1.trans hD1f)
    refine ⟨p', q', ?_, ?_, p1', by rw [p2']; exact p2, ?_, ?_⟩
    · unfold cyclesR at ea ⊢
      rw [loopM_succ, ea]
      show ((smoothElementR R m a).bind fun s => applyBoundary m s) = _
      rw [ep, Option.bind_some, ep']
    · unfold cycles at eb ⊢
      rw [loopM_succ, eb]
      show ((smoothElement m b).bind fun s => applyBoundary m s) = _
      rw [eq, Option.bind_some, eq']
    · intro n hn
      have hn' : n < m.nodes := by omega
      by_cases o0 : m.OnSet 0 n
      · rw [(p3' n).1 o0, (q3' n).1 o0]
        simp only [sub_self, abs_zero]; linarith
      · by_cases o3 : m.OnSet 3 n
        · rw [(p3' n).2.1 o3 o0, (q3' n).2.1 o3 o0]
          simp only [sub_self, abs_zero]; linarith
        · rw [(p3' n).2.2 o3 o0, (q3' n).2.2 o3 o0]; exact hnodes n hn'
    · rw [p2', q2']
      exact fun c hc => ((hcells c (by omega)).1).trans hD1f

end Verif.Average
