import Verif.Ieee.AverageLemmas

/-!
# C108: the Average example in double precision with overflow and underflow
-/

namespace Verif.Average
open Finset Verif.Swage Verif.Swage.Refine Verif.Fp

/-- `lo` and `hi` and their multiples needed by a sum over `k` terms are representable. -/
def ExactI (A : Ieee) (lo hi : ℝ) (k : ℕ) : Prop :=
  ∀ j : ℕ, j ≤ k → A.fl (j * (lo / k)) = j * (lo / k) ∧ A.fl (j * (hi / k)) = j * (hi / k)

/-- Numbers with few significant bits and powers of two. -/
theorem exactI_pow (A : Ieee) (a b : ℤ) (e : ℤ) (i : ℕ) (hem : A.emin ≤ e - i) (ha : |a| * 2 ^ i ≤ 2 ^ A.bits) (hb : |b| * 2 ^ i ≤ 2 ^ A.bits) :
    ExactI A (a * 2 ^ e) (b * 2 ^ e) (2 ^ i) := by
  have key : ∀ (a : ℤ), |a| * 2 ^ i ≤ 2 ^ A.bits → ∀ j : ℕ, j ≤ 2 ^ i →
      A.fl (j * ((a : ℝ) * 2 ^ e / ((2 ^ i : ℕ) : ℝ))) = j * ((a : ℝ) * 2 ^ e / ((2 ^ i : ℕ) : ℝ)) := by
    intro a ha j hj
    have : (j : ℝ) * ((a : ℝ) * 2 ^ e / ((2 ^ i : ℕ) : ℝ)) = ((j * a : ℤ) : ℝ) * 2 ^ (e - i) := by
      rw [zpow_sub₀ (by norm_num)]
      push_cast
      rw [zpow_natCast]; ring
    rw [this]
    refine A.exact _ _ (le_trans ?_ ha) hem
    rw [abs_mul, mul_comm]
    refine mul_le_mul_of_nonneg_left ?_ (abs_nonneg _)
    rw [Int.abs_natCast]
    exact_mod_cast hj
  exact fun j hj => ⟨key a ha j hj, key b hb j hj⟩

/-- **C108 (bounds).**  The cycle loop of `main` in floating-point arithmetic with overflow and gradual underflow, on a mesh without
isolated nodes.  If `lo ≤ 0` and `hi ≥ 10`, both below the overflow threshold, the multiples `j/8` and `j/k` of the bounds are
representable (`k` the number of cells of a node, `j ≤ k`) and the initial values lie in `[lo, hi]`, then nothing overflows and all
values lie in `[lo, hi]` after any number of cycles. -/
theorem C108_bounds (A : Ieee) (m : Mesh) (h : m.Ok) (he : m.ElemOk) (hiso : ∀ n < m.nodes, m.cellsOf n ≠ []) (h0 : m.SetOk 0) (h3 : m.SetOk 3)
    (lo hi : ℝ) (hlo : lo ≤ 0) (hhi : 10 ≤ hi) (tl : -A.top < lo) (th : hi < A.top)
    (hx8 : ExactI A lo hi 8) (hxn : ∀ n < m.nodes, ExactI A lo hi (m.cellsOf n).length)
    (s : State) (h1 : s.node.size = m.nodes) (h2 : s.cell.size = m.cells)
    (w1 : Within lo hi s.node) (w2 : Within lo hi s.cell) (k : ℕ) :
    ∃ s', cyclesI A m k s = some s' ∧ s'.node.size = m.nodes ∧ s'.cell.size = m.cells ∧ Within lo hi s'.node ∧ Within lo hi s'.cell ∧
      (0 < k → ∀ n, (m.OnSet 0 n → s'.node.val n = 10) ∧ (m.OnSet 3 n → ¬ m.OnSet 0 n → s'.node.val n = 0)) := by
  refine loopM_spec (fun k (s' : State) => s'.node.size = m.nodes ∧ s'.cell.size = m.cells ∧ Within lo hi s'.node ∧ Within lo hi s'.cell ∧
      (0 < k → ∀ n, (m.OnSet 0 n → s'.node.val n = 10) ∧ (m.OnSet 3 n → ¬ m.OnSet 0 n → s'.node.val n = 0)))
    ⟨h1, h2, w1, w2, by omega⟩ ?_
  rintro i s - ⟨g1, g2, g3, g4, -⟩
  obtain ⟨t, e, z1, z2, hc, hn⟩ := smoothElementI_spec (A := A) m he s g1 g2 (fun _ v => lo ≤ v ∧ v ≤ hi) (fun _ v => lo ≤ v ∧ v ≤ hi) (by
      intro c hc
      refine ⟨?_, fun _ => g4 c (by omega)⟩
      obtain ⟨v, ev, v1, v2⟩ := accumI_within A 8 (by omega) lo hi hlo (by linarith) tl th (fun j hj => (hx8 j hj).1) (fun j hj => (hx8 j hj).2)
        ((List.range 8).map fun l => s.node.val (m.nodesInCell.val (c * 8 + l))) (by simp) (by
          intro x hx
          obtain ⟨l, hl, rfl⟩ := List.mem_map.1 hx
          have := List.mem_range.1 hl
          exact g3 _ (by rw [g1]; exact h.lt _ (by omega)))
      rw [List.length_map, List.length_range] at v1 v2
      refine ⟨v, ?_, fun _ => ?_⟩
      · rw [cellAverageI_eq h g1 hc]; exact ev
      · push_cast at v1 v2
        constructor <;> linarith) (by
      intro cell hcs hcell n hn
      refine ⟨?_, fun _ => g3 n (by omega)⟩
      have hpos : 0 < (m.cellsOf n).length := List.length_pos_iff.2 (hiso n hn)
      obtain ⟨v, ev, v1, v2⟩ := accumI_within A _ hpos lo hi hlo (by linarith) tl th (fun j hj => (hxn n hn j hj).1) (fun j hj => (hxn n hn j hj).2)
        ((m.cellsOf n).map cell.val) (by simp) (by
          intro x hx
          obtain ⟨c, hc', rfl⟩ := List.mem_map.1 hx
          exact hcell c (mem_cellsOf.1 hc').1)
      rw [List.length_map] at v1 v2
      have hpos' : ((m.cellsOf n).length : ℝ) ≠ 0 := by positivity
      rw [mul_div_cancel₀ _ hpos'] at v1 v2
      exact ⟨v, by rw [nodeAverageI_eq h hcs hn]; exact ev, fun _ => ⟨v1, v2⟩⟩)
  obtain ⟨r, e', y1, y2, y3⟩ := C54_boundary m h0 h3 t z1
  refine ⟨r, ?_, y1, by rw [y2]; exact z2, ?_, ?_, fun _ n => ⟨(y3 n).1, (y3 n).2.1⟩⟩
  · show (smoothElementI A m s).bind _ = _
    rw [e, Option.bind_some]; exact e'
  · intro n hn'
    by_cases o0 : m.OnSet 0 n
    · rw [(y3 n).1 o0]; constructor <;> linarith
    · by_cases o3 : m.OnSet 3 n
      · rw [(y3 n).2.1 o3 o0]; constructor <;> linarith
      · rw [(y3 n).2.2 o3 o0]; exact hn n (by omega)
  · rw [y2]
    intro c hc'
    exact hc c (by omega)

theorem accumI_close (A : Ieee) {ι : Type*} (k : ℕ) (hk : 0 < k) (K : ℕ) (hK : k ≤ K) (L : List ι) (hL : L.length = k) (f g : ι → ℝ) (M D : ℝ)
    (hg : ∀ i ∈ L, |g i| ≤ M) (hf : ∀ i ∈ L, |f i - g i| ≤ D)
    (ht : (M + 2 * K * A.δ + D) * (1 + A.u) ^ (K + 1) < A.top) :
    ∃ v, accumI A k (L.map f) = some v ∧
      |v - (L.map g).sum / k| ≤ (M + 2 * K * A.δ + D) * (1 + A.u) ^ (K + 1) - (M + 2 * K * A.δ) := by
  have hu := A.u_nonneg
  have hδ := A.δ_nonneg
  have hk' : (0 : ℝ) < k := by exact_mod_cast hk
  have hKk : (k : ℝ) ≤ K := by exact_mod_cast hK
  have e2 : (L.map ((fun x => |x|) ∘ f)).sum ≤ k * (M + D) := by
    have := List.sum_le_card_nsmul (L.map ((fun x => |x|) ∘ f)) (M + D) (by
      intro x hx
      obtain ⟨i, hi, rfl⟩ := List.mem_map.1 hx
      have := abs_add_le (g i) (f i - g i)
      rw [show g i + (f i - g i) = f i by ring] at this
      have h1 := hg i hi
      have h2 := hf i hi
      show |f i| ≤ _
      linarith)
    rwa [List.length_map, hL, nsmul_eq_mul] at this
  have e4 : (L.map ((fun x => |x|) ∘ f)).sum / k + 2 * k * A.δ ≤ M + 2 * K * A.δ + D := by
    have h1 : (L.map ((fun x => |x|) ∘ f)).sum / k ≤ M + D := by rw [div_le_iff₀ hk']; linarith
    have h2 : 2 * (k : ℝ) * A.δ ≤ 2 * K * A.δ := mul_le_mul_of_nonneg_right (by linarith) hδ
    linarith
  have e40 : 0 ≤ (L.map ((fun x => |x|) ∘ f)).sum / k + 2 * k * A.δ := by
    have : 0 ≤ (L.map ((fun x => |x|) ∘ f)).sum / k := div_nonneg (List.sum_nonneg (by simp)) hk'.le
    positivity
  have hp : (1 + A.u) ^ (k + 1) ≤ (1 + A.u) ^ (K + 1) := pow_le_pow_right₀ (by linarith) (by omega)
  have hp1 : 1 ≤ (1 + A.u) ^ (k + 1) := one_le_pow₀ (by linarith)
  obtain ⟨v, ev, hv⟩ := accumI_err A k hk'.le (L.map f) (by
    rw [List.length_map, hL, List.map_map]
    exact lt_of_le_of_lt (mul_le_mul e4 hp (by linarith) (by linarith)) ht)
  rw [List.length_map, hL, List.map_map] at hv
  refine ⟨v, ev, ?_⟩
  have e3 : |(L.map f).sum / k - (L.map g).sum / k| ≤ D := by
    rw [← sub_div, abs_div, abs_of_pos hk', div_le_iff₀ hk']
    have h1 : (L.map f).sum - (L.map g).sum = (L.map fun i => f i - g i).sum := by
      clear hL hg hf hv ev e2 e4 e40
      induction L with
      | nil => simp
      | cons a L ih => simp only [List.map_cons, List.sum_cons]; rw [← ih]; ring
    have h2 := List.sum_le_card_nsmul (L.map fun i => f i - g i) D (by
      intro x hx
      obtain ⟨i, hi, rfl⟩ := List.mem_map.1 hx
      exact (abs_le.1 (hf i hi)).2)
    have h3 := List.card_nsmul_le_sum (L.map fun i => f i - g i) (-D) (by
      intro x hx
      obtain ⟨i, hi, rfl⟩ := List.mem_map.1 hx
      exact (abs_le.1 (hf i hi)).1)
    rw [List.length_map, hL, nsmul_eq_mul] at h2 h3
    rw [h1, abs_le]
    constructor <;> linarith
  have e5 : ((1 + A.u) ^ (k + 1) - 1) * ((L.map ((fun x => |x|) ∘ f)).sum / k + 2 * k * A.δ) ≤ ((1 + A.u) ^ (K + 1) - 1) * (M + 2 * K * A.δ + D) :=
    (mul_le_mul_of_nonneg_left e4 (by linarith)).trans (mul_le_mul_of_nonneg_right (by linarith) (by linarith))
  have e6 := abs_add_le (v - (L.map f).sum / k) ((L.map f).sum / k - (L.map g).sum / k)
  rw [sub_add_sub_cancel] at e6
  linarith

/-- **C108 (accuracy).**  After any number `k` of cycles, as long as the bound `(M + 2Kδ)(1+u)^((K+10)k)` is below the overflow threshold,
nothing has overflowed and the computed fields differ from the exact ones by at most `(M + 2Kδ)((1+u)^((K+10)k) - 1)`, where `M`
bounds the initial values and 10, no node has more than `K ≥ 8` cells, and `δ` is the smallest normal number. -/
theorem C108_accuracy (A : Ieee) (m : Mesh) (h : m.Ok) (he : m.ElemOk) (hiso : ∀ n < m.nodes, m.cellsOf n ≠ []) (h0 : m.SetOk 0)
    (h3 : m.SetOk 3) (K : ℕ) (hK8 : 8 ≤ K) (hK : ∀ n < m.nodes, (m.cellsOf n).length ≤ K) (M : ℝ) (hM : 10 ≤ M)
    (s : State) (h1 : s.node.size = m.nodes) (h2 : s.cell.size = m.cells)
    (w1 : Within (-M) M s.node) (w2 : Within (-M) M s.cell) (k : ℕ) (hk : (M + 2 * K * A.δ) * (1 + A.u) ^ ((K + 10) * k) < A.top) :
    ∃ s' t, cyclesI A m k s = some s' ∧ cycles m k s = some t ∧ s'.node.size = m.nodes ∧ s'.cell.size = m.cells ∧
      Close ((M + 2 * K * A.δ) * ((1 + A.u) ^ ((K + 10) * k) - 1)) s'.node t.node ∧
      Close ((M + 2 * K * A.δ) * ((1 + A.u) ^ ((K + 10) * k) - 1)) s'.cell t.cell := by
  have hu := A.u_nonneg
  have hδ := A.δ_nonneg
  have hMM : M ≤ M + 2 * K * A.δ := by have : 0 ≤ 2 * (K : ℝ) * A.δ := by positivity
                                       linarith
  induction k with
  | zero => exact ⟨s, s, rfl, rfl, h1, h2, fun i _ => by simp, fun i _ => by simp⟩
  | succ k ih =>
    set N := M + 2 * K * A.δ with hN
    have hN0 : 0 ≤ N := by linarith
    have hpow1 : 1 ≤ (1 + A.u) ^ ((K + 10) * k) := one_le_pow₀ (by linarith)
    have hsplit : (1 + A.u) ^ ((K + 10) * (k + 1)) = (1 + A.u) ^ ((K + 10) * k) * (1 + A.u) ^ 9 * (1 + A.u) ^ (K + 1) := by
      rw [show (K + 10) * (k + 1) = (K + 10) * k + 9 + (K + 1) by ring, pow_add, pow_add]
    have h9 : 1 ≤ (1 + A.u) ^ 9 := one_le_pow₀ (by linarith)
    have hK1 : 1 ≤ (1 + A.u) ^ (K + 1) := one_le_pow₀ (by linarith)
    have hmon : N * (1 + A.u) ^ ((K + 10) * k) ≤ N * (1 + A.u) ^ ((K + 10) * (k + 1)) :=
      mul_le_mul_of_nonneg_left (pow_le_pow_right₀ (by linarith) (by nlinarith)) hN0
    obtain ⟨a, b, ea, eb, a1, a2, cn, cc⟩ := ih (lt_of_le_of_lt hmon hk)
    obtain ⟨b', eb', b1, b2, bn, bc, -⟩ := C54_cycles m h he hiso h0 h3 (-M) M (by linarith) hM s h1 h2 w1 w2 k
    rw [eb] at eb'
    obtain rfl := Option.some.inj eb'
    obtain ⟨q, eq, q1, q2, qc, qn⟩ := smoothElement_spec m h he b b1 b2
    obtain ⟨q', eq', q1', q2', q3'⟩ := C54_boundary m h0 h3 q q1
    set D := N * ((1 + A.u) ^ ((K + 10) * k) - 1) with hDdef
    have hD : 0 ≤ D := mul_nonneg (by linarith) (by linarith)
    have hM0 : 0 ≤ M := by linarith
    set D1 := (N + D) * (1 + A.u) ^ 9 - N with hD1def
    have hDD1 : D ≤ D1 := by rw [hD1def]; nlinarith
    have hfinal : N * ((1 + A.u) ^ ((K + 10) * (k + 1)) - 1) = (N + D1) * (1 + A.u) ^ (K + 1) - N := by
      rw [hD1def, hDdef, hsplit]; ring
    have hD1f : D1 ≤ N * ((1 + A.u) ^ ((K + 10) * (k + 1)) - 1) := by rw [hfinal]; nlinarith
    have bnd : ∀ n < m.nodes, |b.node.val n| ≤ M := fun n hn => abs_le.2 (bn n (by omega))
    have bcd : ∀ c < m.cells, |b.cell.val c| ≤ M := fun c hc => abs_le.2 (bc c (by omega))
    have qcM : ∀ c < m.cells, |q.cell.val c| ≤ M := by
      intro c hc
      by_cases hx : ∃ x < m.elems * m.cellsPerElem, m.cellsInElem.val x = c
      · rw [(qc c hc).1 hx]
        exact abs_le.2 (cellMean_within h (fun n hn => abs_le.1 (bnd n hn)) hc)
      · rw [(qc c hc).2 fun x hx' hxc => hx ⟨x, hx', hxc⟩]
        exact bcd c hc
    have htop1 : (N + D1) * (1 + A.u) ^ (K + 1) < A.top := by linarith
    have hKr : (8 : ℝ) ≤ K := by exact_mod_cast hK8
    have h8 : M + 2 * ((8 : ℕ) : ℝ) * A.δ ≤ N := by
      rw [hN]
      have : 2 * ((8 : ℕ) : ℝ) * A.δ ≤ 2 * K * A.δ := mul_le_mul_of_nonneg_right (by push_cast; linarith) hδ
      linarith
    have hcl : ∀ c < m.cells, ∃ v, cellAverageI A m a.node c = some v ∧ |v - m.cellMean b.node.val c| ≤ D1 := by
      intro c hc
      rw [cellAverageI_eq h a1 hc]
      obtain ⟨v, ev, hv⟩ := accumI_close A 8 (by omega) 8 (le_refl _) (List.range 8) (by simp) (fun l => a.node.val (m.nodesInCell.val (c * 8 + l)))
          (fun l => b.node.val (m.nodesInCell.val (c * 8 + l))) M D
          (fun l hl => bnd _ (h.lt _ (by have := List.mem_range.1 hl; omega)))
          (fun l hl => cn _ (by rw [a1]; exact h.lt _ (by have := List.mem_range.1 hl; omega)))
          (by
            have e1 : (M + 2 * ((8 : ℕ) : ℝ) * A.δ + D) * (1 + A.u) ^ (8 + 1) ≤ (N + D) * (1 + A.u) ^ 9 :=
              mul_le_mul_of_nonneg_right (by linarith) (by positivity)
            have e2 : (N + D1) * 1 ≤ (N + D1) * (1 + A.u) ^ (K + 1) := mul_le_mul_of_nonneg_left hK1 (by linarith)
            linarith)
      refine ⟨v, by exact_mod_cast ev, ?_⟩
      rw [list_range_sum] at hv
      refine le_trans hv ?_
      rw [hD1def]
      have hpp : 0 ≤ (1 + A.u) ^ 9 - 1 := by linarith
      have := mul_le_mul_of_nonneg_right h8 hpp
      show (M + 2 * ((8 : ℕ) : ℝ) * A.δ + D) * (1 + A.u) ^ 9 - (M + 2 * ((8 : ℕ) : ℝ) * A.δ) ≤ _
      linarith
    obtain ⟨p, ep, p1, p2, pc, pn⟩ := smoothElementI_spec (A := A) m he a a1 a2 (fun c v => |v - q.cell.val c| ≤ D1)
      (fun n v => |v - q.node.val n| ≤ N * ((1 + A.u) ^ ((K + 10) * (k + 1)) - 1)) (by
        intro c hc
        obtain ⟨v, ev, hv⟩ := hcl c hc
        refine ⟨⟨v, ev, fun hx => ?_⟩, fun hx => ?_⟩
        · rw [(qc c hc).1 hx]; exact hv
        · rw [(qc c hc).2 hx]; exact (cc c (by omega)).trans hDD1) (by
        intro cell hcs hcell n hn
        rw [nodeAverageI_eq h hcs hn]
        obtain ⟨v, ev, hv⟩ := accumI_close A _ (List.length_pos_iff.2 (hiso n hn)) K (hK n hn) (m.cellsOf n) rfl cell.val q.cell.val M D1
          (fun c hc => qcM c (mem_cellsOf.1 hc).1) (fun c hc => hcell c (mem_cellsOf.1 hc).1) htop1
        refine ⟨⟨v, ev, fun hx => ?_⟩, fun hx => ?_⟩
        · rw [(qn n hn).1 hx, hfinal]; exact hv
        · rw [(qn n hn).2 hx]; exact (cn n (by omega)).trans (hDD1.trans hD1f))
    obtain ⟨p', ep', p1', p2', p3'⟩ := C54_boundary m h0 h3 p p1
    refine ⟨p', q', ?_, ?_, p1', by rw [p2']; exact p2, ?_, ?_⟩
    · unfold cyclesI at ea ⊢
      rw [loopM_succ, ea]
      show ((smoothElementI A m a).bind fun s => applyBoundary m s) = _
      rw [ep, Option.bind_some, ep']
    · unfold cycles at eb ⊢
      rw [loopM_succ, eb]
      show ((smoothElement m b).bind fun s => applyBoundary m s) = _
      rw [eq, Option.bind_some, eq']
    · intro n hn
      have hn' : n < m.nodes := by omega
      by_cases o0 : m.OnSet 0 n
      · rw [(p3' n).1 o0, (q3' n).1 o0]
        simp only [sub_self, abs_zero]; linarith
      · by_cases o3 : m.OnSet 3 n
        · rw [(p3' n).2.1 o3 o0, (q3' n).2.1 o3 o0]
          simp only [sub_self, abs_zero]; linarith
        · rw [(p3' n).2.2 o3 o0, (q3' n).2.2 o3 o0]; exact pn n hn'
    · rw [p2', q2']
      exact fun c hc => (pc c (by omega)).trans hD1f

/-- The bounds 0 and 10 are representable. -/
theorem exactI_ten {i : ℕ} (hi : i ≤ 3) : ExactI Ieee.ieee64 0 10 (2 ^ i) := by
  have hi' : (2 : ℤ) ^ i ≤ 2 ^ 3 := pow_le_pow_right₀ (by norm_num) hi
  have := exactI_pow Ieee.ieee64 0 10 0 i (by rw [Ieee.ieee64_emin]; omega) (by simp) (by
    rw [show |(10 : ℤ)| = 10 by norm_num, Ieee.ieee64_bits]
    norm_num at hi' ⊢
    linarith)
  simpa using this

theorem ten_lt_top : (11 : ℝ) < Ieee.ieee64.top := by
  rw [Ieee.ieee64_top]
  calc (11 : ℝ) < 2 ^ (4 : ℤ) := by norm_num
    _ ≤ 2 ^ (1024 : ℤ) := zpow_le_zpow_right₀ (by norm_num) (by norm_num)

theorem delta_small : 2 * ((8 : ℕ) : ℝ) * Ieee.ieee64.δ ≤ 1 / 10 ^ 6 := by
  rw [Ieee.ieee64_δ]
  have : (2 : ℝ) ^ (-1022 : ℤ) ≤ 2 ^ (-30 : ℤ) := zpow_le_zpow_right₀ (by norm_num) (by norm_num)
  have h30 : (2 : ℝ) ^ (-30 : ℤ) * 16 ≤ 1 / 10 ^ 6 := by norm_num
  push_cast
  generalize (2 : ℝ) ^ (-1022 : ℤ) = y at this ⊢
  generalize (2 : ℝ) ^ (-30 : ℤ) = z at this h30
  linarith

/-- The error after `n ≤ 9000` operations in double precision. -/
theorem ieee64_growth (n : ℕ) (hn : n ≤ 9000) :
    (10 + 2 * ((8 : ℕ) : ℝ) * Ieee.ieee64.δ) * ((1 + Ieee.ieee64.u) ^ n - 1) ≤ 1 / 10 ^ 11 := by
  have h := pow_growth (u := 1 / 2 ^ 53) (by positivity) (by norm_num) n
  have hd := delta_small
  rw [Ieee.ieee64_u]
  have h3 : 1 ≤ (1 + (1 : ℝ) / 2 ^ 53) ^ n := one_le_pow₀ (by norm_num)
  generalize (1 + (1 : ℝ) / 2 ^ 53) ^ n = y at h h3
  have hn' : (n : ℝ) ≤ 9000 := by exact_mod_cast hn
  have : y * (1 - 9000 * (1 / 2 ^ 53)) ≤ 1 := le_trans (mul_le_mul_of_nonneg_left (by
    have : (n : ℝ) * (1 / 2 ^ 53) ≤ 9000 * (1 / 2 ^ 53) := mul_le_mul_of_nonneg_right hn' (by positivity)
    linarith) (by linarith)) h
  refine le_trans (mul_le_mul_of_nonneg_right (show _ ≤ (10 + 1 / 10 ^ 6 : ℝ) by linarith) (by linarith)) ?_
  norm_num at this ⊢
  linarith

theorem ieee64_no_overflow (n : ℕ) (hn : n ≤ 9000) :
    (10 + 2 * ((8 : ℕ) : ℝ) * Ieee.ieee64.δ) * (1 + Ieee.ieee64.u) ^ n < Ieee.ieee64.top := by
  have hgr := ieee64_growth n hn
  have h1 := ten_lt_top
  have h2 := delta_small
  rw [mul_sub, mul_one] at hgr
  generalize (10 + 2 * ((8 : ℕ) : ℝ) * Ieee.ieee64.δ) * (1 + Ieee.ieee64.u) ^ n = y at hgr ⊢
  generalize 2 * ((8 : ℕ) : ℝ) * Ieee.ieee64.δ = z at hgr h2
  have h3 : (1 : ℝ) / 10 ^ 6 + 1 / 10 ^ 11 ≤ 1 := by norm_num
  linarith

section
variable {E N : ℕ} {nodes : ℕ → ℕ → ℕ} {x : ℕ → ℕ → ℝ} {X : ℕ → ℤ → ℝ} {pos : ℕ → ℕ → ℤ}

/-- **C108 (the example program).**  On the meshes of C78: the field `r.state` the program computes in exact arithmetic starts from
a state `s`, and the 500 cycles in IEEE double precision from `s` do not overflow and give a field that differs from it by at most
`10⁻¹¹` everywhere, however many values underflow; if the cells fill a box, it lies in `[0, 10]`.  (Partial: grids only, as in C78; the
mesh itself is the one set up in exact arithmetic.) -/
theorem C108_program_partial (hL : Key.Grid E N nodes x X pos)
    (hsmall : ∃ d < 3, X d (pos (E - 1) d + 1) - X d (pos (E - 1) d) ≤ 7)
    (hfirst : ∀ c < E, ∀ l < 8, nodes c l = nodes 0 0 → c = 0 ∧ l = 0)
    (hshare : ∃ c < E, ∃ c' < E, c' ≠ c ∧ Share 8 nodes c c')
    (hs : 1 / 10 ^ 6 ≤ X 0 (pos (E - 1) 0 + 1) - X 0 (pos (E - 1) 0))
    (q : SetupJunk) (u : ℕ → Fill) (j1 j2 : ℕ → ℕ → ℝ) (jt : ℕ → ℝ) :
    ∃ m r s, program E N nodes x q u j1 j2 jt = some (m, r) ∧ cycles m 500 s = some r.state ∧
      (∀ n, (m.OnSet 0 n → s.node.val n = 10) ∧ (¬ m.OnSet 0 n → s.node.val n = 0)) ∧
      ∃ t, cyclesI Ieee.ieee64 m 500 s = some t ∧ t.node.size = m.nodes ∧ t.cell.size = m.cells ∧
        Close (1 / 10 ^ 11) t.node r.state.node ∧ Close (1 / 10 ^ 11) t.cell r.state.cell ∧
        ∀ lo hi, Cuboid E pos lo hi → Within 0 10 t.node ∧ Within 0 10 t.cell := by
  obtain ⟨m, r, p1, hm, s0, s3, p3, p4, -, -, -, -, tt, -, -, -, hG⟩ := program_grid hL hsmall hfirst hshare hs q u j1 j2 jt
  obtain ⟨s, s1, s2, sv, sc, run⟩ := program_run p1 hm s0 s3 p4
  have w1 : Within 0 10 s.node := by
    intro n _
    by_cases o : m.OnSet 0 n
    · rw [(sv n).1 o]; norm_num
    · rw [(sv n).2 o]; norm_num
  have w2 : Within 0 10 s.cell := by
    intro c hc
    rw [sc c (by omega)]; norm_num
  obtain ⟨t, t', e1, e2, t1, t2, t3, t4⟩ := C108_accuracy Ieee.ieee64 m hm.ok hm.elemOk hm.noIsolated s0 s3 8 (le_refl _) (fun n _ => grid_cells_le hG n)
    10 (le_refl _) s s1 s2
    (fun n hn => ⟨by linarith [(w1 n hn).1], (w1 n hn).2⟩) (fun c hc => ⟨by linarith [(w2 c hc).1], (w2 c hc).2⟩) 500
    (ieee64_no_overflow _ (by norm_num))
  rw [run] at e2
  obtain rfl := Option.some.inj e2
  refine ⟨m, r, s, p1, run, sv, t, e1, t1, t2, fun i hi => (t3 i hi).trans (ieee64_growth _ (by norm_num)), fun i hi => (t4 i hi).trans (ieee64_growth _ (by norm_num)), fun lo hi hC => ?_⟩
  have hC' := cuboid_fine (S := 6) (by omega) hC
  rw [← p3] at hC'
  obtain ⟨t', e', -, -, b1, b2, -⟩ := C108_bounds Ieee.ieee64 m hm.ok hm.elemOk hm.noIsolated s0 s3 0 10 (le_refl _) (le_refl _)
    (by linarith [ten_lt_top]) (by linarith [ten_lt_top])
    (exactI_ten (le_refl 3)) (fun n hn => by
      obtain ⟨i, hi, e⟩ := cuboid_cells hm hG hC' hn
      rw [e]; exact exactI_ten hi) s s1 s2 w1 w2 500
  rw [e1] at e'
  obtain rfl := Option.some.inj e'
  exact ⟨b1, b2⟩
end

/-- **C108 (from the generator to the results).**  For every box as in C79: the mesh file the generator writes is read, and the
500 cycles in IEEE double precision, underflow and overflow included, on the mesh the program then works on, from the initial state of
the program, succeed and give fields in `[0, 10]` that differ by at most `10⁻¹¹` from the exact ones. -/
theorem C108_box (b : MeshBox.Box) (hb : b.Ok) (hn : b.points < 10 ^ 9) (h2 : 2 ≤ b.cells) (hf : Fine b)
    (hsmall : ∃ d < 3, b.step d ≤ 6.9) (hs : 1 / 10 ^ 5 ≤ b.step 0) {rnd : ℝ → ℕ} (h : MeshFile.Nearest rnd) (qb : MeshBox.Junk)
    (q' : MeshFile.Junk) (q : SetupJunk) (u : ℕ → Fill) (j1 j2 : ℕ → ℕ → ℝ) (jt : ℕ → ℝ) :
    ∃ r t, MeshBox.build b qb = some r ∧ MeshFile.writeBox rnd r.coords r.cellPoints b.points b.cells = some t ∧
    ∃ m run s t', programFile q' q u j1 j2 jt t = some (m, run) ∧ cycles m 500 s = some run.state ∧
      (∀ n, (m.OnSet 0 n → s.node.val n = 10) ∧ (¬ m.OnSet 0 n → s.node.val n = 0)) ∧
      cyclesI Ieee.ieee64 m 500 s = some t' ∧ t'.node.size = m.nodes ∧ t'.cell.size = m.cells ∧ Within 0 10 t'.node ∧ Within 0 10 t'.cell ∧
      Close (1 / 10 ^ 11) t'.node run.state.node ∧ Close (1 / 10 ^ 11) t'.cell run.state.cell := by
  obtain ⟨r, t, mi, e1, e2, e3, m1, m2, m3, m4⟩ := MeshFile.box_spec b hb hn qb h q'
  have R : Read rnd b mi := ⟨m1, m2, m3, m4⟩
  have hG := R.grid h hb hf
  have hsm : ∃ d < 3, boxX rnd b d (boxPos b (b.cells - 1) d + 1) - boxX rnd b d (boxPos b (b.cells - 1) d) ≤ 7 := by
    obtain ⟨d, hd, hle⟩ := hsmall
    have := (width h hb hf hd (boxPos b (b.cells - 1) d)).2
    refine ⟨d, hd, this.trans ?_⟩
    norm_num at hle ⊢
    linarith
  have hs' : 1 / 10 ^ 6 ≤ boxX rnd b 0 (boxPos b (b.cells - 1) 0 + 1) - boxX rnd b 0 (boxPos b (b.cells - 1) 0) := by
    have := (width h hb hf (show 0 < 3 by omega) (boxPos b (b.cells - 1) 0)).1
    refine le_trans ?_ this
    norm_num at hs ⊢
    linarith
  obtain ⟨m, run, s, p1, p2, p3, t', p4, p5, p6, p7, p8, p9⟩ := C108_program_partial hG hsm (R.first hb) (R.share hb h2) hs' q u j1 j2 jt
  obtain ⟨w1, w2⟩ := p9 _ _ (boxPos_cuboid b)
  refine ⟨r, t, e1, e2, m, run, s, t', ?_, p2, p3, p4, p5, p6, w1, w2, p7, p8⟩
  unfold programFile
  rw [e3]
  show program (mi.cells.size / 8) mi.coords.size (readNode mi) mi.coords.val q u j1 j2 jt = _
  rw [m1, m2, Nat.mul_div_cancel _ (by omega)]
  exact p1

/-- Hypotheses met: `1000 × 2 × 2` cells of the cube `[0, 2]³`; on such a long box the exact field far from the hot end is below the
smallest double. -/
example : ∃ b : MeshBox.Box, b.ci = 1000 ∧ b.Ok ∧ b.points < 10 ^ 9 ∧ 2 ≤ b.cells ∧ Fine b ∧ (∃ d < 3, b.step d ≤ 6.9) ∧ 1 / 10 ^ 5 ≤ b.step 0 ∧
    ∃ rnd, MeshFile.Nearest rnd := by
  refine ⟨⟨1000, 2, 2, fun _ => 2, fun _ => 0⟩, rfl, ⟨by decide, by decide, by decide⟩, by decide, by decide, ?_,
    ⟨0, by omega, by norm_num [MeshBox.Box.step, MeshBox.Box.pi]⟩, by norm_num [MeshBox.Box.step, MeshBox.Box.pi], MeshFile.nearest_exists⟩
  intro d hd
  interval_cases d <;> norm_num [MeshBox.Box.step, MeshBox.Box.pi, MeshBox.Box.pj, MeshBox.Box.pk]

/-- Hypotheses of `C108_bounds` and `C108_accuracy` met in double precision. -/
example : ∃ (m : Mesh) (s : State), m.cells = 2 ∧ m.Ok ∧ m.ElemOk ∧ (∀ n < m.nodes, m.cellsOf n ≠ []) ∧ m.SetOk 0 ∧ m.SetOk 3 ∧
    ExactI Ieee.ieee64 0 10 8 ∧ s.node.size = m.nodes ∧ s.cell.size = m.cells ∧ Within 0 10 s.node ∧ Within 0 10 s.cell ∧
    (10 + 2 * ((8 : ℕ) : ℝ) * Ieee.ieee64.δ) * (1 + Ieee.ieee64.u) ^ ((8 + 10) * 500) < Ieee.ieee64.top := by
  obtain ⟨m, h1, h2, h3, h4, -, h6, h7, h8, -⟩ := example_mesh
  refine ⟨m, ⟨⟨m.nodes, fun _ => 1⟩, ⟨m.cells, fun _ => 1⟩⟩, h1, h3, h4, h6, h7, h8,
    exactI_ten (le_refl 3), rfl, rfl, fun _ _ => by norm_num, fun _ _ => by norm_num,
    ieee64_no_overflow _ (by norm_num)⟩

/-- **C108 (underflow).**  Averaging does not keep constants or positivity in double precision: the mean over a cell of the constant
field `c 2^-1074`, `c ≤ 4`, comes out as 0. -/
theorem C108_underflow_negation (m : Mesh) (h : m.Ok) {c : ℕ} (hc : c < m.cells) (v : ℝ) (hv : |v| ≤ 2 ^ (-1072 : ℤ)) (node : Arr ℝ)
    (hn : node.size = m.nodes) (hval : ∀ n < m.nodes, node.val n = v) :
    cellAverageI Ieee.ieee64 m node c = some 0 ∧ cellAverage m node c = some v := by
  constructor
  · rw [cellAverageI_eq h hn hc]
    have hL : ∀ L : List ℝ, (∀ y ∈ L, y = v) → accumI Ieee.ieee64 8 L = some 0 := by
      intro L
      induction L using List.reverseRecOn with
      | nil => intro _; rfl
      | append_singleton L y ih =>
        intro hy
        rw [accumI_append, ih fun z hz => hy z (by simp [hz]), Option.bind_some, hy y (by simp)]
        rw [Ieee.ieee64_underflow (by
          rw [abs_div, show |(8 : ℝ)| = 2 ^ (3 : ℤ) by norm_num, div_le_iff₀ (by positivity), ← zpow_add₀ (by norm_num : (2 : ℝ) ≠ 0)]
          exact hv), Option.bind_some, add_zero]
        exact Ieee.ieee64_underflow (by rw [abs_zero]; positivity)
    refine hL _ ?_
    intro y hy
    obtain ⟨l, hl, rfl⟩ := List.mem_map.1 hy
    have := List.mem_range.1 hl
    exact hval _ (h.lt _ (by omega))
  · rw [cellAverage_spec h hn hc]
    congr 1
    unfold Mesh.cellMean
    rw [sum_congr rfl fun l hl => hval _ (h.lt _ (by have := mem_range.1 hl; omega))]
    simp

/-- Hypotheses met, with a positive value. -/
example : ∃ (m : Mesh) (node : Arr ℝ) (v : ℝ), m.Ok ∧ 1 < m.cells ∧ 0 < v ∧ |v| ≤ 2 ^ (-1072 : ℤ) ∧ node.size = m.nodes ∧
    ∀ n < m.nodes, node.val n = v := by
  obtain ⟨m, h1, h2, h3, -⟩ := example_mesh
  exact ⟨m, ⟨m.nodes, fun _ => 2 ^ (-1074 : ℤ)⟩, 2 ^ (-1074 : ℤ), h3, by omega, by positivity,
    by rw [abs_of_pos (by positivity)]; exact zpow_le_zpow_right₀ (by norm_num) (by norm_num), rfl, fun _ _ => rfl⟩

end Verif.Average
