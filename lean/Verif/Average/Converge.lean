import Verif.Average.Example
import Mathlib.Logic.Relation
import Mathlib.LinearAlgebra.FiniteDimensional.Basic
import Mathlib.LinearAlgebra.Dimension.Constructions
import Mathlib.Analysis.SpecificLimits.Basic

/-!
# C86: the cycle loop converges to the unique steady field, at a geometric rate
-/

namespace Verif.Average
open Finset Verif.Swage

/-- Cell `c` has the node `a`. -/
def Mesh.HasNode (m : Mesh) (c a : ℕ) : Prop := ∃ l < 8, m.nodesInCell.val (c * 8 + l) = a
/-- Two nodes share a cell. -/
def Mesh.Linked (m : Mesh) (a b : ℕ) : Prop := ∃ c < m.cells, m.HasNode c a ∧ m.HasNode c b
/-- The boundary condition holds the value of this node. -/
def Mesh.Fixed (m : Mesh) (n : ℕ) : Prop := m.OnSet 0 n ∨ m.OnSet 3 n
/-- From every node a chain of nodes, each sharing a cell with the next, leads to a held node. -/
def Mesh.Anchored (m : Mesh) : Prop := ∀ n < m.nodes, ∃ f, m.Fixed f ∧ Relation.ReflTransGen m.Linked n f
/-- A nodal field one cycle does not change: 10 on set 0, 0 on the rest of set 3, and elsewhere the mean over the cells of
the node of the means over the nodes of the cell. -/
def Mesh.Steady (m : Mesh) (u : ℕ → ℝ) : Prop := ∀ n < m.nodes, (m.OnSet 0 n → u n = 10) ∧
  (m.OnSet 3 n → ¬ m.OnSet 0 n → u n = 0) ∧ (¬ m.OnSet 3 n → ¬ m.OnSet 0 n → u n = m.nodeMean (m.cellMean u) n)

/-- From every starting state the cycle loop approaches `u` geometrically: there are `q < 1` and `R`, the same for all starting states,
such that after `k` cycles the nodal values differ from `u` by at most `q ^ (k / R)` times the largest initial difference `M`, and the
cell values after `k + 1` cycles from the cell means of `u` by the same. -/
def Mesh.Converges (m : Mesh) (u : ℕ → ℝ) : Prop := ∃ (q : ℝ) (R : ℕ), 0 ≤ q ∧ q < 1 ∧ 0 < R ∧ ∀ s : State, s.node.size = m.nodes →
  s.cell.size = m.cells → ∀ M : ℝ, (∀ n < m.nodes, |s.node.val n - u n| ≤ M) → ∀ k, ∃ s', cycles m k s = some s' ∧
    (∀ n < m.nodes, |s'.node.val n - u n| ≤ q ^ (k / R) * M) ∧
    (0 < k → ∀ c < m.cells, |s'.cell.val c - m.cellMean u c| ≤ q ^ ((k - 1) / R) * M)

open Classical in
/-- Difference of two fields after a cycle. -/
noncomputable def Mesh.err (m : Mesh) (d : ℕ → ℝ) (n : ℕ) : ℝ := if m.Fixed n then 0 else m.nodeMean (m.cellMean d) n

/-- Lower bound of the weight of a linked node. -/
noncomputable def Mesh.wt (m : Mesh) : ℝ := 1 / (64 * (m.cells + 1))

theorem Mesh.wt_pos (m : Mesh) : 0 < m.wt := by unfold Mesh.wt; positivity
theorem Mesh.wt_lt (m : Mesh) : m.wt < 1 := by
  unfold Mesh.wt
  rw [div_lt_one (by positivity)]
  have : (0 : ℝ) ≤ m.cells := Nat.cast_nonneg _
  linarith

theorem cellMean_abs {m : Mesh} (h : m.Ok) {M : ℝ} {d : ℕ → ℝ} (hd : ∀ n < m.nodes, |d n| ≤ M) {c : ℕ} (hc : c < m.cells) :
    |m.cellMean d c| ≤ M :=
  abs_le.2 (cellMean_within h (fun n hn => abs_le.1 (hd n hn)) hc)

theorem nodeMean_abs {m : Mesh} {M : ℝ} (hM : 0 ≤ M) {g : ℕ → ℝ} (hg : ∀ c < m.cells, |g c| ≤ M) (n : ℕ) :
    |m.nodeMean g n| ≤ M := by
  by_cases hn : m.cellsOf n = []
  · unfold Mesh.nodeMean; rw [hn]; simpa using hM
  · exact abs_le.2 (nodeMean_within (fun c hc => abs_le.1 (hg c hc)) hn)

theorem err_abs {m : Mesh} (h : m.Ok) {M : ℝ} (hM : 0 ≤ M) {d : ℕ → ℝ} (hd : ∀ n < m.nodes, |d n| ≤ M) (n : ℕ) :
    |m.err d n| ≤ M := by
  unfold Mesh.err
  split_ifs
  · simpa using hM
  · exact nodeMean_abs hM (fun c hc => cellMean_abs h hd hc) n

theorem err_iter_abs {m : Mesh} (h : m.Ok) {M : ℝ} (hM : 0 ≤ M) {d : ℕ → ℝ} (hd : ∀ n < m.nodes, |d n| ≤ M) (k : ℕ) :
    ∀ n < m.nodes, |(m.err^[k] d) n| ≤ M := by
  induction k with
  | zero => exact hd
  | succ k ih =>
    intro n _
    rw [Function.iterate_succ_apply']
    exact err_abs h hM ih n

theorem abs_sum_list_le {L : List ℕ} {g : ℕ → ℝ} {M : ℝ} (hg : ∀ c ∈ L, |g c| ≤ M) : |(L.map g).sum| ≤ L.length * M := by
  induction L with
  | nil => simp
  | cons a L ih =>
    rw [List.map_cons, List.sum_cons, List.length_cons]
    have h1 := hg a (by simp)
    have h2 := ih fun c hc => hg c (by simp [hc])
    have h3 := abs_add_le (g a) (L.map g).sum
    push_cast
    linarith

theorem abs_sum_list_gain {L : List ℕ} {g : ℕ → ℝ} {M M' : ℝ} (hg : ∀ c ∈ L, |g c| ≤ M) {c : ℕ} (hc : c ∈ L) (hc' : |g c| ≤ M') :
    |(L.map g).sum| ≤ L.length * M - (M - M') := by
  induction L with
  | nil => simp at hc
  | cons a L ih =>
    rw [List.map_cons, List.sum_cons, List.length_cons]
    have h1 := hg a (by simp)
    have h3 := abs_add_le (g a) (L.map g).sum
    push_cast
    rcases List.mem_cons.1 hc with rfl | hc
    · have h2 := abs_sum_list_le (L := L) (g := g) (M := M) fun c hc => hg c (by simp [hc])
      linarith
    · have h2 := ih (fun c hc => hg c (by simp [hc])) hc
      linarith

theorem sum_range_list (f : ℕ → ℝ) (k : ℕ) : ∑ l ∈ range k, f l = ((List.range k).map f).sum := by
  induction k with
  | zero => simp
  | succ k ih => rw [sum_range_succ, List.range_succ, List.map_append, List.sum_append, ih]; simp

theorem cellMean_gain {m : Mesh} (h : m.Ok) {M M' : ℝ} {d : ℕ → ℝ} (hd : ∀ n < m.nodes, |d n| ≤ M) {c a : ℕ} (hc : c < m.cells)
    (ha : m.HasNode c a) (hd' : |d a| ≤ M') : |m.cellMean d c| ≤ M - (M - M') / 8 := by
  obtain ⟨l, hl, e⟩ := ha
  have h1 := abs_sum_list_gain (L := List.range 8) (g := fun l => d (m.nodesInCell.val (c * 8 + l))) (M := M) (M' := M') (by
    intro l hl
    have := List.mem_range.1 hl
    exact hd _ (h.lt _ (by omega))) (List.mem_range.2 hl) (by rw [e]; exact hd')
  have e2 : m.cellMean d c = ((List.range 8).map fun l => d (m.nodesInCell.val (c * 8 + l))).sum / 8 := by
    unfold Mesh.cellMean
    rw [sum_range_list]
  rw [e2, abs_div, abs_of_pos (by norm_num : (0 : ℝ) < 8)]
  rw [List.length_range] at h1
  push_cast at h1
  linarith

theorem cellsOf_length_le (m : Mesh) (n : ℕ) : (m.cellsOf n).length ≤ 8 * m.cells := by
  unfold Mesh.cellsOf
  rw [List.length_map]
  unfold incidences
  rw [List.length_flatMap]
  refine (List.sum_le_card_nsmul _ 8 ?_).trans ?_
  · intro x hx
    obtain ⟨c, -, rfl⟩ := List.mem_map.1 hx
    rw [List.length_map]
    exact (List.length_filter_le _ _).trans (by simp)
  · simp [Nat.mul_comm]

theorem err_gain {m : Mesh} (h : m.Ok) {M M' : ℝ} (hMM : M' ≤ M) {d : ℕ → ℝ} (hd : ∀ n < m.nodes, |d n| ≤ M) {a n : ℕ}
    (hl : m.Linked n a) (hd' : |d a| ≤ M') (hn : ¬ m.Fixed n) : |m.err d n| ≤ M - m.wt * (M - M') := by
  obtain ⟨c, hc, h1, h2⟩ := hl
  have hmem : c ∈ m.cellsOf n := mem_cellsOf.2 ⟨hc, h1⟩
  have hlen := cellsOf_length_le m n
  unfold Mesh.err
  rw [if_neg hn]
  unfold Mesh.nodeMean
  have h3 := abs_sum_list_gain (L := m.cellsOf n) (g := m.cellMean d) (M := M) (M' := M - (M - M') / 8)
    (fun c hc => cellMean_abs h hd (mem_cellsOf.1 hc).1) hmem (cellMean_gain h hd hc h2 hd')
  have hpos : (0 : ℝ) < (m.cellsOf n).length := by exact_mod_cast List.length_pos_of_mem hmem
  have hle : ((m.cellsOf n).length : ℝ) ≤ 8 * m.cells := by exact_mod_cast hlen
  rw [abs_div, abs_of_pos hpos, div_le_iff₀ hpos]
  refine h3.trans ?_
  have h5 : m.wt * (m.cellsOf n).length ≤ 1 / 8 := by
    unfold Mesh.wt
    rw [one_div, inv_mul_le_iff₀ (by positivity)]
    linarith
  nlinarith [mul_nonneg (sub_nonneg.2 hMM) (sub_nonneg.2 h5)]

theorem wt_pow_le (m : Mesh) (r : ℕ) : m.wt ^ r ≤ 1 := pow_le_one₀ m.wt_pos.le m.wt_lt.le

/-- After enough cycles the difference at a node with a path to a held node is smaller. -/
theorem err_node {m : Mesh} (h : m.Ok) {n : ℕ} (hp : ∃ f, m.Fixed f ∧ Relation.ReflTransGen m.Linked n f) :
    ∃ r, ∀ (d : ℕ → ℝ) (M : ℝ), 0 ≤ M → (∀ n < m.nodes, |d n| ≤ M) → ∀ k ≥ r, |(m.err^[k] d) n| ≤ (1 - m.wt ^ r) * M := by
  obtain ⟨f, hf, hpath⟩ := hp
  have fixedCase : ∀ n, m.Fixed n → ∀ (d : ℕ → ℝ) (M : ℝ), 0 ≤ M → (∀ n < m.nodes, |d n| ≤ M) → ∀ k ≥ 1,
      |(m.err^[k] d) n| ≤ (1 - m.wt ^ 1) * M := by
    intro n hn d M hM _ k hk
    obtain ⟨k, rfl⟩ := Nat.exists_eq_add_of_le' hk
    rw [Function.iterate_succ_apply', Mesh.err, if_pos hn, abs_zero]
    exact mul_nonneg (by have := wt_pow_le m 1; linarith) hM
  induction hpath using Relation.ReflTransGen.head_induction_on with
  | refl => exact ⟨1, fixedCase f hf⟩
  | @head a b hl _ ih =>
    by_cases ha : m.Fixed a
    · exact ⟨1, fixedCase a ha⟩
    obtain ⟨r, hr⟩ := ih
    refine ⟨r + 1, fun d M hM hd k hk => ?_⟩
    obtain ⟨k, rfl⟩ : ∃ j, k = j + 1 := ⟨k - 1, by omega⟩
    rw [Function.iterate_succ_apply']
    have h1 := hr d M hM hd k (by omega)
    have h2 := err_gain h (M' := (1 - m.wt ^ r) * M) (by
      have : 0 ≤ m.wt ^ r * M := mul_nonneg (pow_nonneg m.wt_pos.le _) hM
      linarith) (err_iter_abs h hM hd k) hl h1 ha
    refine h2.trans (le_of_eq ?_)
    ring

/-- Uniform version: some number of cycles reduces every difference by a fixed factor. -/
theorem err_all {m : Mesh} (h : m.Ok) (hA : m.Anchored) : ∃ R, 0 < R ∧ ∀ (d : ℕ → ℝ) (M : ℝ), 0 ≤ M → (∀ n < m.nodes, |d n| ≤ M) →
    ∀ n < m.nodes, |(m.err^[R] d) n| ≤ (1 - m.wt ^ R) * M := by
  have hmono : ∀ {r R : ℕ} {M : ℝ}, r ≤ R → 0 ≤ M → (1 - m.wt ^ r) * M ≤ (1 - m.wt ^ R) * M := by
    intro r R M hrR hM
    have := pow_le_pow_of_le_one m.wt_pos.le m.wt_lt.le hrR
    exact mul_le_mul_of_nonneg_right (by linarith) hM
  have key : ∀ N ≤ m.nodes, ∃ R, 0 < R ∧ ∀ (d : ℕ → ℝ) (M : ℝ), 0 ≤ M → (∀ n < m.nodes, |d n| ≤ M) →
      ∀ n < N, ∀ k ≥ R, |(m.err^[k] d) n| ≤ (1 - m.wt ^ R) * M := by
    intro N
    induction N with
    | zero => exact fun _ => ⟨1, one_pos, fun d M _ _ n hn => absurd hn (by omega)⟩
    | succ N ih =>
      intro hN
      obtain ⟨R, hR, q⟩ := ih (by omega)
      obtain ⟨r, hr⟩ := err_node h (hA N (by omega))
      refine ⟨max R r, by omega, fun d M hM hd n hn k hk => ?_⟩
      by_cases e : n = N
      · subst e
        exact (hr d M hM hd k (le_trans (le_max_right _ _) hk)).trans (hmono (le_max_right _ _) hM)
      · exact (q d M hM hd n (by omega) k (le_trans (le_max_left _ _) hk)).trans (hmono (le_max_left _ _) hM)
  obtain ⟨R, hR, q⟩ := key m.nodes le_rfl
  exact ⟨R, hR, fun d M hM hd n hn => q d M hM hd n hn R le_rfl⟩

theorem err_rate {m : Mesh} (h : m.Ok) {R : ℕ} {q : ℝ} (hq : 0 ≤ q)
    (hR : ∀ (d : ℕ → ℝ) (M : ℝ), 0 ≤ M → (∀ n < m.nodes, |d n| ≤ M) → ∀ n < m.nodes, |(m.err^[R] d) n| ≤ q * M)
    {d : ℕ → ℝ} {M : ℝ} (hM : 0 ≤ M) (hd : ∀ n < m.nodes, |d n| ≤ M) (k : ℕ) : ∀ n < m.nodes, |(m.err^[k] d) n| ≤ q ^ (k / R) * M := by
  have key : ∀ j, ∀ n < m.nodes, |(m.err^[R * j] d) n| ≤ q ^ j * M := by
    intro j
    induction j with
    | zero => intro n hn; simpa using hd n hn
    | succ j ih =>
      intro n hn
      rw [Nat.mul_succ, Nat.add_comm, Function.iterate_add_apply, pow_succ', mul_assoc]
      exact hR _ _ (mul_nonneg (pow_nonneg hq _) hM) ih n hn
  have e : k = k % R + R * (k / R) := (Nat.mod_add_div k R).symm
  intro n hn
  have h1 := err_iter_abs h (mul_nonneg (pow_nonneg hq (k / R)) hM) (key (k / R)) (k % R) n hn
  rw [← Function.iterate_add_apply, ← e] at h1
  exact h1

/-! ### The steady field -/

theorem cellMean_congr {m : Mesh} (h : m.Ok) {f g : ℕ → ℝ} (hfg : ∀ n < m.nodes, f n = g n) {c : ℕ} (hc : c < m.cells) :
    m.cellMean f c = m.cellMean g c := by
  unfold Mesh.cellMean
  rw [sum_congr rfl fun l hl => hfg _ (h.lt _ (by have := mem_range.1 hl; omega))]

theorem nodeMean_congr {m : Mesh} {f g : ℕ → ℝ} (hfg : ∀ c < m.cells, f c = g c) (n : ℕ) : m.nodeMean f n = m.nodeMean g n := by
  unfold Mesh.nodeMean
  rw [List.map_congr_left fun c hc => hfg c (mem_cellsOf.1 hc).1]

theorem err_congr {m : Mesh} (h : m.Ok) {f g : ℕ → ℝ} (hfg : ∀ n < m.nodes, f n = g n) (n : ℕ) : m.err f n = m.err g n := by
  unfold Mesh.err
  rw [nodeMean_congr fun c hc => cellMean_congr h hfg hc]

theorem cellMean_lin (m : Mesh) (a b : ℝ) (f g : ℕ → ℝ) (c : ℕ) :
    m.cellMean (fun n => a * f n + b * g n) c = a * m.cellMean f c + b * m.cellMean g c := by
  unfold Mesh.cellMean
  rw [sum_add_distrib, ← mul_sum, ← mul_sum]
  ring

theorem nodeMean_lin (m : Mesh) (a b : ℝ) (f g : ℕ → ℝ) (n : ℕ) :
    m.nodeMean (fun c => a * f c + b * g c) n = a * m.nodeMean f n + b * m.nodeMean g n := by
  unfold Mesh.nodeMean
  have : ((m.cellsOf n).map fun c => a * f c + b * g c).sum = a * ((m.cellsOf n).map f).sum + b * ((m.cellsOf n).map g).sum := by
    induction m.cellsOf n with
    | nil => simp
    | cons x L ih => simp only [List.map_cons, List.sum_cons, ih]; ring
  rw [this]; ring

theorem mean_lin (m : Mesh) (a b : ℝ) (f g : ℕ → ℝ) (n : ℕ) : m.nodeMean (m.cellMean (fun n => a * f n + b * g n)) n =
    a * m.nodeMean (m.cellMean f) n + b * m.nodeMean (m.cellMean g) n := by
  rw [← nodeMean_lin]
  exact nodeMean_congr (fun c _ => cellMean_lin m a b f g c) n

theorem err_lin (m : Mesh) (a b : ℝ) (f g : ℕ → ℝ) (n : ℕ) : m.err (fun n => a * f n + b * g n) n = a * m.err f n + b * m.err g n := by
  unfold Mesh.err
  split_ifs
  · simp
  · exact mean_lin m a b f g n

/-- Continuation of a field by zero. -/
noncomputable def ext (N : ℕ) (d : Fin N → ℝ) (n : ℕ) : ℝ := if h : n < N then d ⟨n, h⟩ else 0

theorem ext_lt {N : ℕ} (d : Fin N → ℝ) (i : Fin N) : ext N d i = d i := by
  unfold ext; rw [dif_pos i.2]

theorem ext_lin {N : ℕ} (a b : ℝ) (d e : Fin N → ℝ) : ext N (a • d + b • e) = fun n => a * ext N d n + b * ext N e n := by
  funext n
  unfold ext
  split_ifs <;> simp

/-- `d ↦ d - err d` on the fields of the mesh. -/
noncomputable def resid (m : Mesh) : (Fin m.nodes → ℝ) →ₗ[ℝ] (Fin m.nodes → ℝ) where
  toFun d i := d i - m.err (ext m.nodes d) i
  map_add' d e := by
    funext i
    have := ext_lin (1 : ℝ) 1 d e
    rw [one_smul, one_smul] at this
    simp only [Pi.add_apply]
    rw [this, err_lin]; ring
  map_smul' a d := by
    funext i
    have := ext_lin a (0 : ℝ) d d
    rw [zero_smul, add_zero] at this
    simp only [Pi.smul_apply, RingHom.id_apply, smul_eq_mul]
    rw [this, err_lin]; ring

/-- A field the difference operator keeps vanishes. -/
theorem err_fixed_zero {m : Mesh} (h : m.Ok) (hA : m.Anchored) {d : ℕ → ℝ} (hd : ∀ n < m.nodes, m.err d n = d n) :
    ∀ n < m.nodes, d n = 0 := by
  obtain ⟨R, -, hR⟩ := err_all h hA
  intro n hn
  have hne : (range m.nodes).Nonempty := ⟨n, mem_range.2 hn⟩
  obtain ⟨a, ha, hmax⟩ := exists_max_image (range m.nodes) (fun n => |d n|) hne
  have hit : ∀ k, ∀ n < m.nodes, (m.err^[k] d) n = d n := by
    intro k
    induction k with
    | zero => intro n _; rfl
    | succ k ih =>
      intro n hn
      rw [Function.iterate_succ_apply', err_congr h ih, hd n hn]
  have h1 := hR d |d a| (abs_nonneg _) (fun n hn => hmax n (mem_range.2 hn)) a (mem_range.1 ha)
  rw [hit R a (mem_range.1 ha)] at h1
  have h2 : 0 < m.wt ^ R := pow_pos m.wt_pos R
  have h3 : |d a| ≤ 0 := by nlinarith [abs_nonneg (d a)]
  exact abs_nonpos_iff.1 ((hmax n (mem_range.2 hn)).trans h3)

open Classical in
theorem steady_exists {m : Mesh} (h : m.Ok) (hA : m.Anchored) : ∃ u : ℕ → ℝ, m.Steady u := by
  have hinj : Function.Injective (resid m) := by
    rw [← LinearMap.ker_eq_bot, LinearMap.ker_eq_bot']
    intro d hd
    have hz := err_fixed_zero h hA (d := ext m.nodes d) (by
      intro n hn
      have h1 := congrFun hd ⟨n, hn⟩
      have h2 : d ⟨n, hn⟩ - m.err (ext m.nodes d) n = 0 := h1
      have h3 := ext_lt d ⟨n, hn⟩
      simp only at h3
      rw [h3]; linarith)
    funext i
    rw [← ext_lt d i]
    exact hz i i.2
  obtain ⟨d, hd⟩ := LinearMap.injective_iff_surjective.1 hinj fun i : Fin m.nodes => if m.OnSet 0 i then (10 : ℝ) else 0
  refine ⟨ext m.nodes d, fun n hn => ?_⟩
  have h1 : d ⟨n, hn⟩ - m.err (ext m.nodes d) n = if m.OnSet 0 n then (10 : ℝ) else 0 := congrFun hd ⟨n, hn⟩
  have h2 : ext m.nodes d n = d ⟨n, hn⟩ := ext_lt d ⟨n, hn⟩
  rw [h2]
  unfold Mesh.err Mesh.Fixed at h1
  refine ⟨fun h0 => ?_, fun h3 h0 => ?_, fun h3 h0 => ?_⟩
  · rw [if_pos (Or.inl h0), if_pos h0] at h1; linarith
  · rw [if_pos (Or.inr h3), if_neg h0] at h1; linarith
  · rw [if_neg (by tauto), if_neg h0] at h1; linarith

/-- The cycle on nodal fields. -/
theorem cycle_step (m : Mesh) (h : m.Ok) (he : m.ElemOk) (hcov : m.Covered) (h0 : m.SetOk 0) (h3 : m.SetOk 3) (s : State)
    (h1 : s.node.size = m.nodes) (h2 : s.cell.size = m.cells) :
    ∃ s', ((smoothElement m s).bind fun s => applyBoundary m s) = some s' ∧ s'.node.size = m.nodes ∧ s'.cell.size = m.cells ∧
      (∀ c < m.cells, s'.cell.val c = m.cellMean s.node.val c) ∧ ∀ n < m.nodes, (m.OnSet 0 n → s'.node.val n = 10) ∧
        (m.OnSet 3 n → ¬ m.OnSet 0 n → s'.node.val n = 0) ∧
        (¬ m.OnSet 3 n → ¬ m.OnSet 0 n → s'.node.val n = m.nodeMean (m.cellMean s.node.val) n) := by
  obtain ⟨t, _, e, -, z1, z2, c1, n1⟩ := C54_element_value m h he hcov s h1 h2
  obtain ⟨r, e', y1, y2, y3⟩ := C54_boundary m h0 h3 t z1
  refine ⟨r, by rw [e, Option.bind_some, e'], y1, by rw [y2, z2], ?_, ?_⟩
  · intro c hc
    rw [y2]
    exact (Arr.get_eq_some (c1 c hc).1).2
  · intro n hn
    refine ⟨(y3 n).1, (y3 n).2.1, fun a b => ?_⟩
    rw [(y3 n).2.2 a b]
    exact (Arr.get_eq_some (n1 n hn).1).2

theorem steady_diff {m : Mesh} {u f g : ℕ → ℝ} (hu : m.Steady u)
    (hg : ∀ n < m.nodes, (m.OnSet 0 n → g n = 10) ∧ (m.OnSet 3 n → ¬ m.OnSet 0 n → g n = 0) ∧
        (¬ m.OnSet 3 n → ¬ m.OnSet 0 n → g n = m.nodeMean (m.cellMean f) n)) :
    ∀ n < m.nodes, g n - u n = m.err (fun n => f n - u n) n := by
  intro n hn
  obtain ⟨g1, g2, g3⟩ := hg n hn
  obtain ⟨u1, u2, u3⟩ := hu n hn
  unfold Mesh.err Mesh.Fixed
  by_cases h0 : m.OnSet 0 n
  · rw [if_pos (Or.inl h0), g1 h0, u1 h0, sub_self]
  by_cases h3 : m.OnSet 3 n
  · rw [if_pos (Or.inr h3), g2 h3 h0, u2 h3 h0, sub_self]
  rw [if_neg (by tauto), g3 h3 h0, u3 h3 h0]
  have := mean_lin m 1 (-1) f u n
  simp only [one_mul, neg_mul, ← sub_eq_add_neg] at this
  exact this.symm

theorem steady_unique {m : Mesh} (h : m.Ok) (hA : m.Anchored) {u v : ℕ → ℝ} (hu : m.Steady u) (hv : m.Steady v) :
    ∀ n < m.nodes, v n = u n := by
  intro n hn
  have := err_fixed_zero h hA (d := fun n => v n - u n) (fun n hn => (steady_diff hu hv n hn).symm) n hn
  linarith

theorem cycles_diff (m : Mesh) (h : m.Ok) (he : m.ElemOk) (hcov : m.Covered) (h0 : m.SetOk 0) (h3 : m.SetOk 3) {u : ℕ → ℝ} (hu : m.Steady u)
    (s : State) (h1 : s.node.size = m.nodes) (h2 : s.cell.size = m.cells) (k : ℕ) :
    ∃ s', cycles m k s = some s' ∧ s'.node.size = m.nodes ∧ s'.cell.size = m.cells ∧
      (∀ n < m.nodes, s'.node.val n - u n = (m.err^[k] fun n => s.node.val n - u n) n) ∧
      (0 < k → ∀ c < m.cells, s'.cell.val c - m.cellMean u c = m.cellMean (m.err^[k - 1] fun n => s.node.val n - u n) c) := by
  refine loopM_spec (fun k (s' : State) => s'.node.size = m.nodes ∧ s'.cell.size = m.cells ∧
      (∀ n < m.nodes, s'.node.val n - u n = (m.err^[k] fun n => s.node.val n - u n) n) ∧
      (0 < k → ∀ c < m.cells, s'.cell.val c - m.cellMean u c = m.cellMean (m.err^[k - 1] fun n => s.node.val n - u n) c))
    ⟨h1, h2, fun _ _ => rfl, by omega⟩ ?_
  rintro i t - ⟨g1, g2, g3, -⟩
  obtain ⟨r, e, y1, y2, y3, y4⟩ := cycle_step m h he hcov h0 h3 t g1 g2
  refine ⟨r, e, y1, y2, ?_, fun _ c hc => ?_⟩
  · intro n hn
    rw [steady_diff hu y4 n hn, Function.iterate_succ_apply']
    exact err_congr h g3 n
  · rw [y3 c hc, Nat.add_sub_cancel, ← cellMean_congr h g3 hc]
    have := cellMean_lin m 1 (-1) t.node.val u c
    simp only [one_mul, neg_mul, ← sub_eq_add_neg] at this
    exact this.symm

theorem cycles_range (m : Mesh) (h : m.Ok) (he : m.ElemOk) (hcov : m.Covered) (h0 : m.SetOk 0) (h3 : m.SetOk 3)
    (s : State) (h1 : s.node.size = m.nodes) (h2 : s.cell.size = m.cells) (hs : ∀ n < m.nodes, 0 ≤ s.node.val n ∧ s.node.val n ≤ 10) (k : ℕ) :
    ∃ s', cycles m k s = some s' ∧ s'.node.size = m.nodes ∧ s'.cell.size = m.cells ∧ ∀ n < m.nodes, 0 ≤ s'.node.val n ∧ s'.node.val n ≤ 10 := by
  refine loopM_spec (fun k (s' : State) => s'.node.size = m.nodes ∧ s'.cell.size = m.cells ∧ ∀ n < m.nodes, 0 ≤ s'.node.val n ∧ s'.node.val n ≤ 10)
    ⟨h1, h2, hs⟩ ?_
  rintro i t - ⟨g1, g2, g3⟩
  obtain ⟨r, e, y1, y2, y3, y4⟩ := cycle_step m h he hcov h0 h3 t g1 g2
  refine ⟨r, e, y1, y2, fun n hn => ?_⟩
  obtain ⟨a1, a2, a3⟩ := y4 n hn
  by_cases o0 : m.OnSet 0 n
  · rw [a1 o0]; norm_num
  by_cases o3 : m.OnSet 3 n
  · rw [a2 o3 o0]; norm_num
  rw [a3 o3 o0]
  by_cases hiso : m.cellsOf n = []
  · unfold Mesh.nodeMean; rw [hiso]; norm_num
  · exact nodeMean_within (fun c hc => cellMean_within h g3 hc) hiso

theorem exists_bound (N : ℕ) (f : ℕ → ℝ) : ∃ M, 0 ≤ M ∧ ∀ n < N, |f n| ≤ M := by
  refine ⟨∑ n ∈ range N, |f n|, sum_nonneg fun _ _ => abs_nonneg _, fun n hn => ?_⟩
  exact single_le_sum (f := fun n => |f n|) (fun _ _ => abs_nonneg _) (mem_range.2 hn)

theorem pow_small {q M ε : ℝ} {R : ℕ} (hR : 0 < R) (h0 : 0 ≤ q) (h1 : q < 1) (hM : 0 ≤ M) (hε : 0 < ε) : ∃ K, ∀ k ≥ K, q ^ (k / R) * M ≤ ε := by
  obtain ⟨j, hj⟩ := exists_pow_lt_of_lt_one (show 0 < ε / (M + 1) by positivity) h1
  refine ⟨R * j, fun k hk => ?_⟩
  have h2 : q ^ (k / R) ≤ q ^ j := pow_le_pow_of_le_one h0 h1.le ((Nat.le_div_iff_mul_le hR).2 (by rw [Nat.mul_comm]; exact hk))
  have h3 : q ^ (k / R) * (M + 1) ≤ ε := by
    rw [← le_div_iff₀ (by positivity)]; linarith
  have h4 : 0 ≤ q ^ (k / R) := pow_nonneg h0 _
  linarith

/-- **C86 (convergence).**  On a mesh in which every node is connected through cells to a node held by the boundary condition, there
is exactly one steady nodal field `u`, its values lie in `[0, 10]`, and from every starting state the cycle loop approaches it
geometrically. -/
theorem C86_converge (m : Mesh) (h : m.Ok) (he : m.ElemOk) (hcov : m.Covered) (h0 : m.SetOk 0) (h3 : m.SetOk 3) (hA : m.Anchored) :
    ∃ u : ℕ → ℝ, m.Steady u ∧ (∀ v, m.Steady v → ∀ n < m.nodes, v n = u n) ∧ (∀ n < m.nodes, 0 ≤ u n ∧ u n ≤ 10) ∧ m.Converges u := by
  obtain ⟨u, hu⟩ := steady_exists h hA
  obtain ⟨R, hR, hrate⟩ := err_all h hA
  have hq0 : 0 ≤ 1 - m.wt ^ R := by have := wt_pow_le m R; linarith
  have hq1 : 1 - m.wt ^ R < 1 := by have := pow_pos m.wt_pos R; linarith
  have main : ∀ (s : State), s.node.size = m.nodes → s.cell.size = m.cells →
        ∀ M : ℝ, (∀ n < m.nodes, |s.node.val n - u n| ≤ M) → ∀ k, ∃ s', cycles m k s = some s' ∧
          (∀ n < m.nodes, |s'.node.val n - u n| ≤ (1 - m.wt ^ R) ^ (k / R) * M) ∧
          (0 < k → ∀ c < m.cells, |s'.cell.val c - m.cellMean u c| ≤ (1 - m.wt ^ R) ^ ((k - 1) / R) * M) := by
    intro s h1 h2 M hM k
    obtain ⟨s', e, -, -, v1, v2⟩ := cycles_diff m h he hcov h0 h3 hu s h1 h2 k
    refine ⟨s', e, fun n hn => ?_, fun hk c hc => ?_⟩
    · have hM0 : 0 ≤ M := (abs_nonneg _).trans (hM n hn)
      rw [v1 n hn]
      exact err_rate h hq0 hrate hM0 hM k n hn
    · have hM0 : 0 ≤ M := (abs_nonneg _).trans (hM _ (h.lt (c * 8) (by omega)))
      rw [v2 hk c hc]
      exact cellMean_abs h (err_rate h hq0 hrate hM0 hM (k - 1)) hc
  refine ⟨u, hu, fun v hv => steady_unique h hA hu hv, ?_, 1 - m.wt ^ R, R, hq0, hq1, hR, main⟩
  obtain ⟨M, hM0, hM⟩ := exists_bound m.nodes fun n => 0 - u n
  have close : ∀ ε > 0, ∀ n < m.nodes, ∃ x : ℝ, 0 ≤ x ∧ x ≤ 10 ∧ |x - u n| ≤ ε := by
    intro ε hε n hn
    obtain ⟨K, hK⟩ := pow_small hR hq0 hq1 hM0 hε
    obtain ⟨s', e, v, -⟩ := main ⟨⟨m.nodes, fun _ => 0⟩, ⟨m.cells, fun _ => 0⟩⟩ rfl rfl M hM K
    obtain ⟨t, e', -, -, w⟩ := cycles_range m h he hcov h0 h3 ⟨⟨m.nodes, fun _ => 0⟩, ⟨m.cells, fun _ => 0⟩⟩ rfl rfl (by intro n _; simp) K
    rw [e] at e'
    obtain rfl := Option.some.inj e'
    exact ⟨_, (w n hn).1, (w n hn).2, (v n hn).trans (hK K le_rfl)⟩
  intro n hn
  constructor
  · by_contra hc
    obtain ⟨x, x1, x2, x3⟩ := close (-u n / 2) (by linarith) n hn
    have := (abs_le.1 x3).2
    linarith
  · by_contra hc
    obtain ⟨x, x1, x2, x3⟩ := close ((u n - 10) / 2) (by linarith) n hn
    have := (abs_le.1 x3).1
    linarith

/-- Hypotheses met: two cells side by side; node 1, in both cells, is held at 10, and node 11 at 0. -/
example : ∃ m : Mesh, m.cells = 2 ∧ m.nodes = 12 ∧ m.Ok ∧ m.ElemOk ∧ m.Covered ∧ m.SetOk 0 ∧ m.SetOk 3 ∧ m.Anchored ∧ m.OnSet 0 1 ∧ m.OnSet 3 11 := by
  obtain ⟨m, -, -, h3, h4, h5, h6, h7, -, h9, h10, h11, h12, -, h14⟩ := example_mesh_gen 1 (by omega)
  refine ⟨m, h3, h4, h5, h6, h7, h9, h10, fun n hn => ⟨1, Or.inl (h11 rfl), ?_⟩, h11 rfl, h12 rfl⟩
  obtain ⟨c, hc, q1, q2⟩ := h14 n (by omega)
  exact Relation.ReflTransGen.single ⟨c, by omega, q1, q2⟩

/-- **C86 (the loop settles).**  On such a mesh, for every tolerance there is a number of cycles after which the nodal values of any
two runs, and of any two later times, agree within the tolerance. -/
theorem C86_settles (m : Mesh) (h : m.Ok) (he : m.ElemOk) (hcov : m.Covered) (h0 : m.SetOk 0) (h3 : m.SetOk 3) (hA : m.Anchored)
    (M ε : ℝ) (hε : 0 < ε) : ∃ K, ∀ s t : State, s.node.size = m.nodes → s.cell.size = m.cells → t.node.size = m.nodes → t.cell.size = m.cells →
      (∀ n < m.nodes, |s.node.val n| ≤ M) → (∀ n < m.nodes, |t.node.val n| ≤ M) → ∀ j ≥ K, ∀ k ≥ K,
      ∃ s' t', cycles m j s = some s' ∧ cycles m k t = some t' ∧ ∀ n < m.nodes, |s'.node.val n - t'.node.val n| ≤ ε := by
  obtain ⟨u, -, -, hu, q, R, hq0, hq1, hR, main⟩ := C86_converge m h he hcov h0 h3 hA
  obtain ⟨K, hK⟩ := pow_small (M := |M| + 10) (ε := ε / 2) hR hq0 hq1 (by positivity) (by linarith)
  have hb : ∀ s : State, (∀ n < m.nodes, |s.node.val n| ≤ M) → ∀ n < m.nodes, |s.node.val n - u n| ≤ |M| + 10 := by
    intro s hs n hn
    have h1 := abs_sub (s.node.val n) (u n)
    have h2 := hs n hn
    have h3 := le_abs_self M
    have h4 : |u n| ≤ 10 := abs_le.2 ⟨by linarith [(hu n hn).1], (hu n hn).2⟩
    linarith
  refine ⟨K, fun s t s1 s2 t1 t2 hs ht j hj k hk => ?_⟩
  obtain ⟨s', e, v, -⟩ := main s s1 s2 _ (hb s hs) j
  obtain ⟨t', e', v', -⟩ := main t t1 t2 _ (hb t ht) k
  refine ⟨s', t', e, e', fun n hn => ?_⟩
  have h1 := abs_sub_le (s'.node.val n) (u n) (t'.node.val n)
  have h2 := (v n hn).trans (hK j hj)
  have h3 := (v' n hn).trans (hK k hk)
  rw [abs_sub_comm] at h3
  linarith

theorem linked_symm {m : Mesh} {a b : ℕ} (h : m.Linked a b) : m.Linked b a := by
  obtain ⟨c, hc, h1, h2⟩ := h
  exact ⟨c, hc, h2, h1⟩

/-- **C86 (a part without held nodes does not converge).**  If a node lies in a cell but no chain of cells leads from it to a held
node, then a constant on the nodes connected to it stays there for ever: the result depends on the starting state. -/
theorem C86_floating_negation (m : Mesh) (h : m.Ok) (he : m.ElemOk) (hcov : m.Covered) (h0 : m.SetOk 0) (h3 : m.SetOk 3) (n : ℕ)
    (hn : n < m.nodes) (hcell : ∃ a, m.Linked n a) (hfree : ∀ a, Relation.ReflTransGen m.Linked n a → ¬ m.Fixed a) (v : ℝ) (s : State)
    (h1 : s.node.size = m.nodes) (h2 : s.cell.size = m.cells) (hs : ∀ a, Relation.ReflTransGen m.Linked n a → s.node.val a = v) (k : ℕ) :
    ∃ s', cycles m k s = some s' ∧ ∀ a, Relation.ReflTransGen m.Linked n a → s'.node.val a = v := by
  have hlt : ∀ a, Relation.ReflTransGen m.Linked n a → a < m.nodes ∧ m.cellsOf a ≠ [] := by
    intro a ha
    rcases Relation.ReflTransGen.cases_tail ha with e | ⟨b, -, hb⟩
    · subst e
      obtain ⟨b, c, hc, q1, -⟩ := hcell
      exact ⟨hn, List.ne_nil_of_mem (mem_cellsOf.2 ⟨hc, q1⟩)⟩
    · obtain ⟨c, hc, -, l, hl, rfl⟩ := hb
      exact ⟨h.lt _ (by omega), List.ne_nil_of_mem (mem_cellsOf.2 ⟨hc, l, hl, rfl⟩)⟩
  obtain ⟨s', e, -, -, q⟩ := loopM_spec (n := k) (body := fun _ s => (smoothElement m s).bind fun s => applyBoundary m s) (s := s)
    (fun _ (s' : State) => s'.node.size = m.nodes ∧ s'.cell.size = m.cells ∧ ∀ a, Relation.ReflTransGen m.Linked n a → s'.node.val a = v)
    ⟨h1, h2, hs⟩ (by
      rintro i t - ⟨g1, g2, g3⟩
      obtain ⟨r, e, y1, y2, y3, y4⟩ := cycle_step m h he hcov h0 h3 t g1 g2
      refine ⟨r, e, y1, y2, fun a ha => ?_⟩
      have hf := hfree a ha
      obtain ⟨ha1, ha2⟩ := hlt a ha
      rw [(y4 a ha1).2.2 (fun x => hf (Or.inr x)) fun x => hf (Or.inl x)]
      have hcm : ∀ c ∈ m.cellsOf a, m.cellMean t.node.val c = v := by
        intro c hc
        obtain ⟨hc, q1⟩ := mem_cellsOf.1 hc
        unfold Mesh.cellMean
        rw [sum_congr rfl fun l hl => g3 _ (ha.tail ⟨c, hc, q1, l, mem_range.1 hl, rfl⟩), sum_const, card_range, nsmul_eq_mul]
        push_cast; ring
      unfold Mesh.nodeMean
      rw [List.map_congr_left hcm, List.map_const', List.sum_replicate, nsmul_eq_mul, mul_comm, mul_div_assoc, div_self, mul_one]
      exact_mod_cast (List.length_pos_iff.2 ha2).ne')
  exact ⟨s', e, q⟩

/-- Hypotheses met: two cells whose nodes satisfy no boundary condition; the field 7 stays 7 (and, in the same way, 8 stays 8). -/
example : ∃ m : Mesh, m.cells = 2 ∧ m.nodes = 12 ∧ m.Ok ∧ m.ElemOk ∧ m.Covered ∧ m.SetOk 0 ∧ m.SetOk 3 ∧ (∃ a, m.Linked 0 a) ∧
    (∀ a, Relation.ReflTransGen m.Linked 0 a → ¬ m.Fixed a) ∧ ∀ v : ℝ, ∃ s : State, s.node.size = m.nodes ∧ s.cell.size = m.cells ∧
      ∀ a, Relation.ReflTransGen m.Linked 0 a → s.node.val a = v := by
  obtain ⟨m, -, -, h3, h4, h5, h6, h7, -, h9, h10, -, -, h13, h14⟩ := example_mesh_gen 0 (by omega)
  refine ⟨m, h3, h4, h5, h6, h7, h9, h10, ?_, fun a _ ha => ?_, fun v => ⟨⟨⟨m.nodes, fun _ => v⟩, ⟨m.cells, fun _ => 0⟩⟩, rfl, rfl, fun _ _ => rfl⟩⟩
  · obtain ⟨c, hc, q1, q2⟩ := h14 0 (by omega)
    exact ⟨1, c, by omega, q1, q2⟩
  · rcases ha with h | h
    · exact h13 rfl 0 (by omega) a h
    · exact h13 rfl 3 (by omega) a h

end Verif.Average
