import Verif.Lagrange.Model
import Mathlib.LinearAlgebra.Lagrange
import Mathlib.Algebra.Polynomial.Derivative
import Mathlib.Tactic.FieldSimp
import Mathlib.Tactic.Linarith
import Mathlib.Tactic.LinearCombination

namespace Verif.Lagrange
open Polynomial Finset
variable {K : Type*} [Field K]

/-! ## Coincident vertex search -/

section Find
variable [LinearOrder K]

/-- Closed form of the search: `-1 + Σ (j+1)` over the matching vertices, modulo 2^64. -/
theorem find_toNat (tol : K) (N : ℕ) (z : ℕ → K) (x : K) :
    (findCoincidentVertex tol N z x).toNat =
      (2 ^ 64 - 1 + ∑ j ∈ range N, if |z j - x| < tol then j + 1 else 0) % 2 ^ 64 := by
  unfold findCoincidentVertex
  induction N with
  | zero => simp
  | succ n ih =>
    rw [loop_succ, UInt64.toNat_add, ih, sum_range_succ, ← Nat.add_assoc]
    rw [Nat.mod_add_mod]
    generalize (2 ^ 64 - 1 + ∑ j ∈ range n, if |z j - x| < tol then j + 1 else 0) = S
    by_cases h : |z n - x| < tol
    · simp only [almostEqual, h, decide_true, if_true, UInt64.mul_one, UInt64.toNat_add]
      rw [Nat.add_mod_mod, UInt64.toNat_ofNat']
      have e1 : (1 : UInt64).toNat = 1 := rfl
      rw [e1]
      omega
    · simp [almostEqual, h]

theorem find_none (tol : K) (N : ℕ) (z : ℕ → K) (x : K)
    (h : ∀ j < N, ¬ |z j - x| < tol) : (findCoincidentVertex tol N z x).toNat = 2 ^ 64 - 1 := by
  rw [find_toNat, sum_eq_zero (fun j hj => by simp [h j (mem_range.1 hj)])]
  simp

theorem find_unique (tol : K) (N : ℕ) (hN : N < 2 ^ 64) (z : ℕ → K) (x : K) (j : ℕ) (hj : j < N)
    (h : |z j - x| < tol) (hu : ∀ k < N, k ≠ j → ¬ |z k - x| < tol) :
    (findCoincidentVertex tol N z x).toNat = j := by
  rw [find_toNat, sum_eq_single j (fun k hk hkj => by simp [hu k (mem_range.1 hk) hkj])
    (fun hn => absurd (mem_range.2 hj) hn)]
  simp only [h, if_true]
  omega

end Find

/-! ## Weights and evaluation -/

theorem weights_inner (N j : ℕ) (z : ℕ → K) :
    loop N (fun k wj => if j ≠ k then wj * (1 / (z j - z k)) else wj) (1 : K) =
      ∏ k ∈ (range N).erase j, (z j - z k)⁻¹ := by
  have : ∀ n, loop n (fun k wj => if j ≠ k then wj * (1 / (z j - z k)) else wj) (1 : K) =
      ∏ k ∈ range n, if j ≠ k then (z j - z k)⁻¹ else 1 := by
    intro n
    induction n with
    | zero => simp
    | succ n ih =>
      rw [loop_succ, ih, prod_range_succ]
      by_cases h : j = n <;> simp [h]
  rw [this, ← prod_filter]
  congr 1
  ext k
  simp only [mem_filter, mem_range, mem_erase]
  constructor
  · rintro ⟨a, b⟩; exact ⟨fun h => b h.symm, a⟩
  · rintro ⟨a, b⟩; exact ⟨b, fun h => a h.symm⟩

theorem weights_eq (N : ℕ) (z w0 : ℕ → K) (j : ℕ) (hj : j < N) :
    computeBarycentricWeights N z w0 j = Lagrange.nodalWeight (range N) z j := by
  unfold computeBarycentricWeights
  rw [loop_store]
  simp only [hj, if_true, weights_inner, Lagrange.nodalWeight]

theorem nodal_loop (N : ℕ) (Z : ℕ → K) (X : K) :
    loop N (fun j L => L * (X - Z j)) 1 = (Lagrange.nodal (range N) Z).eval X := by
  rw [loop_mul, Lagrange.eval_nodal, one_mul]

theorem pL_loop (N : ℕ) (Z w c : ℕ → K) (X : K) :
    loop N (fun j s => (s.1 + w j * c j / (X - Z j), s.2 * (X - Z j))) ((0 : K), (1 : K)) =
      (∑ j ∈ range N, w j * c j / (X - Z j), (Lagrange.nodal (range N) Z).eval X) := by
  rw [Lagrange.eval_nodal]
  induction N with
  | zero => simp
  | succ n ih => rw [loop_succ, ih, sum_range_succ, prod_range_succ]

theorem interp_nonco (N : ℕ) (Z w c : ℕ → K) (X : K)
    (hw : ∀ j < N, w j = Lagrange.nodalWeight (range N) Z j) (hX : ∀ j < N, X ≠ Z j) :
    (∑ j ∈ range N, w j * c j / (X - Z j)) * (Lagrange.nodal (range N) Z).eval X =
      (Lagrange.interpolate (range N) Z c).eval X := by
  rw [Lagrange.eval_interpolate_not_at_node c (fun i hi => hX i (mem_range.1 hi)), mul_comm]
  congr 1
  refine sum_congr rfl fun j hj => ?_
  rw [hw j (mem_range.1 hj)]
  field_simp

/-! ## Divided differences -/

/-- `t ↦ (p(t) - p(x)) / (t - x)` as a polynomial. -/
noncomputable def dd (p : K[X]) (x : K) : K[X] := (p - C (p.eval x)) /ₘ (X - C x)

theorem dd_spec (p : K[X]) (x : K) : p = C (p.eval x) + (X - C x) * dd p x := by
  have h : (X - C x) ∣ p - C (p.eval x) := by rw [dvd_iff_isRoot]; simp
  have := (mul_divByMonic_eq_iff_isRoot (p := p - C (p.eval x)) (a := x)).2 (by simp)
  unfold dd
  rw [this]; ring

theorem dd_degree_lt (p : K[X]) (x : K) {n : ℕ} (h : p.degree < (n : WithBot ℕ)) :
    (dd p x).degree < (n : WithBot ℕ) ∧ (∀ m, n = m + 1 → (dd p x).degree < (m : WithBot ℕ)) := by
  have main : ∀ m, n = m + 1 → (dd p x).degree < (m : WithBot ℕ) := by
    intro m hm
    by_cases h0 : dd p x = 0
    · rw [h0, degree_zero]; exact WithBot.bot_lt_coe m
    · have hmul : ((X - C x) * dd p x).degree = 1 + (dd p x).degree := by
        rw [degree_mul, degree_X_sub_C]
      have hlt : ((X - C x) * dd p x).degree < (n : WithBot ℕ) := by
        have e : (X - C x) * dd p x = p - C (p.eval x) := by
          conv_rhs => rw [dd_spec p x]
          simp
        rw [e]
        refine lt_of_le_of_lt (degree_sub_le _ _) (max_lt h ?_)
        refine lt_of_le_of_lt degree_C_le ?_
        rw [hm]; exact_mod_cast Nat.succ_pos m
      rw [hmul, hm, degree_eq_natDegree h0] at hlt
      rw [degree_eq_natDegree h0]
      have : 1 + (dd p x).natDegree < m + 1 := by exact_mod_cast hlt
      exact_mod_cast (by omega : (dd p x).natDegree < m)
  refine ⟨?_, main⟩
  cases n with
  | zero =>
    have : p = 0 := by
      rw [← degree_eq_bot]; 
      by_contra hne
      rw [degree_eq_bot] at hne
      rw [degree_eq_natDegree hne] at h
      exact absurd (by exact_mod_cast h : p.natDegree < 0) (by omega)
    subst this
    simp [dd]
  | succ m => exact lt_trans (main m rfl) (by exact_mod_cast Nat.lt_succ_self m)

theorem dd_eval_ne (p : K[X]) (x t : K) (h : x ≠ t) :
    (dd p x).eval t = (p.eval x - p.eval t) / (x - t) := by
  have := congrArg (Polynomial.eval t) (dd_spec p x)
  simp only [eval_add, eval_C, eval_mul, eval_sub, eval_X] at this
  rw [this]
  field_simp [sub_ne_zero.2 h]
  ring

theorem dd_eval_self (p : K[X]) (x : K) : (dd p x).eval x = (derivative p).eval x := by
  have := congrArg (fun q => (derivative q).eval x) (dd_spec p x)
  simp only [derivative_add, derivative_C, derivative_mul, derivative_sub, derivative_X, eval_add,
    eval_mul, eval_sub, eval_X, eval_C, eval_zero, eval_one] at this
  rw [this]; ring

theorem dd_eval_deriv (p : K[X]) (x : K) :
    2 * (derivative (dd p x)).eval x = (derivative (derivative p)).eval x := by
  have := congrArg (fun q => (derivative (derivative q)).eval x) (dd_spec p x)
  simp only [derivative_add, derivative_C, derivative_mul, derivative_sub, derivative_X, eval_add,
    eval_mul, eval_sub, eval_X, eval_C, eval_zero, eval_one, derivative_zero,
    derivative_one] at this
  rw [this]; ring

/-- Sum of weighted values vanishes for degree below `N - 1`. -/
theorem sum_weights_zero (N : ℕ) (Z : ℕ → K) (hZ : Set.InjOn Z (range N)) (q : K[X])
    (hq : ∀ m, N = m + 1 → q.degree < (m : WithBot ℕ)) :
    ∑ j ∈ range N, Lagrange.nodalWeight (range N) Z j * q.eval (Z j) = 0 := by
  cases N with
  | zero => simp
  | succ m =>
    have h1 := hq m rfl
    have h2 : q.degree < (#(range (m + 1)) : WithBot ℕ) := by
      rw [card_range]; exact lt_trans h1 (by exact_mod_cast Nat.lt_succ_self m)
    have h3 := Lagrange.coeff_eq_sum hZ h2
    rw [card_range, Nat.add_sub_cancel, coeff_eq_zero_of_degree_lt h1] at h3
    rw [h3]
    refine sum_congr rfl fun j _ => ?_
    rw [Lagrange.nodalWeight, prod_inv_distrib]
    field_simp

/-! ## The derivative iteration -/

theorem costep_loop (N i : ℕ) (Z w : ℕ → K) (d : K) (c : ℕ → K) :
    loop N (fun j (t : (ℕ → K) × K) =>
      let cj := 1 / (Z i - Z j) * (d - t.1 j)
      (store t.1 j cj, if j ≠ i then t.2 + w j * cj else t.2)) (c, 0) =
    (fun j => if j < N then (d - c j) / (Z i - Z j) else c j,
      ∑ j ∈ (range N).filter (· ≠ i), w j * ((d - c j) / (Z i - Z j))) := by
  rw [sum_filter]
  induction N with
  | zero => simp
  | succ n ih =>
    rw [loop_succ, ih, sum_range_succ]
    refine Prod.ext ?_ ?_
    · funext j
      by_cases h : j = n
      · subst h; simp; ring
      · simp only [store_ne _ _ h]
        by_cases h2 : j < n
        · simp [h2, Nat.lt_succ_of_lt h2]
        · have : ¬ j < n + 1 := by omega
          simp [h2, this]
    · by_cases h : n = i
      · simp [h]
      · simp only [lt_irrefl, if_false, ne_eq, h, not_false_eq_true, if_true]; ring

theorem noncostep_loop (N : ℕ) (Z w : ℕ → K) (X d : K) (c : ℕ → K) :
    loop N (fun j (t : (ℕ → K) × K) =>
      let cj := 1 / (X - Z j) * (d - t.1 j)
      (store t.1 j cj, t.2 + w j * cj / (X - Z j))) (c, 0) =
    (fun j => if j < N then (d - c j) / (X - Z j) else c j,
      ∑ j ∈ range N, w j * ((d - c j) / (X - Z j)) / (X - Z j)) := by
  induction N with
  | zero => simp
  | succ n ih =>
    rw [loop_succ, ih, sum_range_succ]
    refine Prod.ext ?_ ?_
    · funext j
      by_cases h : j = n
      · subst h; simp; ring
      · simp only [store_ne _ _ h]
        by_cases h2 : j < n
        · simp [h2, Nat.lt_succ_of_lt h2]
        · have : ¬ j < n + 1 := by omega
          simp [h2, this]
    · simp; ring

section Steps
variable {N : ℕ} {Z w : ℕ → K}

/-- One coincident step: data of `q` at the other vertices and `q(Z i)` become data of the divided
difference. -/
theorem costep_spec (hZ : Set.InjOn Z (range N))
    (hw : ∀ j < N, w j = Lagrange.nodalWeight (range N) Z j) {i : ℕ} (hi : i < N)
    (q : K[X]) (hq : q.degree < (N : WithBot ℕ)) (k : ℕ) (s : DerState K)
    (hd : s.dkp = q.eval (Z i)) (hc : ∀ j < N, j ≠ i → s.c j = q.eval (Z j)) :
    let s' := derStepCoincident N i Z w k s
    s'.M = s.M * k ∧ s'.dkp = s.M * k * (dd q (Z i)).eval (Z i) ∧ s'.dnp = s'.dkp ∧
      ∀ j < N, j ≠ i → s'.c j = (dd q (Z i)).eval (Z j) := by
  have hne : ∀ j < N, j ≠ i → Z i ≠ Z j := fun j hj hji h =>
    hji (hZ (by simpa using hj) (by simpa using hi) h.symm)
  intro s'
  have hs' : s' = derStepCoincident N i Z w k s := rfl
  unfold derStepCoincident at hs'
  rw [costep_loop] at hs'
  have hsum : ∑ j ∈ (range N).filter (· ≠ i), w j * ((s.dkp - s.c j) / (Z i - Z j)) =
      - (w i * (dd q (Z i)).eval (Z i)) := by
    have h0 := sum_weights_zero N Z hZ (dd q (Z i)) (dd_degree_lt q (Z i) hq).2
    rw [← add_sum_erase _ _ (mem_range.2 hi)] at h0
    have e : ∑ j ∈ (range N).filter (· ≠ i), w j * ((s.dkp - s.c j) / (Z i - Z j)) =
        ∑ j ∈ (range N).erase i,
          Lagrange.nodalWeight (range N) Z j * (dd q (Z i)).eval (Z j) := by
      have hset : (range N).filter (· ≠ i) = (range N).erase i := by
        ext j; simp [and_comm]
      rw [hset]
      refine sum_congr rfl fun j hj => ?_
      obtain ⟨hji, hj⟩ := mem_erase.1 hj
      have hj := mem_range.1 hj
      rw [hw j hj, hd, hc j hj hji, dd_eval_ne q _ _ (hne j hj hji)]
    rw [e, hw i hi]
    linear_combination h0
  have hwi : w i ≠ 0 := by
    rw [hw i hi]; exact Lagrange.nodalWeight_ne_zero hZ (mem_range.2 hi)
  rw [hs']
  refine ⟨rfl, ?_, rfl, ?_⟩
  · show _ * (-(s.M * (k : K)) / w i) = _
    rw [hsum]
    field_simp
  · intro j hj hji
    show (if j < N then (s.dkp - s.c j) / (Z i - Z j) else s.c j) = _
    rw [if_pos hj, hd, hc j hj hji, dd_eval_ne q _ _ (hne j hj hji)]

/-- One non-coincident step. -/
theorem noncostep_spec (hZ : Set.InjOn Z (range N))
    (hw : ∀ j < N, w j = Lagrange.nodalWeight (range N) Z j) {X : K} (hX : ∀ j < N, X ≠ Z j)
    (q : K[X]) (hq : q.degree < (N : WithBot ℕ)) (k : ℕ) (s : DerState K)
    (hd : s.dkp = q.eval X) (hc : ∀ j < N, s.c j = q.eval (Z j)) :
    let s' := derStepNonCoincident N Z w X ((Lagrange.nodal (range N) Z).eval X) k s
    s'.M = s.M * k ∧ s'.dkp = s.M * k * (dd q X).eval X ∧ s'.dnp = s'.dkp ∧
      ∀ j < N, s'.c j = (dd q X).eval (Z j) := by
  intro s'
  have hs' : s' = derStepNonCoincident N Z w X ((Lagrange.nodal (range N) Z).eval X) k s := rfl
  unfold derStepNonCoincident at hs'
  rw [noncostep_loop] at hs'
  have hcj : ∀ j < N, (s.dkp - s.c j) / (X - Z j) = (dd q X).eval (Z j) := by
    intro j hj
    rw [hd, hc j hj, dd_eval_ne q _ _ (hX j hj)]
  have hsum : (∑ j ∈ range N, w j * ((s.dkp - s.c j) / (X - Z j)) / (X - Z j)) *
      (Lagrange.nodal (range N) Z).eval X = (dd q X).eval X := by
    have h1 := interp_nonco N Z w (fun j => (dd q X).eval (Z j)) X hw hX
    rw [← Lagrange.eq_interpolate hZ (by rw [card_range]; exact (dd_degree_lt q X hq).1)] at h1
    rw [← h1]
    congr 1
    exact sum_congr rfl fun j hj => by rw [hcj j (mem_range.1 hj)]
  rw [hs']
  refine ⟨rfl, ?_, rfl, ?_⟩
  · show _ * ((Lagrange.nodal (range N) Z).eval X * (s.M * (k : K))) = _
    rw [← hsum]; ring
  · intro j hj
    show (if j < N then (s.dkp - s.c j) / (X - Z j) else s.c j) = _
    rw [if_pos hj, hcj j hj]

end Steps

end Verif.Lagrange
