import Verif.Fp.HexNModel
import Verif.Fp.Rel
import Verif.HexN.Lemmas
import Mathlib.Algebra.Order.BigOperators.Ring.Finset
import Mathlib.Algebra.BigOperators.Field

/-!
# Rounding errors of the 1-D functions of `HexN` and `QuadN`
-/

namespace Verif.Fp.HexN
open Verif.Fp Finset

variable {R : Rounding}

/-- `a` is the sum of the `f j`, each with a relative error of its own. -/
def Acc (R : Rounding) (k : ℕ) (a : ℝ) (S : Finset ℕ) (f : ℕ → ℝ) : Prop :=
  ∃ t : ℕ → ℝ, (∀ j ∈ S, Pert R k (t j)) ∧ a = ∑ j ∈ S, f j * t j

/-- Numerator, elements/elements.cpp:5742-5754. -/
noncomputable def num (R : Rounding) (n : ℕ) (z : ℕ → ℝ) (x : ℝ) (i : ℕ) : ℝ :=
  loop n (fun j p => if j ≠ i then R.fl (p * R.fl (x - z j)) else p) 1
/-- The value stored for vertex `i`, elements/elements.cpp:5729-5761. -/
noncomputable def lF (R : Rounding) (n : ℕ) (z : ℕ → ℝ) (x : ℝ) (i : ℕ) : ℝ :=
  R.fl (num R n z x i / num R n z (z i) i)
/-- The derivative stored for vertex `i`, elements/elements.cpp:5763-5810. -/
noncomputable def dF (R : Rounding) (n : ℕ) (z : ℕ → ℝ) (x : ℝ) (i : ℕ) : ℝ :=
  R.fl (loop n (fun j p => if j ≠ i then R.fl (p + productGradient R n z x i j) else p) 0 / num R n z (z i) i)

theorem lagrangeBasis1D_eq (n : ℕ) (z : ℕ → ℝ) (x : ℝ) (a : ℕ → ℝ) (i : ℕ) (hi : i < n) :
    lagrangeBasis1D R n z x a i = lF R n z x i := by
  unfold lagrangeBasis1D
  rw [loop_store n (fun i => (loop n (basisStep R z x i) (1, 1, 1)).2.2)]
  simp only []
  rw [if_pos hi]
  have h1 : ∀ m, (loop m (basisStep R z x i) (1, 1, 1)).1 = num R m z x i := by
    intro m; unfold num; induction m with
    | zero => rfl
    | succ m ih => rw [loop_succ, loop_succ, ← ih]; rfl
  have h2 : ∀ m, (loop m (basisStep R z x i) (1, 1, 1)).2.1 = num R m z (z i) i := by
    intro m; unfold num; induction m with
    | zero => rfl
    | succ m ih => rw [loop_succ, loop_succ, ← ih]; rfl
  have h3 : (loop n (basisStep R z x i) (1, 1, 1)).2.2 =
      R.fl ((loop n (basisStep R z x i) (1, 1, 1)).1 / (loop n (basisStep R z x i) (1, 1, 1)).2.1) := by
    obtain ⟨k, rfl⟩ : ∃ k, n = k + 1 := ⟨n - 1, by omega⟩
    rfl
  rw [h3, h1, h2]; rfl

theorem lagrangeDerivative1D_eq (n : ℕ) (z : ℕ → ℝ) (x : ℝ) (a : ℕ → ℝ) (i : ℕ) (hi : i < n) :
    lagrangeDerivative1D R n z x a i = dF R n z x i := by
  unfold lagrangeDerivative1D
  rw [loop_store n (fun i => (loop n (derivStep R n z x i) (1, 0, 0)).2.2)]
  simp only []
  rw [if_pos hi]
  have h1 : ∀ m, (loop m (derivStep R n z x i) (1, 0, 0)).1 = num R m z (z i) i := by
    intro m; unfold num; induction m with
    | zero => rfl
    | succ m ih => rw [loop_succ, loop_succ, ← ih]; rfl
  have h2 : ∀ m, (loop m (derivStep R n z x i) (1, 0, 0)).2.1 =
      loop m (fun j p => if j ≠ i then R.fl (p + productGradient R n z x i j) else p) 0 := by
    intro m; induction m with
    | zero => rfl
    | succ m ih => rw [loop_succ, loop_succ, ← ih]; rfl
  have h3 : (loop n (derivStep R n z x i) (1, 0, 0)).2.2 =
      R.fl ((loop n (derivStep R n z x i) (1, 0, 0)).2.1 / (loop n (derivStep R n z x i) (1, 0, 0)).1) := by
    obtain ⟨k, rfl⟩ : ∃ k, n = k + 1 := ⟨n - 1, by omega⟩
    rfl
  rw [h3, h1, h2]; rfl

theorem quadLagrange1D_eq (n : ℕ) (z : ℕ → ℝ) (x : ℝ) (a b : ℕ → ℝ) (i : ℕ) (hi : i < n) :
    (quadLagrange1D R n z x a b).1 i = lF R n z x i ∧ (quadLagrange1D R n z x a b).2 i = dF R n z x i := by
  have one : ∀ (q : ℝ) (i : ℕ), i < n → (loop n (quadStep R n z x i) (1, 1, 1, 0, q)).2.2.1 = lF R n z x i ∧
      (loop n (quadStep R n z x i) (1, 1, 1, 0, q)).2.2.2.2 = dF R n z x i := by
    intro q i hi
    have h1 : ∀ m, (loop m (quadStep R n z x i) (1, 1, 1, 0, q)).1 = num R m z x i := by
      intro m; unfold num; induction m with
      | zero => rfl
      | succ m ih => rw [loop_succ, loop_succ, ← ih]; rfl
    have h2 : ∀ m, (loop m (quadStep R n z x i) (1, 1, 1, 0, q)).2.1 = num R m z (z i) i := by
      intro m; unfold num; induction m with
      | zero => rfl
      | succ m ih => rw [loop_succ, loop_succ, ← ih]; rfl
    have h4 : ∀ m, (loop m (quadStep R n z x i) (1, 1, 1, 0, q)).2.2.2.1 =
        loop m (fun j p => if j ≠ i then R.fl (p + productGradient R n z x i j) else p) 0 := by
      intro m; induction m with
      | zero => rfl
      | succ m ih => rw [loop_succ, loop_succ, ← ih]; rfl
    have h3 : (loop n (quadStep R n z x i) (1, 1, 1, 0, q)).2.2.1 =
        R.fl ((loop n (quadStep R n z x i) (1, 1, 1, 0, q)).1 / (loop n (quadStep R n z x i) (1, 1, 1, 0, q)).2.1) ∧
        (loop n (quadStep R n z x i) (1, 1, 1, 0, q)).2.2.2.2 =
        R.fl ((loop n (quadStep R n z x i) (1, 1, 1, 0, q)).2.2.2.1 /
          (loop n (quadStep R n z x i) (1, 1, 1, 0, q)).2.1) := by
      obtain ⟨k, rfl⟩ : ∃ k, n = k + 1 := ⟨n - 1, by omega⟩
      exact ⟨rfl, rfl⟩
    rw [h3.1, h3.2, h1, h2, h4]
    exact ⟨rfl, rfl⟩
  unfold quadLagrange1D
  have key := loop_inv (n := n) (body := fun i (s : (ℕ → ℝ) × (ℕ → ℝ) × ℝ) =>
    let t := loop n (quadStep R n z x i) (1, 1, 1, 0, s.2.2)
    (store s.1 i t.2.2.1, store s.2.1 i t.2.2.2.2, t.2.2.2.2)) (s := (a, b, 0))
    (fun m s => ∀ i < m, s.1 i = lF R n z x i ∧ s.2.1 i = dF R n z x i)
    (fun i hi => absurd hi (Nat.not_lt_zero _))
    (by
      intro m s hm ih i hi
      have hq := one s.2.2 m hm
      by_cases h : i = m
      · subst h
        exact ⟨by simp only [store_same]; exact hq.1, by simp only [store_same]; exact hq.2⟩
      · simp only [store_ne _ _ h]
        exact ih i (by omega))
  exact key i hi

theorem fl_zero : R.fl 0 = 0 := by have := R.err 0; simpa using this

theorem fl_one : R.fl 1 = 1 := by
  have := R.exact 1 0 (by rw [abs_one]; exact one_le_pow₀ (by norm_num))
  simpa using this

section
variable (hu : R.u < 1)
include hu

theorem Rel.ne_zero {k : ℕ} {a b : ℝ} (h : Rel R k a b) (hb : b ≠ 0) : a ≠ 0 := by
  obtain ⟨t, ht, rfl⟩ := h
  exact mul_ne_zero hb (ht.pos hu).ne'

omit hu in
theorem Rel.zero_iff {k : ℕ} {a : ℝ} (h : Rel R k a 0) : a = 0 := by
  obtain ⟨t, ht, rfl⟩ := h
  exact zero_mul _

theorem loop_prod_filter (m : ℕ) (P : ℕ → Prop) [DecidablePred P] (f : ℕ → ℝ) :
    Rel R (2 * m) (loop m (fun j p => if P j then R.fl (p * R.fl (f j)) else p) 1) (∏ j ∈ (range m).filter P, f j) := by
  induction m with
  | zero => rw [loop_zero, range_zero, filter_empty, prod_empty]; exact Rel.refl hu _ _
  | succ m ih =>
    rw [loop_succ, range_add_one, filter_insert]
    by_cases h : P m
    · rw [if_pos h, if_pos h, prod_insert (by simp), mul_comm (f m)]
      exact (ih.flmul hu (Rel.fl hu _)).mono hu (by omega)
    · rw [if_neg h, if_neg h]
      exact ih.mono hu (by omega)

theorem num_rel (n : ℕ) (z : ℕ → ℝ) (x : ℝ) (i : ℕ) :
    Rel R (2 * n) (num R n z x i) (∏ j ∈ (range n).erase i, (x - z j)) := by
  have := loop_prod_filter hu n (fun j => j ≠ i) (fun j => x - z j)
  rw [filter_ne'] at this
  exact this

theorem productGradient_rel (n : ℕ) (z : ℕ → ℝ) (x : ℝ) (i j : ℕ) :
    Rel R (2 * n) (productGradient R n z x i j) (∏ N ∈ ((range n).erase i).erase j, (x - z N)) := by
  have := loop_prod_filter hu n (fun N => N ≠ j ∧ N ≠ i) (fun j => x - z j)
  have e : (range n).filter (fun N => N ≠ j ∧ N ≠ i) = ((range n).erase i).erase j := by
    ext a; simp only [mem_filter, mem_erase, mem_range]; tauto
  rw [e] at this
  exact this

/-- The value of a 1-D basis function has a small relative error. -/
theorem lF_rel (n : ℕ) (z : ℕ → ℝ) (x : ℝ) (i : ℕ) :
    Rel R (4 * n + 1) (lF R n z x i) (Verif.HexN.L n z i x) := by
  rw [Verif.HexN.L_eq]
  exact ((num_rel hu n z x i).fldiv hu (num_rel hu n z (z i) i)).mono hu (by omega)

theorem Acc.fl {k : ℕ} {a : ℝ} {S : Finset ℕ} {f : ℕ → ℝ} (h : Acc R k a S f) : Acc R (k + 1) (R.fl a) S f := by
  obtain ⟨t, ht, rfl⟩ := h
  obtain ⟨r, hr, er⟩ := Pert.fl hu (∑ j ∈ S, f j * t j)
  refine ⟨fun j => t j * r, fun j hj => (ht j hj).mul hu hr, ?_⟩
  rw [er, sum_mul]
  exact sum_congr rfl fun j _ => by ring

theorem Acc.mono {k l : ℕ} (hkl : k ≤ l) {a : ℝ} {S : Finset ℕ} {f : ℕ → ℝ} (h : Acc R k a S f) : Acc R l a S f := by
  obtain ⟨t, ht, e⟩ := h
  exact ⟨t, fun j hj => (ht j hj).mono hu hkl, e⟩

theorem Acc.mul {k l : ℕ} {a b c : ℝ} {S : Finset ℕ} {f : ℕ → ℝ} (h : Acc R k a S f) (hb : Rel R l b c) :
    Acc R (k + l) (a * b) S (fun j => f j * c) := by
  obtain ⟨t, ht, rfl⟩ := h
  obtain ⟨r, hr, rfl⟩ := hb
  refine ⟨fun j => t j * r, fun j hj => (ht j hj).mul hu hr, ?_⟩
  rw [sum_mul]
  exact sum_congr rfl fun j _ => by ring

theorem Acc.div {k l : ℕ} {a b c : ℝ} {S : Finset ℕ} {f : ℕ → ℝ} (h : Acc R k a S f) (hb : Rel R l b c) :
    Acc R (k + l) (a / b) S (fun j => f j / c) := by
  obtain ⟨t, ht, rfl⟩ := h
  obtain ⟨r, hr, rfl⟩ := hb
  refine ⟨fun j => t j * r⁻¹, fun j hj => (ht j hj).mul hu (hr.inv hu), ?_⟩
  rw [sum_div]
  refine sum_congr rfl fun j _ => ?_
  show _ = f j / c * (t j * r⁻¹)
  rw [div_eq_mul_inv, mul_inv, div_eq_mul_inv]; ring

theorem Acc.err {k : ℕ} {a : ℝ} {S : Finset ℕ} {f : ℕ → ℝ} (h : Acc R k a S f) (hk : k * R.u < 1) :
    |a - ∑ j ∈ S, f j| ≤ k * R.u / (1 - k * R.u) * ∑ j ∈ S, |f j| := by
  obtain ⟨t, ht, rfl⟩ := h
  rw [← sum_sub_distrib, mul_sum]
  refine (abs_sum_le_sum_abs _ _).trans (sum_le_sum fun j hj => ?_)
  rw [show f j * t j - f j = (t j - 1) * f j by ring, abs_mul]
  exact mul_le_mul_of_nonneg_right ((ht j hj).err hu hk) (abs_nonneg _)

/-- A running sum over the indices with a property. -/
theorem loop_sum_filter {k : ℕ} (m : ℕ) (P : ℕ → Prop) [DecidablePred P] (a b : ℕ → ℝ)
    (h : ∀ j < m, Rel R k (a j) (b j)) :
    Acc R (k + m) (loop m (fun j p => if P j then R.fl (p + a j) else p) 0) ((range m).filter P) b := by
  induction m with
  | zero => exact ⟨fun _ => 1, fun j hj => by simp at hj, by simp⟩
  | succ m ih =>
    have ih := ih fun j hj => h j (by omega)
    rw [loop_succ, range_add_one, filter_insert]
    by_cases hP : P m
    · rw [if_pos hP, if_pos hP]
      obtain ⟨t, ht, e⟩ := ih
      obtain ⟨s, hs, es⟩ := h m (by omega)
      have : Acc R (k + m) (loop m (fun j p => if P j then R.fl (p + a j) else p) 0 + a m)
          (insert m ((range m).filter P)) b := by
        refine ⟨fun j => if j = m then s else t j, fun j hj => ?_, ?_⟩
        · by_cases hjm : j = m
          · simp only [if_pos hjm]; exact hs.mono hu (by omega)
          · simp only [if_neg hjm]; exact ht j ((mem_insert.1 hj).resolve_left hjm)
        · rw [e, es, sum_insert (by simp), add_comm]
          simp only [if_true]
          congr 1
          refine sum_congr rfl fun j hj => ?_
          rw [if_neg]
          have := mem_range.1 (mem_filter.1 hj).1
          omega
      exact (this.fl hu).mono hu (by omega)
    · rw [if_neg hP, if_neg hP]
      exact ih.mono hu (by omega)

/-- The derivative of a 1-D basis function: each term of the product rule has a small relative error. -/
theorem dF_acc (n : ℕ) (z : ℕ → ℝ) (x : ℝ) (i : ℕ) :
    Acc R (5 * n + 1) (dF R n z x i) ((range n).erase i)
      (fun j => (∏ N ∈ ((range n).erase i).erase j, (x - z N)) / ∏ j ∈ (range n).erase i, (z i - z j)) := by
  have h := loop_sum_filter hu n (fun j => j ≠ i) (productGradient R n z x i)
    (fun j => ∏ N ∈ ((range n).erase i).erase j, (x - z N)) (fun j _ => productGradient_rel hu n z x i j)
  rw [filter_ne'] at h
  exact ((h.div hu (num_rel hu n z (z i) i)).fl hu).mono hu (by omega)

end

theorem sum_terms (n : ℕ) (z : ℕ → ℝ) (x : ℝ) (i : ℕ) :
    ∑ j ∈ (range n).erase i, (∏ N ∈ ((range n).erase i).erase j, (x - z N)) / ∏ j ∈ (range n).erase i, (z i - z j) =
      Verif.HexN.dL n z i x := by
  rw [Verif.HexN.dL_eq, sum_div]

/-- At the own vertex: the numerator and the denominator are the same number. -/
theorem lF_self (hu : R.u < 1) (n : ℕ) (z : ℕ → ℝ) (hz : Set.InjOn z (range n : Set ℕ)) {i : ℕ} (hi : i < n) :
    lF R n z (z i) i = 1 := by
  unfold lF
  rw [div_self, fl_one]
  refine Rel.ne_zero hu (num_rel hu n z (z i) i) (prod_ne_zero_iff.2 fun j hj => sub_ne_zero.2 fun h => ?_)
  obtain ⟨h1, h2⟩ := mem_erase.1 hj
  exact h1 (hz (by simpa using hi) (by simpa using h2) h).symm

/-- At another vertex. -/
theorem lF_other (hu : R.u < 1) (n : ℕ) (z : ℕ → ℝ) {i j : ℕ} (hj : j < n) (hij : i ≠ j) : lF R n z (z j) i = 0 := by
  have h := num_rel hu n z (z j) i
  rw [prod_eq_zero (mem_erase.2 ⟨hij.symm, mem_range.2 hj⟩) (sub_self _)] at h
  unfold lF
  rw [Rel.zero_iff h, zero_div, fl_zero]

/-- With no rounding, the model is that of `HexN/Model.lean`. -/
theorem none_eq (b n : ℕ) (z : ℕ → ℝ) (x : ℝ) (a : ℕ → ℝ) :
    lagrangeBasis1D (.none b) n z x a = Verif.HexN.lagrangeBasis1D n z x a ∧
    lagrangeDerivative1D (.none b) n z x a = Verif.HexN.lagrangeDerivative1D n z x a := ⟨rfl, rfl⟩

end Verif.Fp.HexN
