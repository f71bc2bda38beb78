import Verif.HexN.Model
import Verif.Fill
import Verif.TensorSum
import Mathlib.LinearAlgebra.Lagrange
import Mathlib.Algebra.Polynomial.Derivative
import Mathlib.Tactic.Ring
import Mathlib.Tactic.FieldSimp

/-!
Lemmas on the 1-D Lagrange evaluations and the tensor loops of `HexN` and `QuadN`.
-/

set_option linter.unusedSectionVars false

namespace Verif.HexN
open Finset Polynomial
variable {K : Type*} [Field K]

/-- Value of the `i`-th Lagrange basis polynomial on the first `n` positions `z`. -/
noncomputable def L (n : ℕ) (z : ℕ → K) (i : ℕ) (x : K) : K := (Lagrange.basis (range n) z i).eval x
/-- Its derivative. -/
noncomputable def dL (n : ℕ) (z : ℕ → K) (i : ℕ) (x : K) : K :=
  (Polynomial.derivative (Lagrange.basis (range n) z i)).eval x

theorem loop_prod_ne (m i : ℕ) (f : ℕ → K) (s : K) :
    loop m (fun j p => if j ≠ i then p * f j else p) s = s * ∏ j ∈ (range m).erase i, f j := by
  induction m with
  | zero => simp
  | succ m ih =>
    rw [loop_succ, ih]
    by_cases h : m = i
    · subst h
      have : (range (m + 1)).erase m = (range m).erase m := by
        ext a; simp only [mem_erase, mem_range]; omega
      rw [if_neg (by simp), this]
    · have : (range (m + 1)).erase i = insert m ((range m).erase i) := by
        ext a; simp only [mem_erase, mem_range, mem_insert]; omega
      rw [if_pos h, this, prod_insert (by simp), mul_comm (f m), mul_assoc]

theorem productGradient_eq (n : ℕ) (z : ℕ → K) (x : K) (i j : ℕ) :
    productGradient n z x i j = ∏ N ∈ ((range n).erase i).erase j, (x - z N) := by
  unfold productGradient
  have : ∀ m, loop m (fun N p => if N ≠ j ∧ N ≠ i then p * (x - z N) else p) (1 : K) =
      ∏ N ∈ ((range m).erase i).erase j, (x - z N) := by
    intro m
    induction m with
    | zero => simp
    | succ m ih =>
      rw [loop_succ, ih]
      by_cases h : m ≠ j ∧ m ≠ i
      · have : ((range (m + 1)).erase i).erase j = insert m (((range m).erase i).erase j) := by
          ext a; simp only [mem_erase, mem_range, mem_insert]; omega
        rw [if_pos h, this, prod_insert (by simp), mul_comm]
      · have : ((range (m + 1)).erase i).erase j = ((range m).erase i).erase j := by
          ext a; simp only [mem_erase, mem_range]; omega
        rw [if_neg h, this]
  exact this n

theorem L_eq (n : ℕ) (z : ℕ → K) (i : ℕ) (x : K) :
    L n z i x = (∏ j ∈ (range n).erase i, (x - z j)) / ∏ j ∈ (range n).erase i, (z i - z j) := by
  unfold L Lagrange.basis Lagrange.basisDivisor
  rw [eval_prod, ← prod_div_distrib]
  refine prod_congr rfl fun j _ => ?_
  simp [div_eq_inv_mul]

theorem basis_eq_C (n : ℕ) (z : ℕ → K) (i : ℕ) : Lagrange.basis (range n) z i =
    C (∏ j ∈ (range n).erase i, (z i - z j))⁻¹ * ∏ j ∈ (range n).erase i, (X - C (z j)) := by
  unfold Lagrange.basis Lagrange.basisDivisor
  rw [prod_mul_distrib, ← map_prod, prod_inv_distrib]

theorem dL_eq (n : ℕ) (z : ℕ → K) (i : ℕ) (x : K) :
    dL n z i x = (∑ j ∈ (range n).erase i, ∏ N ∈ ((range n).erase i).erase j, (x - z N)) /
      ∏ j ∈ (range n).erase i, (z i - z j) := by
  unfold dL
  rw [basis_eq_C, derivative_C_mul, derivative_prod_finset, eval_mul, eval_C, eval_finsetSum,
    div_eq_inv_mul]
  congr 1
  refine sum_congr rfl fun j _ => ?_
  simp [eval_prod]

theorem basisLoop (z : ℕ → K) (x : K) (i m : ℕ) (hm : 0 < m) :
    (loop m (basisStep z x i) (1, 1, 1)) =
      (∏ j ∈ (range m).erase i, (x - z j), ∏ j ∈ (range m).erase i, (z i - z j), L m z i x) := by
  have key : ∀ m, (loop m (basisStep z x i) (1, 1, 1)).1 = ∏ j ∈ (range m).erase i, (x - z j) ∧
      (loop m (basisStep z x i) (1, 1, 1)).2.1 = ∏ j ∈ (range m).erase i, (z i - z j) := by
    intro m
    have h1 : ∀ m, (loop m (basisStep z x i) (1, 1, 1)).1 =
        loop m (fun j p => if j ≠ i then p * (x - z j) else p) 1 := by
      intro m; induction m with
      | zero => rfl
      | succ m ih => rw [loop_succ, loop_succ, ← ih]; rfl
    have h2 : ∀ m, (loop m (basisStep z x i) (1, 1, 1)).2.1 =
        loop m (fun j p => if j ≠ i then p * (z i - z j) else p) 1 := by
      intro m; induction m with
      | zero => rfl
      | succ m ih => rw [loop_succ, loop_succ, ← ih]; rfl
    rw [h1, h2, loop_prod_ne, loop_prod_ne, one_mul, one_mul]
    exact ⟨rfl, rfl⟩
  obtain ⟨k, rfl⟩ : ∃ k, m = k + 1 := ⟨m - 1, by omega⟩
  have h3 : (loop (k + 1) (basisStep z x i) (1, 1, 1)).2.2 =
      (loop (k + 1) (basisStep z x i) (1, 1, 1)).1 / (loop (k + 1) (basisStep z x i) (1, 1, 1)).2.1 :=
    rfl
  refine Prod.ext (key _).1 (Prod.ext (key _).2 ?_)
  rw [h3, (key _).1, (key _).2]
  exact (L_eq _ _ _ _).symm

theorem lagrangeBasis1D_eq (n : ℕ) (z : ℕ → K) (x : K) (a : ℕ → K) (i : ℕ) (hi : i < n) :
    lagrangeBasis1D n z x a i = L n z i x := by
  unfold lagrangeBasis1D
  rw [loop_store n (fun i => (loop n (basisStep z x i) (1, 1, 1)).2.2)]
  simp only []
  rw [if_pos hi, basisLoop _ _ _ _ (by omega)]

theorem loop_sum_ne (m i : ℕ) (f : ℕ → K) (s : K) :
    loop m (fun j p => if j ≠ i then p + f j else p) s = s + ∑ j ∈ (range m).erase i, f j := by
  induction m with
  | zero => simp
  | succ m ih =>
    rw [loop_succ, ih]
    by_cases h : m = i
    · subst h
      have : (range (m + 1)).erase m = (range m).erase m := by
        ext a; simp only [mem_erase, mem_range]; omega
      rw [if_neg (by simp), this]
    · have : (range (m + 1)).erase i = insert m ((range m).erase i) := by
        ext a; simp only [mem_erase, mem_range, mem_insert]; omega
      rw [if_pos h, this, sum_insert (by simp), add_comm (f m), add_assoc]

theorem derivLoop (n : ℕ) (z : ℕ → K) (x : K) (i : ℕ) (hn : 0 < n) :
    (loop n (derivStep n z x i) (1, 0, 0)).2.2 = dL n z i x := by
  have h1 : ∀ m, (loop m (derivStep n z x i) (1, 0, 0)).1 =
      loop m (fun j p => if j ≠ i then p * (z i - z j) else p) 1 := by
    intro m; induction m with
    | zero => rfl
    | succ m ih => rw [loop_succ, loop_succ, ← ih]; rfl
  have h2 : ∀ m, (loop m (derivStep n z x i) (1, 0, 0)).2.1 =
      loop m (fun j p => if j ≠ i then p + productGradient n z x i j else p) 0 := by
    intro m; induction m with
    | zero => rfl
    | succ m ih => rw [loop_succ, loop_succ, ← ih]; rfl
  have h3 : (loop n (derivStep n z x i) (1, 0, 0)).2.2 =
      (loop n (derivStep n z x i) (1, 0, 0)).2.1 / (loop n (derivStep n z x i) (1, 0, 0)).1 := by
    obtain ⟨k, rfl⟩ : ∃ k, n = k + 1 := ⟨n - 1, by omega⟩
    rfl
  rw [h3, h1, h2, loop_prod_ne, loop_sum_ne, one_mul, zero_add, dL_eq]
  simp only [productGradient_eq]

theorem lagrangeDerivative1D_eq (n : ℕ) (z : ℕ → K) (x : K) (a : ℕ → K) (i : ℕ) (hi : i < n) :
    lagrangeDerivative1D n z x a i = dL n z i x := by
  unfold lagrangeDerivative1D
  rw [loop_store n (fun i => (loop n (derivStep n z x i) (1, 0, 0)).2.2)]
  simp only []
  rw [if_pos hi, derivLoop _ _ _ _ (by omega)]

theorem quadLoop (n : ℕ) (z : ℕ → K) (x q : K) (i : ℕ) (hn : 0 < n) :
    (loop n (quadStep n z x i) (1, 1, 1, 0, q)).2.2.1 = L n z i x ∧
    (loop n (quadStep n z x i) (1, 1, 1, 0, q)).2.2.2.2 = dL n z i x := by
  have h1 : ∀ m, (loop m (quadStep n z x i) (1, 1, 1, 0, q)).1 =
      loop m (fun j p => if j ≠ i then p * (x - z j) else p) 1 := by
    intro m; induction m with
    | zero => rfl
    | succ m ih => rw [loop_succ, loop_succ, ← ih]; rfl
  have h2 : ∀ m, (loop m (quadStep n z x i) (1, 1, 1, 0, q)).2.1 =
      loop m (fun j p => if j ≠ i then p * (z i - z j) else p) 1 := by
    intro m; induction m with
    | zero => rfl
    | succ m ih => rw [loop_succ, loop_succ, ← ih]; rfl
  have h4 : ∀ m, (loop m (quadStep n z x i) (1, 1, 1, 0, q)).2.2.2.1 =
      loop m (fun j p => if j ≠ i then p + productGradient n z x i j else p) 0 := by
    intro m; induction m with
    | zero => rfl
    | succ m ih => rw [loop_succ, loop_succ, ← ih]; rfl
  have h3 : (loop n (quadStep n z x i) (1, 1, 1, 0, q)).2.2.1 =
      (loop n (quadStep n z x i) (1, 1, 1, 0, q)).1 / (loop n (quadStep n z x i) (1, 1, 1, 0, q)).2.1 ∧
      (loop n (quadStep n z x i) (1, 1, 1, 0, q)).2.2.2.2 =
      (loop n (quadStep n z x i) (1, 1, 1, 0, q)).2.2.2.1 /
        (loop n (quadStep n z x i) (1, 1, 1, 0, q)).2.1 := by
    obtain ⟨k, rfl⟩ : ∃ k, n = k + 1 := ⟨n - 1, by omega⟩
    exact ⟨rfl, rfl⟩
  constructor
  · rw [h3.1, h1, h2, loop_prod_ne, loop_prod_ne, one_mul, one_mul, L_eq]
  · rw [h3.2, h4, h2, loop_prod_ne, loop_sum_ne, one_mul, zero_add, dL_eq]
    simp only [productGradient_eq]

theorem quadLagrange1D_eq (n : ℕ) (z : ℕ → K) (x : K) (a b : ℕ → K) (i : ℕ) (hi : i < n) :
    (quadLagrange1D n z x a b).1 i = L n z i x ∧ (quadLagrange1D n z x a b).2 i = dL n z i x := by
  unfold quadLagrange1D
  have key := loop_inv (n := n) (body := fun i (s : (ℕ → K) × (ℕ → K) × K) =>
    let t := loop n (quadStep n z x i) (1, 1, 1, 0, s.2.2)
    (store s.1 i t.2.2.1, store s.2.1 i t.2.2.2.2, t.2.2.2.2)) (s := (a, b, 0))
    (fun m s => ∀ i < m, s.1 i = L n z i x ∧ s.2.1 i = dL n z i x)
    (fun i hi => absurd hi (Nat.not_lt_zero _))
    (by
      intro m s hm ih i hi
      have hq := quadLoop n z x s.2.2 m (by omega)
      by_cases h : i = m
      · subst h
        exact ⟨by simp only [store_same]; exact hq.1, by simp only [store_same]; exact hq.2⟩
      · simp only [store_ne _ _ h]
        exact ih i (by omega))
  exact key i hi

theorem saveColumn_eq (n c : ℕ) (v : ℕ → K) (t : ℕ → ℕ → K) :
    (saveColumn n c v t).2 = fun i d => if i < n ∧ d = c then v i else t i d := by
  unfold saveColumn
  have key := loop_inv (n := n) (body := fun i (s : (ℕ → K) × (ℕ → ℕ → K)) =>
      (store s.1 i 0, store2 s.2 i c (s.1 i))) (s := (v, t))
    (fun m s => s.1 = (fun i => if i < m then 0 else v i) ∧
      s.2 = fun i d => if i < m ∧ d = c then v i else t i d)
    (by simp)
    (by
      rintro m ⟨s1, s2⟩ hm ⟨rfl, rfl⟩
      refine ⟨?_, ?_⟩
      · funext i
        by_cases h : i = m
        · subst h; simp [store]
        · simp only [store_ne _ _ h]
          by_cases h2 : i < m
          · simp [h2, Nat.lt_succ_of_lt h2]
          · simp [h2, show ¬ i < m + 1 by omega]
      · funext i d
        by_cases h : i = m ∧ d = c
        · obtain ⟨rfl, rfl⟩ := h; simp [store2]
        · simp only [store2_ne _ _ h]
          by_cases h2 : i < m
          · simp [h2, Nat.lt_succ_of_lt h2]
          · by_cases h3 : i = m
            · have : d ≠ c := fun hd => h ⟨h3, hd⟩
              simp [this]
            · simp [show ¬ i < m + 1 by omega, h2])
  exact key.2

theorem saveColumnOther_eq (n c : ℕ) (d v : ℕ → K) (t : ℕ → ℕ → K) :
    (saveColumnOther n c d v t).2 = fun i e => if i < n ∧ e = c then d i else t i e := by
  unfold saveColumnOther
  have : ∀ m, (loop m (fun i (s : (ℕ → K) × (ℕ → ℕ → K)) => (store s.1 i 0, store2 s.2 i c (d i)))
      (v, t)).2 = fun i e => if i < m ∧ e = c then d i else t i e := by
    intro m
    induction m with
    | zero => simp
    | succ m ih =>
      rw [loop_succ, ih]
      funext i e
      by_cases h : i = m ∧ e = c
      · obtain ⟨rfl, rfl⟩ := h; simp [store2]
      · simp only [store2_ne _ _ h]
        by_cases h2 : i < m
        · simp [h2, Nat.lt_succ_of_lt h2]
        · by_cases h3 : i = m
          · have : e ≠ c := fun hd => h ⟨h3, hd⟩
            simp [this]
          · simp [show ¬ i < m + 1 by omega, h2]
  exact this n

theorem tensor_eq (n : ℕ) (f : ℕ → ℕ → ℕ → K) (b : ℕ → K) (i j k : ℕ) (hi : i < n) (hj : j < n)
    (hk : k < n) : tensor n f b (rid n i j k) = f i j k := by
  have h : Fills (tensor n f) (fun p => ∃ k < n, ∃ j < n, ∃ i < n, p = rid n i j k)
      (fun p => f (p % n) (p / n % n) (p / n / n)) := by
    unfold tensor
    refine Fills.loop fun k hk => Fills.loop fun j hj => Fills.loop fun i hi => Fills.store ?_
    obtain ⟨h1, h2, h3⟩ := lex3_mod (k := k) hi hj
    unfold rid; rw [h1, h2, h3]
  rw [(h b _).1 ⟨k, hk, j, hj, i, hi, rfl⟩]
  obtain ⟨h1, h2, h3⟩ := lex3_mod (k := k) hi hj
  simp only [rid, h1, h2, h3]

theorem tensor_outside (n : ℕ) (f : ℕ → ℕ → ℕ → K) (b : ℕ → K) (p : ℕ) (hp : n * n * n ≤ p) :
    tensor n f b p = b p := by
  have h : Fills (tensor n f) (fun p => ∃ k < n, ∃ j < n, ∃ i < n, p = rid n i j k)
      (fun p => f (p % n) (p / n % n) (p / n / n)) := by
    unfold tensor
    refine Fills.loop fun k hk => Fills.loop fun j hj => Fills.loop fun i hi => Fills.store ?_
    obtain ⟨h1, h2, h3⟩ := lex3_mod (k := k) hi hj
    unfold rid; rw [h1, h2, h3]
  refine (h b p).2 ?_
  rintro ⟨k, hk, j, hj, i, hi, rfl⟩
  have := lex3_lt hi hj hk
  unfold rid at hp; omega

end Verif.HexN
