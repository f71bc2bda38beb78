import Verif.LU.Lemmas
import Verif.LU.Spec
import Mathlib.Tactic.LinearCombination
import Mathlib.Tactic.Positivity

set_option linter.unusedSectionVars false
namespace Verif.LU

open Finset

variable {K : Type*} [Field K] [LinearOrder K] [IsStrictOrderedRing K]

theorem tiny_ne : (tiny : K) ≠ 0 := by unfold tiny; positivity

theorem fixed_ne (v : K) : fixed v ≠ 0 := by
  unfold fixed; split_ifs with h
  · exact tiny_ne
  · exact h

theorem rowPerm_congr (n : ℕ) (f g : ℕ → ℕ) (m : ℕ) (h : ∀ k < m, f k = g k) :
    rowPerm n f m = rowPerm n g m := by
  induction m with
  | zero => rfl
  | succ m ih =>
    unfold rowPerm
    rw [ih (fun k hk => h k (by omega))]
    have := h m (by omega)
    simp only [this]

theorem swap_val {n : ℕ} (p j : Fin n) (i : Fin n) :
    ((Equiv.swap j p i : Fin n) : ℕ) = Equiv.swap (p : ℕ) (j : ℕ) (i : ℕ) := by
  rw [Equiv.swap_comm]
  rcases eq_or_ne i p with rfl | h1
  · simp
  · rcases eq_or_ne i j with rfl | h2
    · simp
    · rw [Equiv.swap_apply_of_ne_of_ne h1 h2, Equiv.swap_apply_of_ne_of_ne]
      · exact fun h => h1 (Fin.ext h)
      · exact fun h => h2 (Fin.ext h)

/-- Entry `(i,l)` of the unit lower triangular factor, on natural-number indices. -/
def Lf (a : ℕ → ℕ → K) (i l : ℕ) : K := if l < i then a i l else if i = l then 1 else 0

/-- If the first `j+1` columns of a square matrix are combinations of `j` vectors, it is singular. -/
theorem det_zero_of_span {n : ℕ} (A : Matrix (Fin n) (Fin n) K) (σ : Equiv.Perm (Fin n)) (j : ℕ)
    (hj : j < n) (L : Fin n → ℕ → K) (U : ℕ → ℕ → K)
    (h : ∀ i k : Fin n, (k : ℕ) ≤ j → A (σ i) k = ∑ l ∈ range j, L i l * U l k) : A.det = 0 := by
  by_contra hdet
  have hli : LinearIndependent K A.col := Matrix.linearIndependent_cols_of_det_ne_zero hdet
  let e : Fin (j + 1) → Fin n := fun k => ⟨k, by omega⟩
  have he : Function.Injective e := fun a b hab => Fin.ext (by simpa [e] using hab)
  let B : Matrix (Fin n) (Fin (j + 1)) K := A.submatrix id e
  have hB : B.transpose.rank = j + 1 := by
    have : LinearIndependent K B.transpose.row := hli.comp e he
    rw [this.rank_matrix]; simp
  have hB' : B.rank = j + 1 := (Matrix.rank_transpose B).symm.trans hB
  let LL : Matrix (Fin n) (Fin j) K := fun i l => L (σ.symm i) l
  let UU : Matrix (Fin j) (Fin (j + 1)) K := fun l k => U l k
  have hBL : B = LL * UU := by
    ext i k
    show A i (e k) = _
    have := h (σ.symm i) (e k) (by simp [e]; omega)
    rw [Equiv.apply_symm_apply] at this
    rw [this, Matrix.mul_apply, ← Fin.sum_univ_eq_sum_range (fun l => L (σ.symm i) l * U l (e k))]
  have h1 : B.rank ≤ j := by
    rw [hBL]
    exact (Matrix.rank_mul_le_left _ _).trans (by simpa using Matrix.rank_le_card_width LL)
  omega

/-- State of the factorisation after the first `j` columns. -/
structure Inv (n : ℕ) (a0 : ℕ → ℕ → K) (j : ℕ) (s : St K) (δ : ℕ → K) : Prop where
  parity : s.parity = ((Equiv.Perm.sign (rowPerm n s.indx j) : ℤˣ) : ℤ)
  done : ∀ i k : Fin n, (k : ℕ) < j →
    ∑ l ∈ range (k + 1), Lf s.a i l * s.a l k =
      a0 (rowPerm n s.indx j i) k + if i = k then δ k else 0
  todo : ∀ i k : Fin n, j ≤ (k : ℕ) → s.a i k = a0 (rowPerm n s.indx j i) k
  piv : ∀ k < j, s.a k k ≠ 0
  delta : ∀ k < j, δ k = 0 ∨ δ k = tiny
  nonsing : (toMat n a0).det ≠ 0 → ∀ k < j, δ k = 0
  indx : ∀ k < j, k ≤ s.indx k ∧ s.indx k < n
  vv : ∀ i < n, 0 < s.vv i
  frame : ∀ i k, n ≤ i ∨ n ≤ k → s.a i k = a0 i k

theorem inv_step (n : ℕ) (a0 : ℕ → ℕ → K) (j : ℕ) (hj : j < n) (s : St K) (δ : ℕ → K)
    (h : Inv n a0 j s δ) : ∃ δ', Inv n a0 (j + 1) (column n j s) δ' := by
  obtain ⟨p, hjp, hpn, hindx, hpar, hvv, u, w, hu, hw, hz, -, ha⟩ := column_spec n j hj s h.vv
  set s' := column n j s with hs'
  set σ := rowPerm n s.indx j with hσ
  let jf : Fin n := ⟨j, hj⟩
  let pf : Fin n := ⟨p, hpn⟩
  have hperm : rowPerm n s'.indx (j + 1) = σ * Equiv.swap jf pf := by
    show rowPerm n s'.indx j * _ = _
    rw [rowPerm_congr n s'.indx s.indx j (fun k hk => by rw [hindx, store_ne _ _ (by omega)])]
    have : s'.indx j = p := by rw [hindx, store_same]
    simp only [this, hj, hpn, and_self, dif_pos]
    rfl
  have hτ : ∀ i : Fin n, ((Equiv.swap jf pf i : Fin n) : ℕ) = Equiv.swap p j (i : ℕ) :=
    fun i => swap_val pf jf i
  have hτlt : ∀ i : ℕ, i < j → Equiv.swap p j i = i :=
    fun i hi => Equiv.swap_apply_of_ne_of_ne (by omega) (by omega)
  have hτge : ∀ i : ℕ, j ≤ i → j ≤ Equiv.swap p j i := by
    intro i hi
    rcases eq_or_ne i p with rfl | h1
    · rw [Equiv.swap_apply_left]
    · rcases eq_or_ne i j with rfl | h2
      · rw [Equiv.swap_apply_right]; exact hjp
      · rwa [Equiv.swap_apply_of_ne_of_ne h1 h2]
  -- entries of the new array
  have a_other : ∀ i k : ℕ, i < n → k < n → k ≠ j → s'.a i k = s.a (Equiv.swap p j i) k := by
    intro i k hi hk hkj
    rw [ha, if_neg (by omega), if_pos hkj]
  have a_up : ∀ i : ℕ, i < j → s'.a i j = u i := by
    intro i hi
    rw [ha, if_neg (by omega), if_neg (by simp), if_pos hi]
  have a_piv : s'.a j j = fixed (w p) := by
    rw [ha, if_neg (by omega), if_neg (by simp), if_neg (by simp), if_pos rfl]
  have a_low : ∀ i : ℕ, j < i → i < n → s'.a i j = w (Equiv.swap p j i) * (1 / fixed (w p)) := by
    intro i hi hi'
    rw [ha, if_neg (by omega), if_neg (by simp), if_neg (by omega), if_neg (by omega)]
  -- Lf for columns < j
  have hLf : ∀ i l : ℕ, i < n → l < j → Lf s'.a i l = Lf s.a (Equiv.swap p j i) l := by
    intro i l hi hl
    unfold Lf
    rcases Nat.lt_or_ge i j with hij | hij
    · rw [hτlt i hij, a_other i l hi (by omega) (by omega), hτlt i hij]
    · rw [if_pos (by omega), if_pos (lt_of_lt_of_le hl (hτge i hij)),
        a_other i l hi (by omega) (by omega)]
  -- column j
  have hcol : ∀ i : Fin n, ∑ l ∈ range (j + 1), Lf s'.a i l * s'.a l j =
      a0 (σ (Equiv.swap jf pf i)) j + if i = jf then fixed (w p) - w p else 0 := by
    intro i
    have e0 : a0 (σ (Equiv.swap jf pf i)) j = s.a (Equiv.swap p j (i : ℕ)) j := by
      rw [← hτ]; exact (h.todo (Equiv.swap jf pf i) jf le_rfl).symm
    rw [e0, sum_range_succ]
    have e1 : ∑ l ∈ range j, Lf s'.a i l * s'.a l j =
        ∑ l ∈ range j, Lf s.a (Equiv.swap p j (i : ℕ)) l * u l := by
      refine sum_congr rfl fun l hl => ?_
      rw [mem_range] at hl
      rw [hLf i l i.2 hl, a_up l hl]
    rw [e1]
    rcases Nat.lt_or_ge (i : ℕ) j with hij | hij
    · rw [hτlt _ hij, if_neg (by rintro rfl; exact lt_irrefl _ hij)]
      have e2 : Lf s'.a i j = 0 := by
        unfold Lf; rw [if_neg (by omega), if_neg (by omega)]
      rw [e2, zero_mul, add_zero, add_zero]
      have e3 : ∑ l ∈ range j, Lf s.a i l * u l = ∑ l ∈ range ((i : ℕ) + 1), Lf s.a i l * u l := by
        symm
        refine sum_subset (range_subset_range.2 (by omega)) fun l _ hl => ?_
        rw [mem_range] at hl
        unfold Lf; rw [if_neg (by omega), if_neg (by omega), zero_mul]
      rw [e3, sum_range_succ]
      have e4 : Lf s.a (i : ℕ) (i : ℕ) = 1 := by unfold Lf; simp
      rw [e4, one_mul, hu i hij]
      have e5 : ∑ l ∈ range (i : ℕ), Lf s.a i l * u l = ∑ k ∈ range (i : ℕ), s.a i k * u k := by
        refine sum_congr rfl fun l hl => ?_
        rw [mem_range] at hl
        unfold Lf; rw [if_pos hl]
      rw [e5]; ring
    · have e2 : ∑ l ∈ range j, Lf s.a (Equiv.swap p j (i : ℕ)) l * u l =
          ∑ k ∈ range j, s.a (Equiv.swap p j (i : ℕ)) k * u k := by
        refine sum_congr rfl fun l hl => ?_
        rw [mem_range] at hl
        unfold Lf; rw [if_pos (lt_of_lt_of_le hl (hτge i hij))]
      have hlt : Equiv.swap p j (i : ℕ) < n := by rw [← hτ]; exact Fin.isLt _
      have e3 := hw (Equiv.swap p j (i : ℕ)) (hτge i hij) hlt
      rw [e2]
      rcases Nat.eq_or_lt_of_le hij with hij' | hij'
      · have hi : i = jf := Fin.ext hij'.symm
        rw [if_pos hi]
        have e4 : Equiv.swap p j (i : ℕ) = p := by rw [← hij', Equiv.swap_apply_right]
        rw [e4] at e3 ⊢
        have e5 : Lf s'.a i j = 1 := by unfold Lf; rw [if_neg (by omega), if_pos hij'.symm]
        rw [e5, a_piv, one_mul]
        linear_combination e3
      · rw [if_neg (by rintro rfl; exact lt_irrefl _ hij')]
        have e5 : Lf s'.a i j = s'.a i j := by unfold Lf; rw [if_pos hij']
        rw [e5, a_low i hij' i.2, a_piv, mul_assoc, one_div_mul_cancel (fixed_ne _), mul_one, e3]
        ring
  -- columns < j
  have hdone : ∀ i k : Fin n, (k : ℕ) < j →
      ∑ l ∈ range (k + 1), Lf s'.a i l * s'.a l k =
        a0 (σ (Equiv.swap jf pf i)) k + if i = k then δ k else 0 := by
    intro i k hk
    have e1 : ∑ l ∈ range ((k : ℕ) + 1), Lf s'.a i l * s'.a l k =
        ∑ l ∈ range ((k : ℕ) + 1), Lf s.a (Equiv.swap jf pf i : Fin n) l * s.a l k := by
      refine sum_congr rfl fun l hl => ?_
      rw [mem_range] at hl
      rw [hLf i l i.2 (by omega), hτ, a_other l k (by omega) k.2 (by omega), hτlt l (by omega)]
    rw [e1, h.done _ k hk]
    congr 1
    have : (Equiv.swap jf pf i = k) ↔ i = k := by
      constructor
      · intro e
        have e' := congrArg (fun x : Fin n => (x : ℕ)) e
        simp only [hτ] at e'
        rcases Nat.lt_or_ge (i : ℕ) j with hij | hij
        · rw [hτlt _ hij] at e'; exact Fin.ext e'
        · have := hτge _ hij; omega
      · rintro rfl
        exact Fin.ext (by rw [hτ, hτlt _ hk])
    simp only [this]
  -- non-singular input: the pivot is non-zero
  have hns : (toMat n a0).det ≠ 0 → w p ≠ 0 := by
    intro hdet hw0
    apply hdet
    have hδ := h.nonsing hdet
    refine det_zero_of_span (toMat n a0) (rowPerm n s.indx j) j hj (fun i l => Lf s.a i l)
      (fun l k => if k = j then u l else if l ≤ k then s.a l k else 0) ?_
    intro i k hk
    rcases Nat.eq_or_lt_of_le hk with hk | hk
    · -- column j
      have hkj : k = jf := Fin.ext hk
      show a0 (σ i) k = _
      simp only [hk, if_true]
      have e0 := h.todo i jf le_rfl
      have e0' : s.a i j = a0 (σ i) j := e0
      rw [← e0']
      rcases Nat.lt_or_ge (i : ℕ) j with hij | hij
      · have e3 : ∑ l ∈ range j, Lf s.a i l * u l = ∑ l ∈ range ((i : ℕ) + 1), Lf s.a i l * u l := by
          symm
          refine sum_subset (range_subset_range.2 (by omega)) fun l _ hl => ?_
          rw [mem_range] at hl
          unfold Lf; rw [if_neg (by omega), if_neg (by omega), zero_mul]
        rw [e3, sum_range_succ]
        have e4 : Lf s.a (i : ℕ) (i : ℕ) = 1 := by unfold Lf; simp
        rw [e4, one_mul, hu i hij]
        have e5 : ∑ l ∈ range (i : ℕ), Lf s.a i l * u l = ∑ k ∈ range (i : ℕ), s.a i k * u k := by
          refine sum_congr rfl fun l hl => ?_
          rw [mem_range] at hl
          unfold Lf; rw [if_pos hl]
        rw [e5]; ring
      · have e2 : ∑ l ∈ range j, Lf s.a i l * u l = ∑ k ∈ range j, s.a i k * u k := by
          refine sum_congr rfl fun l hl => ?_
          rw [mem_range] at hl
          unfold Lf; rw [if_pos (lt_of_lt_of_le hl hij)]
        have e3 := hw i hij i.2
        rw [hz hw0 i hij i.2] at e3
        rw [e2]
        linear_combination -e3
    · have e1 := h.done i k hk
      rw [hδ k hk] at e1
      show a0 (σ i) k = _
      simp only [ite_self, add_zero] at e1
      rw [← e1]
      have e3 : ∑ l ∈ range ((k : ℕ) + 1), Lf s.a i l * s.a l k =
          ∑ l ∈ range ((k : ℕ) + 1), Lf s.a i l * (if (l : ℕ) ≤ k then s.a l k else 0) := by
        refine sum_congr rfl fun l hl => ?_
        rw [mem_range] at hl
        rw [if_pos (by omega)]
      rw [e3]
      simp only [show ¬ (k : ℕ) = j by omega, if_false]
      refine sum_subset (range_subset_range.2 (by omega)) fun l _ hl => ?_
      rw [mem_range] at hl
      rw [if_neg (by omega), mul_zero]
  refine ⟨fun k => if k = j then fixed (w p) - w p else δ k, ?_, ?_, ?_, ?_, ?_, ?_, ?_, hvv, ?_⟩
  · -- parity
    rw [hperm, Equiv.Perm.sign_mul, hpar, h.parity, ← hσ]
    by_cases e : p = j
    · have : jf = pf := Fin.ext e.symm
      simp [e, this]
    · have : jf ≠ pf := fun hh => e (Fin.ext_iff.1 hh).symm
      rw [Equiv.Perm.sign_swap this]
      simp [e]
  · intro i k hk
    rw [hperm, Equiv.Perm.mul_apply]
    rcases Nat.lt_succ_iff_lt_or_eq.1 hk with hk | hk
    · rw [hdone i k hk, if_neg (show ¬ (k : ℕ) = j by omega)]
    · have hkj : k = jf := Fin.ext hk
      rw [if_pos hk, hkj]
      exact hcol i
  · intro i k hk
    rw [hperm, Equiv.Perm.mul_apply, a_other i k i.2 k.2 (by omega), ← hτ]
    exact h.todo _ k (by omega)
  · intro k hk
    rcases Nat.lt_succ_iff_lt_or_eq.1 hk with hk | rfl
    · rw [a_other k k (by omega) (by omega) (by omega), hτlt k hk]; exact h.piv k hk
    · rw [a_piv]; exact fixed_ne _
  · intro k hk
    rcases Nat.lt_succ_iff_lt_or_eq.1 hk with hk | rfl
    · rw [if_neg (by omega)]; exact h.delta k hk
    · rw [if_pos rfl]
      unfold fixed
      split_ifs with hh
      · right; rw [hh, sub_zero]
      · left; exact sub_self _
  · intro hdet k hk
    rcases Nat.lt_succ_iff_lt_or_eq.1 hk with hk | rfl
    · rw [if_neg (by omega)]; exact h.nonsing hdet k hk
    · rw [if_pos rfl]; unfold fixed; rw [if_neg (hns hdet), sub_self]
  · intro k hk
    rw [hindx]
    rcases Nat.lt_succ_iff_lt_or_eq.1 hk with hk | rfl
    · rw [store_ne _ _ (by omega)]; exact h.indx k hk
    · rw [store_same]; exact ⟨hjp, hpn⟩
  · intro i k hik
    rw [ha, if_pos hik]; exact h.frame i k hik

theorem inv_all (n : ℕ) (a0 : ℕ → ℕ → K) (indx : ℕ → ℕ) (vv : ℕ → K) (hvv : ∀ i < n, 0 < vv i) :
    ∃ δ, Inv n a0 n (loop n (column n) { a := a0, indx := indx, parity := 1, vv := vv }) δ := by
  refine loop_inv (n := n) (I := fun j s => ∃ δ, Inv n a0 j s δ) ?_ ?_
  · refine ⟨fun _ => 0, ?_, ?_, ?_, ?_, ?_, ?_, ?_, hvv, ?_⟩ <;> simp [rowPerm]
  · rintro j s hj ⟨δ, h⟩
    exact inv_step n a0 j hj s δ h

/-- The packed factors multiply to the permuted (and possibly `tiny`-regularised) matrix. -/
theorem factor_of_inv (n : ℕ) (a0 : ℕ → ℕ → K) (s : St K) (δ : ℕ → K) (h : Inv n a0 n s δ) :
    Lmat n s.a * Umat n s.a =
      (toMat n a0).submatrix (rowPerm n s.indx n) id + Matrix.diagonal (fun i : Fin n => δ i) := by
  ext i k
  have h1 := h.done i k k.2
  rw [Matrix.mul_apply, Matrix.add_apply, Matrix.diagonal_apply]
  have e : (if i = k then δ (i : ℕ) else 0) = if i = k then δ (k : ℕ) else 0 := by
    split_ifs with hh
    · rw [hh]
    · rfl
  rw [e]
  refine Eq.trans ?_ h1
  have : ∀ l : Fin n, Lmat n s.a i l * Umat n s.a l k =
      (fun l : ℕ => Lf s.a i l * (if l ≤ (k : ℕ) then s.a l k else 0)) l := by
    intro l
    simp only [Lmat, Umat, Lf, Fin.lt_def, Fin.le_def, Fin.ext_iff]
  rw [Finset.sum_congr rfl (fun l _ => this l),
    Fin.sum_univ_eq_sum_range (fun l : ℕ => Lf s.a i l * (if l ≤ (k : ℕ) then s.a l k else 0)) n]
  symm
  refine (sum_congr rfl fun l hl => ?_).trans
    (sum_subset (range_subset_range.2 (show (k : ℕ) + 1 ≤ n by omega)) fun l _ hl => ?_)
  · rw [mem_range] at hl
    rw [if_pos (show l ≤ (k : ℕ) by omega)]
  · rw [mem_range] at hl
    rw [if_neg (show ¬ l ≤ (k : ℕ) by omega), mul_zero]

end Verif.LU
