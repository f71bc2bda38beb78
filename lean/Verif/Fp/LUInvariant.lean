import Verif.Fp.LULemmas

/-! # Rounded LU: the factorisation, column by column -/

set_option linter.unusedSectionVars false
namespace Verif.LU
open Finset Verif.Fp

variable (R : Rounding)

/-- State of the factorisation after the first `j` columns. -/
structure InvR (n : ℕ) (a0 : ℕ → ℕ → ℝ) (j : ℕ) (s : St ℝ) (δ : ℕ → ℝ) : Prop where
  parity : s.parity = ((Equiv.Perm.sign (rowPerm n s.indx j) : ℤˣ) : ℤ)
  done : ∀ i k : Fin n, (k : ℕ) < j →
    |∑ l ∈ range (k + 1), Lf s.a i l * s.a l k - a0 (rowPerm n s.indx j i) k| ≤
      R.g n * (∑ l ∈ range (k + 1), |Lf s.a i l| * |s.a l k|) + if i = k then δ k else 0
  todo : ∀ i k : Fin n, j ≤ (k : ℕ) → s.a i k = a0 (rowPerm n s.indx j i) k
  piv : ∀ k < j, s.a k k ≠ 0
  delta : ∀ k < j, δ k = 0 ∨ (δ k = tinyR R ∧ s.a k k = tinyR R)
  indx : ∀ k < j, k ≤ s.indx k ∧ s.indx k < n
  vv : ∀ i < n, 0 < s.vv i
  frame : ∀ i k, n ≤ i ∨ n ≤ k → s.a i k = a0 i k

theorem tinyR_nonneg : 0 ≤ tinyR R := R.fl_nonneg (by unfold tiny; positivity)

/-- the multiplier: product with the rounded reciprocal -/
theorem mult_err (hu : R.u < 1) {w q : ℝ} (hq : q ≠ 0) :
    |R.fl (w * R.fl (1 / q)) * q - w| ≤ R.g 2 * (|R.fl (w * R.fl (1 / q))| * |q|) ∧
      |w| ≤ (1 + R.v) ^ 2 * (|R.fl (w * R.fl (1 / q))| * |q|) := by
  set t := R.fl (1 / q) with ht
  set l := R.fl (w * t) with hl
  have h1 : |t * q - 1| ≤ R.u := by
    have := R.err (1 / q)
    rw [← ht] at this
    have h := mul_le_mul_of_nonneg_right this (abs_nonneg q)
    rw [← abs_mul, mul_assoc, ← abs_mul, one_div_mul_cancel hq, abs_one, mul_one, sub_mul, one_div_mul_cancel hq] at h
    exact h
  have h2 := R.err_v hu (w * t)
  have h3 := R.abs_le_v hu (w * t)
  rw [← hl] at h2 h3
  have hv := R.v_nonneg hu
  -- |w| ≤ (1+v) |w t q|
  have h4 : |w| ≤ (1 + R.v) * (|w * t| * |q|) := by
    have : |w| * (1 - R.u) ≤ |w * t| * |q| := by
      rw [abs_mul, mul_assoc, ← abs_mul]
      refine mul_le_mul_of_nonneg_left ?_ (abs_nonneg _)
      have := abs_sub_abs_le_abs_sub 1 (t * q)
      rw [abs_one, abs_sub_comm] at this
      linarith
    rw [R.one_add_v hu, div_mul_eq_mul_div, one_mul, le_div_iff₀ (by linarith)]
    exact this
  have h5 : |w * t| * |q| ≤ (1 + R.v) * (|l| * |q|) := by
    have := mul_le_mul_of_nonneg_right h3 (abs_nonneg q)
    linarith
  have h6 : |w| ≤ (1 + R.v) ^ 2 * (|l| * |q|) := by
    have := mul_le_mul_of_nonneg_left h5 (show 0 ≤ 1 + R.v by linarith)
    nlinarith
  refine ⟨?_, h6⟩
  have e : l * q - w = (l - w * t) * q + w * (t * q - 1) := by ring
  have h7 : |l * q - w| ≤ R.v * (|l| * |q|) + R.u * |w| := by
    rw [e]
    refine (abs_add_le _ _).trans ?_
    rw [abs_mul, abs_mul]
    have k1 := mul_le_mul_of_nonneg_right h2 (abs_nonneg q)
    have k2 := mul_le_mul_of_nonneg_left h1 (abs_nonneg w)
    linarith
  have h8 : R.u * |w| ≤ R.u * ((1 + R.v) ^ 2 * (|l| * |q|)) := mul_le_mul_of_nonneg_left h6 R.u_nonneg
  have h9 : R.u * ((1 + R.v) ^ 2 * (|l| * |q|)) = R.v * (1 + R.v) * (|l| * |q|) := by
    rw [← R.u_one_add_v hu]
    rw [R.u_one_add_v hu]
    calc _ = (R.u * (1 + R.v)) * (1 + R.v) * (|l| * |q|) := by ring
      _ = _ := by rw [R.u_one_add_v hu]
  unfold Rounding.g
  nlinarith

theorem invR_step (hu : R.u < 1) (n : ℕ) (a0 : ℕ → ℕ → ℝ) (j : ℕ) (hj : j < n) (s : St ℝ) (δ : ℕ → ℝ)
    (h : InvR R n a0 j s δ) : ∃ δ', InvR R n a0 (j + 1) (columnR R n j s) δ' := by
  obtain ⟨p, hjp, hpn, hindx, hpar, hvv, -, u, w, hu', hw, -, -, ha⟩ := columnR_spec R hu n j hj s h.vv
  set s' := columnR R n j s with hs'
  set σ := rowPerm n s.indx j with hσ
  let jf : Fin n := ⟨j, hj⟩
  let pf : Fin n := ⟨p, hpn⟩
  have hperm : rowPerm n s'.indx (j + 1) = σ * Equiv.swap jf pf := by
    show rowPerm n s'.indx j * _ = _
    rw [rowPerm_congr n s'.indx s.indx j (fun k hk => by rw [hindx, store_ne _ _ (by omega)])]
    have : s'.indx j = p := by rw [hindx, store_same]
    simp only [this, hj, hpn, and_self, dif_pos]
    rfl
  have hτ : ∀ i : Fin n, ((Equiv.swap jf pf i : Fin n) : ℕ) = Equiv.swap p j (i : ℕ) :=
    fun i => swap_val pf jf i
  have hτlt : ∀ i : ℕ, i < j → Equiv.swap p j i = i :=
    fun i hi => Equiv.swap_apply_of_ne_of_ne (by omega) (by omega)
  have hτge : ∀ i : ℕ, j ≤ i → j ≤ Equiv.swap p j i := by
    intro i hi
    rcases eq_or_ne i p with rfl | h1
    · rw [Equiv.swap_apply_left]
    · rcases eq_or_ne i j with rfl | h2
      · rw [Equiv.swap_apply_right]; exact hjp
      · rwa [Equiv.swap_apply_of_ne_of_ne h1 h2]
  have a_other : ∀ i k : ℕ, i < n → k < n → k ≠ j → s'.a i k = s.a (Equiv.swap p j i) k := by
    intro i k hi hk hkj
    rw [ha, if_neg (by omega), if_pos hkj]
  have a_up : ∀ i : ℕ, i < j → s'.a i j = u i := by
    intro i hi
    rw [ha, if_neg (by omega), if_neg (by simp), if_pos hi]
  have a_piv : s'.a j j = fixedR R (w p) := by
    rw [ha, if_neg (by omega), if_neg (by simp), if_neg (by simp), if_pos rfl]
  have a_low : ∀ i : ℕ, j < i → i < n → s'.a i j = R.fl (w (Equiv.swap p j i) * R.fl (1 / fixedR R (w p))) := by
    intro i hi hi'
    rw [ha, if_neg (by omega), if_neg (by simp), if_neg (by omega), if_neg (by omega)]
  have hLf : ∀ i l : ℕ, i < n → l < j → Lf s'.a i l = Lf s.a (Equiv.swap p j i) l := by
    intro i l hi hl
    unfold Lf
    rcases Nat.lt_or_ge i j with hij | hij
    · rw [hτlt i hij, a_other i l hi (by omega) (by omega), hτlt i hij]
    · rw [if_pos (by omega), if_pos (lt_of_lt_of_le hl (hτge i hij)),
        a_other i l hi (by omega) (by omega)]
  have hgn := R.g_nonneg hu n
  -- column j
  have hcol : ∀ i : Fin n, |∑ l ∈ range (j + 1), Lf s'.a i l * s'.a l j - a0 (σ (Equiv.swap jf pf i)) j| ≤
      R.g n * (∑ l ∈ range (j + 1), |Lf s'.a i l| * |s'.a l j|) +
        if i = jf then (if w p = 0 then tinyR R else 0) else 0 := by
    intro i
    have e0 : a0 (σ (Equiv.swap jf pf i)) j = s.a (Equiv.swap p j (i : ℕ)) j := by
      rw [← hτ]; exact (h.todo (Equiv.swap jf pf i) jf le_rfl).symm
    rw [e0, sum_range_succ, sum_range_succ]
    have e1 : ∑ l ∈ range j, Lf s'.a i l * s'.a l j =
        ∑ l ∈ range j, Lf s.a (Equiv.swap p j (i : ℕ)) l * u l := by
      refine sum_congr rfl fun l hl => ?_
      rw [mem_range] at hl
      rw [hLf i l i.2 hl, a_up l hl]
    have e1' : ∑ l ∈ range j, |Lf s'.a i l| * |s'.a l j| =
        ∑ l ∈ range j, |Lf s.a (Equiv.swap p j (i : ℕ)) l| * |u l| := by
      refine sum_congr rfl fun l hl => ?_
      rw [mem_range] at hl
      rw [hLf i l i.2 hl, a_up l hl]
    rw [e1, e1']
    rcases Nat.lt_or_ge (i : ℕ) j with hij | hij
    · rw [hτlt _ hij, if_neg (by rintro rfl; exact lt_irrefl _ hij)]
      have e2 : Lf s'.a i j = 0 := by
        unfold Lf; rw [if_neg (by omega), if_neg (by omega)]
      rw [e2, zero_mul, add_zero, add_zero, abs_zero, zero_mul, add_zero]
      have e3 : ∀ f : ℝ → ℝ, f 0 = 0 → ∑ l ∈ range j, f (Lf s.a i l) * f (u l) =
          f 1 * f (u i) + ∑ k ∈ range (i : ℕ), f (s.a i k) * f (u k) := by
        intro f f0
        have q1 : ∑ l ∈ range j, f (Lf s.a i l) * f (u l) = ∑ l ∈ range ((i : ℕ) + 1), f (Lf s.a i l) * f (u l) := by
          symm
          refine sum_subset (range_subset_range.2 (by omega)) fun l _ hl => ?_
          rw [mem_range] at hl
          unfold Lf; rw [if_neg (by omega), if_neg (by omega), f0, zero_mul]
        rw [q1, sum_range_succ]
        have e4 : Lf s.a (i : ℕ) (i : ℕ) = 1 := by unfold Lf; simp
        rw [e4, add_comm]
        congr 1
        refine sum_congr rfl fun l hl => ?_
        rw [mem_range] at hl
        unfold Lf; rw [if_pos hl]
      have e4 := e3 id rfl
      have e5 := e3 abs abs_zero
      simp only [id] at e4
      rw [e4, e5, one_mul, abs_one, one_mul]
      have e6 := innerR_err R hu (i : ℕ) (fun k => s.a i k) u (s.a i j)
      rw [← hu' i hij] at e6
      rw [abs_sub_comm, show s.a (i : ℕ) j - (u i + ∑ k ∈ range (i : ℕ), s.a i k * u k) =
        s.a (i : ℕ) j - ∑ k ∈ range (i : ℕ), s.a i k * u k - u i by ring]
      refine e6.trans (mul_le_mul_of_nonneg_right (R.g_mono hu (by omega)) ?_)
      exact add_nonneg (abs_nonneg _) (sum_nonneg fun k _ => by positivity)
    · have e2 : ∀ f : ℝ → ℝ, ∑ l ∈ range j, f (Lf s.a (Equiv.swap p j (i : ℕ)) l) * f (u l) =
          ∑ k ∈ range j, f (s.a (Equiv.swap p j (i : ℕ)) k) * f (u k) := by
        intro f
        refine sum_congr rfl fun l hl => ?_
        rw [mem_range] at hl
        unfold Lf; rw [if_pos (lt_of_lt_of_le hl (hτge i hij))]
      have hlt : Equiv.swap p j (i : ℕ) < n := by rw [← hτ]; exact Fin.isLt _
      have e3 := innerR_err R hu j (fun k => s.a (Equiv.swap p j (i : ℕ)) k) u (s.a (Equiv.swap p j (i : ℕ)) j)
      rw [← hw (Equiv.swap p j (i : ℕ)) (hτge i hij) hlt] at e3
      have e2a := e2 id
      simp only [id] at e2a
      rw [e2a, e2 abs]
      set c := s.a (Equiv.swap p j (i : ℕ)) j
      set S := ∑ k ∈ range j, s.a (Equiv.swap p j (i : ℕ)) k * u k
      set T := ∑ k ∈ range j, |s.a (Equiv.swap p j (i : ℕ)) k| * |u k| with hT
      have hTn : 0 ≤ T := sum_nonneg fun k _ => by positivity
      rcases Nat.eq_or_lt_of_le hij with hij' | hij'
      · have hi : i = jf := Fin.ext hij'.symm
        rw [if_pos hi]
        have e4 : Equiv.swap p j (i : ℕ) = p := by rw [← hij', Equiv.swap_apply_right]
        rw [e4] at e3
        have e5 : Lf s'.a i j = 1 := by unfold Lf; rw [if_neg (by omega), if_pos hij'.symm]
        rw [e5, a_piv, one_mul, abs_one, one_mul]
        have hgj : R.g j ≤ R.g n := R.g_mono hu hj.le
        unfold fixedR
        by_cases hw0 : w p = 0
        · rw [if_pos hw0, if_pos hw0]
          rw [hw0, sub_zero, abs_zero, zero_add] at e3
          have ht := tinyR_nonneg R
          have k1 : |S + tinyR R - c| ≤ |c - S| + tinyR R := by
            rw [show S + tinyR R - c = tinyR R - (c - S) by ring]
            refine (abs_sub _ _).trans ?_
            rw [abs_of_nonneg ht]; linarith
          have k2 : R.g j * T ≤ R.g n * T := mul_le_mul_of_nonneg_right hgj hTn
          have k3 : 0 ≤ R.g n * |tinyR R| := by positivity
          nlinarith
        · rw [if_neg hw0, if_neg hw0, add_zero, abs_sub_comm, show c - (S + w p) = c - S - w p by ring]
          refine e3.trans ?_
          rw [add_comm T]
          exact mul_le_mul_of_nonneg_right hgj (by positivity)
      · rw [if_neg (by rintro rfl; exact lt_irrefl _ hij'), add_zero]
        have e5 : Lf s'.a i j = s'.a i j := by unfold Lf; rw [if_pos hij']
        rw [e5, a_low i hij' i.2, a_piv]
        obtain ⟨m1, m2⟩ := mult_err R hu (w := w (Equiv.swap p j (i : ℕ))) (fixedR_ne R hu (w p))
        set q := fixedR R (w p)
        set wi := w (Equiv.swap p j (i : ℕ))
        set l := R.fl (wi * R.fl (1 / q))
        have hlq : 0 ≤ |l| * |q| := by positivity
        have hgj := R.g_nonneg hu j
        have hg2 : R.g (j + 2) ≤ R.g n := R.g_mono hu (by have := i.2; omega)
        have hg0 : R.g j ≤ R.g n := R.g_mono hu hj.le
        have hgadd : R.g (j + 2) = R.g j * (1 + R.v) ^ 2 + R.g 2 := by unfold Rounding.g; ring
        rw [show S + l * q - c = (l * q - wi) - (c - S - wi) by ring]
        refine (abs_sub _ _).trans ?_
        have k1 : R.g j * |wi| ≤ R.g j * ((1 + R.v) ^ 2 * (|l| * |q|)) := mul_le_mul_of_nonneg_left m2 hgj
        have k2 : R.g j * T ≤ R.g n * T := mul_le_mul_of_nonneg_right hg0 hTn
        have k3 : R.g (j + 2) * (|l| * |q|) ≤ R.g n * (|l| * |q|) := mul_le_mul_of_nonneg_right hg2 hlq
        rw [hgadd] at k3
        nlinarith
  -- columns < j
  have hdone : ∀ i k : Fin n, (k : ℕ) < j →
      |∑ l ∈ range (k + 1), Lf s'.a i l * s'.a l k - a0 (σ (Equiv.swap jf pf i)) k| ≤
        R.g n * (∑ l ∈ range (k + 1), |Lf s'.a i l| * |s'.a l k|) + if i = k then δ k else 0 := by
    intro i k hk
    have e1 : ∀ f : ℝ → ℝ, ∑ l ∈ range ((k : ℕ) + 1), f (Lf s'.a i l) * f (s'.a l k) =
        ∑ l ∈ range ((k : ℕ) + 1), f (Lf s.a (Equiv.swap jf pf i : Fin n) l) * f (s.a l k) := by
      intro f
      refine sum_congr rfl fun l hl => ?_
      rw [mem_range] at hl
      rw [hLf i l i.2 (by omega), hτ, a_other l k (by omega) k.2 (by omega), hτlt l (by omega)]
    have e1a := e1 id
    simp only [id] at e1a
    rw [e1a, e1 abs]
    refine (h.done _ k hk).trans (le_of_eq ?_)
    congr 1
    have : (Equiv.swap jf pf i = k) ↔ i = k := by
      constructor
      · intro e
        have e' := congrArg (fun x : Fin n => (x : ℕ)) e
        simp only [hτ] at e'
        rcases Nat.lt_or_ge (i : ℕ) j with hij | hij
        · rw [hτlt _ hij] at e'; exact Fin.ext e'
        · have := hτge _ hij; omega
      · rintro rfl
        exact Fin.ext (by rw [hτ, hτlt _ hk])
    simp only [this]
  refine ⟨fun k => if k = j then (if w p = 0 then tinyR R else 0) else δ k, ?_, ?_, ?_, ?_, ?_, ?_, hvv, ?_⟩
  · -- parity
    rw [hperm, Equiv.Perm.sign_mul, hpar, h.parity, ← hσ]
    by_cases e : p = j
    · have : jf = pf := Fin.ext e.symm
      simp [e, this]
    · have : jf ≠ pf := fun hh => e (Fin.ext_iff.1 hh).symm
      rw [Equiv.Perm.sign_swap this]
      simp [e]
  · intro i k hk
    rw [hperm, Equiv.Perm.mul_apply]
    rcases Nat.lt_succ_iff_lt_or_eq.1 hk with hk | hk
    · rw [if_neg (show ¬ (k : ℕ) = j by omega)]; exact hdone i k hk
    · have hkj : k = jf := Fin.ext hk
      rw [if_pos hk, hkj]
      exact hcol i
  · intro i k hk
    rw [hperm, Equiv.Perm.mul_apply, a_other i k i.2 k.2 (by omega), ← hτ]
    exact h.todo _ k (by omega)
  · intro k hk
    rcases Nat.lt_succ_iff_lt_or_eq.1 hk with hk | rfl
    · rw [a_other k k (by omega) (by omega) (by omega), hτlt k hk]; exact h.piv k hk
    · rw [a_piv]; exact fixedR_ne R hu _
  · intro k hk
    rcases Nat.lt_succ_iff_lt_or_eq.1 hk with hk | rfl
    · rw [if_neg (by omega), a_other k k (by omega) (by omega) (by omega), hτlt k hk]; exact h.delta k hk
    · rw [if_pos rfl, a_piv]
      unfold fixedR
      by_cases hh : w p = 0
      · rw [if_pos hh, if_pos hh]; exact Or.inr ⟨rfl, rfl⟩
      · rw [if_neg hh]; exact Or.inl rfl
  · intro k hk
    rw [hindx]
    rcases Nat.lt_succ_iff_lt_or_eq.1 hk with hk | rfl
    · rw [store_ne _ _ (by omega)]; exact h.indx k hk
    · rw [store_same]; exact ⟨hjp, hpn⟩
  · intro i k hik
    rw [ha, if_pos hik]; exact h.frame i k hik

theorem invR_all (hu : R.u < 1) (n : ℕ) (a0 : ℕ → ℕ → ℝ) (indx : ℕ → ℕ) (vv : ℕ → ℝ) (hvv : ∀ i < n, 0 < vv i) :
    ∃ δ, InvR R n a0 n (loop n (columnR R n) { a := a0, indx := indx, parity := 1, vv := vv }) δ := by
  refine loop_inv (n := n) (I := fun j s => ∃ δ, InvR R n a0 j s δ) ?_ ?_
  · refine ⟨fun _ => 0, ?_, ?_, ?_, ?_, ?_, ?_, hvv, ?_⟩ <;> simp [rowPerm]
  · rintro j s hj ⟨δ, h⟩
    exact invR_step R hu n a0 j hj s δ h

end Verif.LU
