import Verif.LU.Solve
import Mathlib.LinearAlgebra.Matrix.NonsingularInverse
import Mathlib.LinearAlgebra.Matrix.Notation
import Mathlib.Algebra.Order.Ring.Rat
import Mathlib.Tactic.NormNum

/-!
# C17, C18, C19, C59: the LU solver
-/

namespace Verif.LU

open Finset

variable {K : Type*} [Field K] [LinearOrder K] [IsStrictOrderedRing K]

/-! ## C17 -/

/-- **C17** (return value). `LU_decompos` returns 0 exactly when some row of the input is zero, and
then leaves the matrix and the index array as they were; otherwise it returns 1. -/
theorem C17_ret (n : ℕ) (a : ℕ → ℕ → K) (indx : ℕ → ℕ) :
    ((decompos n a indx).ret = 0 ↔ ∃ i < n, ∀ j < n, a i j = 0) ∧
    ((decompos n a indx).ret = 0 → (decompos n a indx).a = a ∧ (decompos n a indx).indx = indx) ∧
    ((decompos n a indx).ret = 0 ∨ (decompos n a indx).ret = 1) := by
  obtain ⟨h1, -⟩ := scaling_spec n a
  rw [← h1]
  unfold decompos
  cases scaling n a <;> simp

/-- What a successful factorisation leaves behind, for every input: the stored factors multiply to
the row-permuted input, up to `TINY` on the diagonal entries whose pivot was exactly zero. -/
theorem C17_regularised (n : ℕ) (a : ℕ → ℕ → K) (indx : ℕ → ℕ)
    (hret : (decompos n a indx).ret = 1) :
    let r := decompos n a indx
    (∃ δ : Fin n → K, (∀ k, δ k = 0 ∨ δ k = tiny) ∧ ((toMat n a).det ≠ 0 → δ = 0) ∧
      Lmat n r.a * Umat n r.a =
        (toMat n a).submatrix (rowPerm n r.indx n) id + Matrix.diagonal δ) ∧
    (∀ k < n, k ≤ r.indx k ∧ r.indx k < n) ∧ (∀ k < n, r.a k k ≠ 0) ∧
    r.parity = ((Equiv.Perm.sign (rowPerm n r.indx n) : ℤˣ) : ℤ) ∧
    ∀ i k, n ≤ i ∨ n ≤ k → r.a i k = a i k := by
  obtain ⟨-, h2⟩ := scaling_spec n a
  unfold decompos at hret ⊢
  cases hs : scaling n a with
  | none => rw [hs] at hret; simp at hret
  | some vv =>
    obtain ⟨δ, h⟩ := inv_all n a indx vv (h2 vv hs)
    exact ⟨⟨fun k => δ k, fun k => h.delta k k.2, fun hd => funext fun k => h.nonsing hd k k.2,
      factor_of_inv n a _ δ h⟩, h.indx, h.piv, h.parity, h.frame⟩

/-- **C17** (factorisation). For every non-singular matrix `LU_decompos` returns 1, the stored
factors satisfy `L U = P A` with `P` the recorded interchanges, `parity` is the sign of `P`, every
recorded index is in range, and nothing outside the `n × n` block is touched. -/
theorem C17_factor (n : ℕ) (a : ℕ → ℕ → K) (indx : ℕ → ℕ) (hdet : (toMat n a).det ≠ 0) :
    let r := decompos n a indx
    r.ret = 1 ∧
    Lmat n r.a * Umat n r.a = (toMat n a).submatrix (rowPerm n r.indx n) id ∧
    r.parity = ((Equiv.Perm.sign (rowPerm n r.indx n) : ℤˣ) : ℤ) ∧
    (∀ k < n, k ≤ r.indx k ∧ r.indx k < n) ∧
    ∀ i k, n ≤ i ∨ n ≤ k → r.a i k = a i k := by
  intro r
  have hret : r.ret = 1 := by
    rcases (C17_ret n a indx).2.2 with h | h
    · exfalso
      obtain ⟨i, hi, hz⟩ := (C17_ret n a indx).1.1 h
      exact hdet (Matrix.det_eq_zero_of_row_eq_zero (⟨i, hi⟩ : Fin n) fun j => hz j j.2)
    · exact h
  obtain ⟨⟨δ, -, hδ, hf⟩, h1, -, h2, h3⟩ := C17_regularised n a indx hret
  rw [hδ hdet] at hf
  have e : Matrix.diagonal (0 : Fin n → K) = 0 := by ext i j; simp [Matrix.diagonal]
  rw [e, add_zero] at hf
  exact ⟨hret, hf, h2, h1, h3⟩

/-- **C17** (negative). slam.h promises 0 for a singular matrix. The singular matrix with all
entries 1 has no zero row and returns 1. -/
theorem C17_singular_negation :
    ¬ ∀ (n : ℕ) (a : ℕ → ℕ → ℚ) (indx : ℕ → ℕ), (toMat n a).det = 0 → (decompos n a indx).ret = 0 := by
  intro h
  have h1 := h 2 (fun _ _ => 1) (fun _ => 0) (by rw [Matrix.det_fin_two]; simp [toMat])
  obtain ⟨i, -, hz⟩ := (C17_ret 2 (fun _ _ => (1 : ℚ)) (fun _ => 0)).1.1 h1
  exact one_ne_zero (hz 0 (by norm_num))

/-- A 3×3 example used below: it needs row interchanges. -/
def exA : ℕ → ℕ → ℚ
  | 0, 0 => 0 | 0, 1 => 2 | 0, 2 => 1
  | 1, 0 => 1 | 1, 1 => 1 | 1, 2 => 0
  | 2, 0 => 4 | 2, 1 => 0 | 2, 2 => 3
  | _, _ => 0

theorem exA_det : (toMat 3 exA).det ≠ 0 := by
  rw [Matrix.det_fin_three]; simp [toMat, exA]; norm_num

example : (toMat 3 exA).det ≠ 0 := exA_det
example : (decompos 3 exA (fun _ => 0)).ret = 1 := (C17_factor 3 exA _ exA_det).1
example : ((decompos 3 exA (fun _ => 0)).parity, (decompos 3 exA (fun _ => 0)).indx 0) = (1, 2) := by
  decide +kernel

/-! ## C18 -/

/-- **C18**. After `LU_decompos` of a non-singular `A`, `LU_backsub` replaces `b` by the unique
solution of `A x = b`; entries beyond `n` are untouched. -/
theorem C18_solve (n : ℕ) (a : ℕ → ℕ → K) (indx : ℕ → ℕ) (hdet : (toMat n a).det ≠ 0) (b : ℕ → K) :
    let r := decompos n a indx
    let x := backsub n r.a r.indx b
    (toMat n a).mulVec (fun i : Fin n => x i) = (fun i : Fin n => b i) ∧
    (∀ z : Fin n → K, (toMat n a).mulVec z = (fun i : Fin n => b i) → z = fun i : Fin n => x i) ∧
    ∀ l, n ≤ l → x l = b l := by
  intro r x
  obtain ⟨hret, hf, -, h1, -⟩ := C17_factor n a indx hdet
  obtain ⟨-, -, hp, -, -⟩ := C17_regularised n a indx hret
  obtain ⟨hs, hfr⟩ := backsub_spec n r.a r.indx b h1 hp
  have hx : (toMat n a).mulVec (fun i : Fin n => x i) = (fun i : Fin n => b i) := by
    rw [hf] at hs
    funext i
    have := congrFun hs ((rowPerm n r.indx n).symm i)
    simp only [Equiv.apply_symm_apply] at this
    rw [← this]
    have e : rowPerm n (decompos n a indx).indx n ((rowPerm n r.indx n).symm i) = i :=
      Equiv.apply_symm_apply _ _
    show _ = ∑ k : Fin n, toMat n a (rowPerm n (decompos n a indx).indx n
      ((rowPerm n r.indx n).symm i)) k * _
    rw [e]
    rfl
  refine ⟨hx, fun z hz => ?_, hfr⟩
  have hu : IsUnit (toMat n a) := (Matrix.isUnit_iff_isUnit_det _).2 hdet.isUnit
  exact Matrix.mulVec_injective_of_isUnit hu (hz.trans hx.symm)

example : backsub 3 (decompos 3 exA (fun _ => 0)).a
    (decompos 3 exA (fun _ => 0)).indx (fun i => (i : ℚ) + 1) 1 = 4 / 5 := by
  decide +kernel

/-! ## C19 -/

/-- **C19** (inverse). After `LU_decompos` of a non-singular `A`, `LU_invert` fills the two-sided
inverse, whatever the previous content of the output and scratch arrays. -/
theorem C19_invert (n : ℕ) (a : ℕ → ℕ → K) (indx : ℕ → ℕ) (hdet : (toMat n a).det ≠ 0)
    (inv0 : ℕ → ℕ → K) (col0 : ℕ → K) :
    let r := decompos n a indx
    let inv := (invert n r.a r.indx inv0 col0).1
    toMat n a * toMat n inv = 1 ∧ toMat n inv * toMat n a = 1 := by
  intro r inv
  have key := loop_inv (n := n) (s := ((inv0, col0) : (ℕ → ℕ → K) × (ℕ → K)))
    (body := fun j s =>
      let col := loop n (fun i col => store col i 0) s.2
      let col := store col j 1
      let col := backsub n r.a r.indx col
      (loop n (fun i inv => store2 inv i j (col i)) s.1, col))
    (I := fun j s => ∀ k : Fin n, (k : ℕ) < j →
      (toMat n a).mulVec (fun i : Fin n => s.1 i k) = fun i : Fin n => if i = k then 1 else 0)
    (by simp) ?_
  · have h1 : toMat n a * toMat n inv = 1 := by
      ext i k
      have := congrFun (key k k.2) i
      rw [Matrix.one_apply]
      rw [← this]; rfl
    exact ⟨h1, mul_eq_one_comm.1 h1⟩
  · rintro j ⟨inv, col⟩ hj ih k hk
    simp only [loop_store]
    have hst : ∀ (c : ℕ → K) (i k : ℕ), loop n (fun i inv => store2 inv i j (c i)) inv i k =
        if k = j ∧ i < n then c i else inv i k := by
      intro c i k
      refine loop_inv (n := n) (I := fun m (v : ℕ → ℕ → K) => ∀ i k,
        v i k = if k = j ∧ i < m then c i else inv i k) (by simp) ?_ i k
      intro m v hm hv i k
      simp only [store2]
      by_cases e : i = m ∧ k = j
      · obtain ⟨rfl, rfl⟩ := e; simp
      · rw [if_neg e, hv]
        by_cases e2 : k = j ∧ i < m
        · rw [if_pos e2, if_pos ⟨e2.1, by omega⟩]
        · rw [if_neg e2, if_neg (by rintro ⟨h1, h2⟩; exact e2 ⟨h1, by omega⟩)]
    rcases Nat.lt_succ_iff_lt_or_eq.1 hk with hk | hk
    · rw [← ih k hk]
      congr 1
      funext i
      rw [hst, if_neg (by omega)]
    · set c := store (fun i => if i < n then (0 : K) else col i) j 1 with hc
      have hs := (C18_solve n a indx hdet c).1
      have e1 : (fun i : Fin n => loop n (fun i inv => store2 inv i j (backsub n r.a r.indx c i)) inv i k) =
          fun i : Fin n => backsub n r.a r.indx c i := by
        funext i; rw [hst, if_pos ⟨hk, i.2⟩]
      rw [e1]
      refine hs.trans ?_
      funext i
      by_cases e : i = k
      · rw [if_pos e, hc, e, hk, store_same]
      · rw [if_neg e, hc, store_ne _ _ (by intro h; exact e (Fin.ext (by omega))), if_pos i.2]

/-- **C19** (determinant). After `LU_decompos` of a non-singular `A`, `LU_determ` returns `det A`. -/
theorem C19_determ (n : ℕ) (a : ℕ → ℕ → K) (indx : ℕ → ℕ) (hdet : (toMat n a).det ≠ 0) :
    let r := decompos n a indx
    determ n r.a r.parity = (toMat n a).det := by
  intro r
  obtain ⟨-, hf, hpar, -, -⟩ := C17_factor n a indx hdet
  have hL : (Lmat n r.a).det = 1 := by
    rw [Matrix.det_of_isLowerTriangular]
    · simp [Lmat]
    · intro i j hij
      have hij' : i < j := hij
      simp [Lmat, not_lt_of_gt hij', hij'.ne]
  have hU : (Umat n r.a).det = ∏ i : Fin n, r.a i i := by
    rw [Matrix.det_of_isUpperTriangular]
    · simp [Umat]
    · intro i j hij
      have hij' : j < i := hij
      simp [Umat, not_le_of_gt hij']
  have hd := congrArg Matrix.det hf
  rw [Matrix.det_mul, hL, hU, one_mul, Matrix.det_permute] at hd
  unfold determ
  rw [loop_mul, ← Fin.prod_univ_eq_prod_range (fun j => r.a j j) n, hd, hpar, ← mul_assoc]
  have : ((((Equiv.Perm.sign (rowPerm n r.indx n) : ℤˣ) : ℤ) : K)) *
      (((Equiv.Perm.sign (rowPerm n r.indx n) : ℤˣ) : ℤ) : K) = 1 := by
    rw [← Int.cast_mul, ← Units.val_mul, Int.units_mul_self]; simp
  rw [this, one_mul]

example : determ 3 (decompos 3 exA (fun _ => 0)).a (decompos 3 exA (fun _ => 0)).parity = -10 := by
  rw [C19_determ 3 exA _ exA_det, Matrix.det_fin_three]
  simp [toMat, exA]; norm_num

/-! ## C59 -/

/-- **C59**, what holds: when all rows of the input have the same largest magnitude, no stored
multiplier exceeds 1 in magnitude. Missing from the full claim: matrices with rows of different
magnitude, for which it is false (`C59_negation`). -/
theorem C59_multipliers_partial (n : ℕ) (a : ℕ → ℕ → K) (indx : ℕ → ℕ) (M : K)
    (hM : ∀ i < n, (∀ j < n, |a i j| ≤ M) ∧ ∃ j < n, |a i j| = M)
    (hret : (decompos n a indx).ret = 1) :
    ∀ i < n, ∀ j < i, |(decompos n a indx).a i j| ≤ 1 := by
  obtain ⟨-, h2⟩ := scaling_spec n a
  -- scale factors are all M
  have hrow : ∀ i < n, rowMax n a i = M := by
    intro i hi
    obtain ⟨h0, h1, h2⟩ := rowMax_spec n a i
    obtain ⟨g1, j, hj, g2⟩ := hM i hi
    apply le_antisymm
    · rcases h2 with h2 | ⟨j', hj', h2⟩
      · rw [h2, ← g2]; exact abs_nonneg _
      · rw [h2]; exact g1 j' hj'
    · rw [← g2]; exact h1 j hj
  have hvvM : ∀ vv, scaling n a = some vv → ∀ i < n, vv i = M := by
    unfold scaling
    refine loop_inv (n := n) (I := fun m (o : Option (ℕ → K)) => ∀ vv, o = some vv → ∀ i < m, vv i = M)
      (by simp) ?_
    intro m o hm ih vv' hv i hi
    cases o with
    | none => simp at hv
    | some vv =>
      simp only [] at hv
      split_ifs at hv with h
      cases hv
      rcases Nat.lt_succ_iff_lt_or_eq.1 hi with hi | rfl
      · rw [store_ne _ _ (by omega)]; exact ih vv rfl i hi
      · rw [store_same]; exact hrow i hm
  unfold decompos at hret ⊢
  cases hs : scaling n a with
  | none => rw [hs] at hret; simp at hret
  | some vv =>
    have key := loop_inv (n := n) (s := ({ a := a, indx := indx, parity := 1, vv := vv } : St K))
      (body := column n)
      (I := fun j s => (∀ i < n, s.vv i = M ∧ 0 < s.vv i) ∧ ∀ i k, i < n → k < j → k < i → |s.a i k| ≤ 1)
      ⟨fun i hi => ⟨hvvM vv hs i hi, h2 vv hs i hi⟩, by intros; omega⟩ ?_
    · intro i hi j hj
      exact key.2 i j hi (by omega) hj
    · rintro j s hj ⟨hv, ih⟩
      obtain ⟨p, hjp, hpn, -, -, -, u, w, -, -, hz, hmax, ha⟩ :=
        column_spec n j hj s (fun i hi => (hv i hi).2)
      constructor
      · intro i hi
        show (if _ ≠ j then store s.vv _ (s.vv j) else s.vv) i = M ∧
          0 < (if _ ≠ j then store s.vv _ (s.vv j) else s.vv) i
        split_ifs with h
        · simp only [store]
          split_ifs
          · exact hv j hj
          · exact hv i hi
        · exact hv i hi
      · intro i k hi hk hki
        rw [ha, if_neg (by omega)]
        have hlt : Equiv.swap p j i < n := by
          rcases eq_or_ne i p with rfl | h1
          · rw [Equiv.swap_apply_left]; exact hj
          · rcases eq_or_ne i j with rfl | h2
            · rw [Equiv.swap_apply_right]; exact hpn
            · rwa [Equiv.swap_apply_of_ne_of_ne h1 h2]
        have hge : j ≤ i → j ≤ Equiv.swap p j i := by
          intro h
          rcases eq_or_ne i p with rfl | h1
          · rw [Equiv.swap_apply_left]
          · rcases eq_or_ne i j with rfl | h2
            · rw [Equiv.swap_apply_right]; exact hjp
            · rwa [Equiv.swap_apply_of_ne_of_ne h1 h2]
        rcases Nat.lt_succ_iff_lt_or_eq.1 hk with hk | rfl
        · rw [if_pos (by omega)]
          apply ih _ _ hlt hk
          rcases Nat.lt_or_ge i j with hij | hij
          · rwa [Equiv.swap_apply_of_ne_of_ne (by omega) (by omega)]
          · have := hge hij; omega
        · rw [if_neg (by simp), if_neg (by omega), if_neg (by omega)]
          unfold fixed
          split_ifs with hw
          · rw [hz hw _ (hge (by omega)) hlt]; simp
          · rw [mul_one_div, abs_div, div_le_one (abs_pos.2 hw)]
            have := hmax _ (hge (by omega)) hlt
            rw [(hv _ hlt).1, (hv _ hpn).1] at this
            have hMpos : 0 < M := by rw [← (hv _ hpn).1]; exact (hv _ hpn).2
            exact le_of_mul_le_mul_left this hMpos

/-- **C59** (negative). The scale factors are multiplied instead of divided out: with rows
`(2, 2)` and `(1, 100)` the second row is chosen as pivot row and the multiplier is 2. -/
theorem C59_negation :
    ¬ ∀ (n : ℕ) (a : ℕ → ℕ → ℚ) (indx : ℕ → ℕ), (toMat n a).det ≠ 0 →
      ∀ i < n, ∀ j < i, |(decompos n a indx).a i j| ≤ 1 := by
  intro h
  have := h 2 (fun i j => if i = 0 then 2 else if j = 0 then 1 else 100) (fun _ => 0)
    (by rw [Matrix.det_fin_two]; simp [toMat]; norm_num) 1 (by norm_num) 0 (by norm_num)
  revert this
  decide +kernel

example : ∀ i < 3, (∀ j < 3, |(fun i j => if i = j then (4 : ℚ) else 1) i j| ≤ 4) ∧
    ∃ j < 3, |(fun i j => if i = j then (4 : ℚ) else 1) i j| = 4 := by decide +kernel

end Verif.LU
