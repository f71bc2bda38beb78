import Verif.LU.Invariant

set_option linter.unusedSectionVars false
namespace Verif.LU

open Finset

variable {K : Type*} [Field K] [LinearOrder K] [IsStrictOrderedRing K]

theorem forward_spec (n : ℕ) (a : ℕ → ℕ → K) (indx : ℕ → ℕ) (b : ℕ → K)
    (hi : ∀ k < n, k ≤ indx k ∧ indx k < n) :
    (∀ l : Fin n, ∑ k ∈ range ((l : ℕ) + 1), Lf a l k * (forward n a indx b).1 k =
      b (rowPerm n indx n l)) ∧ ∀ l, n ≤ l → (forward n a indx b).1 l = b l := by
  have key := loop_inv (n := n) (s := ((b, none) : (ℕ → K) × Option ℕ))
    (body := fun i s =>
      let b := s.1
      let ip := indx i
      let sum := b ip
      let b := store b ip (b i)
      match s.2 with
      | some ii => (store b i (loop (i - ii) (fun t sum => sum - a i (ii + t) * b (ii + t)) sum), some ii)
      | none => (store b i sum, if sum ≠ 0 then some i else none))
    (I := fun i s =>
      (∀ l : Fin n, (l : ℕ) < i →
        ∑ k ∈ range ((l : ℕ) + 1), Lf a l k * s.1 k = b (rowPerm n indx i l)) ∧
      (∀ l : Fin n, i ≤ (l : ℕ) → s.1 l = b (rowPerm n indx i l)) ∧
      (s.2 = none → ∀ k < i, s.1 k = 0) ∧
      (∀ ii, s.2 = some ii → ii ≤ i ∧ ∀ k < ii, s.1 k = 0) ∧
      ∀ l, n ≤ l → s.1 l = b l)
    ⟨by simp, by simp [rowPerm], by simp, by simp, by simp⟩ ?_
  · exact ⟨fun l => key.1 l l.2, key.2.2.2.2⟩
  · rintro i ⟨b', ii⟩ hin ⟨h1, h2, h3, h4, h5⟩
    simp only [] at h1 h2 h3 h4 h5
    obtain ⟨hip, hipn⟩ := hi i hin
    let jf : Fin n := ⟨i, hin⟩
    let pf : Fin n := ⟨indx i, hipn⟩
    have hperm : rowPerm n indx (i + 1) = rowPerm n indx i * Equiv.swap jf pf := by
      show rowPerm n indx i * _ = _
      simp only [hin, hipn, and_self, dif_pos]
      rfl
    have hτ : ∀ l : Fin n, ((Equiv.swap jf pf l : Fin n) : ℕ) = Equiv.swap (indx i) i (l : ℕ) :=
      fun l => swap_val pf jf l
    have hlow : ∀ l : Fin n, (l : ℕ) < i → rowPerm n indx (i + 1) l = rowPerm n indx i l := by
      intro l hl
      rw [hperm, Equiv.Perm.mul_apply]
      congr 1
      exact Fin.ext (by rw [hτ, Equiv.swap_apply_of_ne_of_ne (by omega) (by omega)])
    have hsum : b' (indx i) = b (rowPerm n indx (i + 1) jf) := by
      rw [hperm, Equiv.Perm.mul_apply, Equiv.swap_apply_left]
      exact h2 pf hip
    have hhigh : ∀ v : K, ∀ l : Fin n, i + 1 ≤ (l : ℕ) →
        store (store b' (indx i) (b' i)) i v l = b (rowPerm n indx (i + 1) l) := by
      intro v l hl
      rw [store_ne _ _ (by omega), hperm, Equiv.Perm.mul_apply]
      by_cases e : l = pf
      · rw [e, Equiv.swap_apply_right]
        show store b' (indx i) (b' i) (indx i) = _
        rw [store_same]
        exact h2 jf le_rfl
      · have e1 : (l : ℕ) ≠ indx i := fun h => e (Fin.ext h)
        rw [store_ne _ _ e1, Equiv.swap_apply_of_ne_of_ne (by intro h; rw [h] at hl; simp [jf] at hl) e]
        exact h2 l (by omega)
    have hframe : ∀ v : K, ∀ l, n ≤ l → store (store b' (indx i) (b' i)) i v l = b l := by
      intro v l hl
      rw [store_ne _ _ (by omega), store_ne _ _ (by omega)]
      exact h5 l hl
    have hsmall : ∀ v : K, ∀ k, k < i → store (store b' (indx i) (b' i)) i v k = b' k := by
      intro v k hk
      rw [store_ne _ _ (by omega), store_ne _ _ (by omega)]
    -- rows already done, and the new row
    have hrows : ∀ v : K, v = b' (indx i) - ∑ k ∈ range i, a i k * b' k →
        ∀ l : Fin n, (l : ℕ) < i + 1 →
        ∑ k ∈ range ((l : ℕ) + 1), Lf a l k * store (store b' (indx i) (b' i)) i v k =
          b (rowPerm n indx (i + 1) l) := by
      intro v hv l hl
      rcases Nat.lt_succ_iff_lt_or_eq.1 hl with hl | hl
      · rw [hlow l hl, ← h1 l hl]
        refine sum_congr rfl fun k hk => ?_
        rw [mem_range] at hk
        rw [hsmall v k (by omega)]
      · have e : l = jf := Fin.ext hl
        rw [sum_range_succ]
        have e1 : ∑ k ∈ range (l : ℕ), Lf a l k * store (store b' (indx i) (b' i)) i v k =
            ∑ k ∈ range i, a i k * b' k := by
          rw [hl]
          refine sum_congr rfl fun k hk => ?_
          rw [mem_range] at hk
          rw [hsmall v k hk]
          unfold Lf; rw [if_pos hk]
        have e2 : Lf a (l : ℕ) (l : ℕ) = 1 := by unfold Lf; simp
        rw [e1, e2, one_mul, hl, store_same, hv, hsum, e]; ring
    cases ii with
    | none =>
      have hz := h3 rfl
      have hv : b' (indx i) = b' (indx i) - ∑ k ∈ range i, a i k * b' k := by
        rw [sum_eq_zero, sub_zero]
        intro k hk
        rw [mem_range] at hk
        rw [hz k hk, mul_zero]
      refine ⟨hrows _ hv, hhigh _, ?_, ?_, hframe _⟩
      · intro hn k hk
        by_cases e : b' (indx i) = 0
        · rcases Nat.lt_succ_iff_lt_or_eq.1 hk with hk | rfl
          · show store (store b' (indx i) (b' i)) i _ k = 0
            rw [hsmall _ k hk]; exact hz k hk
          · show store (store b' (indx k) (b' k)) k _ k = 0
            rw [store_same]; exact e
        · simp [e] at hn
      · intro jj hjj
        by_cases e : b' (indx i) = 0
        · simp [e] at hjj
        · simp only [ne_eq, e, not_false_eq_true, if_true, Option.some.injEq] at hjj
          subst hjj
          refine ⟨by omega, fun k hk => ?_⟩
          show store (store b' (indx i) (b' i)) i _ k = 0
          rw [hsmall _ k hk]; exact hz k hk
    | some jj =>
      obtain ⟨hj, hz⟩ := h4 jj rfl
      have hv : loop (i - jj) (fun t sum => sum - a i (jj + t) *
          store b' (indx i) (b' i) (jj + t)) (b' (indx i)) =
          b' (indx i) - ∑ k ∈ range i, a i k * b' k := by
        rw [loop_sub]
        congr 1
        have e1 : ∑ k ∈ range i, a i k * b' k = ∑ k ∈ Ico jj i, a i k * b' k := by
          symm
          refine sum_subset (fun k hk => ?_) fun k hk hk' => ?_
          · rw [mem_Ico] at hk; rw [mem_range]; exact hk.2
          · rw [mem_range] at hk
            rw [mem_Ico] at hk'
            rw [hz k (by omega), mul_zero]
        rw [e1, sum_Ico_eq_sum_range]
        refine sum_congr rfl fun k hk => ?_
        rw [mem_range] at hk
        rw [store_ne _ _ (by omega)]
      refine ⟨hrows _ hv, hhigh _, by simp, ?_, hframe _⟩
      intro kk hkk
      simp only [Option.some.injEq] at hkk
      subst hkk
      refine ⟨by omega, fun k hk => ?_⟩
      show store (store b' (indx i) (b' i)) i _ k = 0
      rw [hsmall _ k (by omega)]; exact hz k hk

theorem backward_spec (n : ℕ) (a : ℕ → ℕ → K) (y : ℕ → K) (hp : ∀ k < n, a k k ≠ 0) :
    (∀ i < n, ∑ k ∈ Ico i n, a i k * backward n a y k = y i) ∧
      ∀ l, n ≤ l → backward n a y l = y l := by
  have key := loop_inv (n := n) (s := y)
    (body := fun t b =>
      let i := n - 1 - t
      let sum := loop (n - (i + 1)) (fun s sum => sum - a i (i + 1 + s) * b (i + 1 + s)) (b i)
      store b i (sum / a i i))
    (I := fun t (b : ℕ → K) =>
      (∀ i < n, n ≤ i + t → ∑ k ∈ Ico i n, a i k * b k = y i) ∧
      (∀ i, i + t < n → b i = y i) ∧ ∀ l, n ≤ l → b l = y l)
    ⟨by intro i; omega, by simp, by simp⟩ ?_
  · exact ⟨fun i hi => key.1 i hi (by omega), key.2.2⟩
  · rintro t b ht ⟨h1, h2, h3⟩
    have e : ∃ i, i = n - 1 - t ∧ i < n ∧ i + t + 1 = n := ⟨_, rfl, by omega, by omega⟩
    obtain ⟨i, hi, hin, hit⟩ := e
    simp only [← hi, loop_sub]
    set v := (b i - ∑ s ∈ range (n - (i + 1)), a i (i + 1 + s) * b (i + 1 + s)) / a i i with hv
    have hrest : ∀ k, k ≠ i → store b i v k = b k := fun k hk => store_ne _ _ hk
    refine ⟨fun l hl hlt => ?_, fun l hl => ?_, fun l hl => ?_⟩
    · by_cases e : l = i
      · subst e
        rw [Finset.sum_eq_sum_Ico_succ_bot hl, store_same]
        have e1 : ∑ k ∈ Ico (l + 1) n, a l k * store b l v k =
            ∑ s ∈ range (n - (l + 1)), a l (l + 1 + s) * b (l + 1 + s) := by
          rw [sum_Ico_eq_sum_range]
          refine sum_congr rfl fun s _ => ?_
          rw [hrest _ (by omega)]
        rw [e1, hv, mul_div_cancel₀ _ (hp l hl), h2 l (by omega)]
        ring
      · rw [← h1 l hl (by omega)]
        refine sum_congr rfl fun k hk => ?_
        rw [mem_Ico] at hk
        rw [hrest _ (by omega)]
    · rw [hrest _ (by omega)]; exact h2 l (by omega)
    · rw [hrest _ (by omega)]; exact h3 l hl

/-- `backsub` solves `L U x = (permuted b)`. -/
theorem backsub_spec (n : ℕ) (a : ℕ → ℕ → K) (indx : ℕ → ℕ) (b : ℕ → K)
    (hi : ∀ k < n, k ≤ indx k ∧ indx k < n) (hp : ∀ k < n, a k k ≠ 0) :
    (Lmat n a * Umat n a).mulVec (fun i : Fin n => backsub n a indx b i) =
      (fun i : Fin n => b (rowPerm n indx n i)) ∧
    ∀ l, n ≤ l → backsub n a indx b l = b l := by
  obtain ⟨f1, f2⟩ := forward_spec n a indx b hi
  obtain ⟨g1, g2⟩ := backward_spec n a (forward n a indx b).1 hp
  refine ⟨?_, fun l hl => by unfold backsub; rw [g2 l hl, f2 l hl]⟩
  set x := backsub n a indx b with hx
  have hU : (Umat n a).mulVec (fun i : Fin n => x i) = fun i : Fin n => (forward n a indx b).1 i := by
    funext i
    rw [← g1 i i.2]
    show ∑ k : Fin n, Umat n a i k * x k = _
    have : ∀ k : Fin n, Umat n a i k * x k =
        (fun k : ℕ => (if (i : ℕ) ≤ k then a i k else 0) * x k) k := by
      intro k; simp only [Umat, Fin.le_def]
    rw [Finset.sum_congr rfl (fun l _ => this l),
      Fin.sum_univ_eq_sum_range (fun k : ℕ => (if (i : ℕ) ≤ k then a i k else 0) * x k) n]
    symm
    refine (sum_congr rfl fun k hk => ?_).trans
      (sum_subset (fun k hk => ?_) fun k hk hk' => ?_)
    · rw [mem_Ico] at hk; rw [if_pos hk.1]; rfl
    · rw [mem_Ico] at hk; rw [mem_range]; exact hk.2
    · rw [mem_range] at hk
      rw [mem_Ico] at hk'
      rw [if_neg (by omega), zero_mul]
  rw [← Matrix.mulVec_mulVec, hU]
  funext i
  rw [← f1 i]
  show ∑ k : Fin n, Lmat n a i k * _ = _
  have : ∀ k : Fin n, Lmat n a i k * (forward n a indx b).1 k =
      (fun k : ℕ => Lf a i k * (forward n a indx b).1 k) k := by
    intro k; simp only [Lmat, Lf, Fin.lt_def, Fin.ext_iff]
  rw [Finset.sum_congr rfl (fun l _ => this l),
    Fin.sum_univ_eq_sum_range (fun k : ℕ => Lf a i k * (forward n a indx b).1 k) n]
  symm
  refine sum_subset (range_subset_range.2 (show (i : ℕ) + 1 ≤ n by omega)) fun k _ hk => ?_
  rw [mem_range] at hk
  unfold Lf; rw [if_neg (by omega), if_neg (by omega), zero_mul]

end Verif.LU
