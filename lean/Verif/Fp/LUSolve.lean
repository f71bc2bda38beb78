import Verif.Fp.LUInvariant

/-! # Rounded LU: the triangular solves -/

set_option linter.unusedSectionVars false
namespace Verif.LU
open Finset Verif.Fp

variable (R : Rounding)

theorem forwardR_spec (hu : R.u < 1) (n : ℕ) (a : ℕ → ℕ → ℝ) (indx : ℕ → ℕ) (b : ℕ → ℝ)
    (hi : ∀ k < n, k ≤ indx k ∧ indx k < n) :
    (∀ l : Fin n, |∑ k ∈ range ((l : ℕ) + 1), Lf a l k * (forwardR R n a indx b).1 k - b (rowPerm n indx n l)| ≤
      R.g n * ∑ k ∈ range ((l : ℕ) + 1), |Lf a l k| * |(forwardR R n a indx b).1 k|) ∧
      ∀ l, n ≤ l → (forwardR R n a indx b).1 l = b l := by
  have key := loop_inv (n := n) (s := ((b, none) : (ℕ → ℝ) × Option ℕ))
    (body := fun i s =>
      let b := s.1
      let ip := indx i
      let sum := b ip
      let b := store b ip (b i)
      match s.2 with
      | some ii => (store b i (loop (i - ii) (fun t sum => R.fl (sum - R.fl (a i (ii + t) * b (ii + t)))) sum), some ii)
      | none => (store b i sum, if sum ≠ 0 then some i else none))
    (I := fun i s =>
      (∀ l : Fin n, (l : ℕ) < i →
        |∑ k ∈ range ((l : ℕ) + 1), Lf a l k * s.1 k - b (rowPerm n indx i l)| ≤
          R.g n * ∑ k ∈ range ((l : ℕ) + 1), |Lf a l k| * |s.1 k|) ∧
      (∀ l : Fin n, i ≤ (l : ℕ) → s.1 l = b (rowPerm n indx i l)) ∧
      (s.2 = none → ∀ k < i, s.1 k = 0) ∧
      (∀ ii, s.2 = some ii → ii ≤ i ∧ ∀ k < ii, s.1 k = 0) ∧
      ∀ l, n ≤ l → s.1 l = b l)
    ⟨by simp, by simp [rowPerm], by simp, by simp, by simp⟩ ?_
  · exact ⟨fun l => key.1 l l.2, key.2.2.2.2⟩
  · rintro i ⟨b', ii⟩ hin ⟨h1, h2, h3, h4, h5⟩
    simp only [] at h1 h2 h3 h4 h5
    obtain ⟨hip, hipn⟩ := hi i hin
    let jf : Fin n := ⟨i, hin⟩
    let pf : Fin n := ⟨indx i, hipn⟩
    have hperm : rowPerm n indx (i + 1) = rowPerm n indx i * Equiv.swap jf pf := by
      show rowPerm n indx i * _ = _
      simp only [hin, hipn, and_self, dif_pos]
      rfl
    have hτ : ∀ l : Fin n, ((Equiv.swap jf pf l : Fin n) : ℕ) = Equiv.swap (indx i) i (l : ℕ) :=
      fun l => swap_val pf jf l
    have hlow : ∀ l : Fin n, (l : ℕ) < i → rowPerm n indx (i + 1) l = rowPerm n indx i l := by
      intro l hl
      rw [hperm, Equiv.Perm.mul_apply]
      congr 1
      exact Fin.ext (by rw [hτ, Equiv.swap_apply_of_ne_of_ne (by omega) (by omega)])
    have hsum : b' (indx i) = b (rowPerm n indx (i + 1) jf) := by
      rw [hperm, Equiv.Perm.mul_apply, Equiv.swap_apply_left]
      exact h2 pf hip
    have hhigh : ∀ v : ℝ, ∀ l : Fin n, i + 1 ≤ (l : ℕ) →
        store (store b' (indx i) (b' i)) i v l = b (rowPerm n indx (i + 1) l) := by
      intro v l hl
      rw [store_ne _ _ (by omega), hperm, Equiv.Perm.mul_apply]
      by_cases e : l = pf
      · rw [e, Equiv.swap_apply_right]
        show store b' (indx i) (b' i) (indx i) = _
        rw [store_same]
        exact h2 jf le_rfl
      · have e1 : (l : ℕ) ≠ indx i := fun h => e (Fin.ext h)
        rw [store_ne _ _ e1, Equiv.swap_apply_of_ne_of_ne (by intro h; rw [h] at hl; simp [jf] at hl) e]
        exact h2 l (by omega)
    have hframe : ∀ v : ℝ, ∀ l, n ≤ l → store (store b' (indx i) (b' i)) i v l = b l := by
      intro v l hl
      rw [store_ne _ _ (by omega), store_ne _ _ (by omega)]
      exact h5 l hl
    have hsmall : ∀ v : ℝ, ∀ k, k < i → store (store b' (indx i) (b' i)) i v k = b' k := by
      intro v k hk
      rw [store_ne _ _ (by omega), store_ne _ _ (by omega)]
    -- rows already done, and the new row
    have hrows : ∀ v : ℝ, |b' (indx i) - ∑ k ∈ range i, a i k * b' k - v| ≤
          R.g n * (|v| + ∑ k ∈ range i, |a i k| * |b' k|) →
        ∀ l : Fin n, (l : ℕ) < i + 1 →
        |∑ k ∈ range ((l : ℕ) + 1), Lf a l k * store (store b' (indx i) (b' i)) i v k - b (rowPerm n indx (i + 1) l)| ≤
          R.g n * ∑ k ∈ range ((l : ℕ) + 1), |Lf a l k| * |store (store b' (indx i) (b' i)) i v k| := by
      intro v hv l hl
      rcases Nat.lt_succ_iff_lt_or_eq.1 hl with hl | hl
      · rw [hlow l hl]
        have e1 : ∀ f : ℝ → ℝ, ∑ k ∈ range ((l : ℕ) + 1), f (Lf a l k) * f (store (store b' (indx i) (b' i)) i v k) =
            ∑ k ∈ range ((l : ℕ) + 1), f (Lf a l k) * f (b' k) := by
          intro f
          refine sum_congr rfl fun k hk => ?_
          rw [mem_range] at hk
          rw [hsmall v k (by omega)]
        have e1a := e1 id
        simp only [id] at e1a
        rw [e1a, e1 abs]
        exact h1 l hl
      · have e : l = jf := Fin.ext hl
        have e1 : ∀ f : ℝ → ℝ, ∑ k ∈ range (l : ℕ), f (Lf a l k) * f (store (store b' (indx i) (b' i)) i v k) =
            ∑ k ∈ range i, f (a i k) * f (b' k) := by
          intro f
          rw [hl]
          refine sum_congr rfl fun k hk => ?_
          rw [mem_range] at hk
          rw [hsmall v k hk]
          unfold Lf; rw [if_pos hk]
        have e1a := e1 id
        simp only [id] at e1a
        have e2 : Lf a (l : ℕ) (l : ℕ) = 1 := by unfold Lf; simp
        rw [sum_range_succ, sum_range_succ, e1a, e1 abs, e2, one_mul, abs_one, one_mul, hl, store_same, e, ← hsum, abs_sub_comm,
          show b' (indx i) - (∑ k ∈ range i, a i k * b' k + v) = b' (indx i) - ∑ k ∈ range i, a i k * b' k - v by ring, add_comm _ |v|]
        exact hv
    have hgn := R.g_nonneg hu n
    cases ii with
    | none =>
      have hz := h3 rfl
      have hv : |b' (indx i) - ∑ k ∈ range i, a i k * b' k - b' (indx i)| ≤
          R.g n * (|b' (indx i)| + ∑ k ∈ range i, |a i k| * |b' k|) := by
        have e0 : ∑ k ∈ range i, a i k * b' k = 0 := by
          refine sum_eq_zero fun k hk => ?_
          rw [mem_range] at hk
          rw [hz k hk, mul_zero]
        rw [e0, sub_zero, sub_self, abs_zero]
        exact mul_nonneg hgn (add_nonneg (abs_nonneg _) (sum_nonneg fun k _ => by positivity))
      refine ⟨hrows _ hv, hhigh _, ?_, ?_, hframe _⟩
      · intro hn k hk
        by_cases e : b' (indx i) = 0
        · rcases Nat.lt_succ_iff_lt_or_eq.1 hk with hk | rfl
          · show store (store b' (indx i) (b' i)) i _ k = 0
            rw [hsmall _ k hk]; exact hz k hk
          · show store (store b' (indx k) (b' k)) k _ k = 0
            rw [store_same]; exact e
        · simp [e] at hn
      · intro jj hjj
        by_cases e : b' (indx i) = 0
        · simp [e] at hjj
        · simp only [ne_eq, e, not_false_eq_true, if_true, Option.some.injEq] at hjj
          subst hjj
          refine ⟨by omega, fun k hk => ?_⟩
          show store (store b' (indx i) (b' i)) i _ k = 0
          rw [hsmall _ k hk]; exact hz k hk
    | some jj =>
      obtain ⟨hj, hz⟩ := h4 jj rfl
      have hv := innerR_err R hu (i - jj) (fun t => a i (jj + t)) (fun t => store b' (indx i) (b' i) (jj + t)) (b' (indx i))
      have e1 : ∀ f : ℝ → ℝ, f 0 = 0 → ∑ t ∈ range (i - jj), f (a i (jj + t)) * f (store b' (indx i) (b' i) (jj + t)) =
          ∑ k ∈ range i, f (a i k) * f (b' k) := by
        intro f f0
        have e1 : ∑ k ∈ range i, f (a i k) * f (b' k) = ∑ k ∈ Ico jj i, f (a i k) * f (b' k) := by
          symm
          refine sum_subset (fun k hk => ?_) fun k hk hk' => ?_
          · rw [mem_Ico] at hk; rw [mem_range]; exact hk.2
          · rw [mem_range] at hk
            rw [mem_Ico] at hk'
            rw [hz k (by omega), f0, mul_zero]
        rw [e1, sum_Ico_eq_sum_range]
        refine sum_congr rfl fun k hk => ?_
        rw [mem_range] at hk
        rw [store_ne _ _ (by omega)]
      have e1a := e1 id rfl
      simp only [id] at e1a
      rw [e1a, e1 abs abs_zero] at hv
      replace hv := hv.trans (mul_le_mul_of_nonneg_right (R.g_mono hu (show i - jj ≤ n by omega))
        (add_nonneg (abs_nonneg _) (sum_nonneg fun k _ => by positivity)))
      refine ⟨hrows _ hv, hhigh _, by simp, ?_, hframe _⟩
      intro kk hkk
      simp only [Option.some.injEq] at hkk
      subst hkk
      refine ⟨by omega, fun k hk => ?_⟩
      show store (store b' (indx i) (b' i)) i _ k = 0
      rw [hsmall _ k (by omega)]; exact hz k hk

theorem backwardR_spec (hu : R.u < 1) (n : ℕ) (a : ℕ → ℕ → ℝ) (y : ℕ → ℝ) (hp : ∀ k < n, a k k ≠ 0) :
    (∀ i < n, |∑ k ∈ Ico i n, a i k * backwardR R n a y k - y i| ≤
      R.g n * ∑ k ∈ Ico i n, |a i k| * |backwardR R n a y k|) ∧
      ∀ l, n ≤ l → backwardR R n a y l = y l := by
  have key := loop_inv (n := n) (s := y)
    (body := fun t b =>
      let i := n - 1 - t
      let sum := loop (n - (i + 1)) (fun s sum => R.fl (sum - R.fl (a i (i + 1 + s) * b (i + 1 + s)))) (b i)
      store b i (R.fl (sum / a i i)))
    (I := fun t (b : ℕ → ℝ) =>
      (∀ i < n, n ≤ i + t → |∑ k ∈ Ico i n, a i k * b k - y i| ≤ R.g n * ∑ k ∈ Ico i n, |a i k| * |b k|) ∧
      (∀ i, i + t < n → b i = y i) ∧ ∀ l, n ≤ l → b l = y l)
    ⟨by intro i; omega, by simp, by simp⟩ ?_
  · exact ⟨fun i hi => key.1 i hi (by omega), key.2.2⟩
  · rintro t b ht ⟨h1, h2, h3⟩
    have e : ∃ i, i = n - 1 - t ∧ i < n ∧ i + t + 1 = n := ⟨_, rfl, by omega, by omega⟩
    obtain ⟨i, hi, hin, hit⟩ := e
    simp only [← hi]
    set sm := loop (n - (i + 1)) (fun s sum => R.fl (sum - R.fl (a i (i + 1 + s) * b (i + 1 + s)))) (b i) with hsm
    set v := R.fl (sm / a i i) with hv
    have hrest : ∀ k, k ≠ i → store b i v k = b k := fun k hk => store_ne _ _ hk
    have hgn := R.g_nonneg hu n
    refine ⟨fun l hl hlt => ?_, fun l hl => ?_, fun l hl => ?_⟩
    · by_cases e : l = i
      · subst e
        rw [Finset.sum_eq_sum_Ico_succ_bot hl, Finset.sum_eq_sum_Ico_succ_bot hl, store_same]
        have e1 : ∀ f : ℝ → ℝ, ∑ k ∈ Ico (l + 1) n, f (a l k) * f (store b l v k) =
            ∑ s ∈ range (n - (l + 1)), f (a l (l + 1 + s)) * f (b (l + 1 + s)) := by
          intro f
          rw [sum_Ico_eq_sum_range]
          refine sum_congr rfl fun s _ => ?_
          rw [hrest _ (by omega)]
        have e1a := e1 id
        simp only [id] at e1a
        rw [e1a, e1 abs]
        have e2 := innerR_err R hu (n - (l + 1)) (fun s => a l (l + 1 + s)) (fun s => b (l + 1 + s)) (b l)
        rw [show innerR R (n - (l + 1)) (fun s => a l (l + 1 + s)) (fun s => b (l + 1 + s)) (b l) = sm from rfl] at e2
        set m := n - (l + 1) with hm
        set S := ∑ s ∈ range m, a l (l + 1 + s) * b (l + 1 + s)
        set T := ∑ s ∈ range m, |a l (l + 1 + s)| * |b (l + 1 + s)| with hT
        have hTn : 0 ≤ T := sum_nonneg fun k _ => by positivity
        have hne := hp l hl
        have e3 := R.err_v hu (sm / a l l)
        rw [← hv] at e3
        have e4 : |a l l * v - sm| ≤ R.v * (|a l l| * |v|) := by
          have := mul_le_mul_of_nonneg_left e3 (abs_nonneg (a l l))
          rw [← abs_mul, mul_sub, mul_div_cancel₀ _ hne] at this
          linarith
        have e5 : |sm| ≤ (1 + R.v) * (|a l l| * |v|) := by
          have h6 := abs_sub_abs_le_abs_sub sm (a l l * v)
          rw [abs_sub_comm, abs_mul] at h6
          linarith
        rw [← h2 l (by omega), show a l l * v + S - b l = (a l l * v - sm) - (b l - S - sm) by ring]
        refine (abs_sub _ _).trans ?_
        have hgm := R.g_nonneg hu m
        have k1 : R.g m * |sm| ≤ R.g m * ((1 + R.v) * (|a l l| * |v|)) := mul_le_mul_of_nonneg_left e5 hgm
        have k2 : R.g (m + 1) * (|a l l| * |v|) ≤ R.g n * (|a l l| * |v|) :=
          mul_le_mul_of_nonneg_right (R.g_mono hu (by omega)) (by positivity)
        have k3 : R.g m * T ≤ R.g n * T := mul_le_mul_of_nonneg_right (R.g_mono hu (by omega)) hTn
        rw [R.g_succ] at k2
        nlinarith
      · have e1 : ∀ f : ℝ → ℝ, ∑ k ∈ Ico l n, f (a l k) * f (store b i v k) = ∑ k ∈ Ico l n, f (a l k) * f (b k) := by
          intro f
          refine sum_congr rfl fun k hk => ?_
          rw [mem_Ico] at hk
          rw [hrest _ (by omega)]
        have e1a := e1 id
        simp only [id] at e1a
        rw [e1a, e1 abs]
        exact h1 l hl (by omega)
    · rw [hrest _ (by omega)]; exact h2 l (by omega)
    · rw [hrest _ (by omega)]; exact h3 l hl

end Verif.LU
