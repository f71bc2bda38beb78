import Verif.Fp.LU

/-!
# C89, what holds of stability

When all rows of the matrix have the same largest magnitude `M`, the faulty scale factors do no harm: the multipliers are bounded by
about 1, the entries of `U` by about `2^n M`, and the solver is backward stable with the classical (exponential) growth bound.
-/

set_option linter.unusedSectionVars false
namespace Verif.LU
open Finset Verif.Fp

variable (R : Rounding)

theorem innerR_abs_le (m : ℕ) (f h : ℕ → ℝ) (c : ℝ) :
    |innerR R m f h c| ≤ (1 + R.u) ^ (m + 1) * (|c| + ∑ k ∈ range m, |f k| * |h k|) := by
  have hu := R.u_nonneg
  have key : |innerR R m f h c| ≤ (1 + R.u) ^ m * |c| + (1 + R.u) ^ (m + 1) * ∑ k ∈ range m, |f k| * |h k| := by
    induction m with
    | zero => simp [innerR]
    | succ m ih =>
      have e : innerR R (m + 1) f h c = R.fl (innerR R m f h c - R.fl (f m * h m)) := rfl
      rw [e]
      have h1 := R.fl_abs_le (innerR R m f h c - R.fl (f m * h m))
      have h2 := R.fl_abs_le (f m * h m)
      rw [abs_mul] at h2
      have h3 := abs_sub (innerR R m f h c) (R.fl (f m * h m))
      rw [sum_range_succ]
      set T := ∑ k ∈ range m, |f k| * |h k| with hT
      set p := |f m| * |h m| with hp
      have hp0 : 0 ≤ p := by positivity
      have h4 : |innerR R m f h c - R.fl (f m * h m)| ≤
          ((1 + R.u) ^ m * |c| + (1 + R.u) ^ (m + 1) * T) + (1 + R.u) * p := by linarith
      have h5 := mul_le_mul_of_nonneg_left h4 (show 0 ≤ 1 + R.u by linarith)
      have h6 : (1 + R.u) ^ 2 * p ≤ (1 + R.u) ^ (m + 1 + 1) * p :=
        mul_le_mul_of_nonneg_right (pow_le_pow_right₀ (by linarith) (by omega)) hp0
      calc _ ≤ _ := h1
        _ ≤ _ := h5
        _ ≤ _ := by
          have e3 : (1 + R.u) * ((1 + R.u) ^ m * |c| + (1 + R.u) ^ (m + 1) * T + (1 + R.u) * p) =
              (1 + R.u) ^ (m + 1) * |c| + (1 + R.u) ^ (m + 1 + 1) * T + (1 + R.u) ^ 2 * p := by ring
          rw [e3]
          linarith
  refine key.trans ?_
  have : (1 + R.u) ^ m * |c| ≤ (1 + R.u) ^ (m + 1) * |c| :=
    mul_le_mul_of_nonneg_right (pow_le_pow_right₀ (by linarith) (by omega)) (abs_nonneg c)
  nlinarith

/-- `(1+u)^n / (1-u)^4`, close to 1 -/
noncomputable def rho (n : ℕ) : ℝ := (1 + R.u) ^ n / (1 - R.u) ^ 4

theorem sum_geom (q : ℝ) (n : ℕ) : ∑ l ∈ range n, q * (1 + q) ^ l = (1 + q) ^ n - 1 := by
  induction n with
  | zero => simp
  | succ n ih => rw [sum_range_succ, ih, pow_succ]; ring

/-- Entries bounded during the factorisation; `G l` bounds row `l` of `U`, `lam` the multipliers. -/
structure Small (n : ℕ) (M lam : ℝ) (G : ℕ → ℝ) (j : ℕ) (s : St ℝ) : Prop where
  vv : ∀ i < n, s.vv i = M
  todo : ∀ i < n, ∀ k < n, j ≤ k → |s.a i k| ≤ M
  low : ∀ i < n, ∀ k < i, k < j → |s.a i k| ≤ lam
  up : ∀ k < j, ∀ i ≤ k, |s.a i k| ≤ G i

theorem small_step (hu : R.u < 1) (n : ℕ) (M : ℝ) (hM : 0 < M) (ht : tinyR R ≤ M) (j : ℕ) (hj : j < n) (s : St ℝ)
    (h : Small n M (1 / (1 - R.u) ^ 4) (fun l => (1 + R.u) ^ n * M * (1 + rho R n) ^ l) j s) :
    Small n M (1 / (1 - R.u) ^ 4) (fun l => (1 + R.u) ^ n * M * (1 + rho R n) ^ l) (j + 1) (columnR R n j s) := by
  obtain ⟨p, hjp, hpn, -, -, -, hvv, u, w, hu', hw, hz, hmax, ha⟩ :=
    columnR_spec R hu n j hj s (fun i hi => by rw [h.vv i hi]; exact hM)
  set lam := 1 / (1 - R.u) ^ 4 with hlam
  set c := (1 + R.u) ^ n with hc
  set G : ℕ → ℝ := fun l => c * M * (1 + rho R n) ^ l with hG
  have hu0 := R.u_nonneg
  have h1u : 0 < 1 - R.u := by linarith
  have hc1 : 1 ≤ c := one_le_pow₀ (by linarith)
  have hlam0 : 0 ≤ lam := by positivity
  have hrho : rho R n = c * lam := by unfold rho; rw [hlam, hc]; ring
  have hrho0 : 0 ≤ rho R n := by rw [hrho]; positivity
  have hG0 : ∀ l, 0 ≤ G l := fun l => by positivity
  have hGM : ∀ l, M ≤ G l := by
    intro l
    have : 1 ≤ (1 + rho R n) ^ l := one_le_pow₀ (by linarith)
    have h2 : 1 ≤ c * (1 + rho R n) ^ l := one_le_mul_of_one_le_of_one_le hc1 this
    have := mul_le_mul_of_nonneg_left h2 hM.le
    rw [hG]; simp only; nlinarith
  have hsumG : ∀ m, c * (M + ∑ l ∈ range m, lam * G l) = G m := by
    intro m
    have e1 : ∑ l ∈ range m, lam * G l = M * ∑ l ∈ range m, rho R n * (1 + rho R n) ^ l := by
      rw [mul_sum]
      refine sum_congr rfl fun l _ => ?_
      rw [hG, hrho]; simp only; ring
    rw [e1, sum_geom, hG]; simp only; ring
  have hswap_lt : ∀ i, i < n → Equiv.swap p j i < n := by
    intro i hi
    rcases eq_or_ne i p with rfl | h1
    · rw [Equiv.swap_apply_left]; exact hj
    · rcases eq_or_ne i j with rfl | h2
      · rw [Equiv.swap_apply_right]; exact hpn
      · rwa [Equiv.swap_apply_of_ne_of_ne h1 h2]
  have hswap_ge : ∀ i : ℕ, j ≤ i → j ≤ Equiv.swap p j i := by
    intro i hi
    rcases eq_or_ne i p with rfl | h1
    · rw [Equiv.swap_apply_left]
    · rcases eq_or_ne i j with rfl | h2
      · rw [Equiv.swap_apply_right]; exact hjp
      · rwa [Equiv.swap_apply_of_ne_of_ne h1 h2]
  have hswap_low : ∀ i : ℕ, i < j → Equiv.swap p j i = i :=
    fun i hi => Equiv.swap_apply_of_ne_of_ne (by omega) (by omega)
  -- the inner products
  have inner : ∀ i < n, ∀ m ≤ j, m ≤ i → (∀ l < m, |u l| ≤ G l) → m < n →
      |innerR R m (fun k => s.a i k) u (s.a i j)| ≤ G m := by
    intro i hi m hmj hmi hul hmn
    refine (innerR_abs_le R m _ _ _).trans ?_
    have h1 : |s.a i j| + ∑ k ∈ range m, |s.a i k| * |u k| ≤ M + ∑ l ∈ range m, lam * G l := by
      refine add_le_add (h.todo i hi j hj le_rfl) (sum_le_sum fun l hl => ?_)
      rw [mem_range] at hl
      exact mul_le_mul (h.low i hi l (by omega) (by omega)) (hul l hl) (abs_nonneg _) hlam0
    have h0 : 0 ≤ |s.a i j| + ∑ k ∈ range m, |s.a i k| * |u k| :=
      add_nonneg (abs_nonneg _) (sum_nonneg fun k _ => by positivity)
    rw [← hsumG m]
    exact mul_le_mul (pow_le_pow_right₀ (by linarith) (by omega)) h1 h0 (by linarith)
  have hub : ∀ i, i < j → |u i| ≤ G i := by
    intro i
    induction i using Nat.strong_induction_on with
    | _ i ih =>
      intro hi
      rw [hu' i hi]
      exact inner i (by omega) i (by omega) le_rfl (fun l hl => ih l hl (by omega)) (by omega)
  have hwb : ∀ i, j ≤ i → i < n → |w i| ≤ G j := by
    intro i hi hin
    rw [hw i hi hin]
    exact inner i hin j le_rfl hi hub hj
  refine ⟨fun i hi => ?_, fun i hi k hk hjk => ?_, fun i hi k hki hkj => ?_, fun k hk i hik => ?_⟩
  · rw [hvv]
    split_ifs with q
    · by_cases e : i = p
      · rw [e, store_same]; exact h.vv j hj
      · rw [store_ne _ _ e]; exact h.vv i hi
    · exact h.vv i hi
  · rw [ha, if_neg (by omega), if_pos (by omega)]
    exact h.todo _ (hswap_lt i hi) k hk (by omega)
  · rcases Nat.lt_succ_iff_lt_or_eq.1 hkj with q | rfl
    · rw [ha, if_neg (by omega), if_pos (by omega)]
      refine h.low _ (hswap_lt i hi) k ?_ q
      rcases Nat.lt_or_ge i j with hij | hij
      · rw [hswap_low i hij]; exact hki
      · exact lt_of_lt_of_le q (hswap_ge i hij)
    · rw [ha, if_neg (by omega), if_neg (by simp), if_neg (by omega), if_neg (by omega)]
      set wi := w (Equiv.swap p k i) with hwi
      have hi1 := hswap_ge i hki.le
      have hi2 := hswap_lt i hi
      by_cases hw0 : w p = 0
      · have : wi = 0 := hz hw0 _ hi1 hi2
        rw [this, zero_mul, R.fl_zero, abs_zero]; exact hlam0
      · have e1 : fixedR R (w p) = w p := by unfold fixedR; rw [if_neg hw0]
        rw [e1]
        have hm := hmax _ hi1 hi2
        rw [h.vv _ hi2, h.vv _ hpn, ← hwi] at hm
        have hv := R.v_nonneg hu
        have k1 : |wi| ≤ (1 + R.v) * ((1 + R.u) * |w p|) := by
          have q1 := R.abs_le_v hu (M * |wi|)
          have q2 := R.fl_abs_le (M * |w p|)
          have p1 : 0 ≤ M * |wi| := by positivity
          have p2 : 0 ≤ M * |w p| := by positivity
          rw [abs_of_nonneg (R.fl_nonneg p1), abs_of_nonneg p1] at q1
          rw [abs_of_nonneg (R.fl_nonneg p2), abs_of_nonneg p2] at q2
          have q3 : M * |wi| ≤ M * ((1 + R.v) * ((1 + R.u) * |w p|)) := by
            calc M * |wi| ≤ (1 + R.v) * R.fl (M * |wi|) := q1
              _ ≤ (1 + R.v) * ((1 + R.u) * (M * |w p|)) := mul_le_mul_of_nonneg_left (hm.trans q2) (by linarith)
              _ = _ := by ring
          exact le_of_mul_le_mul_left q3 hM
        have k2 := R.fl_abs_le (1 / w p)
        have k3 := R.fl_abs_le (wi * R.fl (1 / w p))
        rw [abs_mul] at k3
        rw [abs_div, abs_one] at k2
        have hwp : 0 < |w p| := abs_pos.2 hw0
        have hv1 : 1 + R.u ≤ 1 + R.v := by linarith [R.u_le_v hu]
        have k4 : |wi| * |R.fl (1 / w p)| ≤ (1 + R.v) * ((1 + R.u) * |w p|) * ((1 + R.u) * (1 / |w p|)) :=
          mul_le_mul k1 k2 (abs_nonneg _) (by positivity)
        have k5 : (1 + R.v) * ((1 + R.u) * |w p|) * ((1 + R.u) * (1 / |w p|)) = (1 + R.v) * (1 + R.u) ^ 2 := by
          field_simp
        rw [k5] at k4
        have k6 : (1 + R.u) ^ 3 ≤ (1 + R.v) ^ 3 := pow_le_pow_left₀ (by linarith) hv1 3
        have k7 : lam = (1 + R.v) ^ 4 := by rw [R.one_add_v hu, div_pow, one_pow]
        rw [k7]
        calc _ ≤ _ := k3
          _ ≤ (1 + R.u) * ((1 + R.v) * (1 + R.u) ^ 2) := mul_le_mul_of_nonneg_left k4 (by linarith)
          _ = (1 + R.v) * (1 + R.u) ^ 3 := by ring
          _ ≤ (1 + R.v) * (1 + R.v) ^ 3 := mul_le_mul_of_nonneg_left k6 (by linarith)
          _ = _ := by ring
  · rcases Nat.lt_succ_iff_lt_or_eq.1 hk with q | rfl
    · rw [ha, if_neg (by omega), if_pos (by omega), hswap_low i (by omega)]
      exact h.up k q i hik
    · rw [ha, if_neg (by omega), if_neg (by simp)]
      rcases Nat.lt_or_eq_of_le hik with q | rfl
      · rw [if_pos q]; exact hub i q
      · rw [if_neg (by omega), if_pos rfl]
        unfold fixedR
        split_ifs with hw0
        · rw [abs_of_nonneg (tinyR_nonneg R)]; exact ht.trans (hGM i)
        · exact hwb p hjp hpn

theorem scaling_vals (n : ℕ) (a : ℕ → ℕ → ℝ) (vv : ℕ → ℝ) (e : scaling n a = some vv) : ∀ i < n, vv i = rowMax n a i := by
  have key : ∀ vv, scaling n a = some vv → ∀ i < n, vv i = rowMax n a i := by
    unfold scaling
    refine loop_inv (n := n) (I := fun m (o : Option (ℕ → ℝ)) => ∀ vv, o = some vv → ∀ i < m, vv i = rowMax n a i) (by simp) ?_
    rintro m o hm ih vv hv i hi
    cases o with
    | none => cases hv
    | some vv0 =>
      simp only [] at hv
      split_ifs at hv with h
      cases hv
      rcases Nat.lt_succ_iff_lt_or_eq.1 hi with hi | rfl
      · rw [store_ne _ _ (by omega)]; exact ih vv0 rfl i hi
      · rw [store_same]
  exact key vv e

/-- **C89** (growth).  If every row of the input has the same largest magnitude `M`, not below `TINY`, the product `|L| |U|` in the
bounds of C89 is at most `M ((1 + ρ)^n - 1)` with `ρ = (1+u)^n / (1-u)^4`, close to 1. -/
theorem C89_growth_partial (hu : R.u < 1) (n : ℕ) (a : ℕ → ℕ → ℝ) (indx : ℕ → ℕ) (M : ℝ) (hM : 0 < M) (ht : tinyR R ≤ M)
    (hle : ∀ i < n, ∀ k < n, |a i k| ≤ M) (heq : ∀ i < n, ∃ k < n, |a i k| = M) :
    let r := decomposR R n a indx
    r.ret = 1 ∧ ∀ i k : Fin n, (absM (Lmat n r.a) * absM (Umat n r.a)) i k ≤
      M * ((1 + (1 + R.u) ^ n / (1 - R.u) ^ 4) ^ n - 1) := by
  intro r
  have hret : r.ret = 1 := by
    obtain ⟨h1, h2⟩ := C89_ret R n a indx
    refine h2.resolve_left fun h0 => ?_
    obtain ⟨i, hi, hz⟩ := h1.1 h0
    obtain ⟨k, hk, e⟩ := heq i hi
    rw [hz k hk, abs_zero] at e
    exact hM.ne e
  refine ⟨hret, ?_⟩
  have hret' := hret
  change (decomposR R n a indx).ret = 1 at hret'
  unfold decomposR at hret'
  cases e : scaling n a with
  | none => rw [e] at hret'; simp at hret'
  | some vv =>
    have hr : r = let s := loop n (columnR R n) { a := a, indx := indx, parity := 1, vv := vv }
        { ret := 1, a := s.a, indx := s.indx, parity := s.parity } := by
      show decomposR R n a indx = _
      unfold decomposR; rw [e]
    have hvv : ∀ i < n, vv i = M := by
      intro i hi
      rw [scaling_vals n a vv e i hi]
      obtain ⟨-, h1, h2⟩ := rowMax_spec n a i
      obtain ⟨k, hk, e1⟩ := heq i hi
      refine le_antisymm ?_ (e1 ▸ h1 k hk)
      rcases h2 with h2 | ⟨k', hk', h2⟩
      · rw [h2]; exact hM.le
      · rw [h2]; exact hle i hi k' hk'
    have key := loop_inv (n := n) (s := ({ a := a, indx := indx, parity := 1, vv := vv } : St ℝ)) (body := columnR R n)
      (I := fun j s => Small n M (1 / (1 - R.u) ^ 4) (fun l => (1 + R.u) ^ n * M * (1 + rho R n) ^ l) j s)
      ⟨hvv, fun i hi k hk _ => hle i hi k hk, by intros; omega, by intros; omega⟩
      (fun j s hj h => small_step R hu n M hM ht j hj s h)
    set s := loop n (columnR R n) { a := a, indx := indx, parity := 1, vv := vv }
    rw [hr]
    intro i k
    have hu0 := R.u_nonneg
    have h1u : 0 < 1 - R.u := by linarith
    have hlam1 : 1 ≤ 1 / (1 - R.u) ^ 4 := by
      rw [le_div_iff₀ (by positivity), one_mul]; exact pow_le_one₀ h1u.le (by linarith)
    show ∑ l : Fin n, |Lmat n s.a i l| * |Umat n s.a l k| ≤ _
    have hb : ∀ l : Fin n, |Lmat n s.a i l| * |Umat n s.a l k| ≤
        1 / (1 - R.u) ^ 4 * ((1 + R.u) ^ n * M * (1 + rho R n) ^ (l : ℕ)) := by
      intro l
      have hrho0 : 0 ≤ rho R n := by unfold rho; positivity
      refine mul_le_mul ?_ ?_ (abs_nonneg _) (by positivity)
      · unfold Lmat
        split_ifs with h1 h2
        · exact key.low i i.2 l h1 l.2
        · rw [abs_one]; exact hlam1
        · rw [abs_zero]; linarith
      · unfold Umat
        split_ifs with h1
        · exact key.up k k.2 l h1
        · rw [abs_zero]; positivity
    refine (sum_le_sum fun l _ => hb l).trans (le_of_eq ?_)
    rw [Fin.sum_univ_eq_sum_range (fun l => 1 / (1 - R.u) ^ 4 * ((1 + R.u) ^ n * M * (1 + rho R n) ^ l)) n]
    have : ∀ l, 1 / (1 - R.u) ^ 4 * ((1 + R.u) ^ n * M * (1 + rho R n) ^ l) = M * (rho R n * (1 + rho R n) ^ l) := by
      intro l; unfold rho; ring
    rw [sum_congr rfl fun l _ => this l, ← mul_sum, sum_geom]
    rfl

/-- **C89** (stability for rows of equal size).  Then the computed solution solves exactly a system whose coefficients differ from
the given ones by at most `((1-u)^(-3n) - 1) M ((1+ρ)^n - 1) + TINY`. -/
theorem C89_equilibrated_partial (hu : R.u < 1) (n : ℕ) (a : ℕ → ℕ → ℝ) (indx : ℕ → ℕ) (M : ℝ) (hM : 0 < M) (ht : tinyR R ≤ M)
    (hle : ∀ i < n, ∀ k < n, |a i k| ≤ M) (heq : ∀ i < n, ∃ k < n, |a i k| = M) (b : ℕ → ℝ) :
    let r := decomposR R n a indx
    let x := backsubR R n r.a r.indx b
    ∃ E : Matrix (Fin n) (Fin n) ℝ,
      (∀ i k, |E i k| ≤ (1 / (1 - R.u) ^ (3 * n) - 1) * (M * ((1 + (1 + R.u) ^ n / (1 - R.u) ^ 4) ^ n - 1)) + tinyR R) ∧
      (toMat n a + E).mulVec (fun i => x i) = fun i : Fin n => b i := by
  intro r x
  obtain ⟨hret, hg⟩ := C89_growth_partial R hu n a indx M hM ht hle heq
  obtain ⟨E, h1, h2⟩ := C89_solve R hu n a indx hret b
  refine ⟨E, fun i k => ?_, h2⟩
  have h3 := h1 ((rowPerm n r.indx n).symm i) k
  have e0 : rowPerm n (decomposR R n a indx).indx n ((rowPerm n r.indx n).symm i) = i := Equiv.apply_symm_apply _ i
  rw [e0] at h3
  refine h3.trans ?_
  unfold pertBound
  have hε : 0 ≤ 1 / (1 - R.u) ^ (3 * n) - 1 := by rw [← g_eq R hu]; exact R.g_nonneg hu _
  refine add_le_add (mul_le_mul_of_nonneg_left (hg _ _) hε) ?_
  split_ifs
  · exact le_refl _
  · exact tinyR_nonneg R

/-- A 2 × 2 system with rows of equal size, in double precision. -/
example : ∃ E : Matrix (Fin 2) (Fin 2) ℝ,
    (∀ i k, |E i k| ≤ (1 / (1 - Rounding.binary64.u) ^ (3 * 2) - 1) *
      (3 * ((1 + (1 + Rounding.binary64.u) ^ 2 / (1 - Rounding.binary64.u) ^ 4) ^ 2 - 1)) + tinyR Rounding.binary64) ∧
    (toMat 2 (fun i j => if i = j then 3 else (1 : ℝ)) + E).mulVec
      (fun i => backsubR Rounding.binary64 2 (decomposR Rounding.binary64 2 (fun i j => if i = j then 3 else 1) (fun _ => 0)).a
        (decomposR Rounding.binary64 2 (fun i j => if i = j then 3 else 1) (fun _ => 0)).indx (fun i => i) i) =
        fun i : Fin 2 => ((i : ℕ) : ℝ) := by
  refine C89_equilibrated_partial Rounding.binary64 (by rw [Rounding.binary64_u]; norm_num) 2 _ _ 3 (by norm_num) ?_ ?_ ?_ _
  · have h := Rounding.binary64.mono (show (tiny : ℝ) ≤ 1 by unfold tiny; norm_num)
    have h1 : Rounding.binary64.fl 1 = 1 := by
      have := Rounding.binary64.fl_int 1 (by rw [abs_one]; exact one_le_pow₀ (by norm_num)); simpa using this
    rw [h1] at h
    exact h.trans (by norm_num)
  · intro i _ k _; split_ifs <;> norm_num
  · intro i hi; exact ⟨i, hi, by simp⟩

end Verif.LU
