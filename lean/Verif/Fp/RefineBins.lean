import Verif.Fp.RefineError

/-!
# Rounded `refine_mesh`: bin size and bins
-/

namespace Verif.Swage.Refine
open Verif.Swage Verif.Fp

variable (R : Rounding)

/-! ### The distance of two vertices -/

theorem sq_near (hu : R.u ≤ 1 / 2 ^ 20) (d : ℝ) : |R.fl (R.fl d * R.fl d) - d * d| ≤ 3.1 * R.u * (d * d) := by
  have u0 := R.u_nonneg
  norm_num at hu
  have h1 := R.err d
  have h2 := fl_near R (mul_near h1 h1)
  refine h2.trans ?_
  have hd := abs_mul_abs_self d
  rw [abs_of_nonneg (mul_self_nonneg d)]
  have e : R.u * |d| * (|d| + R.u * |d|) + |d| * (R.u * |d|) = (2 * R.u + R.u * R.u) * (d * d) := by rw [← hd]; ring
  rw [e]
  have D := mul_self_nonneg d
  generalize d * d = D' at D ⊢
  have a1 := mul_nonneg u0 D
  have a2 : R.u * R.u * D' ≤ 1 / 1048576 * (R.u * D') := by nlinarith
  have a3 : R.u * (R.u * R.u * D') ≤ 1 / 1048576 * (R.u * D') := by nlinarith [mul_nonneg u0 a1]
  norm_num
  nlinarith

theorem add_rel (hu : R.u ≤ 1 / 2 ^ 20) {a b x y c : ℝ} (hc : 0 ≤ c ∧ c ≤ 10) (hx : 0 ≤ x) (hy : 0 ≤ y) (ha : |a - x| ≤ c * R.u * x)
    (hb : |b - y| ≤ c * R.u * y) : |R.fl (a + b) - (x + y)| ≤ (c + 1.1) * R.u * (x + y) := by
  have u0 := R.u_nonneg
  norm_num at hu
  have h1 : |a + b - (x + y)| ≤ c * R.u * (x + y) := by
    rw [show a + b - (x + y) = (a - x) + (b - y) by ring]
    refine (abs_add_le _ _).trans ?_
    linarith
  refine (fl_near R h1).trans ?_
  rw [abs_of_nonneg (by linarith)]
  have a1 := mul_nonneg u0 (add_nonneg hx hy)
  have a2 : R.u * (c * R.u * (x + y)) ≤ 1 / 100000 * (R.u * (x + y)) := by
    have : c * R.u ≤ 1 / 100000 := by nlinarith [hc.1, hc.2]
    nlinarith
  norm_num
  nlinarith

theorem sqrt_rel (hu : R.u ≤ 1 / 2 ^ 20) {a x c : ℝ} (hc : 0 ≤ c ∧ c ≤ 10) (hx : 0 ≤ x) (ha : |a - x| ≤ c * R.u * x) :
    |√a - √x| ≤ c * R.u * √x := by
  have u0 := R.u_nonneg
  norm_num at hu
  have hcu : 0 ≤ c * R.u := mul_nonneg hc.1 u0
  have hcu1 : c * R.u ≤ 1 := by nlinarith [hc.1, hc.2]
  obtain ⟨h1, h2⟩ := abs_le.1 ha
  have s0 := Real.sqrt_nonneg x
  have ss := Real.mul_self_sqrt hx
  rw [abs_le]
  constructor
  · have : (1 - c * R.u) * √x ≤ √a := by
      apply Real.le_sqrt_of_sq_le
      have : ((1 - c * R.u) * √x) ^ 2 = (1 - c * R.u) * (1 - c * R.u) * x := by rw [← ss]; ring_nf; rw [Real.sqrt_sq s0]
      rw [this]
      nlinarith [mul_nonneg hcu hx, mul_nonneg (mul_nonneg hcu (sub_nonneg.2 hcu1)) hx]
    linarith
  · have : √a ≤ (1 + c * R.u) * √x := by
      rw [Real.sqrt_le_left (mul_nonneg (by linarith) s0)]
      have : ((1 + c * R.u) * √x) ^ 2 = (1 + c * R.u) * (1 + c * R.u) * x := by rw [← ss]; ring_nf; rw [Real.sqrt_sq s0]
      rw [this]
      nlinarith [mul_nonneg hcu hx, mul_nonneg (mul_nonneg hcu hcu) hx]
    linarith

theorem dist1R_near (hu : R.u ≤ 1 / 2 ^ 20) (v : ℕ → ℕ → ℝ) (a b : ℕ) :
    |dist1R R v a b - Key.dist1 v a b| ≤ 8 * R.u * Key.dist1 v a b := by
  have u0 := R.u_nonneg
  unfold dist1R Key.dist1
  have q0 := sq_near R hu (v b 0 - v a 0)
  have q1 := sq_near R hu (v b 1 - v a 1)
  have q2 := sq_near R hu (v b 2 - v a 2)
  have p0 := mul_self_nonneg (v b 0 - v a 0)
  have p1 := mul_self_nonneg (v b 1 - v a 1)
  have p2 := mul_self_nonneg (v b 2 - v a 2)
  have e : (v b 0 - v a 0) ^ 2 + (v b 1 - v a 1) ^ 2 + (v b 2 - v a 2) ^ 2 =
      (v b 0 - v a 0) * (v b 0 - v a 0) + (v b 1 - v a 1) * (v b 1 - v a 1) + (v b 2 - v a 2) * (v b 2 - v a 2) := by ring
  rw [e]
  have s1 := add_rel R hu (by norm_num) p0 p1 q0 q1
  have q2' : |R.fl (R.fl (v b 2 - v a 2) * R.fl (v b 2 - v a 2)) - (v b 2 - v a 2) * (v b 2 - v a 2)| ≤
      (3.1 + 1.1) * R.u * ((v b 2 - v a 2) * (v b 2 - v a 2)) := q2.trans (by norm_num; nlinarith [mul_nonneg u0 p2])
  have s2 := add_rel R hu (by norm_num) (add_nonneg p0 p1) p2 s1 q2'
  have s3 := sqrt_rel R hu (by norm_num) (add_nonneg (add_nonneg p0 p1) p2) s2
  have hs := Real.sqrt_nonneg ((v b 0 - v a 0) * (v b 0 - v a 0) + (v b 1 - v a 1) * (v b 1 - v a 1) + (v b 2 - v a 2) * (v b 2 - v a 2))
  rw [abs_of_nonneg (R.fl_nonneg (Real.sqrt_nonneg _)), abs_of_nonneg hs]
  generalize √((v b 0 - v a 0) * (v b 0 - v a 0) + (v b 1 - v a 1) * (v b 1 - v a 1) + (v b 2 - v a 2) * (v b 2 - v a 2)) = r at s3 hs ⊢
  refine (fl_near R s3).trans ?_
  rw [abs_of_nonneg hs]
  norm_num at hu ⊢
  have a1 := mul_nonneg u0 hs
  nlinarith [mul_nonneg u0 a1]

theorem distLoopR_val (v : ℕ → ℕ → ℝ) (junk : ℕ → ℝ) (i : ℕ) (hi : i < 28) :
    (distLoopR R v junk).2 i = dist1R R v (Key.pairs i).1 (Key.pairs i).2.1 := by
  unfold distLoopR
  have := loop_inv (n := 28) (body := fun i (s : (ℕ × ℕ × ℕ) × (ℕ → ℝ)) =>
      (Key.advance s.1, store s.2 i (dist1R R v s.1.1 s.1.2.1))) (s := ((0, 1, 0), junk))
    (fun m s => s.1 = Key.pairs m ∧ ∀ i < m, s.2 i = dist1R R v (Key.pairs i).1 (Key.pairs i).2.1)
    ⟨rfl, fun i h => absurd h (Nat.not_lt_zero _)⟩
    (by
      rintro m ⟨s, f⟩ hm ⟨e1, e2⟩
      simp only [] at e1 e2
      refine ⟨?_, ?_⟩
      · simp only []
        rw [e1]; rfl
      · intro i hi
        simp only []
        by_cases h : i = m
        · subst h; rw [store_same, e1]
        · rw [store_ne _ _ h]; exact e2 i (by omega))
  exact this.2 i hi

theorem distMinR_last (E : ℕ) (nodes : ℕ → ℕ → ℕ) (x : ℕ → ℕ → ℝ) (junk : ℕ → ℝ) (j : ℝ) (hE : 0 < E) :
    distMinR R E nodes x junk j = cellDistR R (fun l d => x (nodes (E - 1) l) d) junk := by
  obtain ⟨m, rfl⟩ : ∃ m, E = m + 1 := ⟨E - 1, by omega⟩
  unfold distMinR
  rw [loop_succ]; simp

theorem dist1_nonneg (v : ℕ → ℕ → ℝ) (a b : ℕ) : 0 ≤ Key.dist1 v a b := abs_nonneg _

theorem cellDistR_near (hu : R.u ≤ 1 / 2 ^ 20) (v : ℕ → ℕ → ℝ) (junk : ℕ → ℝ) :
    0 ≤ cellDist v junk ∧ |cellDistR R v junk - cellDist v junk| ≤ 8 * R.u * cellDist v junk := by
  have u0 := R.u_nonneg
  norm_num at hu
  have hc0 : 0 ≤ cellDist v junk := by
    unfold cellDist
    exact Key.le_loop_min _ _ _ _ (by positivity) fun i hi => by rw [Key.distLoop_val v junk i hi]; exact dist1_nonneg _ _ _
  refine ⟨hc0, ?_⟩
  have hf : ∀ i < 28, |(distLoopR R v junk).2 i - (Key.distLoop v junk).2 i| ≤ 8 * R.u * (Key.distLoop v junk).2 i := by
    intro i hi
    rw [distLoopR_val R v junk i hi, Key.distLoop_val v junk i hi]
    exact dist1R_near R (by norm_num; exact hu) v _ _
  have hS := R.err (10 ^ 64)
  rw [abs_of_nonneg (by positivity : (0 : ℝ) ≤ 10 ^ 64)] at hS
  have hS0 : (0 : ℝ) ≤ 10 ^ 64 := by positivity
  obtain ⟨l1, l2⟩ := Key.loop_min_le 28 (Key.distLoop v junk).2 (10 ^ 64)
  obtain ⟨r1, r2⟩ := Key.loop_min_le 28 (distLoopR R v junk).2 (R.fl (10 ^ 64))
  change cellDist v junk ≤ _ at l1
  change ∀ i < 28, cellDist v junk ≤ _ at l2
  change cellDistR R v junk ≤ _ at r1
  change ∀ i < 28, cellDistR R v junk ≤ _ at r2
  generalize (10 : ℝ) ^ 64 = T at *
  have k8 : 0 ≤ 1 - 8 * R.u := by linarith
  rw [abs_le]
  constructor
  · have : (1 - 8 * R.u) * cellDist v junk ≤ cellDistR R v junk := by
      unfold cellDistR
      apply Key.le_loop_min
      · have := (abs_le.1 hS).1
        have h2 := mul_le_mul_of_nonneg_left l1 k8
        have h4 := (R.err (10 ^ 64))
        rw [abs_of_nonneg (by positivity : (0 : ℝ) ≤ 10 ^ 64)] at h4
        have h5 := (abs_le.1 h4).1
        have h6 : cellDist v junk ≤ 10 ^ 64 := (Key.loop_min_le 28 (Key.distLoop v junk).2 (10 ^ 64)).1
        generalize (10 : ℝ) ^ 64 = U at h5 h6 ⊢
        have h7 := mul_le_mul_of_nonneg_left h6 k8
        have : 0 ≤ R.u * U := mul_nonneg u0 (hc0.trans h6)
        linarith
      · intro i hi
        have := (abs_le.1 (hf i hi)).1
        have h2 := mul_le_mul_of_nonneg_left (l2 i hi) k8
        linarith
    linarith
  · have k9 : 0 < 1 + 8 * R.u := by linarith
    have : cellDistR R v junk / (1 + 8 * R.u) ≤ cellDist v junk := by
      unfold cellDist
      apply Key.le_loop_min
      · have h4 := (R.err (10 ^ 64))
        rw [abs_of_nonneg (by positivity : (0 : ℝ) ≤ 10 ^ 64)] at h4
        have h5 := (abs_le.1 h4).2
        have h6 : cellDistR R v junk ≤ R.fl (10 ^ 64) := (Key.loop_min_le 28 (distLoopR R v junk).2 (R.fl (10 ^ 64))).1
        have h8 : (0 : ℝ) ≤ 10 ^ 64 := by positivity
        generalize (10 : ℝ) ^ 64 = U at h5 h6 h8 ⊢
        rw [div_le_iff₀ k9]
        have : 0 ≤ R.u * U := mul_nonneg u0 h8
        linarith
      · intro i hi
        rw [div_le_iff₀ k9]
        have := (abs_le.1 (hf i hi)).2
        have := r2 i hi
        linarith
    rw [div_le_iff₀ k9] at this
    linarith

/-- The computed bin size: relative error at most `11u`. -/
theorem hashDistR_near (hu : R.u ≤ 1 / 2 ^ 20) (E p : ℕ) (hE : 0 < E) (nodes : ℕ → ℕ → ℕ) (x : ℕ → ℕ → ℝ) (q : Junk) :
    0 ≤ binSize E p nodes x q ∧
      |hashDistR R p (distMinR R E nodes x q.dist q.dist0) - binSize E p nodes x q| ≤ 11 * R.u * binSize E p nodes x q := by
  have u0 := R.u_nonneg
  obtain ⟨h0, h1⟩ := cellDistR_near R hu (fun l d => x (nodes (E - 1) l) d) q.dist
  norm_num at hu
  unfold hashDistR binSize hashDist
  rw [distMinR_last R E nodes x q.dist q.dist0 hE, distMin_last E nodes x q.dist q.dist0 hE]
  obtain ⟨T, hT⟩ : ∃ T : ℝ, T = 7 * if p = 0 then 1 else (p : ℝ) := ⟨_, rfl⟩
  have T0 : 0 < T := by
    rw [hT]; split
    · norm_num
    · next h => have : (0 : ℝ) < p := by exact_mod_cast (show 0 < p by omega)
                linarith
  rw [← hT]
  generalize cellDist (fun l d => x (nodes (E - 1) l) d) q.dist = m at h0 h1 ⊢
  generalize cellDistR R (fun l d => x (nodes (E - 1) l) d) q.dist = m' at h1 ⊢
  have hTe := R.err T
  rw [abs_of_pos T0] at hTe
  generalize R.fl T = T' at hTe
  obtain ⟨t1, t2⟩ := abs_le.1 hTe
  have T'0 : 0 < T' := by nlinarith
  refine ⟨div_nonneg h0 T0.le, ?_⟩
  have key : |m' / T' - m / T| ≤ 9.1 * R.u * (m / T) := by
    have e : m' / T' - m / T = ((m' - m) + (m / T) * (T - T')) / T' := by field_simp; ring
    rw [e, abs_div, abs_of_pos T'0, div_le_iff₀ T'0]
    have hm : m = m / T * T := by field_simp
    have hr : 0 ≤ m / T := div_nonneg h0 T0.le
    generalize m / T = r at hm hr ⊢
    refine (abs_add_le _ _).trans ?_
    rw [abs_mul, abs_of_nonneg hr, abs_sub_comm T T']
    have a1 := mul_le_mul_of_nonneg_left hTe hr
    subst hm
    have a2 : 0 ≤ R.u * (r * T) := mul_nonneg u0 (mul_nonneg hr T0.le)
    have a3 : (1 - R.u) * T ≤ T' := by linarith
    have a4 := mul_le_mul_of_nonneg_left a3 (mul_nonneg u0 hr)
    have a5 := mul_le_mul_of_nonneg_right hu a2
    norm_num
    nlinarith
  refine (fl_near R key).trans ?_
  have hr : 0 ≤ m / T := div_nonneg h0 T0.le
  rw [abs_of_nonneg hr]
  generalize m / T = r at hr ⊢
  have a1 := mul_nonneg u0 hr
  norm_num
  nlinarith [mul_nonneg u0 a1]

/-! ### Bins -/

theorem floor_max_lt {η a b : ℝ} (hη : η < 1) (hab : a + 1 ≤ b) (hb : 1 ≤ b) : ⌊max η a⌋₊ < ⌊max η b⌋₊ := by
  have h1 : (1 : ℝ) ≤ max η b := hb.trans (le_max_right _ _)
  rcases le_total a η with h | h
  · rw [max_eq_left h]
    have h2 : ⌊η⌋₊ = 0 := Nat.floor_eq_zero.2 hη
    rw [h2]
    exact Nat.floor_pos.2 h1
  · rw [max_eq_right h]
    rcases lt_or_ge a 0 with h0 | h0
    · rw [Nat.floor_of_nonpos h0.le]; exact Nat.floor_pos.2 h1
    · have : ⌊a⌋₊ + 1 ≤ ⌊max η b⌋₊ := by
        rw [← Nat.floor_add_one h0]
        exact Nat.floor_le_floor (hab.trans (le_max_right _ _))
      omega

/-- Numerators more than 1.05 bins apart give different bins. -/
theorem quot_lt (hu : R.u ≤ 1 / 2 ^ 20) {a b B h h' : ℝ} (h0 : 0 < h) (hh : |h' - h| ≤ 11 * R.u * h) (ha : |a| ≤ B) (hb : |b| ≤ B)
    (hB : 3000 * R.u * B ≤ h) (hab : 1.05 * h ≤ b - a) (hb1 : 1.05 * h ≤ b) :
    ⌊max (R.fl (1 / 10 ^ 16)) (R.fl (a / h'))⌋₊ < ⌊max (R.fl (1 / 10 ^ 16)) (R.fl (b / h'))⌋₊ := by
  have u0 := R.u_nonneg
  have hη : R.fl (1 / 10 ^ 16) < 1 := by
    have h1 := R.err (1 / 10 ^ 16)
    rw [abs_of_nonneg (by positivity : (0 : ℝ) ≤ 1 / 10 ^ 16)] at h1
    have := (abs_le.1 h1).2
    norm_num at this hu ⊢
    nlinarith
  norm_num at hu
  obtain ⟨t1, t2⟩ := abs_le.1 hh
  have uh := mul_nonneg u0 h0.le
  have h'0 : 0 < h' := by nlinarith
  have hl : 0.999 * h ≤ h' := by norm_num; nlinarith
  have hr : h' ≤ 1.001 * h := by norm_num; nlinarith
  have hq : ∀ c, |c| ≤ B → |R.fl (c / h') - c / h'| ≤ 0.001 := by
    intro c hc
    refine (R.err _).trans ?_
    rw [abs_div, abs_of_pos h'0, ← mul_div_assoc, div_le_iff₀ h'0]
    have := mul_le_mul_of_nonneg_left hc u0
    norm_num at hl ⊢
    linarith
  have qa := abs_le.1 (hq a ha)
  have qb := abs_le.1 (hq b hb)
  have d1 : 1.04 ≤ (b - a) / h' := by
    rw [le_div_iff₀ h'0]; norm_num at hr hab ⊢; linarith
  have d2 : 1.04 ≤ b / h' := by
    rw [le_div_iff₀ h'0]; norm_num at hr hb1 ⊢; linarith
  rw [sub_div] at d1
  norm_num at qa qb d1 d2
  exact floor_max_lt hη (by linarith [qa.2, qb.1]) (by linarith [qb.1])

/-- The exact smallest coordinate. -/
theorem posMinR_eq (hu : R.u ≤ 1 / 2 ^ 20) {N : ℕ} (hN : 0 < N) {x : ℕ → ℕ → ℝ} {A : ℝ} (hA : A ≤ 10 ^ 15) (d : ℕ) (hx : ∀ n < N, |x n d| ≤ A) :
    posMinR R N x d = posMin N x d ∧ posMaxR R N x d = posMax N x d ∧ |posMin N x d| ≤ A ∧ |posMax N x d| ≤ A := by
  have u0 := R.u_nonneg
  have hF : (10 : ℝ) ^ 15 ≤ R.fl (10 ^ 16) := by
    have h1 := R.err (10 ^ 16)
    rw [abs_of_nonneg (by positivity : (0 : ℝ) ≤ 10 ^ 16)] at h1
    have := (abs_le.1 h1).1
    norm_num at this hu ⊢
    nlinarith
  have hG : (10 : ℝ) ^ 15 ≤ 10 ^ 16 := by norm_num
  have h00 := abs_le.1 (hx 0 hN)
  generalize (10 : ℝ) ^ 15 = U at *
  have key : ∀ m, m + 1 ≤ N → posMinR R (m + 1) x d = posMin (m + 1) x d ∧ posMaxR R (m + 1) x d = posMax (m + 1) x d ∧
      |posMin (m + 1) x d| ≤ A ∧ |posMax (m + 1) x d| ≤ A := by
    intro m
    induction m with
    | zero =>
      intro _
      unfold posMinR posMin posMaxR posMax
      simp only [loop]
      rw [min_eq_right (by linarith), min_eq_right (by linarith), max_eq_right (by linarith), max_eq_right (by linarith)]
      exact ⟨rfl, rfl, hx 0 hN, hx 0 hN⟩
    | succ m ih =>
      intro hm
      obtain ⟨e1, e2, e3, e4⟩ := ih (by omega)
      have s1 : posMinR R (m + 1 + 1) x d = min (posMinR R (m + 1) x d) (x (m + 1) d) := by unfold posMinR; rw [loop_succ]
      have s2 : posMin (m + 1 + 1) x d = min (posMin (m + 1) x d) (x (m + 1) d) := by unfold posMin; rw [loop_succ]
      have s3 : posMaxR R (m + 1 + 1) x d = max (posMaxR R (m + 1) x d) (x (m + 1) d) := by unfold posMaxR; rw [loop_succ]
      have s4 : posMax (m + 1 + 1) x d = max (posMax (m + 1) x d) (x (m + 1) d) := by unfold posMax; rw [loop_succ]
      have hm1 := hx (m + 1) (by omega)
      refine ⟨by rw [s1, s2, e1], by rw [s3, s4, e2], ?_, ?_⟩
      · rw [s2]; rcases min_choice (posMin (m + 1) x d) (x (m + 1) d) with h | h <;> rw [h] <;> assumption
      · rw [s4]; rcases max_choice (posMax (m + 1) x d) (x (m + 1) d) with h | h <;> rw [h] <;> assumption
  obtain ⟨m, rfl⟩ : ∃ m, N = m + 1 := ⟨N - 1, by omega⟩
  exact key m le_rfl

/-- The numerator of an index. -/
theorem numer_near (hu : R.u ≤ 1 / 2 ^ 20) {A y y' m : ℝ} (hA : 0 ≤ A) (hy : |y| ≤ A) (hm : |m| ≤ A) (hyy : |y' - y| ≤ 140 * R.u * A) :
    |R.fl (R.fl (y' - m) + R.fl (1 / 10 ^ 14)) - (y - m + 1 / 10 ^ 14)| ≤ 148 * R.u * (A + 1) ∧
    |R.fl (R.fl (y' - m) + R.fl (1 / 10 ^ 14))| ≤ 3 * (A + 1) := by
  have u0 := R.u_nonneg
  norm_num at hu
  have uA := mul_nonneg u0 hA
  have hym : |y - m| ≤ 2 * A := (abs_sub _ _).trans (by linarith)
  have h1 : |y' - m - (y - m)| ≤ 140 * R.u * A := by rw [show y' - m - (y - m) = y' - y by ring]; exact hyy
  have h2 : |R.fl (y' - m) - (y - m)| ≤ 143 * R.u * A := (fl_near R h1).trans (by nlinarith [mul_le_mul_of_nonneg_left hym u0, mul_nonneg u0 uA])
  have hc := R.err (1 / 10 ^ 14)
  rw [abs_of_nonneg (by positivity : (0 : ℝ) ≤ 1 / 10 ^ 14)] at hc
  have h3 : |R.fl (y' - m) + R.fl (1 / 10 ^ 14) - (y - m + 1 / 10 ^ 14)| ≤ 143 * R.u * A + R.u * (1 / 10 ^ 14) := by
    rw [show R.fl (y' - m) + R.fl (1 / 10 ^ 14) - (y - m + 1 / 10 ^ 14) = (R.fl (y' - m) - (y - m)) + (R.fl (1 / 10 ^ 14) - 1 / 10 ^ 14) by ring]
    exact (abs_add_le _ _).trans (add_le_add h2 hc)
  have hv : |y - m + 1 / 10 ^ 14| ≤ 2 * A + 1 / 10 ^ 14 := (abs_add_le _ _).trans (by rw [abs_of_nonneg (by positivity : (0 : ℝ) ≤ 1 / 10 ^ 14)]; linarith)
  have h4 := fl_near R h3
  have h5 : |R.fl (R.fl (y' - m) + R.fl (1 / 10 ^ 14)) - (y - m + 1 / 10 ^ 14)| ≤ 148 * R.u * (A + 1) := by
    refine h4.trans ?_
    have := mul_le_mul_of_nonneg_left hv u0
    have e1 := mul_nonneg u0 uA
    have e2 : R.u * (143 * R.u * A) ≤ 1 * (R.u * A) := by nlinarith
    have e3 : R.u * (R.u * (1 / 10 ^ 14)) ≤ R.u := by
      have : R.u * (1 / 10 ^ 14) ≤ 1 := by norm_num; linarith
      nlinarith
    have e4 : R.u * (1 / 10 ^ 14) ≤ R.u := by norm_num; linarith
    have e5 : R.u * (2 * A + 1 / 10 ^ 14) ≤ 2 * (R.u * A) + R.u := by linarith
    nlinarith
  refine ⟨h5, ?_⟩
  have h6 := abs_add_le (R.fl (R.fl (y' - m) + R.fl (1 / 10 ^ 14)) - (y - m + 1 / 10 ^ 14)) (y - m + 1 / 10 ^ 14)
  rw [sub_add_cancel] at h6
  have h7 : 148 * R.u * (A + 1) ≤ 1 / 2 * (A + 1) := mul_le_mul_of_nonneg_right (by linarith) (by linarith)
  have h8 : (1 : ℝ) / 10 ^ 14 ≤ 1 / 2 := by norm_num
  linarith

/-- The numerator of the number of bins. -/
theorem numer_bins (hu : R.u ≤ 1 / 2 ^ 20) {A M m : ℝ} (hA : 0 ≤ A) (hM : |M| ≤ A) (hm : |m| ≤ A) :
    |R.fl (R.fl (R.fl (M - m) + 1) + R.fl (1 / 10 ^ 14)) - (M - m + 1 + 1 / 10 ^ 14)| ≤ 8 * R.u * (A + 1) ∧
    |R.fl (R.fl (R.fl (M - m) + 1) + R.fl (1 / 10 ^ 14))| ≤ 3 * (A + 1) := by
  have u0 := R.u_nonneg
  norm_num at hu
  have uA := mul_nonneg u0 hA
  have hym : |M - m| ≤ 2 * A := (abs_sub _ _).trans (by linarith)
  have h2 : |R.fl (M - m) - (M - m)| ≤ 2 * R.u * A := (R.err _).trans (by nlinarith [mul_le_mul_of_nonneg_left hym u0])
  have h3 : |R.fl (M - m) + 1 - (M - m + 1)| ≤ 2 * R.u * A := by
    rw [show R.fl (M - m) + 1 - (M - m + 1) = R.fl (M - m) - (M - m) by ring]; exact h2
  have hv : |M - m + 1| ≤ 2 * A + 1 := (abs_add_le _ _).trans (by rw [abs_one]; linarith)
  have h4 : |R.fl (R.fl (M - m) + 1) - (M - m + 1)| ≤ 5 * R.u * A + R.u := (fl_near R h3).trans (by
    have := mul_le_mul_of_nonneg_left hv u0
    have e2 : R.u * (2 * R.u * A) ≤ 1 * (R.u * A) := by nlinarith [mul_nonneg u0 uA]
    nlinarith)
  have hc := R.err (1 / 10 ^ 14)
  rw [abs_of_nonneg (by positivity : (0 : ℝ) ≤ 1 / 10 ^ 14)] at hc
  have h5 : |R.fl (R.fl (M - m) + 1) + R.fl (1 / 10 ^ 14) - (M - m + 1 + 1 / 10 ^ 14)| ≤ 5 * R.u * A + R.u + R.u * (1 / 10 ^ 14) := by
    rw [show R.fl (R.fl (M - m) + 1) + R.fl (1 / 10 ^ 14) - (M - m + 1 + 1 / 10 ^ 14) =
      (R.fl (R.fl (M - m) + 1) - (M - m + 1)) + (R.fl (1 / 10 ^ 14) - 1 / 10 ^ 14) by ring]
    exact (abs_add_le _ _).trans (add_le_add h4 hc)
  have hw : |M - m + 1 + 1 / 10 ^ 14| ≤ 2 * A + 1.1 := (abs_add_le _ _).trans (by
    rw [abs_of_nonneg (by positivity : (0 : ℝ) ≤ 1 / 10 ^ 14)]; norm_num; linarith)
  have h6 : |R.fl (R.fl (R.fl (M - m) + 1) + R.fl (1 / 10 ^ 14)) - (M - m + 1 + 1 / 10 ^ 14)| ≤ 8 * R.u * (A + 1) := by
    refine (fl_near R h5).trans ?_
    have e0 := mul_le_mul_of_nonneg_left hw u0
    have e4 : R.u * (1 / 10 ^ 14) ≤ R.u := by norm_num; linarith
    have e2 : R.u * (5 * R.u * A + R.u + R.u * (1 / 10 ^ 14)) ≤ 1 * (R.u * A) + R.u := by
      have : 5 * R.u * A + R.u + R.u * (1 / 10 ^ 14) ≤ A + 1 := by nlinarith
      nlinarith
    norm_num at *
    nlinarith
  refine ⟨h6, ?_⟩
  have h7 := abs_add_le (R.fl (R.fl (R.fl (M - m) + 1) + R.fl (1 / 10 ^ 14)) - (M - m + 1 + 1 / 10 ^ 14)) (M - m + 1 + 1 / 10 ^ 14)
  rw [sub_add_cancel] at h7
  have h8 : 8 * R.u * (A + 1) ≤ 1 / 2 * (A + 1) := mul_le_mul_of_nonneg_right (by linarith) (by linarith)
  norm_num at hw
  linarith

/-- What the bins need: a mesh inside the ball of radius `A`, and a bin size that is neither too large nor near the rounding errors. -/
structure Sizes (N : ℕ) (x : ℕ → ℕ → ℝ) (A h h' : ℝ) : Prop where
  u : R.u ≤ 1 / 2 ^ 20
  ne : 0 < N
  A0 : 0 ≤ A
  A1 : A ≤ 10 ^ 15
  inside : ∀ d < 3, ∀ n < N, |x n d| ≤ A
  pos : 0 < h
  fine : 10 ^ 4 * R.u * (A + 1) ≤ h
  wide : h ≤ 13 / 14
  near : |h' - h| ≤ 11 * R.u * h

/-- Points in different planes get different indices. -/
theorem indexR_lt {N : ℕ} {x : ℕ → ℕ → ℝ} {A h h' : ℝ} (H : Sizes R N x A h h') {d : ℕ} (hd : d < 3) {y z y' z' : ℕ → ℝ}
    (hy : posMin N x d ≤ y d) (hy2 : |y d| ≤ A) (hz2 : |z d| ≤ A) (hyy : |y' d - y d| ≤ 140 * R.u * A) (hzz : |z' d - z d| ≤ 140 * R.u * A)
    (hsep : 1.11 * h ≤ z d - y d) : indexR R N x h' y' d < indexR R N x h' z' d := by
  have u0 := R.u_nonneg
  obtain ⟨e1, -, m1, -⟩ := posMinR_eq R H.u H.ne H.A1 d (H.inside d hd)
  unfold indexR
  rw [e1]
  obtain ⟨a1, a2⟩ := numer_near R H.u H.A0 hy2 m1 hyy
  obtain ⟨b1, b2⟩ := numer_near R H.u H.A0 hz2 m1 hzz
  have hf := H.fine
  have hu := H.u
  have uA : 0 ≤ R.u * (A + 1) := mul_nonneg u0 (by linarith [H.A0])
  refine quot_lt R H.u H.pos H.near a2 b2 (by linarith) ?_ ?_
  · have := abs_le.1 a1
    have := abs_le.1 b1
    norm_num at *
    linarith
  · have := abs_le.1 b1
    have h0 : (0 : ℝ) ≤ 1 / 10 ^ 14 := by positivity
    norm_num at *
    linarith

/-- Indices are smaller than the number of bins. -/
theorem indexR_lt_bins {N : ℕ} {x : ℕ → ℕ → ℝ} {A h h' : ℝ} (H : Sizes R N x A h h') {d : ℕ} (hd : d < 3) {y y' : ℕ → ℝ}
    (hy : y d ≤ posMax N x d) (hy2 : |y d| ≤ A) (hyy : |y' d - y d| ≤ 140 * R.u * A) : indexR R N x h' y' d < binsR R N x h' d := by
  have u0 := R.u_nonneg
  obtain ⟨e1, e2, m1, m2⟩ := posMinR_eq R H.u H.ne H.A1 d (H.inside d hd)
  unfold indexR binsR
  rw [e1, e2]
  obtain ⟨a1, a2⟩ := numer_near R H.u H.A0 hy2 m1 hyy
  obtain ⟨b1, b2⟩ := numer_bins R H.u H.A0 m2 m1
  have hf := H.fine
  have hw := H.wide
  have hu := H.u
  have uA : 0 ≤ R.u * (A + 1) := mul_nonneg u0 (by linarith [H.A0])
  have hmM : posMin N x d ≤ posMax N x d := (posMin_le N x d 0 H.ne).trans (le_posMax N x d 0 H.ne)
  refine quot_lt R H.u H.pos H.near a2 b2 (by linarith) ?_ ?_
  · have := abs_le.1 a1
    have := abs_le.1 b1
    norm_num at *
    linarith
  · have := abs_le.1 b1
    norm_num at *
    linarith

/-- Equal keys, equal indices. -/
theorem keyR_iff {N : ℕ} {x : ℕ → ℕ → ℝ} {A h h' : ℝ} (H : Sizes R N x A h h') {y z y' z' : ℕ → ℝ}
    (hy : ∀ d < 3, y d ≤ posMax N x d) (hz : ∀ d < 3, z d ≤ posMax N x d) (hy2 : ∀ d < 3, |y d| ≤ A) (hz2 : ∀ d < 3, |z d| ≤ A)
    (hyy : ∀ d < 3, |y' d - y d| ≤ 140 * R.u * A) (hzz : ∀ d < 3, |z' d - z d| ≤ 140 * R.u * A) :
    keyR R N x h' y' = keyR R N x h' z' ↔ ∀ d < 3, indexR R N x h' y' d = indexR R N x h' z' d := by
  unfold keyR
  have y0 := indexR_lt_bins R H (d := 0) (by omega) (hy 0 (by omega)) (hy2 0 (by omega)) (hyy 0 (by omega))
  have y1 := indexR_lt_bins R H (d := 1) (by omega) (hy 1 (by omega)) (hy2 1 (by omega)) (hyy 1 (by omega))
  have z0 := indexR_lt_bins R H (d := 0) (by omega) (hz 0 (by omega)) (hz2 0 (by omega)) (hzz 0 (by omega))
  have z1 := indexR_lt_bins R H (d := 1) (by omega) (hz 1 (by omega)) (hz2 1 (by omega)) (hzz 1 (by omega))
  obtain ⟨a1, a2, a3⟩ := lex3_mod (k := indexR R N x h' y' 2) y0 y1
  obtain ⟨b1, b2, b3⟩ := lex3_mod (k := indexR R N x h' z' 2) z0 z1
  constructor
  · intro e d hd
    interval_cases d
    · rw [← a1, ← b1, e]
    · rw [← a2, ← b2, e]
    · rw [← a3, ← b3, e]
  · intro e
    rw [e 0 (by omega), e 1 (by omega), e 2 (by omega)]

end Verif.Swage.Refine
