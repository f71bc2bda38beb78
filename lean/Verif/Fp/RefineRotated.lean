import Verif.Fp.RefineTheorems
import Verif.Fp.Eval64

/-!
# C92, what fails: a neighbour with another numbering

Two cubes; the local axes of the second one are turned by 90 degrees about the common normal.  The centre of the common face is
the mean of the same four vertices in another order, the two results differ in the last bit, and a boundary between two bins
lies between them: one point of the mesh gets two nodes.
-/

namespace Verif.Swage.Refine
open Verif.Swage Verif.Fp Verif.Fp.Rounding

/-- Node numbers: four per layer; the second cell starts at the corner `(1, 0)` and runs in the directions `y` and `-x`. -/
def rotNodes (e l : ℕ) : ℕ := if e = 0 then l else 4 * (l / 4 + 1) + [1, 3, 0, 2].getD (l % 4) 0

/-- Heights of the twelve nodes; the common face is `1 + 2^-52` except in one corner. -/
noncomputable def rotZ (n : ℕ) : ℝ := if n < 4 then 1 / 8 + 46 / 2 ^ 52 else if n < 7 then 1 + 1 / 2 ^ 52 else if n < 8 then 1 else 2

/-- Coordinates of the twelve nodes. -/
noncomputable def rotCoords (n d : ℕ) : ℝ :=
  if d = 0 then 7 / 8 * ((n % 2 : ℕ) : ℝ) else if d = 1 then 7 / 8 * ((n / 2 % 2 : ℕ) : ℝ) else rotZ n

theorem rot_inside (d : ℕ) (_ : d < 3) (n : ℕ) (_ : n < 12) : |rotCoords n d| ≤ 2 := by
  unfold rotCoords rotZ
  have h1 : n % 2 = 0 ∨ n % 2 = 1 := by omega
  have h2 : n / 2 % 2 = 0 ∨ n / 2 % 2 = 1 := by omega
  split_ifs
  · rcases h1 with h | h <;> rw [h] <;> norm_num
  · rcases h2 with h | h <;> rw [h] <;> norm_num
  all_goals norm_num

theorem rot_u : binary64.u ≤ 1 / 2 ^ 20 := by rw [binary64_u]; norm_num
theorem rot_bits : 1 ≤ binary64.bits := by rw [binary64_bits]; norm_num

/-! ### The bin size is 1/8 -/

theorem fl78 : binary64.fl (7 / 8) = 7 / 8 := binary64_rep 7 (-3) (by norm_num) (by norm_num)
theorem fl4964 : binary64.fl (49 / 64) = 49 / 64 := binary64_rep 49 (-6) (by norm_num) (by norm_num)
theorem sqrt4964 : √(49 / 64 : ℝ) = 7 / 8 := by
  rw [show (49 / 64 : ℝ) = (7 / 8) ^ 2 by norm_num]; exact Real.sqrt_sq (by norm_num)

theorem fl_sq_ge {t : ℝ} (h : 7 / 8 ≤ |t|) : 49 / 64 ≤ binary64.fl (binary64.fl t * binary64.fl t) := by
  have h1 : 7 / 8 ≤ |binary64.fl t| := by
    rcases le_abs.1 h with h | h
    · exact le_trans (by rw [← fl78]; exact binary64.mono h) (le_abs_self _)
    · have h' : t ≤ -(7 / 8) := by linarith
      have e : binary64.fl (-(7 / 8)) = -(7 / 8) := binary64_rep (-7) (-3) (by norm_num) (by norm_num)
      have := binary64.mono h'
      rw [e] at this
      exact le_trans (by linarith) (neg_le_abs _)
  rw [← fl4964]
  apply binary64.mono
  rw [← abs_mul_abs_self]
  nlinarith

theorem fl_sq_nonneg (t : ℝ) : 0 ≤ binary64.fl (binary64.fl t * binary64.fl t) := binary64.fl_nonneg (mul_self_nonneg _)

theorem dist1R_ge {v : ℕ → ℕ → ℝ} {a b : ℕ} (h : ∃ d < 3, 7 / 8 ≤ |v b d - v a d|) : 7 / 8 ≤ dist1R binary64 v a b := by
  obtain ⟨d, hd, h⟩ := h
  have n0 := fl_sq_nonneg (v b 0 - v a 0)
  have n1 := fl_sq_nonneg (v b 1 - v a 1)
  have n2 := fl_sq_nonneg (v b 2 - v a 2)
  have hs := fl_sq_ge h
  have up : ∀ {s : ℝ}, 49 / 64 ≤ s → 49 / 64 ≤ binary64.fl s := fun hs => by rw [← fl4964]; exact binary64.mono hs
  have h01 : 0 ≤ binary64.fl (binary64.fl (binary64.fl (v b 0 - v a 0) * binary64.fl (v b 0 - v a 0)) +
      binary64.fl (binary64.fl (v b 1 - v a 1) * binary64.fl (v b 1 - v a 1))) := binary64.fl_nonneg (by linarith)
  unfold dist1R
  refine le_trans ?_ (le_abs_self _)
  rw [← fl78]
  apply binary64.mono
  rw [← sqrt4964]
  apply Real.sqrt_le_sqrt
  apply up
  interval_cases d
  · have := up (s := binary64.fl (binary64.fl (v b 0 - v a 0) * binary64.fl (v b 0 - v a 0)) +
      binary64.fl (binary64.fl (v b 1 - v a 1) * binary64.fl (v b 1 - v a 1))) (by linarith)
    linarith
  · have := up (s := binary64.fl (binary64.fl (v b 0 - v a 0) * binary64.fl (v b 0 - v a 0)) +
      binary64.fl (binary64.fl (v b 1 - v a 1) * binary64.fl (v b 1 - v a 1))) (by linarith)
    linarith
  · linarith

theorem rot_sep : ∀ b < 8, ∀ a < b, ∃ d < 3, 7 / 8 ≤ |rotCoords (rotNodes 1 b) d - rotCoords (rotNodes 1 a) d| := by
  have hdec : ∀ b < 8, ∀ a < b, rotNodes 1 a % 2 ≠ rotNodes 1 b % 2 ∨ rotNodes 1 a / 2 % 2 ≠ rotNodes 1 b / 2 % 2 ∨
      (4 ≤ rotNodes 1 a ∧ rotNodes 1 a < 8 ∧ 8 ≤ rotNodes 1 b) := by decide
  intro b hb a ha
  rcases hdec b hb a ha with h | h | ⟨h1, h2, h3⟩
  · refine ⟨0, by omega, ?_⟩
    simp only [rotCoords, if_true]
    have : (rotNodes 1 a % 2 = 0 ∧ rotNodes 1 b % 2 = 1) ∨ (rotNodes 1 a % 2 = 1 ∧ rotNodes 1 b % 2 = 0) := by omega
    rcases this with ⟨e1, e2⟩ | ⟨e1, e2⟩ <;> rw [e1, e2] <;> norm_num [abs_of_pos, abs_of_neg]
  · refine ⟨1, by omega, ?_⟩
    simp only [rotCoords, if_true, one_ne_zero, if_false]
    have : (rotNodes 1 a / 2 % 2 = 0 ∧ rotNodes 1 b / 2 % 2 = 1) ∨ (rotNodes 1 a / 2 % 2 = 1 ∧ rotNodes 1 b / 2 % 2 = 0) := by omega
    rcases this with ⟨e1, e2⟩ | ⟨e1, e2⟩ <;> rw [e1, e2] <;> norm_num [abs_of_pos, abs_of_neg]
  · refine ⟨2, by omega, ?_⟩
    simp only [rotCoords, OfNat.ofNat_ne_zero, OfNat.ofNat_ne_one, if_false]
    unfold rotZ
    rw [if_neg (by omega), if_neg (by omega), if_neg (by omega), if_neg (by omega)]
    refine le_trans ?_ (le_abs_self _)
    split_ifs <;> norm_num

theorem rot_dist (junk : ℕ → ℝ) (j : ℝ) : distMinR binary64 2 rotNodes rotCoords junk j = 7 / 8 := by
  rw [distMinR_last _ _ _ _ _ _ (by omega)]
  apply le_antisymm
  · obtain ⟨i, hi, e1, e2⟩ := Key.pairs_all 5 (by omega) 4 (by omega)
    have h := (Key.loop_min_le 28 (distLoopR binary64 (fun l d => rotCoords (rotNodes (2 - 1) l) d) junk).2 (binary64.fl (10 ^ 64))).2 i hi
    rw [distLoopR_val _ _ _ i hi, e1, e2] at h
    refine h.trans (le_of_eq ?_)
    unfold dist1R
    have c0 : rotCoords (rotNodes (2 - 1) 5) 0 - rotCoords (rotNodes (2 - 1) 4) 0 = 0 := by norm_num [rotCoords, rotNodes]
    have c1 : rotCoords (rotNodes (2 - 1) 5) 1 - rotCoords (rotNodes (2 - 1) 4) 1 = 7 / 8 := by norm_num [rotCoords, rotNodes]
    have c2 : rotCoords (rotNodes (2 - 1) 5) 2 - rotCoords (rotNodes (2 - 1) 4) 2 = 0 := by norm_num [rotCoords, rotNodes, rotZ]
    rw [c0, c1, c2, binary64.fl_zero, zero_mul, binary64.fl_zero, zero_add, add_zero, fl78,
      show (7 / 8 * (7 / 8) : ℝ) = 49 / 64 by norm_num, fl4964, fl4964, fl4964, sqrt4964, fl78]
    norm_num
  · unfold cellDistR
    apply Key.le_loop_min
    · rw [← fl78]; exact binary64.mono (by norm_num)
    · intro i hi
      rw [distLoopR_val _ _ _ i hi]
      obtain ⟨h1, h2⟩ := Key.pairs_lt i hi
      exact dist1R_ge (rot_sep _ h2 _ h1)

theorem rot_hash (q : Junk) : hashDistR binary64 1 (distMinR binary64 2 rotNodes rotCoords q.dist q.dist0) = 1 / 8 := by
  rw [rot_dist]
  unfold hashDistR
  have h7 : binary64.fl 7 = 7 := binary64_rep 7 0 (by norm_num) (by norm_num)
  norm_num
  rw [h7]
  norm_num
  have := binary64_rep 1 (-3) (x := 1 / 8) (by norm_num) (by norm_num)
  norm_num at this
  exact this

/-! ### The centre of the common face, computed from both sides -/

/-- The rounded mean of four numbers. -/
noncomputable def mean4 (a b c d : ℝ) : ℝ :=
  binary64.fl (binary64.fl (binary64.fl (binary64.fl (1 / 4 * a) + binary64.fl (1 / 4 * b)) + binary64.fl (1 / 4 * c)) + binary64.fl (1 / 4 * d))

theorem wR_zero (b : ℕ) : wR binary64 0 b = 1 := by
  unfold wR; rw [zero_mul, binary64.fl_zero, add_zero]; exact fl_one _ rot_bits

theorem bR_quarter : bR binary64 1 1 2 = 1 / 4 := by
  unfold bR
  have h4 : binary64.fl (1 / 4) = 1 / 4 := binary64_rep 1 (-2) (by norm_num) (by norm_num)
  rw [fl_eighth _ rot_bits, mul_one, mul_one, fl_eighth _ rot_bits, fl_eighth _ rot_bits,
    show (1 / 8 * 2 : ℝ) = 1 / 4 by norm_num, h4]

theorem center_top (L : ℕ → ℝ) (h1 : L 1 = 0) (h2 : L 2 = 1) (xs : ℕ → ℝ) :
    gPointR binary64 (basisR binary64 L 1 1 2) xs = mean4 (xs 4) (xs 5) (xs 6) (xs 7) := by
  obtain ⟨w1, w2, w3, w4⟩ := wR_end binary64 rot_bits
  rw [gPointR_eq]
  simp only [basisR_eq binary64 L _ _ _ 0 (by omega), basisR_eq binary64 L _ _ _ 1 (by omega), basisR_eq binary64 L _ _ _ 2 (by omega),
    basisR_eq binary64 L _ _ _ 3 (by omega), basisR_eq binary64 L _ _ _ 4 (by omega), basisR_eq binary64 L _ _ _ 5 (by omega),
    basisR_eq binary64 L _ _ _ 6 (by omega), basisR_eq binary64 L _ _ _ 7 (by omega), h1, h2, Nat.reduceMod, Nat.reduceDiv, w1, w2,
    wR_zero, bR_zero_right, bR_quarter, zero_mul, binary64.fl_zero, add_zero, zero_add, binary64_idem _]
  rfl

theorem center_bottom (L : ℕ → ℝ) (h1 : L 1 = 0) (h0 : L 0 = -1) (xs : ℕ → ℝ) :
    gPointR binary64 (basisR binary64 L 1 1 0) xs = mean4 (xs 0) (xs 1) (xs 2) (xs 3) := by
  obtain ⟨w1, w2, w3, w4⟩ := wR_end binary64 rot_bits
  rw [gPointR_eq]
  simp only [basisR_eq binary64 L _ _ _ 0 (by omega), basisR_eq binary64 L _ _ _ 1 (by omega), basisR_eq binary64 L _ _ _ 2 (by omega),
    basisR_eq binary64 L _ _ _ 3 (by omega), basisR_eq binary64 L _ _ _ 4 (by omega), basisR_eq binary64 L _ _ _ 5 (by omega),
    basisR_eq binary64 L _ _ _ 6 (by omega), basisR_eq binary64 L _ _ _ 7 (by omega), h1, h0, Nat.reduceMod, Nat.reduceDiv, w3, w4,
    wR_zero, bR_zero_right, bR_quarter, zero_mul, binary64.fl_zero, add_zero, zero_add, binary64_idem _]
  rfl

theorem fl_q1 : binary64.fl (1 / 4 * (1 + 1 / 2 ^ 52)) = 1 / 4 * (1 + 1 / 2 ^ 52) :=
  binary64_rep (2 ^ 52 + 1) (-54) (by norm_num) (by norm_num)
theorem fl_q0 : binary64.fl (1 / 4 * 1) = 1 / 4 := by
  rw [mul_one]; exact binary64_rep 1 (-2) (by norm_num) (by norm_num)

/-- In the order of the first cell. -/
theorem mean_first : mean4 (1 + 1 / 2 ^ 52) (1 + 1 / 2 ^ 52) (1 + 1 / 2 ^ 52) 1 = 1 + 1 / 2 ^ 52 := by
  unfold mean4
  rw [fl_q1, fl_q0]
  have s2 : binary64.fl (1 / 4 * (1 + 1 / 2 ^ 52) + 1 / 4 * (1 + 1 / 2 ^ 52)) = 1 / 2 + 1 / 2 ^ 53 := by
    rw [binary64_rep (2 ^ 52 + 1) (-53) (by norm_num) (by norm_num)]; norm_num
  have s3 : binary64.fl (1 / 2 + 1 / 2 ^ 53 + 1 / 4 * (1 + 1 / 2 ^ 52)) = 3 / 4 + 1 / 2 ^ 52 := by
    rw [binary64_round (-1) (3 * 2 ^ 51 + 2) (1 / 2 ^ 53) (by norm_num) (by norm_num) (by norm_num)
      (Or.inr ⟨by decide, by norm_num⟩)]
    norm_num
  have s4 : binary64.fl (3 / 4 + 1 / 2 ^ 52 + 1 / 4) = 1 + 1 / 2 ^ 52 := by
    rw [binary64_rep (2 ^ 52 + 1) (-52) (by norm_num) (by norm_num)]; norm_num
  rw [s2, s3, s4]

/-- In the order of the second cell. -/
theorem mean_second : mean4 (1 + 1 / 2 ^ 52) 1 (1 + 1 / 2 ^ 52) (1 + 1 / 2 ^ 52) = 1 := by
  unfold mean4
  rw [fl_q1, fl_q0]
  have s2 : binary64.fl (1 / 4 * (1 + 1 / 2 ^ 52) + 1 / 4) = 1 / 2 := by
    rw [binary64_round (-1) (2 ^ 52) (1 / 2 ^ 53) (by norm_num) (by norm_num) (by norm_num) (Or.inr ⟨by decide, by norm_num⟩)]
    norm_num
  have s3 : binary64.fl (1 / 2 + 1 / 4 * (1 + 1 / 2 ^ 52)) = 3 / 4 := by
    rw [binary64_round (-1) (3 * 2 ^ 51) (1 / 2 ^ 53) (by norm_num) (by norm_num) (by norm_num) (Or.inr ⟨by decide, by norm_num⟩)]
    norm_num
  have s4 : binary64.fl (3 / 4 + 1 / 4 * (1 + 1 / 2 ^ 52)) = 1 := by
    rw [binary64_round 0 (2 ^ 52) (1 / 2 ^ 52) (by norm_num) (by norm_num) (by norm_num) (Or.inl (by norm_num))]
    norm_num
  rw [s2, s3, s4]

theorem fl_716 : binary64.fl (7 / 16) = 7 / 16 := binary64_rep 7 (-4) (by norm_num) (by norm_num)
theorem fl_732 : binary64.fl (7 / 32) = 7 / 32 := binary64_rep 7 (-5) (by norm_num) (by norm_num)

theorem mean_flat {a b c d : ℝ} (h : (a, b, c, d) ∈ [(0, 7 / 8, 0, 7 / 8), (0, 0, 7 / 8, 7 / 8), (7 / 8, 7 / 8, 0, (0 : ℝ))]) :
    mean4 a b c d = 7 / 16 := by
  have e1 : (1 / 4 * (7 / 8) : ℝ) = 7 / 32 := by norm_num
  have e2 : (7 / 32 + 7 / 32 : ℝ) = 7 / 16 := by norm_num
  simp only [List.mem_cons, Prod.mk.injEq, List.not_mem_nil, or_false] at h
  rcases h with ⟨rfl, rfl, rfl, rfl⟩ | ⟨rfl, rfl, rfl, rfl⟩ | ⟨rfl, rfl, rfl, rfl⟩ <;>
  · unfold mean4
    simp only [mul_zero, binary64.fl_zero, add_zero, zero_add, e1, fl_732, e2, fl_716]

/-! ### The bins of the two results -/

theorem le_posMin {N : ℕ} {x : ℕ → ℕ → ℝ} {d : ℕ} {m : ℝ} (h0 : m ≤ 10 ^ 16) (h : ∀ n < N, m ≤ x n d) : m ≤ posMin N x d := by
  unfold posMin
  induction N with
  | zero => exact h0
  | succ N ih => rw [loop_succ]; exact le_min (ih fun n hn => h n (by omega)) (h N (by omega))

theorem rot_min : posMinR binary64 12 rotCoords 2 = 1 / 8 + 46 / 2 ^ 52 := by
  obtain ⟨e, -⟩ := posMinR_eq binary64 rot_u (N := 12) (by omega) (x := rotCoords) (A := 2) (by norm_num) 2 (rot_inside 2 (by omega))
  rw [e]
  apply le_antisymm
  · refine (posMin_le 12 rotCoords 2 0 (by omega)).trans (le_of_eq ?_)
    norm_num [rotCoords, rotZ]
  · apply le_posMin (by norm_num)
    intro n _
    simp only [rotCoords, OfNat.ofNat_ne_zero, OfNat.ofNat_ne_one, if_false]
    unfold rotZ
    split_ifs <;> norm_num

theorem rot_c : 45.03 / 2 ^ 52 < binary64.fl (1 / 10 ^ 14) ∧ binary64.fl (1 / 10 ^ 14) < 45.04 / 2 ^ 52 := by
  have h := binary64.err (1 / 10 ^ 14)
  rw [abs_of_nonneg (by positivity : (0 : ℝ) ≤ 1 / 10 ^ 14), binary64_u] at h
  obtain ⟨h1, h2⟩ := abs_le.1 h
  norm_num at h1 h2 ⊢
  constructor <;> linarith

theorem rot_eta : binary64.fl (1 / 10 ^ 16) < 1 := by
  have h := binary64.err (1 / 10 ^ 16)
  rw [abs_of_nonneg (by positivity : (0 : ℝ) ≤ 1 / 10 ^ 16), binary64_u] at h
  obtain ⟨h1, h2⟩ := abs_le.1 h
  norm_num at h1 h2 ⊢
  linarith

theorem rot_index_first {y : ℕ → ℝ} (hy : y 2 = 1 + 1 / 2 ^ 52) : indexR binary64 12 rotCoords (1 / 8) y 2 = 7 := by
  unfold indexR
  rw [rot_min, hy]
  have s1 : binary64.fl (1 + 1 / 2 ^ 52 - (1 / 8 + 46 / 2 ^ 52)) = 7 / 8 - 45 / 2 ^ 52 := by
    rw [binary64_rep (7 * 2 ^ 50 - 90) (-53) (by norm_num) (by norm_num)]; norm_num
  obtain ⟨c1, c2⟩ := rot_c
  have s2 : binary64.fl (7 / 8 - 45 / 2 ^ 52 + binary64.fl (1 / 10 ^ 14)) = 7 / 8 := by
    generalize binary64.fl (1 / 10 ^ 14) = c at c1 c2 ⊢
    norm_num at c1 c2
    rw [binary64_round (-1) (7 * 2 ^ 50) (1 / 2 ^ 53) (by norm_num) (by norm_num; linarith) (by norm_num; linarith)
      (Or.inl (by rw [abs_lt]; norm_num; constructor <;> linarith))]
    norm_num
  have s3 : binary64.fl (7 / 8 / (1 / 8)) = 7 := by
    rw [show (7 / 8 / (1 / 8) : ℝ) = 7 by norm_num]; exact binary64_rep 7 0 (by norm_num) (by norm_num)
  rw [s1, s2, s3, max_eq_right (by linarith [rot_eta])]
  norm_num

theorem rot_index_second {y : ℕ → ℝ} (hy : y 2 = 1) : indexR binary64 12 rotCoords (1 / 8) y 2 = 6 := by
  unfold indexR
  rw [rot_min, hy]
  have s1 : binary64.fl (1 - (1 / 8 + 46 / 2 ^ 52)) = 7 / 8 - 46 / 2 ^ 52 := by
    rw [binary64_rep (7 * 2 ^ 50 - 92) (-53) (by norm_num) (by norm_num)]; norm_num
  obtain ⟨c1, c2⟩ := rot_c
  have s2 : binary64.fl (7 / 8 - 46 / 2 ^ 52 + binary64.fl (1 / 10 ^ 14)) = 7 / 8 - 1 / 2 ^ 52 := by
    generalize binary64.fl (1 / 10 ^ 14) = c at c1 c2 ⊢
    norm_num at c1 c2
    rw [binary64_round (-1) (7 * 2 ^ 50 - 2) (1 / 2 ^ 53) (by norm_num) (by norm_num; linarith) (by norm_num; linarith)
      (Or.inl (by rw [abs_lt]; norm_num; constructor <;> linarith))]
    norm_num
  have s3 : binary64.fl ((7 / 8 - 1 / 2 ^ 52) / (1 / 8)) = 7 - 1 / 2 ^ 49 := by
    rw [binary64_rep (7 * 2 ^ 49 - 1) (-49) (by norm_num) (by norm_num)]; norm_num
  rw [s1, s2, s3, max_eq_right (by linarith [rot_eta, (by norm_num : (1 : ℝ) ≤ 7 - 1 / 2 ^ 49)]), Nat.floor_eq_iff (by norm_num)]
  norm_num

theorem rot_bins (d : ℕ) (hd : d < 3) : 1 ≤ binsR binary64 12 rotCoords (1 / 8) d := by
  obtain ⟨e1, e2, -⟩ := posMinR_eq binary64 rot_u (N := 12) (by omega) (x := rotCoords) (A := 2) (by norm_num) d (rot_inside d hd)
  have hle : posMin 12 rotCoords d ≤ posMax 12 rotCoords d := (posMin_le 12 rotCoords d 0 (by omega)).trans (le_posMax 12 rotCoords d 0 (by omega))
  unfold binsR
  rw [e1, e2]
  apply Nat.one_le_iff_ne_zero.2
  apply (Nat.floor_pos.2 _).ne'
  refine le_trans ?_ (le_max_right _ _)
  have one := fl_one binary64 rot_bits
  have a1 : 0 ≤ binary64.fl (posMax 12 rotCoords d - posMin 12 rotCoords d) := binary64.fl_nonneg (by linarith)
  have a2 : 1 ≤ binary64.fl (binary64.fl (posMax 12 rotCoords d - posMin 12 rotCoords d) + 1) := by
    conv_lhs => rw [← one]
    exact binary64.mono (by linarith)
  have a3 : 0 ≤ binary64.fl (1 / 10 ^ 14) := binary64.fl_nonneg (by positivity)
  have a4 : 1 ≤ binary64.fl (binary64.fl (binary64.fl (posMax 12 rotCoords d - posMin 12 rotCoords d) + 1) + binary64.fl (1 / 10 ^ 14)) := by
    conv_lhs => rw [← one]
    exact binary64.mono (by linarith)
  conv_lhs => rw [← one]
  apply binary64.mono
  rw [le_div_iff₀ (by norm_num)]
  linarith

/-! ### The failure -/

theorem rot_distinct : DistinctVerts 2 rotNodes rotCoords := by
  refine ⟨by omega, fun a ha b hb hab => ?_⟩
  have key : ∀ a b, b < 8 → a < b → ∃ d < 3, rotCoords (rotNodes 1 a) d ≠ rotCoords (rotNodes 1 b) d := by
    intro a b hb hlt
    obtain ⟨d, hd, h⟩ := rot_sep b hb a hlt
    refine ⟨d, hd, fun e => ?_⟩
    rw [e, sub_self, abs_zero] at h
    norm_num at h
  rcases Nat.lt_or_ge a b with h | h
  · exact key a b hb h
  · obtain ⟨d, hd, hne⟩ := key b a ha (by omega)
    exact ⟨d, hd, hne.symm⟩

open HighOrder in
/-- **C92 fails (neighbour turned by 90 degrees).**  There is a mesh of two convex hexahedra with double precision coordinates that share
a face (four nodes, the numbering of the second turned by 90 degrees), such that for order 1 the two Gauss points in the centre of the common
face get the same node in exact arithmetic and two different nodes in double precision: the refined mesh is torn. -/
theorem C92_rotated_negation : ∃ (nodes : ℕ → ℕ → ℕ) (x : ℕ → ℕ → ℝ), (∀ e < 2, ∀ l < 8, nodes e l < 12) ∧
    (∀ n < 12, ∀ d < 3, binary64.fl (x n d) = x n d ∧ 0 ≤ x n d ∧ x n d ≤ 2) ∧
    (∀ u ≤ 1, ∀ v ≤ 1, nodes 0 (faceIdx 1 2 1 u v) = nodes 1 (faceIdx 1 2 0 v (1 - u))) ∧
    ∀ q, ∃ r r', refineMesh 2 12 1 nodes x q = some r ∧ refineMeshR binary64 2 12 1 nodes x q = some r' ∧
      (∃ n, r.nig.get (faceIdx 2 2 1 1 1) = some n ∧ r.nig.get (27 + faceIdx 2 2 0 1 1) = some n) ∧
      ∃ n n', r'.nig.get (faceIdx 2 2 1 1 1) = some n ∧ r'.nig.get (27 + faceIdx 2 2 0 1 1) = some n' ∧ n ≠ n' := by
  have hshare : ∀ u ≤ 1, ∀ v ≤ 1, rotNodes 0 (faceIdx 1 2 1 u v) = rotNodes 1 (faceIdx 1 2 0 v (1 - u)) := by
    have : ∀ u < 2, ∀ v < 2, rotNodes 0 (faceIdx 1 2 1 u v) = rotNodes 1 (faceIdx 1 2 0 v (1 - u)) := by decide
    exact fun u hu v hv => this u (by omega) v (by omega)
  refine ⟨rotNodes, rotCoords, by decide, ?_, hshare, ?_⟩
  · intro n hn d hd
    have hb := abs_le.1 (rot_inside d hd n hn)
    refine ⟨?_, ?_, hb.2⟩
    · unfold rotCoords rotZ
      have h1 : n % 2 = 0 ∨ n % 2 = 1 := by omega
      have h2 : n / 2 % 2 = 0 ∨ n / 2 % 2 = 1 := by omega
      split_ifs
      · rcases h1 with h | h <;> rw [h]
        · simp [binary64.fl_zero]
        · rw [Nat.cast_one, mul_one, fl78]
      · rcases h2 with h | h <;> rw [h]
        · simp [binary64.fl_zero]
        · rw [Nat.cast_one, mul_one, fl78]
      · exact binary64_rep (2 ^ 49 + 46) (-52) (by norm_num) (by norm_num)
      · exact binary64_rep (2 ^ 52 + 1) (-52) (by norm_num) (by norm_num)
      · exact fl_one _ rot_bits
      · exact fl_two _ rot_bits
    · unfold rotCoords rotZ
      split_ifs <;> positivity
  · intro q
    obtain ⟨r, hr, hC⟩ := C42_conforming 2 12 1 (by omega) rotNodes rotCoords q rot_distinct
    obtain ⟨r', hr', H⟩ := refineR_run binary64 2 12 1 (by omega) rotNodes rotCoords q (by rw [rot_hash]; norm_num)
    refine ⟨r, r', hr, hr', ?_, ?_⟩
    · obtain ⟨g, g', e, e', -, h3⟩ := hC 0 (by omega) 1 (by omega) 2 1 2 0 (by omega) (by omega) true false true
        (fun u hu v hv => hshare u hu v hv) 1 (by simp [sub1d]) 1 (by simp [sub1d])
      have i1 : g = faceIdx 2 2 1 1 1 := by rw [e]; simp [gaussInElem, sub1d]
      have i2 : g' = 27 + faceIdx 2 2 0 1 1 := by rw [e']; simp [gaussInElem, sub1d, orient, mirror, pts1d]
      rw [i1, i2] at h3
      exact h3 (by decide) (by omega)
    · have hF := H.fin
      rw [rot_hash] at hF
      have hsz : r'.nig.size = 54 := by rw [hF.sizes.1]; rfl
      have f1 : faceIdx 2 2 1 1 1 = 22 := by decide
      have f2 : 27 + faceIdx 2 2 0 1 1 = 31 := by decide
      rw [f1, f2]
      refine ⟨_, _, Arr.get_lt (by rw [hsz]; omega), Arr.get_lt (by rw [hsz]; omega), ?_⟩
      intro heq
      rcases (hF.iff 22 (by decide) 31 (by decide)).1 heq with h | ⟨-, -, h⟩
      · omega
      · obtain ⟨-, l0, l1⟩ := lobR_near binary64 rot_u rot_bits (p := 1) (by omega)
        have lm : (lobNodesR binary64 (pts1d 1)).getD 1 0 = 0 := by
          show (if ((0 : ℚ)) < 0 then -binary64.fl ((-0 : ℚ) : ℝ) else binary64.fl ((0 : ℚ) : ℝ)) = 0
          simp [binary64.fl_zero]
        have g1 := H.gauss 0 2 1 1 (by omega) (by decide) (by decide) (by decide)
        have g2 := H.gauss 1 0 1 1 (by omega) (by decide) (by decide) (by decide)
        rw [show cellId (pts1d 1) 0 2 1 1 = 22 from rfl] at g1
        rw [show cellId (pts1d 1) 1 0 1 1 = 31 from rfl] at g2
        have z1 : r'.gauss.val 22 2 = 1 + 1 / 2 ^ 52 := by
          rw [g1]; simp only []
          rw [center_top _ lm l1]
          norm_num [rotCoords, rotNodes, rotZ]
          have := mean_first
          norm_num at this
          exact this
        have z2 : r'.gauss.val 31 2 = 1 := by
          rw [g2]; simp only []
          rw [center_bottom _ lm l0]
          norm_num [rotCoords, rotNodes, rotZ]
          have := mean_second
          norm_num at this
          exact this
        have xy : ∀ d < 2, r'.gauss.val 22 d = r'.gauss.val 31 d := by
          intro d hd
          rw [g1, g2]; simp only []
          rw [center_top _ lm l1, center_bottom _ lm l0]
          interval_cases d
          · rw [mean_flat, mean_flat] <;> norm_num [rotCoords, rotNodes]
          · rw [mean_flat, mean_flat] <;> norm_num [rotCoords, rotNodes]
        have x0 : indexR binary64 12 rotCoords (1 / 8) (r'.gauss.val 22) 0 = indexR binary64 12 rotCoords (1 / 8) (r'.gauss.val 31) 0 := by
          unfold indexR; rw [xy 0 (by omega)]
        have x1 : indexR binary64 12 rotCoords (1 / 8) (r'.gauss.val 22) 1 = indexR binary64 12 rotCoords (1 / 8) (r'.gauss.val 31) 1 := by
          unfold indexR; rw [xy 1 (by omega)]
        unfold keyR at h
        rw [x0, x1, rot_index_first z1, rot_index_second z2] at h
        have b0 := rot_bins 0 (by omega)
        have b1 := rot_bins 1 (by omega)
        have := Nat.mul_le_mul b0 b1
        nlinarith

end Verif.Swage.Refine
