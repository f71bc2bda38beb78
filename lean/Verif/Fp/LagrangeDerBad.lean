import Verif.Fp.LagrangeDerTheorems

/-!
# C95, what fails: the derivative next to a vertex

Vertices -1 and 1, constant data 1, a point `5 * 2^-50` from the vertex -1 (ten times the coincidence tolerance).  The computed value of the
interpolant is `1 + 2^-52`; the divided difference turns this last bit into a derivative of 0.05.
-/

namespace Verif.Fp.Interp
open Verif.Fp Verif.Fp.Rounding Finset

/-- The two vertices. -/
def badZ (i : ℕ) : ℝ := if i = 0 then -1 else 1

/-- The point. -/
noncomputable def badX : ℝ := -1 + 5 / 2 ^ 50

theorem badZ0 : badZ 0 = -1 := if_pos rfl
theorem badZ1 : badZ 1 = 1 := if_neg (by norm_num)

/-- Two weights. -/
theorem weights_two (R : Rounding) (Z w0 : ℕ → ℝ) :
    weights R 2 Z w0 0 = R.fl (1 * R.fl (1 / R.fl (Z 0 - Z 1))) ∧
    weights R 2 Z w0 1 = R.fl (1 * R.fl (1 / R.fl (Z 1 - Z 0))) := by
  unfold weights
  rw [loop_store]
  constructor
  · simp [loop_succ, loop_zero]
  · simp [loop_succ, loop_zero]

/-- Derivative and value for two vertices, off the vertices. -/
theorem der_two (R : Rounding) (Z w : ℕ → ℝ) (x : ℝ) (c : ℕ → ℝ) {ic : ℕ} (hic : ¬ ic < 2) {a b t0 t1 L p s0 s1 : ℝ}
    (ha : R.fl (x - Z 0) = a) (hb : R.fl (x - Z 1) = b)
    (h0 : R.fl (0 + R.fl (R.fl (w 0 * c 0) / a)) = t0) (h1 : R.fl (t0 + R.fl (R.fl (w 1 * c 1) / b)) = t1)
    (hL : R.fl (R.fl (1 * a) * b) = L) (hp : R.fl (t1 * L) = p)
    (hs0 : R.fl (0 + R.fl (R.fl (w 0 * R.fl (R.fl (1 / a) * R.fl (p - c 0))) / a)) = s0)
    (hs1 : R.fl (s0 + R.fl (R.fl (w 1 * R.fl (R.fl (1 / b) * R.fl (p - c 1))) / b)) = s1) :
    evalDerInterp R 2 1 ic Z w x c = R.fl (s1 * R.fl (L * R.fl (1 * ((0 + 1 : ℕ) : ℝ)))) := by
  unfold evalDerInterp evalDerRun
  rw [if_neg hic]
  simp only [loop_succ, loop_zero]
  unfold derStepNonCoincident
  simp only []
  rw [(noncostep_fst 2 Z _ x _ c).2, (sumLoop_fst 2 Z _ x c).2, (sumLoop_fst 2 Z _ x c).1]
  simp only [loop_succ, loop_zero]
  rw [ha, hb, h0, h1, hL, hp, hs0, hs1]

theorem bad_w : weights binary64 2 badZ 0 0 = -1 / 2 ∧ weights binary64 2 badZ 0 1 = 1 / 2 := by
  obtain ⟨e0, e1⟩ := weights_two binary64 badZ 0
  rw [badZ0, badZ1] at e0 e1
  rw [e0, e1, binary64_rep (-1) 1 (x := -1 - 1) (by norm_num) (by norm_num),
    binary64_rep 1 1 (x := 1 - -1) (by norm_num) (by norm_num),
    binary64_rep (-1) (-1) (x := 1 / (-1 - 1)) (by norm_num) (by norm_num),
    binary64_rep 1 (-1) (x := 1 / (1 - -1)) (by norm_num) (by norm_num),
    binary64_rep (-1) (-1) (x := 1 * (1 / (-1 - 1))) (by norm_num) (by norm_num),
    binary64_rep 1 (-1) (x := 1 * (1 / (1 - -1))) (by norm_num) (by norm_num)]
  norm_num

/-- The rounding of a negative number. -/
theorem round_neg {x : ℝ} (e n : ℤ) (w : ℝ) (hw : w = 2 ^ (e - 52)) (h1 : (2 : ℝ) ^ e ≤ -x) (h2 : -x < (2 : ℝ) ^ (e + 1))
    (h : |-x - n * w| < w / 2 ∨ (Even n ∧ |-x - n * w| ≤ w / 2)) : binary64.fl x = -(n * w) := by
  have := binary64_round e n w hw h1 h2 h
  rw [binary64_neg] at this
  linarith

theorem bad_der : evalDerInterp binary64 2 1 (2 ^ 64 - 1) badZ (weights binary64 2 badZ 0) badX (fun _ => 1) =
    7205759403792778 / 2 ^ 57 := by
  have ha : binary64.fl (badX - badZ 0) = 5 / 2 ^ 50 := by
    rw [badZ0, binary64_rep 5 (-50) (by unfold badX; norm_num) (by norm_num)]; unfold badX; ring
  have hb : binary64.fl (badX - badZ 1) = -(9007199254740972 / 2 ^ 52) := by
    rw [badZ1, binary64_rep (-9007199254740972) (-52) (by unfold badX; norm_num) (by norm_num)]; unfold badX; norm_num
  obtain ⟨w0, w1⟩ := bad_w
  have q0 : binary64.fl (-1 / 2 / (5 / 2 ^ 50)) = -(7205759403792794 / 2 ^ 6) := by
    rw [round_neg 46 7205759403792794 (1 / 2 ^ 6) (by norm_num) (by norm_num) (by norm_num) (Or.inl (by norm_num [abs_lt]))]
    norm_num
  have q1 : binary64.fl (1 / 2 / -(9007199254740972 / 2 ^ 52)) = -(4503599627370506 / 2 ^ 54) := by
    rw [round_neg (-2) 4503599627370506 (1 / 2 ^ 54) (by norm_num) (by norm_num) (by norm_num) (Or.inl (by norm_num [abs_lt]))]
    norm_num
  have h0 : binary64.fl (0 + binary64.fl (binary64.fl (weights binary64 2 badZ 0 0 * 1) / (5 / 2 ^ 50))) =
      -(7205759403792794 / 2 ^ 6) := by
    rw [w0, binary64_rep (-1) (-1) (x := -1 / 2 * 1) (by norm_num) (by norm_num), mul_one, q0,
      binary64_rep (-7205759403792794) (-6) (by norm_num) (by norm_num), zero_add]
  have h1 : binary64.fl (-(7205759403792794 / 2 ^ 6) +
      binary64.fl (binary64.fl (weights binary64 2 badZ 0 1 * 1) / -(9007199254740972 / 2 ^ 52))) =
      -(7205759403792810 / 2 ^ 6) := by
    rw [w1, binary64_rep 1 (-1) (x := 1 / 2 * 1) (by norm_num) (by norm_num), mul_one, q1,
      round_neg 46 7205759403792810 (1 / 2 ^ 6) (by norm_num) (by norm_num) (by norm_num) (Or.inl (by norm_num [abs_lt]))]
    norm_num
  have hL : binary64.fl (binary64.fl (1 * (5 / 2 ^ 50)) * -(9007199254740972 / 2 ^ 52)) = -(5629499534213108 / 2 ^ 99) := by
    rw [binary64_rep 5 (-50) (x := 1 * (5 / 2 ^ 50)) (by norm_num) (by norm_num),
      round_neg (-47) 5629499534213108 (1 / 2 ^ 99) (by norm_num) (by norm_num) (by norm_num)
        (Or.inr ⟨by decide, by norm_num [abs_le]⟩)]
    norm_num
  have hp : binary64.fl (-(7205759403792810 / 2 ^ 6) * -(5629499534213108 / 2 ^ 99)) = 4503599627370497 / 2 ^ 52 := by
    rw [binary64_round 0 4503599627370497 (1 / 2 ^ 52) (by norm_num) (by norm_num) (by norm_num) (Or.inl (by norm_num [abs_lt]))]
    norm_num
  have hd : binary64.fl ((4503599627370497 / 2 ^ 52 : ℝ) - 1) = 1 / 2 ^ 52 := by
    rw [binary64_rep 1 (-52) (by norm_num) (by norm_num)]; norm_num
  have i0 : binary64.fl (1 / (5 / 2 ^ 50)) = 7205759403792794 / 2 ^ 5 := by
    rw [binary64_round 47 7205759403792794 (1 / 2 ^ 5) (by norm_num) (by norm_num) (by norm_num) (Or.inl (by norm_num [abs_lt]))]
    norm_num
  have i1 : binary64.fl (1 / -(9007199254740972 / 2 ^ 52)) = -(4503599627370506 / 2 ^ 53) := by
    rw [round_neg (-1) 4503599627370506 (1 / 2 ^ 53) (by norm_num) (by norm_num) (by norm_num) (Or.inl (by norm_num [abs_lt]))]
    norm_num
  have hs0 : binary64.fl (0 + binary64.fl (binary64.fl (weights binary64 2 badZ 0 0 * binary64.fl
      (binary64.fl (1 / (5 / 2 ^ 50)) * binary64.fl (4503599627370497 / 2 ^ 52 - 1))) / (5 / 2 ^ 50))) =
      -(5764607523034235 / 2 ^ 10) := by
    rw [w0, hd, i0, binary64_rep 7205759403792794 (-57) (x := 7205759403792794 / 2 ^ 5 * (1 / 2 ^ 52)) (by norm_num) (by norm_num),
      binary64_rep (-7205759403792794) (-58) (x := -1 / 2 * (7205759403792794 / 2 ^ 5 * (1 / 2 ^ 52))) (by norm_num) (by norm_num),
      round_neg (x := -1 / 2 * (7205759403792794 / 2 ^ 5 * (1 / 2 ^ 52)) / (5 / 2 ^ 50)) 42 5764607523034235 (1 / 2 ^ 10)
        (by norm_num) (by norm_num) (by norm_num) (Or.inl (by norm_num [abs_lt])),
      binary64_rep (-5764607523034235) (-10) (by norm_num) (by norm_num)]
    norm_num
  have hs1 : binary64.fl (-(5764607523034235 / 2 ^ 10) + binary64.fl (binary64.fl (weights binary64 2 badZ 0 1 * binary64.fl
      (binary64.fl (1 / -(9007199254740972 / 2 ^ 52)) * binary64.fl (4503599627370497 / 2 ^ 52 - 1))) /
        -(9007199254740972 / 2 ^ 52))) = -(5764607523034235 / 2 ^ 10) := by
    rw [w1, hd, i1, binary64_rep (-4503599627370506) (-105) (x := -(4503599627370506 / 2 ^ 53) * (1 / 2 ^ 52)) (by norm_num)
        (by norm_num),
      binary64_rep (-4503599627370506) (-106) (x := 1 / 2 * (-(4503599627370506 / 2 ^ 53) * (1 / 2 ^ 52))) (by norm_num)
        (by norm_num),
      binary64_round (x := 1 / 2 * (-(4503599627370506 / 2 ^ 53) * (1 / 2 ^ 52)) / -(9007199254740972 / 2 ^ 52))
        (-55) 4503599627370516 (1 / 2 ^ 107) (by norm_num) (by norm_num) (by norm_num)
        (Or.inl (by norm_num [abs_lt])),
      round_neg 42 5764607523034235 (1 / 2 ^ 10) (by norm_num) (by norm_num) (by norm_num) (Or.inl (by norm_num [abs_lt]))]
    norm_num
  rw [der_two binary64 badZ _ badX (fun _ => 1) (by norm_num) ha hb h0 h1 hL hp hs0 hs1,
    binary64_rep 1 0 (x := 1 * ((0 + 1 : ℕ) : ℝ)) (by norm_num) (by norm_num),
    binary64_rep (-5629499534213108) (-99) (x := -(5629499534213108 / 2 ^ 99) * (1 * ((0 + 1 : ℕ) : ℝ))) (by norm_num)
      (by norm_num),
    binary64_round (-5) 7205759403792778 (1 / 2 ^ 57) (by norm_num) (by norm_num) (by norm_num) (Or.inl (by norm_num [abs_lt]))]
  norm_num

/-- **C95** is false in general: with the vertices -1 and 1 of the reference element and constant data 1, whose derivative is zero, the
derivative returned in double precision at a point ten times further from the vertex -1 than the coincidence tolerance is 0.05. -/
theorem C95_negation :
    ∃ (Z : ℕ → ℝ) (x : ℝ), Z 0 = -1 ∧ Z 1 = 1 ∧ -1 < x ∧ x < 1 ∧ (∀ j < 2, 10 * (1 / 2 ^ 51 : ℝ) ≤ |x - Z j|) ∧
      (Polynomial.derivative (Lagrange.interpolate (range 2) Z fun _ => (1 : ℝ))).eval x = 0 ∧
      1 / 25 < evalDerInterp binary64 2 1 (findVertex binary64 (1 / 2 ^ 51) 2 Z x) Z (weights binary64 2 Z 0) x fun _ => 1 := by
  have hsep : ∀ j < 2, ∀ k < 2, j ≠ k → 4 * (1 / 2 ^ 51 : ℝ) ≤ |badZ j - badZ k| := by
    intro j hj k hk h
    interval_cases j <;> interval_cases k <;> first | exact absurd rfl h | (rw [badZ0, badZ1]; norm_num)
  have hfar : ∀ j < 2, 10 * (1 / 2 ^ 51 : ℝ) ≤ |badX - badZ j| := by
    intro j hj
    unfold badX
    interval_cases j
    · rw [badZ0, abs_of_pos (by norm_num)]; norm_num
    · rw [badZ1, abs_of_neg (by norm_num)]; norm_num
  have hZ := inj_of_sep (tol := 1 / 2 ^ 51) (by norm_num) hsep
  have hconst : Lagrange.interpolate (range 2) badZ (fun _ => (1 : ℝ)) = 1 := by
    exact Lagrange.interpolate_one hZ (by simp)
  have hfind : findVertex binary64 (1 / 2 ^ 51) 2 badZ badX = 2 ^ 64 - 1 := by
    rw [findVertex_eq]
    refine (Lagrange.C05_none _ 2 (by norm_num) _ _ fun k hk => ?_).1
    rw [sub_zero]
    have e := binary64.err (badZ k - badX)
    rw [binary64_u] at e
    have h1 := hfar k hk
    rw [abs_sub_comm] at h1
    have h2 : |badZ k - badX| - |binary64.fl (badZ k - badX) - (badZ k - badX)| ≤ |binary64.fl (badZ k - badX)| := by
      have := abs_sub_abs_le_abs_sub (badZ k - badX) (binary64.fl (badZ k - badX))
      rw [abs_sub_comm (badZ k - badX)] at this
      linarith
    norm_num at e h1 h2 ⊢
    linarith
  refine ⟨badZ, badX, badZ0, badZ1, by unfold badX; norm_num, by unfold badX; norm_num, hfar, ?_, ?_⟩
  · rw [hconst, Polynomial.derivative_one, Polynomial.eval_zero]
  · rw [hfind, bad_der]; norm_num

end Verif.Fp.Interp
