import Verif.Fp.Expr
import Verif.Fp.LagrangeDerBad

/-!
# Computing with rounded integers

Integers of any size rounded to 53 bits, by integer operations only, so that the kernel can evaluate the rounded value of an
expression in integers.
-/

namespace Verif.Fp

/-- Round a positive integer to 53 bits, ties to even. -/
def rndNat (n : ℕ) : ℕ :=
  if n < 2 ^ 53 then n else
    let w := 2 ^ (Nat.log2 n - 52)
    let q := n / w
    let r := n % w
    if w < 2 * r ∨ (2 * r = w ∧ q % 2 = 1) then (q + 1) * w else q * w

/-- Round an integer to 53 bits. -/
def rnd (n : ℤ) : ℤ := if 0 ≤ n then (rndNat n.toNat : ℤ) else -(rndNat (-n).toNat : ℤ)

open Rounding in
theorem rndNat_eq (n : ℕ) : binary64.fl n = rndNat n := by
  unfold rndNat
  split_ifs with h
  · have := binary64.exact n 0 (by rw [binary64_bits, abs_of_nonneg (by positivity)]; exact_mod_cast h.le)
    simpa using this
  · dsimp only
    push Not at h
    set e := Nat.log2 n with he
    set w := 2 ^ (e - 52) with hw
    have hn : n ≠ 0 := by omega
    have h1 : 2 ^ e ≤ n := Nat.log2_self_le hn
    have h2 : n < 2 ^ (e + 1) := Nat.lt_log2_self
    have he53 : 53 ≤ e := by
      rw [he, Nat.le_log2 hn]; exact h
    have hw2 : ∃ k, w = 2 * k := ⟨2 ^ (e - 53), by rw [hw, ← pow_succ']; congr 1; omega⟩
    obtain ⟨k, hk⟩ := hw2
    have hw0 : 0 < w := by positivity
    have hdiv := Nat.div_add_mod n w
    have hmod := Nat.mod_lt n hw0
    set q := n / w
    set r := n % w
    have W : (w : ℝ) = 2 ^ ((e : ℤ) - 52) := by
      rw [hw]; push_cast
      rw [show ((e : ℤ) - 52) = ((e - 52 : ℕ) : ℤ) by omega, zpow_natCast]
    have H1 : (2 : ℝ) ^ (e : ℤ) ≤ n := by rw [zpow_natCast]; exact_mod_cast h1
    have H2 : (n : ℝ) < 2 ^ ((e : ℤ) + 1) := by
      rw [show ((e : ℤ) + 1) = ((e + 1 : ℕ) : ℤ) by push_cast; ring, zpow_natCast]; exact_mod_cast h2
    have D : (n : ℝ) = w * q + r := by exact_mod_cast hdiv.symm
    have Wp : (0 : ℝ) < w := by exact_mod_cast hw0
    split_ifs with hr
    · rw [binary64_round e (q + 1) w W H1 H2]
      · push_cast; ring
      · rcases hr with hr | ⟨hr, hq⟩
        · left
          have R1 : (w : ℝ) < 2 * r := by exact_mod_cast hr
          have R2 : (r : ℝ) < w := by exact_mod_cast hmod
          rw [D, abs_lt]; push_cast; constructor <;> nlinarith
        · right
          have R1 : 2 * (r : ℝ) = w := by exact_mod_cast hr
          refine ⟨by rw [Int.even_iff]; omega, ?_⟩
          rw [D, abs_le]; push_cast; constructor <;> nlinarith
    · push Not at hr
      obtain ⟨hr1, hr2⟩ := hr
      rw [binary64_round e q w W H1 H2]
      · push_cast; ring
      · have R0 : (0 : ℝ) ≤ r := by positivity
        have R1 : 2 * (r : ℝ) ≤ w := by exact_mod_cast hr1
        rcases hr1.lt_or_eq with hl | hl
        · left
          have R1 : 2 * (r : ℝ) < w := by exact_mod_cast hl
          rw [D, abs_lt]; push_cast; constructor <;> nlinarith
        · right
          refine ⟨by rw [Int.even_iff]; have := hr2 hl; omega, ?_⟩
          rw [D, abs_le]; push_cast; constructor <;> nlinarith

open Rounding in
/-- `rnd` is the rounding of double precision, on integers. -/
theorem rnd_eq (n : ℤ) : binary64.fl n = rnd n := by
  unfold rnd
  split_ifs with h
  · obtain ⟨k, rfl⟩ := Int.eq_ofNat_of_zero_le h
    have := rndNat_eq k
    simpa using this
  · obtain ⟨k, hk⟩ := Int.eq_ofNat_of_zero_le (show 0 ≤ -n by omega)
    have := rndNat_eq k
    rw [show ((n : ℤ) : ℝ) = -((k : ℕ) : ℝ) by
      have : n = -(k : ℤ) := by omega
      rw [this]; push_cast; rfl, binary64_neg, this, hk]
    push_cast
    simp

namespace Expr

/-- Rounded value of an expression of integers. -/
def evalRnd (m : ℕ → ℕ → ℤ) : Expr → ℤ
  | var a i => m a i
  | neg e => -e.evalRnd m
  | add e f => rnd (e.evalRnd m + f.evalRnd m)
  | sub e f => rnd (e.evalRnd m - f.evalRnd m)
  | mul e f => rnd (e.evalRnd m * f.evalRnd m)

theorem evalRnd_eq (m : ℕ → ℕ → ℤ) : ∀ e : Expr, e.evalFl Rounding.binary64 (fun a i => m a i) = e.evalRnd m
  | var _ _ => rfl
  | neg e => by
    show -e.evalFl _ _ = _
    rw [evalRnd_eq m e]; simp only [evalRnd]; push_cast; ring
  | add e f => by
    show Rounding.binary64.fl (e.evalFl _ _ + f.evalFl _ _) = _
    rw [evalRnd_eq m e, evalRnd_eq m f, ← Int.cast_add, rnd_eq]; rfl
  | sub e f => by
    show Rounding.binary64.fl (e.evalFl _ _ - f.evalFl _ _) = _
    rw [evalRnd_eq m e, evalRnd_eq m f, ← Int.cast_sub, rnd_eq]; rfl
  | mul e f => by
    show Rounding.binary64.fl (e.evalFl _ _ * f.evalFl _ _) = _
    rw [evalRnd_eq m e, evalRnd_eq m f, ← Int.cast_mul, rnd_eq]; rfl

end Expr

end Verif.Fp
