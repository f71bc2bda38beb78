import Verif.Common.Model
import Verif.Common.Spec
import Mathlib.Tactic.Ring
import Mathlib.Data.Nat.Bitwise
import Mathlib.Data.Nat.ModEq
import Mathlib.Algebra.Order.BigOperators.Group.Finset

namespace Verif.Common
open Spec

theorem toNat_ne_zero {b : UInt64} (h : b ≠ 0) : 0 < b.toNat := by
  rcases Nat.eq_zero_or_pos b.toNat with h0 | h0
  · exact absurd (UInt64.toNat.inj (by simpa using h0)) h
  · exact h0

theorem indexCount_cons (b : UInt64) (bs) : indexCount (b :: bs) = b.toNat * indexCount bs := by
  simp [indexCount]

/-- Specification of the decoding loop: succeeds with in-range digits of the right value. -/
theorem decode_spec (b : List UInt64) (hb : ∀ r ∈ b, r ≠ 0) (x : UInt64) :
    ∃ y, base10ToMixedRadix b x = some y ∧ DigitsInRange b y ∧
      (x.toNat < indexCount b → value b y = x.toNat) := by
  induction b generalizing x with
  | nil =>
    refine ⟨[], rfl, List.Forall₂.nil, ?_⟩
    intro h; simp [indexCount] at h; simp [value, h]
  | cons r bs ih =>
    have hr : r ≠ 0 := hb r (by simp)
    obtain ⟨ys, h1, h2, h3⟩ := ih (fun q hq => hb q (by simp [hq])) (x / r)
    refine ⟨(x % r) :: ys, ?_, ?_, ?_⟩
    · simp [base10ToMixedRadix, hr, h1]
    · refine List.Forall₂.cons ?_ h2
      rw [UInt64.lt_iff_toNat_lt, UInt64.toNat_mod]
      exact Nat.mod_lt _ (toNat_ne_zero hr)
    · intro hx
      rw [indexCount_cons] at hx
      have hdiv : (x / r).toNat < indexCount bs := by
        rw [UInt64.toNat_div]
        exact Nat.div_lt_of_lt_mul hx
      simp only [value, h3 hdiv, UInt64.toNat_mod, UInt64.toNat_div]
      exact Nat.mod_add_div _ _

theorem value_lt (b x : List UInt64) (h : DigitsInRange b x) : value b x < indexCount b := by
  induction h with
  | nil => simp [value, indexCount]
  | @cons r d bs xs hd _ ih =>
    rw [indexCount_cons]; simp only [value]
    rw [UInt64.lt_iff_toNat_lt] at hd
    calc d.toNat + r.toNat * value bs xs < r.toNat + r.toNat * value bs xs := by omega
      _ = r.toNat * (value bs xs + 1) := by ring
      _ ≤ _ := Nat.mul_le_mul_left _ ih

theorem value_inj (b x y : List UInt64) (hx : DigitsInRange b x) (hy : DigitsInRange b y)
    (h : value b x = value b y) : x = y := by
  induction hx generalizing y with
  | nil => cases hy; rfl
  | @cons r d bs xs hd _ ih =>
    cases hy with
    | @cons _ d' _ ys hd' hys =>
      simp only [value] at h
      rw [UInt64.lt_iff_toNat_lt] at hd hd'
      have hr : 0 < r.toNat := by omega
      have e1 : d.toNat = d'.toNat := by
        have := congrArg (· % r.toNat) h
        simpa [Nat.add_mul_mod_self_left, Nat.mod_eq_of_lt hd, Nat.mod_eq_of_lt hd'] using this
      have e2 : value bs xs = value bs ys := by
        have : r.toNat * value bs xs = r.toNat * value bs ys := by omega
        exact Nat.eq_of_mul_eq_mul_left hr this
      rw [UInt64.toNat.inj e1, ih ys hys e2]

/-- The encoding loop computes the value modulo 2^64. -/
theorem encode_loop_spec (b x : List UInt64) (hl : b.length = x.length) (y z : UInt64) :
    (mixedRadixLoop (b.zip x) y z).toNat = (y.toNat + z.toNat * value b x) % 2 ^ 64 := by
  induction b generalizing x y z with
  | nil => simp [mixedRadixLoop, value]
  | cons r bs ih =>
    cases x with
    | nil => simp at hl
    | cons d xs =>
      simp only [List.zip_cons_cons, mixedRadixLoop, value]
      rw [ih xs (by simpa using hl)]
      simp only [UInt64.toNat_add, UInt64.toNat_mul]
      have : y.toNat + z.toNat * (d.toNat + r.toNat * value bs xs)
          = (y.toNat + d.toNat * z.toNat) + (z.toNat * r.toNat) * value bs xs := by ring
      rw [this, Nat.add_mod, Nat.mod_mod, Nat.mul_mod ((z.toNat * r.toNat) % 2 ^ 64), Nat.mod_mod,
        ← Nat.mul_mod]
      simp only [Nat.add_mod_mod, Nat.mod_add_mod]

theorem encode_spec (b x : List UInt64) (hl : b.length = x.length) :
    (mixedRadixToBase10 b x).toNat = value b x % 2 ^ 64 := by
  rw [mixedRadixToBase10, encode_loop_spec b x hl]; simp

theorem ind_toNat (c : Bool) (p : UInt64) : (ind c p).toNat = if c then p.toNat else 0 := by
  cases c <;> simp [ind]

theorem and_pow_pos (e : UInt64) (d : ℕ) (m : UInt64) (hm : m.toNat = 2 ^ d) :
    decide (e &&& m > 0) = e.toNat.testBit d := by
  have h1 : (e &&& m > 0) ↔ (e.toNat &&& 2 ^ d) ≠ 0 := by
    show (0 : UInt64) < e &&& m ↔ _
    rw [UInt64.lt_iff_toNat_lt]
    simp [hm, Nat.pos_iff_ne_zero]
  rw [Nat.and_two_pow] at h1
  cases hb : e.toNat.testBit d <;> simp [hb] at h1 ⊢
  · exact h1
  · exact h1

/-- Loop invariant of the decoder, for the first `m` groups of three bits. -/
theorem decodeLoop_spec (m : ℕ) (e p nx ny nz : UInt64) (he : e.toNat < 8 ^ m) :
    let S := fun d => ∑ q ∈ Finset.range m, if e.toNat.testBit (3 * q + d) then q + p.toNat else 0
    (decodeLoop e p nx ny nz).1.toNat = (nx.toNat + S 0) % 2 ^ 64 ∧
    (decodeLoop e p nx ny nz).2.1.toNat = (ny.toNat + S 1) % 2 ^ 64 ∧
    (decodeLoop e p nx ny nz).2.2.toNat = (nz.toNat + S 2) % 2 ^ 64 := by
  induction m generalizing e p nx ny nz with
  | zero =>
    have : e = 0 := UInt64.toNat.inj (by simpa using he)
    subst this
    rw [decodeLoop]
    simp
  | succ m ih =>
    rw [decodeLoop]
    by_cases h : e = 0
    · subst h; simp
    · have hs : (e >>> 3).toNat = e.toNat / 8 := by
        simp [UInt64.toNat_shiftRight, Nat.shiftRight_eq_div_pow]
      have he' : (e >>> 3).toNat < 8 ^ m := by
        rw [hs]; apply Nat.div_lt_of_lt_mul; rw [pow_succ] at he; omega
      have htb : ∀ i, (e >>> 3).toNat.testBit i = e.toNat.testBit (i + 3) := by
        intro i; rw [hs, show (8 : ℕ) = 2 ^ 3 from rfl, Nat.testBit_div_two_pow]
      have key : ∀ d (n : UInt64) (mk : UInt64), mk.toNat = 2 ^ d →
          ((n + ind (decide (e &&& mk > 0)) p).toNat +
            ∑ q ∈ Finset.range m, if (e >>> 3).toNat.testBit (3 * q + d) then q + (p + 1).toNat
              else 0) % 2 ^ 64 =
          (n.toNat + ∑ q ∈ Finset.range (m + 1),
            if e.toNat.testBit (3 * q + d) then q + p.toNat else 0) % 2 ^ 64 := by
        intro d n mk hmk
        rw [Finset.sum_range_succ', and_pow_pos e d mk hmk, UInt64.toNat_add, ind_toNat]
        simp only [Nat.mod_add_mod]
        have hsum : (∑ q ∈ Finset.range m, if (e >>> 3).toNat.testBit (3 * q + d)
            then q + (p + 1).toNat else 0) ≡
            ∑ q ∈ Finset.range m, if e.toNat.testBit (3 * (q + 1) + d) then q + 1 + p.toNat else 0
            [MOD 2 ^ 64] := by
          clear ih he he'
          induction m with
          | zero => exact Nat.ModEq.rfl
          | succ k ihk =>
            rw [Finset.sum_range_succ, Finset.sum_range_succ]
            refine Nat.ModEq.add ihk ?_
            rw [htb, show 3 * k + d + 3 = 3 * (k + 1) + d by ring]
            split
            · rw [UInt64.toNat_add]
              show _ % _ = _ % _
              rw [Nat.add_mod_mod]
              simp; ring_nf
            · rfl
        have := (Nat.ModEq.add_left (n.toNat + (if e.toNat.testBit d = true then p.toNat else 0))
          hsum)
        unfold Nat.ModEq at this
        rw [this]
        congr 1
        simp
        ring
      obtain ⟨h1, h2, h3⟩ := ih (e >>> 3) (p + 1) (nx + ind (decide (e &&& 1 > 0)) p)
        (ny + ind (decide (e &&& 2 > 0)) p) (nz + ind (decide (e &&& 4 > 0)) p) he'
      simp only [h, dite_false]
      refine ⟨?_, ?_, ?_⟩
      · rw [h1]; exact key 0 nx 1 rfl
      · rw [h2]; exact key 1 ny 2 rfl
      · rw [h3]; exact key 2 nz 4 rfl

theorem order_lt (e : UInt64) (d : ℕ) : order e d < 2 ^ 64 := by
  have : order e d ≤ ∑ q ∈ Finset.range 22, (q + 1) := by
    apply Finset.sum_le_sum; intro q _; split <;> omega
  have h2 : ∑ q ∈ Finset.range 22, (q + 1) = 253 := by decide
  omega

theorem decode_orders (e : UInt64) :
    (decodePartialDerivative e).1.toNat = order e 0 ∧
    (decodePartialDerivative e).2.1.toNat = order e 1 ∧
    (decodePartialDerivative e).2.2.toNat = order e 2 := by
  have he : e.toNat < 8 ^ 22 := lt_of_lt_of_le (UInt64.toNat_lt e) (by decide)
  have h := decodeLoop_spec 22 e 1 0 0 0 he
  have e1 : (1 : UInt64).toNat = 1 := rfl
  have e0 : (0 : UInt64).toNat = 0 := rfl
  simp only [e1, e0, Nat.zero_add] at h
  have hm : ∀ d, (∑ q ∈ Finset.range 22, if e.toNat.testBit (3 * q + d) = true then q + 1 else 0)
      % 2 ^ 64 = order e d := fun d => Nat.mod_eq_of_lt (order_lt e d)
  unfold decodePartialDerivative
  exact ⟨by rw [h.1, hm], by rw [h.2.1, hm], by rw [h.2.2, hm]⟩

end Verif.Common
