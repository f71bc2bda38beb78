import Verif.Common.Lemmas
import Mathlib.Data.Finset.Basic

/-!
# Property theorems for `common` (C01 – C04)
-/

namespace Verif.Common
open Spec

/-- **C01.** For all non-zero radices and every `x` below their product (the product itself being
representable in `SizeType`), decoding `x` is defined, produces digits below their radices, and
re-encoding the digits gives back `x`. -/
theorem C01_encode_decode (b : List UInt64) (hb : ∀ r ∈ b, r ≠ 0)
    (x : UInt64) (hx : x.toNat < indexCount b) :
    ∃ y, base10ToMixedRadix b x = some y ∧ DigitsInRange b y ∧ mixedRadixToBase10 b y = x := by
  obtain ⟨y, h1, h2, h3⟩ := decode_spec b hb x
  refine ⟨y, h1, h2, UInt64.toNat.inj ?_⟩
  rw [encode_spec b y (List.Forall₂.length_eq h2), h3 hx]
  exact Nat.mod_eq_of_lt (UInt64.toNat_lt x)

/-- **C01, undefined case.** Decoding is undefined (division by zero) exactly when some radix
is zero. -/
theorem C01_undefined_iff (b : List UInt64) (x : UInt64) :
    base10ToMixedRadix b x = none ↔ (0 : UInt64) ∈ b := by
  constructor
  · intro h
    by_contra hc
    obtain ⟨y, hy, _⟩ := decode_spec b (fun r hr h0 => hc (h0 ▸ hr)) x
    rw [hy] at h; exact absurd h (by simp)
  · intro h
    induction b generalizing x with
    | nil => simp at h
    | cons r bs ih =>
      by_cases hr : r = 0
      · simp [base10ToMixedRadix, hr]
      · have : (0 : UInt64) ∈ bs := by
          rcases List.mem_cons.1 h with h | h
          · exact absurd h.symm hr
          · exact h
        simp [base10ToMixedRadix, hr, ih (x / r) this]

example : (∀ r ∈ ([4, 3, 5] : List UInt64), r ≠ 0) ∧ (37 : UInt64).toNat < indexCount [4, 3, 5] := by
  decide

/-- **C02.** Every in-range digit string survives encoding followed by decoding; the encoded value
is the positional value and lies below the product of the radices. -/
theorem C02_decode_encode (b x : List UInt64) (hb : indexCount b < 2 ^ 64)
    (hx : DigitsInRange b x) :
    (mixedRadixToBase10 b x).toNat = value b x ∧
    (mixedRadixToBase10 b x).toNat < indexCount b ∧
    base10ToMixedRadix b (mixedRadixToBase10 b x) = some x := by
  have hlt := value_lt b x hx
  have hv : (mixedRadixToBase10 b x).toNat = value b x := by
    rw [encode_spec b x (List.Forall₂.length_eq hx)]
    exact Nat.mod_eq_of_lt (by omega)
  refine ⟨hv, by omega, ?_⟩
  have hne : ∀ r ∈ b, r ≠ 0 := by
    clear hb hlt hv
    induction hx with
    | nil => simp
    | cons h _ ih =>
      intro r hr
      rcases List.mem_cons.1 hr with rfl | hr
      · rintro rfl
        rw [UInt64.lt_iff_toNat_lt] at h
        simp at h
      · exact ih r hr
  obtain ⟨y, h1, h2, h3⟩ := decode_spec b hne (mixedRadixToBase10 b x)
  rw [h1]
  congr 1
  exact value_inj b y x h2 hx (by rw [h3 (by omega), hv])

/-- **C02, bijectivity.** Distinct in-range multi-indices get distinct linear indices, and every
linear index below the product is hit. -/
theorem C02_bijective (b : List UInt64) (hb : indexCount b < 2 ^ 64) (hne : ∀ r ∈ b, r ≠ 0) :
    (∀ x y, DigitsInRange b x → DigitsInRange b y →
      mixedRadixToBase10 b x = mixedRadixToBase10 b y → x = y) ∧
    (∀ n, n < indexCount b → ∃ x, DigitsInRange b x ∧ (mixedRadixToBase10 b x).toNat = n) := by
  constructor
  · intro x y hx hy h
    have h1 := (C02_decode_encode b x hb hx).2.2
    have h2 := (C02_decode_encode b y hb hy).2.2
    rw [h] at h1
    rw [h1] at h2
    exact Option.some.inj h2
  · intro n hn
    have hn' : n < 2 ^ 64 := by omega
    have ht : (UInt64.ofNat n).toNat = n := by
      simpa using hn'
    obtain ⟨y, _, h2, h3⟩ := C01_encode_decode b hne (UInt64.ofNat n) (by rw [ht]; exact hn)
    exact ⟨y, h2, by rw [h3, ht]⟩

/-- Without the representability hypothesis the round trip fails: 2^32 * 2^32 wraps to 0. -/
theorem C02_wraps_without_bound :
    ∃ b x : List UInt64, DigitsInRange b x ∧
      base10ToMixedRadix b (mixedRadixToBase10 b x) ≠ some x := by
  refine ⟨[0x100000000, 0x100000000, 2], [0, 0, 1], ?_, by decide⟩
  refine List.Forall₂.cons (by decide) (List.Forall₂.cons (by decide)
    (List.Forall₂.cons (by decide) List.Forall₂.nil))

example : DigitsInRange [4, 3, 5] [3, 2, 1] ∧ indexCount [4, 3, 5] < 2 ^ 64 := by
  refine ⟨?_, by decide⟩
  exact List.Forall₂.cons (by decide) (List.Forall₂.cons (by decide)
    (List.Forall₂.cons (by decide) List.Forall₂.nil))

/-- **C04.** For every 64-bit encoding the decoder terminates (it is a total function of the model,
by a decreasing measure) and returns for each direction the order denoted by the bits. -/
theorem C04_decode_spec (e : UInt64) :
    (decodePartialDerivative e).1.toNat = order e 0 ∧
    (decodePartialDerivative e).2.1.toNat = order e 1 ∧
    (decodePartialDerivative e).2.2.toNat = order e 2 := decode_orders e

example : order 0b100_010_001 0 = 1 ∧ order 0b100_010_001 1 = 2 ∧ order 0b100_010_001 2 = 3 := by
  decide

/-- Bit-level content of the round trip, over the whole (finite) set of encodable orders. -/
theorem encode_orders_table :
    ∀ nx ∈ Finset.range 12, ∀ ny ∈ Finset.range 11, ∀ nz ∈ Finset.range 11,
      0 < nx → 0 < ny → 0 < nz →
      (match encodePartialDerivative (.ofNat nx) (.ofNat ny) (.ofNat nz) with
        | some e => decide (order e 0 = nx ∧ order e 1 = ny ∧ order e 2 = nz)
        | none => false) = true := by
  decide +kernel

/-- **C03 (partial).** The full claim is: whenever the orders are in the encoder's domain, decoding
the encoding returns them.  It holds for orders `1 ≤ nx ≤ 11`, `1 ≤ ny, nz ≤ 10`, where the
encoder is defined.  Missing: order 0 in a direction, and larger orders; see the negations below. -/
theorem C03_decode_encode_partial (nx ny nz : UInt64)
    (hx : 1 ≤ nx ∧ nx ≤ 11) (hy : 1 ≤ ny ∧ ny ≤ 10) (hz : 1 ≤ nz ∧ nz ≤ 10) :
    ∃ e, encodePartialDerivative nx ny nz = some e ∧ decodePartialDerivative e = (nx, ny, nz) := by
  simp only [UInt64.le_iff_toNat_le] at hx hy hz
  have e1 : (1 : UInt64).toNat = 1 := rfl
  have e10 : (10 : UInt64).toNat = 10 := rfl
  have e11 : (11 : UInt64).toNat = 11 := rfl
  rw [e1] at hx hy hz
  rw [e11] at hx
  rw [e10] at hy hz
  have h := encode_orders_table nx.toNat (Finset.mem_range.2 (by omega)) ny.toNat
    (Finset.mem_range.2 (by omega)) nz.toNat (Finset.mem_range.2 (by omega))
    (by omega) (by omega) (by omega)
  simp only [UInt64.ofNat_toNat] at h
  cases he : encodePartialDerivative nx ny nz with
  | none => rw [he] at h; simp at h
  | some e =>
    rw [he] at h
    simp only [decide_eq_true_eq] at h
    obtain ⟨d1, d2, d3⟩ := decode_orders e
    refine ⟨e, rfl, ?_⟩
    refine Prod.ext (UInt64.toNat.inj (by rw [d1, h.1]))
      (Prod.ext (UInt64.toNat.inj (by rw [d2, h.2.1])) (UInt64.toNat.inj (by rw [d3, h.2.2])))

/-- **C03, undefined case.** If any of the three orders is 0 — for instance in the encoding of a
first derivative in `x` alone — the encoder performs an out-of-range shift. -/
theorem C03_undefined_of_zero (nx ny nz : UInt64) (h : nx = 0 ∨ ny = 0 ∨ nz = 0) :
    encodePartialDerivative nx ny nz = none := by
  have t0 : encodeTerm 0 0 = none := by decide
  have t1 : encodeTerm 1 0 = none := by decide
  have t2 : encodeTerm 2 0 = none := by decide
  unfold encodePartialDerivative
  rcases h with rfl | rfl | rfl
  · rw [t0]
  · rw [t1]; cases encodeTerm 0 nx <;> rfl
  · rw [t2]; cases encodeTerm 0 nx <;> cases encodeTerm 1 ny <;> rfl

/-- **C03, domain.** For orders below 2^62 (no wrap-around of `3*(n-1)`), the encoder is defined
exactly on `1 ≤ nx ≤ 11`, `1 ≤ ny ≤ 11`, `1 ≤ nz ≤ 10`. -/
theorem C03_defined_iff (nx ny nz : UInt64) (hx : nx.toNat < 2 ^ 62) (hy : ny.toNat < 2 ^ 62)
    (hz : nz.toNat < 2 ^ 62) :
    (encodePartialDerivative nx ny nz).isSome ↔
      (1 ≤ nx.toNat ∧ nx.toNat ≤ 11) ∧ (1 ≤ ny.toNat ∧ ny.toNat ≤ 11) ∧
      (1 ≤ nz.toNat ∧ nz.toNat ≤ 10) := by
  have key : ∀ d n : UInt64, d.toNat ≤ 2 → n.toNat < 2 ^ 62 →
      ((encodeTerm d n).isSome ↔ (1 ≤ n.toNat ∧ d.toNat + 3 * (n.toNat - 1) < 32)) := by
    intro d n hd hn
    unfold encodeTerm
    have e3 : (3 : UInt64).toNat = 3 := rfl
    have e1 : (1 : UInt64).toNat = 1 := rfl
    have e32 : (32 : UInt64).toNat = 32 := rfl
    have hs : (d + 3 * (n - 1)).toNat < 32 ↔ (1 ≤ n.toNat ∧ d.toNat + 3 * (n.toNat - 1) < 32) := by
      rw [UInt64.toNat_add, UInt64.toNat_mul, UInt64.toNat_sub, e3, e1]
      omega
    by_cases h : d + 3 * (n - 1) < 32
    · simp only [h, if_true, Option.isSome_some, true_iff]
      rw [UInt64.lt_iff_toNat_lt, e32] at h
      exact hs.1 h
    · simp only [h, if_false, Option.isSome_none, Bool.false_eq_true, false_iff]
      rw [UInt64.lt_iff_toNat_lt, e32] at h
      exact fun h' => h (hs.2 h')
  have kx := key 0 nx (by decide) hx
  have ky := key 1 ny (by decide) hy
  have kz := key 2 nz (by decide) hz
  have d0 : (0 : UInt64).toNat = 0 := rfl
  have d1 : (1 : UInt64).toNat = 1 := rfl
  have d2 : (2 : UInt64).toNat = 2 := rfl
  rw [d0] at kx; rw [d1] at ky; rw [d2] at kz
  have hall : (encodePartialDerivative nx ny nz).isSome ↔
      (encodeTerm 0 nx).isSome ∧ (encodeTerm 1 ny).isSome ∧ (encodeTerm 2 nz).isSome := by
    unfold encodePartialDerivative
    cases encodeTerm 0 nx <;> cases encodeTerm 1 ny <;> cases encodeTerm 2 nz <;> simp
  rw [hall, kx, ky, kz]
  omega

example : (5 : UInt64).toNat < 2 ^ 62 := by decide

/-- **C03 is false in general**: there is a defined encoding whose decoding is different
(order 11 in `y` reaches the sign bit of the 32-bit intermediate). -/
theorem C03_negation :
    ∃ nx ny nz e, encodePartialDerivative nx ny nz = some e ∧
      decodePartialDerivative e ≠ (nx, ny, nz) := by
  refine ⟨1, 11, 1, 0xFFFFFFFF80000005, by decide, fun h => ?_⟩
  have h1 := (decode_orders 0xFFFFFFFF80000005).1
  rw [h] at h1
  exact absurd h1 (by decide)

example : ∃ nx ny nz : UInt64, (1 ≤ nx ∧ nx ≤ 11) ∧ (1 ≤ ny ∧ ny ≤ 10) ∧ (1 ≤ nz ∧ nz ≤ 10) :=
  ⟨2, 7, 10, by decide⟩

end Verif.Common
