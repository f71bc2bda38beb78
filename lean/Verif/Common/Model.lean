/-!
# Model of `/repo/common/common.cpp`

`SizeType` is `size_t` (common.h:11), modelled as `UInt64` with wrap-around arithmetic.
C arrays of length `Nb` are modelled as lists of length `Nb`.
-/

namespace Verif.Common

/-- Models `common::base_10_to_mixed_radix`, common/common.cpp:17-23.
One list cell per loop iteration `i`; `b[i]` is the head.  A zero radix makes `x % b[i]` an integer
division by zero (undefined behaviour), modelled as `none`. -/
def base10ToMixedRadix : (b : List UInt64) → (x : UInt64) → Option (List UInt64)
  | [], _ => some []
  | b :: bs, x =>
    if b = 0 then none
    else
      match base10ToMixedRadix bs (x / b) with
      | none => none
      | some ys => some ((x % b) :: ys)

/-- The loop of `common::mixed_radix_to_base_10`, common/common.cpp:43-46, with its two local
variables `y` (the sum) and `z` (the place value); the list holds the pairs `(b[i], x[i])`. -/
def mixedRadixLoop : List (UInt64 × UInt64) → (y z : UInt64) → UInt64
  | [], y, _ => y
  | (b, x) :: rest, y, z => mixedRadixLoop rest (y + x * z) (z * b)

/-- Models `common::mixed_radix_to_base_10`, common/common.cpp:39-49. -/
def mixedRadixToBase10 (b x : List UInt64) : UInt64 :=
  mixedRadixLoop (b.zip x) 0 1

/-- One summand `(n > 0) << (d + 3*(n - 1))` of common/common.cpp:74-75.  `n` is `size_t`, so
`d + 3*(n - 1)` wraps modulo 2^64; the left operand is a `bool` promoted to a 32-bit `int`.
A shift count of 32 or more is undefined behaviour (`none`), also when the left operand is 0.
A count of 31 on the operand 1 yields the `int` with only the sign bit set. -/
def encodeTerm (d n : UInt64) : Option (BitVec 32) :=
  let s := d + 3 * (n - 1)
  if s < 32 then some ((if n > 0 then 1#32 else 0#32) <<< s.toNat) else none

/-- Models `common::encode_partial_derivative`, common/common.cpp:72-78.  The three `int`s are
combined with `|` and the resulting signed `int` is converted to `size_t` (sign extension). -/
def encodePartialDerivative (nx ny nz : UInt64) : Option UInt64 :=
  match encodeTerm 0 nx, encodeTerm 1 ny, encodeTerm 2 nz with
  | some ex, some ey, some ez => some ⟨(ex ||| ey ||| ez).signExtend 64⟩
  | _, _, _ => none

/-- `(cond)*p` with `cond` a C++ `bool`, common/common.cpp:99-101. -/
def ind (c : Bool) (p : UInt64) : UInt64 := if c then p else 0

/-- The `while` loop of `common::decode_partial_derivative`, common/common.cpp:98-104, with the
loop variables `e, p` and the three outputs.  No fuel is needed: `e >>= 3` decreases `e`. -/
def decodeLoop (e p nx ny nz : UInt64) : UInt64 × UInt64 × UInt64 :=
  if _h : e = 0 then (nx, ny, nz)
  else
    decodeLoop (e >>> 3) (p + 1)
      (nx + ind (e &&& 1 > 0) p) (ny + ind (e &&& 2 > 0) p) (nz + ind (e &&& 4 > 0) p)
termination_by e.toNat
decreasing_by
  have hpos : 0 < e.toNat := by
    rcases Nat.eq_zero_or_pos e.toNat with h0 | h0
    · exact absurd (UInt64.toNat.inj (by simpa using h0)) _h
    · exact h0
  have : (e >>> 3).toNat = e.toNat / 8 := by
    simp [UInt64.toNat_shiftRight, Nat.shiftRight_eq_div_pow]
  omega

/-- Models `common::decode_partial_derivative`, common/common.cpp:93-105; result `(nx, ny, nz)`. -/
def decodePartialDerivative (e : UInt64) : UInt64 × UInt64 × UInt64 :=
  decodeLoop e 1 0 0 0

end Verif.Common
