import Verif.Mem
import Verif.Quad.Tables
import Mathlib.Analysis.Real.Sqrt
import Mathlib.Algebra.Order.Archimedean.Real.Basic

/-!
# Model of the tensor-product quadrature routines of `elements/elements.cpp`

`line_gauss_info`, `line_lobatto_info`, `gauss_2d`, `gauss_3d`, `gauss_4d`, `lobatto_2d`, `lobatto_3d`, `lobatto_4d`
(lines 1402-1918).  `real_t` is `ℝ`, `int` is `ℤ` (the quadrature order is taken non-negative).  The two-dimensional arrays are
flat with `cp` (points) and `cw` (weights) columns.  An access outside an array and a read of an uninitialised variable are
`none`.
-/

namespace Verif.Tensor
open Verif.Quad (dec)

/-- The local arrays `g2 … g8` of `line_gauss_info`, elements.cpp:1416-1496; symmetric entries written out. -/
noncomputable def gaussPts : ℕ → List ℝ
  | 2 => [-1 / √3, -1 * (-1 / √3)]
  | 3 => [-√(3 / 5), 0, -1 * -√(3 / 5)]
  | 4 => [-√((3 + 2 * √(6 / 5)) / 7), -√((3 - 2 * √(6 / 5)) / 7), - -√((3 - 2 * √(6 / 5)) / 7), - -√((3 + 2 * √(6 / 5)) / 7)]
  | 5 => [-√(5 + 2 * √(10 / 7)) / 3, -√(5 - 2 * √(10 / 7)) / 3, 0, -(-√(5 - 2 * √(10 / 7)) / 3), -(-√(5 + 2 * √(10 / 7)) / 3)]
  | n => (gaussPtsQ n).map fun q : ℚ => (q : ℝ)
where
  /-- the decimal literals -/
  gaussPtsQ : ℕ → List ℚ
    | 6 => [-dec 9324695142031521 16, -dec 6612093864662645 16, -dec 2386191860831969 16, dec 2386191860831969 16,
        dec 6612093864662645 16, dec 9324695142031521 16]
    | 7 => [-dec 9491079123427585 16, -dec 7415311855993945 16, -dec 4058451513773972 16, 0, dec 4058451513773972 16,
        dec 7415311855993945 16, dec 9491079123427585 16]
    | 8 => [-dec 9602898564975363 16, -dec 7966664774136267 16, -dec 5255324099163290 16, -dec 1834346424956498 16,
        dec 1834346424956498 16, dec 5255324099163290 16, dec 7966664774136267 16, dec 9602898564975363 16]
    | _ => []

/-- The local arrays `w3 … w8` of `line_gauss_info`, elements.cpp:1419-1484 (for two points the weight is the constant 1,
line 1502); symmetric entries written out. -/
noncomputable def gaussWts : ℕ → List ℝ
  | 2 => [1, 1]
  | 3 => [5 / 9, 8 / 9, 5 / 9]
  | 4 => [1 / 2 - √(5 / 6) / 6, 1 / 2 + √(5 / 6) / 6, 1 / 2 + √(5 / 6) / 6, 1 / 2 - √(5 / 6) / 6]
  | 5 => [(322 - 13 * √70) / 900, (322 + 13 * √70) / 900, 512 / 900, (322 + 13 * √70) / 900, (322 - 13 * √70) / 900]
  | n => (gaussWtsQ n).map fun q : ℚ => (q : ℝ)
where
  /-- the decimal literals -/
  gaussWtsQ : ℕ → List ℚ
    | 6 => [dec 1713244923791704 16, dec 3607615730481386 16, dec 4679139345726910 16, dec 4679139345726910 16,
        dec 3607615730481386 16, dec 1713244923791704 16]
    | 7 => [dec 1294849661688697 16, dec 2797053914892766 16, dec 3818300505051189 16, dec 4179591836734694 16,
        dec 3818300505051189 16, dec 2797053914892766 16, dec 1294849661688697 16]
    | 8 => [dec 1012285362903763 16, dec 2223810344533745 16, dec 3137066458778873 16, dec 3626837833783620 16,
        dec 3626837833783620 16, dec 3137066458778873 16, dec 2223810344533745 16, dec 1012285362903763 16]
    | _ => []

/-- The local arrays `L2 … L8` of `line_lobatto_info`, elements.cpp:1519-1597. -/
def lobPts : ℕ → List ℚ
  | 2 => [-1, 1]
  | 3 => [1, 0, -1]
  | 4 => [-1, -dec 447213595499957939282 21, dec 447213595499957939282 21, 1]
  | 5 => [-1, -dec 6546536707079771437983 22, 0, dec 6546536707079771437983 22, 1]
  | 6 => [-1, -dec 765055323929464692851 21, -dec 2852315164806450963142 22, dec 2852315164806450963142 22,
      dec 765055323929464692851 21, 1]
  | 7 => [-1, -dec 830223896278566929872 21, -dec 4688487934707142138038 22, 0, dec 4688487934707142138038 22,
      dec 830223896278566929872 21, 1]
  | 8 => [-1, -dec 8717401485096066153375 22, -dec 5917001814331423021445 22, -dec 2092992179024788687687 22,
      dec 2092992179024788687687 22, dec 5917001814331423021445 22, dec 8717401485096066153375 22, 1]
  | _ => []

/-- The local arrays `w3 … w8` of `line_lobatto_info`, elements.cpp:1522-1607 (two points: the constant 1, line 1609). -/
def lobWts : ℕ → List ℚ
  | 2 => [1, 1]
  | 3 => [1 / 3, 4 / 3, 1 / 3]
  | 4 => [dec 1666666666666666666667 22, dec 8333333333333333333333 22, dec 8333333333333333333333 22, dec 1666666666666666666667 22]
  | 5 => [dec 1 1, dec 544444444444444444444 21, dec 7111111111111111111111 22, dec 544444444444444444444 21, dec 1 1]
  | 6 => [dec 6666666666666666666667 23, dec 3784749562978469803166 22, dec 5548583770354863530167 22,
      dec 5548583770354863530167 22, dec 3784749562978469803166 22, dec 6666666666666666666667 23]
  | 7 => [dec 4761904761904761904762 23, dec 276826047361565948011 21, dec 4317453812098626234179 22, dec 487619047619047619048 21,
      dec 4317453812098626234179 22, dec 276826047361565948011 21, dec 4761904761904761904762 23]
  | 8 => [dec 3571428571428571428571 23, dec 210704227143506039383 21, dec 3411226924835043647642 22, dec 4124587946587038815671 22,
      dec 4124587946587038815671 22, dec 3411226924835043647642 22, dec 210704227143506039383 21, dec 3571428571428571428571 23]
  | _ => []

/-- Reading a local array at an `int` index. -/
def at' (l : List ℝ) (m : ℤ) : Option ℝ := if 0 ≤ m then l[m.toNat]? else none

/-- The final `if`s common to the two line rules, elements.cpp:1501-1508, 1608-1615: point and weight number `m` (counted from 1
and decremented first); for an order that is not listed `x` and `w` stay uninitialised. -/
noncomputable def lineInfo (pts wts : ℕ → List ℝ) (m : ℤ) (p : ℕ) : Option (ℝ × ℝ) :=
  let m := m - 1
  if p = 1 then some (0, 2)
  else if 2 ≤ p ∧ p ≤ 8 then do
    let x ← at' (pts p) m
    let w ← at' (wts p) m
    pure (x, w)
  else none

/-- `line_gauss_info`, elements.cpp:1409-1509. -/
noncomputable def lineGauss : ℤ → ℕ → Option (ℝ × ℝ) := lineInfo gaussPts gaussWts
/-- `line_lobatto_info`, elements.cpp:1512-1616. -/
noncomputable def lineLobatto : ℤ → ℕ → Option (ℝ × ℝ) :=
  lineInfo (fun p => (lobPts p).map fun q : ℚ => (q : ℝ)) (fun p => (lobWts p).map fun q : ℚ => (q : ℝ))

/-- The output arrays: `these_g_pts`, `these_weights`, `tot_g_weight` (the last is absent from some routines, which then leave
it alone). -/
structure Out where
  pts : Arr ℝ
  wts : Arr ℝ
  tot : Arr ℝ

/-- `these_weights(m, d) = v` -/
def Out.setW (s : Out) (cw m d : ℕ) (v : ℝ) : Option Out := do
  let a ← s.wts.set (m * cw + d) v
  pure ⟨s.pts, a, s.tot⟩
/-- `tot_g_weight(m) = v` -/
def Out.setT (s : Out) (m : ℕ) (v : ℝ) : Option Out := do
  let a ← s.tot.set m v
  pure ⟨s.pts, s.wts, a⟩

/-- One direction: the call of the line rule and the two assignments, e.g. elements.cpp:1642-1644. -/
def dir (line : ℤ → ℕ → Option (ℝ × ℝ)) (q cp cw m d : ℕ) (idx : ℤ) (s : Out) : Option Out := do
  let r ← line idx q
  let p ← s.pts.set (m * cp + d) r.1
  let w ← s.wts.get (m * cw + d)
  let a ← s.wts.set (m * cw + d) (w * r.2)
  pure ⟨p, a, s.tot⟩

/-- `gauss_2d`, elements.cpp:1619-1654. -/
noncomputable def gauss2d (q cp cw : ℕ) (s : Out) : Option Out :=
  loopM (q * q) (fun m s => do
    let j : ℤ := (m : ℤ) / q + 1
    let i : ℤ := (m + 1) - q * (j - 1)
    let s ← s.setW cw m 0 1
    let s ← s.setW cw m 1 1
    let s ← s.setT m 1
    let s ← dir lineGauss q cp cw m 0 i s
    let s ← dir lineGauss q cp cw m 1 j s
    let a ← s.wts.get (m * cw + 0)
    let b ← s.wts.get (m * cw + 1)
    s.setT m (a * b)) s

/-- `gauss_3d`, elements.cpp:1657-1706. -/
noncomputable def gauss3d (q cp cw : ℕ) (s : Out) : Option Out :=
  loopM (q * q * q) (fun m s => do
    let p12 : ℤ := q * q
    let k : ℤ := (m : ℤ) / p12 + 1
    let jj : ℤ := (m + 1) - p12 * (k - 1)
    let j : ℤ := (jj - 1) / q + 1
    let i : ℤ := jj - q * (j - 1)
    let s ← s.setW cw m 0 1
    let s ← s.setW cw m 1 1
    let s ← s.setW cw m 2 1
    let s ← s.setT m 1
    let s ← dir lineGauss q cp cw m 0 i s
    let s ← dir lineGauss q cp cw m 1 j s
    let s ← dir lineGauss q cp cw m 2 k s
    let a ← s.wts.get (m * cw + 0)
    let b ← s.wts.get (m * cw + 1)
    let c ← s.wts.get (m * cw + 2)
    s.setT m (a * b * c)) s

/-- Conversion of a `double` to `int`. -/
noncomputable def trunc (x : ℝ) : ℤ := if 0 ≤ x then ⌊x⌋ else ⌈x⌉

/-- The four indices of `gauss_4d` and `lobatto_4d`, elements.cpp:1727-1746 and 1874-1892: `(i, j, k, l)`; `a` and `b` are real
powers of the order. -/
noncomputable def index4 (q : ℕ) (dim : ℤ) (m : ℕ) : ℤ × ℤ × ℤ × ℤ :=
  let a : ℝ := (q : ℝ) ^ (dim - 1)
  let b : ℝ := (q : ℝ) ^ (dim - 2)
  let l : ℤ := trunc (⌊(m : ℝ) / a⌋ + 1)
  let kk : ℤ := trunc ((m + 1) - a * (l - 1))
  let k : ℤ := trunc (⌊((kk : ℝ) - 1) / b⌋ + 1)
  let jj : ℤ := trunc ((m + 1) - b * (k - 1) - a * (l - 1))
  let j : ℤ := (jj - 1).tdiv q + 1
  let i : ℤ := jj - q * (j - 1)
  (i, j, k, l)

/-- `gauss_4d`, elements.cpp:1709-1771: column 4 is initialised instead of column 3. -/
noncomputable def gauss4d (q : ℕ) (dim : ℤ) (cp cw : ℕ) (s : Out) : Option Out :=
  loopM (q * q * q * q) (fun m s => do
    let x := index4 q dim m
    let s ← s.setW cw m 0 1
    let s ← s.setW cw m 1 1
    let s ← s.setW cw m 2 1
    let s ← s.setW cw m 4 1
    let s ← dir lineGauss q cp cw m 0 x.1 s
    let s ← dir lineGauss q cp cw m 1 x.2.1 s
    let s ← dir lineGauss q cp cw m 2 x.2.2.1 s
    dir lineGauss q cp cw m 3 x.2.2.2 s) s

/-- `lobatto_2d`, elements.cpp:1774-1806. -/
noncomputable def lobatto2d (q cp cw : ℕ) (s : Out) : Option Out :=
  loopM (q * q) (fun m s => do
    let j : ℤ := (m : ℤ) / q + 1
    let i : ℤ := (m + 1) - q * (j - 1)
    let s ← s.setW cw m 0 1
    let s ← s.setW cw m 1 1
    let s ← dir lineLobatto q cp cw m 0 i s
    dir lineLobatto q cp cw m 1 j s) s

/-- `lobatto_3d`, elements.cpp:1809-1854. -/
noncomputable def lobatto3d (q cp cw : ℕ) (s : Out) : Option Out :=
  loopM (q * q * q) (fun m s => do
    let p12 : ℤ := q * q
    let k : ℤ := (m : ℤ) / p12 + 1
    let jj : ℤ := (m + 1) - p12 * (k - 1)
    let j : ℤ := (jj - 1) / q + 1
    let i : ℤ := jj - q * (j - 1)
    let s ← s.setW cw m 0 1
    let s ← s.setW cw m 1 1
    let s ← s.setW cw m 2 1
    let s ← dir lineLobatto q cp cw m 0 i s
    let s ← dir lineLobatto q cp cw m 1 j s
    dir lineLobatto q cp cw m 2 k s) s

/-- `lobatto_4d`, elements.cpp:1857-1918. -/
noncomputable def lobatto4d (q : ℕ) (dim : ℤ) (cp cw : ℕ) (s : Out) : Option Out :=
  loopM (q * q * q * q) (fun m s => do
    let x := index4 q dim m
    let s ← s.setW cw m 0 1
    let s ← s.setW cw m 1 1
    let s ← s.setW cw m 2 1
    let s ← s.setW cw m 3 1
    let s ← dir lineLobatto q cp cw m 0 x.1 s
    let s ← dir lineLobatto q cp cw m 1 x.2.1 s
    let s ← dir lineLobatto q cp cw m 2 x.2.2.1 s
    dir lineLobatto q cp cw m 3 x.2.2.2 s) s

end Verif.Tensor
