import Verif.Fp.Arith
import Verif.LU.Model

/-!
# The LU solver of `slam/slam.cpp` in rounded arithmetic

The same routines as in `Verif/LU/Model.lean`, with a rounding after every arithmetic operation, in source order.  `fabs`, the
comparisons, the assignments and `-(parity)` do not round, so `rowMax`, `scaling` and `swapRows` are those of the exact model.
The compiler is assumed not to contract `sum -= a*b` into one fused operation.
-/

namespace Verif.LU
open Verif.Fp

/-- `TINY`, slam/slam.h:19: the decimal literal `1.e-30` rounded to a `double`. -/
noncomputable def tinyR (R : Rounding) : ℝ := R.fl tiny

/-- slam/slam.cpp:53-60, part a) of column `j`. -/
noncomputable def upperR (R : Rounding) (j : ℕ) (a : ℕ → ℕ → ℝ) : ℕ → ℕ → ℝ :=
  loop j (fun i a => store2 a i j (loop i (fun k sum => R.fl (sum - R.fl (a i k * a k j))) (a i j))) a

/-- slam/slam.cpp:62-78, part b) of column `j` with the pivot search; the state is `(source_mat, big, imax)`. -/
noncomputable def lowerR (R : Rounding) (n j : ℕ) (vv : ℕ → ℝ) (a : ℕ → ℕ → ℝ) : (ℕ → ℕ → ℝ) × ℝ × ℕ :=
  loop (n - j) (fun t s =>
    let i := j + t
    let sum := loop j (fun k sum => R.fl (sum - R.fl (s.1 i k * s.1 k j))) (s.1 i j)
    let a := store2 s.1 i j sum
    if R.fl (vv i * |sum|) ≥ s.2.1 then (a, R.fl (vv i * |sum|), i) else (a, s.2.1, s.2.2)) (a, 0, j)

/-- slam/slam.cpp:97, replacement of a zero pivot. -/
noncomputable def fixPivotR (R : Rounding) (j : ℕ) (a : ℕ → ℕ → ℝ) : ℕ → ℕ → ℝ :=
  if a j j = 0 then store2 a j j (tinyR R) else a

/-- slam/slam.cpp:100-104, multiplication by the rounded reciprocal of the pivot. -/
noncomputable def scaleColR (R : Rounding) (n j : ℕ) (a : ℕ → ℕ → ℝ) : ℕ → ℕ → ℝ :=
  if j + 1 < n then
    let temp := R.fl (1 / a j j)
    loop (n - (j + 1)) (fun t a => store2 a (j + 1 + t) j (R.fl (a (j + 1 + t) j * temp))) a
  else a

/-- slam/slam.cpp:50-105, one iteration of the main loop. -/
noncomputable def columnR (R : Rounding) (n j : ℕ) (s : St ℝ) : St ℝ :=
  let r := lowerR R n j s.vv (upperR R j s.a)
  let imax := r.2.2
  let a := if imax ≠ j then swapRows n imax j r.1 else r.1
  let parity := if imax ≠ j then -s.parity else s.parity
  let vv := if imax ≠ j then store s.vv imax (s.vv j) else s.vv
  { a := scaleColR R n j (fixPivotR R j a), indx := store s.indx j imax, parity := parity, vv := vv }

/-- `LU_decompos`, slam/slam.cpp:22-108. -/
noncomputable def decomposR (R : Rounding) (n : ℕ) (a : ℕ → ℕ → ℝ) (indx : ℕ → ℕ) : Res ℝ :=
  match scaling n a with
  | none => { ret := 0, a := a, indx := indx, parity := 1 }
  | some vv =>
    let s := loop n (columnR R n) { a := a, indx := indx, parity := 1, vv := vv }
    { ret := 1, a := s.a, indx := s.indx, parity := s.parity }

/-- slam/slam.cpp:130-145, forward substitution with permutation; state `(b, ii)` where `none` is `ii = -1`. -/
noncomputable def forwardR (R : Rounding) (n : ℕ) (a : ℕ → ℕ → ℝ) (indx : ℕ → ℕ) (b : ℕ → ℝ) : (ℕ → ℝ) × Option ℕ :=
  loop n (fun i s =>
    let b := s.1
    let ip := indx i
    let sum := b ip
    let b := store b ip (b i)
    match s.2 with
    | some ii => (store b i (loop (i - ii) (fun t sum => R.fl (sum - R.fl (a i (ii + t) * b (ii + t)))) sum), some ii)
    | none => (store b i sum, if sum ≠ 0 then some i else none)) (b, none)

/-- slam/slam.cpp:148-154, back substitution; the loop index runs `i = n-1, ..., 0`. -/
noncomputable def backwardR (R : Rounding) (n : ℕ) (a : ℕ → ℕ → ℝ) (b : ℕ → ℝ) : ℕ → ℝ :=
  loop n (fun t b =>
    let i := n - 1 - t
    let sum := loop (n - (i + 1)) (fun s sum => R.fl (sum - R.fl (a i (i + 1 + s) * b (i + 1 + s)))) (b i)
    store b i (R.fl (sum / a i i))) b

/-- `LU_backsub`, slam/slam.cpp:115-156. -/
noncomputable def backsubR (R : Rounding) (n : ℕ) (a : ℕ → ℕ → ℝ) (indx : ℕ → ℕ) (b : ℕ → ℝ) : ℕ → ℝ :=
  backwardR R n a (forwardR R n a indx b).1

/-- `LU_invert`, slam/slam.cpp:162-178; state `(inv_mat, col)`. -/
noncomputable def invertR (R : Rounding) (n : ℕ) (a : ℕ → ℕ → ℝ) (indx : ℕ → ℕ) (inv : ℕ → ℕ → ℝ) (col : ℕ → ℝ) :
    (ℕ → ℕ → ℝ) × (ℕ → ℝ) :=
  loop n (fun j s =>
    let col := loop n (fun i col => store col i 0) s.2
    let col := store col j 1
    let col := backsubR R n a indx col
    (loop n (fun i inv => store2 inv i j (col i)) s.1, col)) (inv, col)

/-- `LU_determ`, slam/slam.cpp:184-196. -/
noncomputable def determR (R : Rounding) (n : ℕ) (a : ℕ → ℕ → ℝ) (parity : ℤ) : ℝ :=
  loop n (fun j res => R.fl (res * a j j)) (parity : ℝ)

end Verif.LU
