import Verif.Loop
import Mathlib.Algebra.Order.Field.Basic
import Mathlib.Algebra.Order.Group.Abs

/-!
# Model of the LU solver, `slam/slam.cpp`

Matrices are functions `row → column → entry`; only entries with both indices `< n` belong to the
C++ arrays. `real_t` is an arbitrary linearly ordered field (exact arithmetic).
-/

namespace Verif.LU

variable {K : Type*} [Field K] [LinearOrder K]

/-- `TINY`, slam/slam.h:19. -/
def tiny : K := 1 / 10 ^ 30

/-- slam/slam.cpp:41-42, the largest magnitude in row `i`. -/
def rowMax (n : ℕ) (a : ℕ → ℕ → K) (i : ℕ) : K :=
  loop n (fun j big => if |a i j| > big then |a i j| else big) 0

/-- slam/slam.cpp:39-47, the scaling array `vv`; `none` is `return(0)`. The array is uninitialised in
the code; here it starts at 0 (no entry is read before it is written). -/
def scaling (n : ℕ) (a : ℕ → ℕ → K) : Option (ℕ → K) :=
  loop n (fun i o => match o with
    | none => none
    | some vv => if rowMax n a i = 0 then none else some (store vv i (rowMax n a i)))
    (some fun _ => 0)

/-- slam/slam.cpp:53-60, part a) of column `j`. -/
def upper (j : ℕ) (a : ℕ → ℕ → K) : ℕ → ℕ → K :=
  loop j (fun i a => store2 a i j (loop i (fun k sum => sum - a i k * a k j) (a i j))) a

/-- slam/slam.cpp:62-78, part b) of column `j` with the pivot search; the state is
`(source_mat, big, imax)`. -/
def lower (n j : ℕ) (vv : ℕ → K) (a : ℕ → ℕ → K) : (ℕ → ℕ → K) × K × ℕ :=
  loop (n - j) (fun t s =>
    let i := j + t
    let sum := loop j (fun k sum => sum - s.1 i k * s.1 k j) (s.1 i j)
    let a := store2 s.1 i j sum
    if vv i * |sum| ≥ s.2.1 then (a, vv i * |sum|, i) else (a, s.2.1, s.2.2)) (a, 0, j)

/-- slam/slam.cpp:83-87, interchange rows `imax` and `j`. -/
def swapRows (n imax j : ℕ) (a : ℕ → ℕ → K) : ℕ → ℕ → K :=
  loop n (fun k a =>
    let temp := a imax k
    let a := store2 a imax k (a j k)
    store2 a j k temp) a

/-- slam/slam.cpp:97, replacement of a zero pivot. -/
def fixPivot (j : ℕ) (a : ℕ → ℕ → K) : ℕ → ℕ → K :=
  if a j j = 0 then store2 a j j tiny else a

/-- slam/slam.cpp:100-104, division by the pivot. -/
def scaleCol (n j : ℕ) (a : ℕ → ℕ → K) : ℕ → ℕ → K :=
  if j + 1 < n then
    let temp := 1 / a j j
    loop (n - (j + 1)) (fun t a => store2 a (j + 1 + t) j (a (j + 1 + t) j * temp)) a
  else a

/-- Loop state of `LU_decompos`. -/
structure St (K : Type*) where
  a : ℕ → ℕ → K
  indx : ℕ → ℕ
  parity : ℤ
  vv : ℕ → K

/-- slam/slam.cpp:50-105, one iteration of the main loop. -/
def column (n j : ℕ) (s : St K) : St K :=
  let r := lower n j s.vv (upper j s.a)
  let imax := r.2.2
  let a := if imax ≠ j then swapRows n imax j r.1 else r.1
  let parity := if imax ≠ j then -s.parity else s.parity
  let vv := if imax ≠ j then store s.vv imax (s.vv j) else s.vv
  { a := scaleCol n j (fixPivot j a), indx := store s.indx j imax, parity := parity, vv := vv }

/-- Result of `LU_decompos`: return value and the arrays it leaves behind. -/
structure Res (K : Type*) where
  ret : ℕ
  a : ℕ → ℕ → K
  indx : ℕ → ℕ
  parity : ℤ

/-- `LU_decompos`, slam/slam.cpp:22-108. -/
def decompos (n : ℕ) (a : ℕ → ℕ → K) (indx : ℕ → ℕ) : Res K :=
  match scaling n a with
  | none => { ret := 0, a := a, indx := indx, parity := 1 }
  | some vv =>
    let s := loop n (column n) { a := a, indx := indx, parity := 1, vv := vv }
    { ret := 1, a := s.a, indx := s.indx, parity := s.parity }

/-- slam/slam.cpp:130-145, forward substitution with permutation; state `(b, ii)` where `none` is
`ii = -1`. -/
def forward (n : ℕ) (a : ℕ → ℕ → K) (indx : ℕ → ℕ) (b : ℕ → K) : (ℕ → K) × Option ℕ :=
  loop n (fun i s =>
    let b := s.1
    let ip := indx i
    let sum := b ip
    let b := store b ip (b i)
    match s.2 with
    | some ii => (store b i (loop (i - ii) (fun t sum => sum - a i (ii + t) * b (ii + t)) sum), some ii)
    | none => (store b i sum, if sum ≠ 0 then some i else none)) (b, none)

/-- slam/slam.cpp:148-154, back substitution; the loop index runs `i = n-1, ..., 0`. -/
def backward (n : ℕ) (a : ℕ → ℕ → K) (b : ℕ → K) : ℕ → K :=
  loop n (fun t b =>
    let i := n - 1 - t
    let sum := loop (n - (i + 1)) (fun s sum => sum - a i (i + 1 + s) * b (i + 1 + s)) (b i)
    store b i (sum / a i i)) b

/-- `LU_backsub`, slam/slam.cpp:115-156. -/
def backsub (n : ℕ) (a : ℕ → ℕ → K) (indx : ℕ → ℕ) (b : ℕ → K) : ℕ → K :=
  backward n a (forward n a indx b).1

/-- `LU_invert`, slam/slam.cpp:162-178; state `(inv_mat, col)`. -/
def invert (n : ℕ) (a : ℕ → ℕ → K) (indx : ℕ → ℕ) (inv : ℕ → ℕ → K) (col : ℕ → K) :
    (ℕ → ℕ → K) × (ℕ → K) :=
  loop n (fun j s =>
    let col := loop n (fun i col => store col i 0) s.2
    let col := store col j 1
    let col := backsub n a indx col
    (loop n (fun i inv => store2 inv i j (col i)) s.1, col)) (inv, col)

/-- `LU_determ`, slam/slam.cpp:184-196. -/
def determ (n : ℕ) (a : ℕ → ℕ → K) (parity : ℤ) : K :=
  loop n (fun j res => res * a j j) (parity : K)

end Verif.LU
