import Verif.Loop
import Mathlib.Algebra.Order.Field.Basic
import Mathlib.Algebra.Order.Group.Abs

/-!
# Model of `/repo/elements/lagrange_polynomials.cpp`

`NumType` is an arbitrary field `K`, with the vertex search of the `Real` instantiation (the `Complex`
instantiation, used for complex-step tests, is in `Verif/ComplexStep/Model.lean`).  Arrays of `N` entries are functions
`ℕ → K` of which only the entries below `N` are read or written.
`SizeType` counters are `ℕ`, except in `findCoincidentVertex`, which relies on wrap-around.
Division by an exact zero (a non-finite double) is the field's `x / 0 = 0`; every theorem states
hypotheses under which no such quotient influences the result.
-/

namespace Verif.Lagrange
variable {K : Type*} [Field K]

/-- Models `common::almost_equal`, common/common.h:33-35; `tol` is `2.0*NUM_EPS`. -/
def almostEqual [LinearOrder K] (tol a b : K) : Bool := |a - b| < tol

/-- Models `lagrange::find_coincident_vertex`, elements/lagrange_polynomials.cpp:22-34.
`k` starts at `SizeType(-1)` and wraps. -/
def findCoincidentVertex [LinearOrder K] (tol : K) (N : ℕ) (z : ℕ → K) (x : K) : UInt64 :=
  loop N (fun j k => k + (UInt64.ofNat j + 1) * (if almostEqual tol (z j) x then 1 else 0)) (0 - 1)

/-- Models `lagrange::compute_barycentric_weights`, elements/lagrange_polynomials.cpp:57-67. -/
def computeBarycentricWeights (N : ℕ) (z w : ℕ → K) : ℕ → K :=
  loop N (fun j w =>
    store w j (loop N (fun k wj => if j ≠ k then wj * (1 / (z j - z k)) else wj) 1)) w

/-- Models `lagrange::eval`, elements/lagrange_polynomials.cpp:83-92. -/
def eval (Nv i ic : ℕ) (Z w : ℕ → K) (X : K) : K :=
  if ic < Nv then (if i = ic then 1 else 0)
  else
    let L := loop Nv (fun j L => L * (X - Z j)) 1
    L * w i / (X - Z i)

/-- Models `lagrange::eval_interp`, elements/lagrange_polynomials.cpp:147-171. The loop state is
`(p, L)`. -/
def evalInterp (Nv i : ℕ) (Z w : ℕ → K) (X : K) (c : ℕ → K) : K :=
  if i < Nv then c i
  else
    let s := loop Nv (fun j s => (s.1 + w j * c j / (X - Z j), s.2 * (X - Z j))) ((0 : K), (1 : K))
    s.1 * s.2

/-- Loop variables of `lagrange::eval_der_interp`: work array `c`, `dkp`, `dnp`, `M`. -/
structure DerState (K : Type*) where
  c : ℕ → K
  dkp : K
  dnp : K
  M : K

/-- One iteration `k` of the coincident branch, elements/lagrange_polynomials.cpp:220-236.
(At `j = i` the code stores a non-finite value in `c[i]`; it is never used again because of the
`j != i` test on line 230.) -/
def derStepCoincident (Nv i : ℕ) (Z w : ℕ → K) (k : ℕ) (s : DerState K) : DerState K :=
  let t := loop Nv (fun j (t : (ℕ → K) × K) =>
      let cj := 1 / (Z i - Z j) * (s.dkp - t.1 j)
      (store t.1 j cj, if j ≠ i then t.2 + w j * cj else t.2)) (s.c, 0)
  let M := s.M * k
  let dnp := t.2 * (-M / w i)
  { c := t.1, dkp := dnp, dnp := dnp, M := M }

/-- One iteration `k` of the non-coincident branch, elements/lagrange_polynomials.cpp:240-255. -/
def derStepNonCoincident (Nv : ℕ) (Z w : ℕ → K) (X L : K) (k : ℕ) (s : DerState K) : DerState K :=
  let t := loop Nv (fun j (t : (ℕ → K) × K) =>
      let cj := 1 / (X - Z j) * (s.dkp - t.1 j)
      (store t.1 j cj, t.2 + w j * cj / (X - Z j))) (s.c, 0)
  let M := s.M * k
  let dnp := t.2 * (L * M)
  { c := t.1, dkp := dnp, dnp := dnp, M := M }

/-- Models `lagrange::eval_der_interp`, elements/lagrange_polynomials.cpp:193-260
(the loop `k = 1..n` is `loop n` with `k = index + 1`); final values of the loop variables. The
work array `c` is overwritten in place. -/
def evalDerRun (Nv n i : ℕ) (Z w : ℕ → K) (X : K) (c : ℕ → K) : DerState K :=
  if i < Nv then
    let p := c i
    loop n (fun k s => derStepCoincident Nv i Z w (k + 1) s) ⟨c, p, 0, 1⟩
  else
    let s := loop Nv (fun j s => (s.1 + w j * c j / (X - Z j), s.2 * (X - Z j))) ((0 : K), (1 : K))
    let L := s.2
    let p := s.1 * L
    loop n (fun k s => derStepNonCoincident Nv Z w X L (k + 1) s) ⟨c, p, 0, 1⟩

/-- Return value of `lagrange::eval_der_interp`, elements/lagrange_polynomials.cpp:259. -/
def evalDerInterp (Nv n i : ℕ) (Z w : ℕ → K) (X : K) (c : ℕ → K) : K :=
  (evalDerRun Nv n i Z w X c).dnp

/-- Models `lagrange::eval_der`, elements/lagrange_polynomials.cpp:114-126. -/
def evalDer (Nv n i ic : ℕ) (Z w : ℕ → K) (X : K) (c : ℕ → K) : K :=
  let c := loop Nv (fun j c => store c j (if j ≠ i then 0 else 1)) c
  evalDerInterp Nv n ic Z w X c

end Verif.Lagrange
