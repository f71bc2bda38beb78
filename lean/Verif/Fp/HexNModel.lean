import Verif.Fp.Arith
import Verif.HexN.Model

/-!
# Model of the arbitrary-order elements `QuadN` and `HexN` in rounded arithmetic

The functions of `HexN/Model.lean` again, with a rounding after every `+`, `-`, `*`, `/` of the C++ text, in the order in which
the C++ evaluates them.  Loops that only copy (`saveColumn`, `tensor`, the loops that clear) are those of `HexN/Model.lean`.
-/

namespace Verif.Fp.HexN
open Verif.Fp

variable (R : Rounding)

/-- One iteration over `vert_j` of `HexN::lagrange_basis_1D`, elements/elements.cpp:5742-5754; the state is (numerator,
denominator, interpolant). -/
noncomputable def basisStep (z : ℕ → ℝ) (x : ℝ) (i j : ℕ) (s : ℝ × ℝ × ℝ) : ℝ × ℝ × ℝ :=
  let num := if j ≠ i then R.fl (s.1 * R.fl (x - z j)) else s.1
  let den := if j ≠ i then R.fl (s.2.1 * R.fl (z i - z j)) else s.2.1
  (num, den, R.fl (num / den))

/-- `HexN::lagrange_basis_1D`, elements/elements.cpp:5729-5761. -/
noncomputable def lagrangeBasis1D (n : ℕ) (z : ℕ → ℝ) (x : ℝ) (interp : ℕ → ℝ) : ℕ → ℝ :=
  loop n (fun i interp => store interp i (loop n (basisStep R z x i) (1, 1, 1)).2.2) interp

/-- The product over `N` of `HexN::lagrange_derivative_1D`, elements/elements.cpp:5788-5795. -/
noncomputable def productGradient (n : ℕ) (z : ℕ → ℝ) (x : ℝ) (i j : ℕ) : ℝ :=
  loop n (fun N p => if N ≠ j ∧ N ≠ i then R.fl (p * R.fl (x - z N)) else p) 1

/-- One iteration over `vert_j` of `HexN::lagrange_derivative_1D`, elements/elements.cpp:5779-5804; the state is (denominator,
num_gradient, gradient). -/
noncomputable def derivStep (n : ℕ) (z : ℕ → ℝ) (x : ℝ) (i j : ℕ) (s : ℝ × ℝ × ℝ) : ℝ × ℝ × ℝ :=
  let den := if j ≠ i then R.fl (s.1 * R.fl (z i - z j)) else s.1
  let ng := if j ≠ i then R.fl (s.2.1 + productGradient R n z x i j) else s.2.1
  (den, ng, R.fl (ng / den))

/-- `HexN::lagrange_derivative_1D`, elements/elements.cpp:5763-5810. -/
noncomputable def lagrangeDerivative1D (n : ℕ) (z : ℕ → ℝ) (x : ℝ) (der : ℕ → ℝ) : ℕ → ℝ :=
  loop n (fun i der => store der i (loop n (derivStep R n z x i) (1, 0, 0)).2.2) der

/-- `HexN::basis`, elements/elements.cpp:5505-5550; `v`, `t` are the fresh local arrays `val_1d`, `val_3d`. -/
noncomputable def basis (n : ℕ) (z pt : ℕ → ℝ) (v : ℕ → ℝ) (t : ℕ → ℕ → ℝ) (b : ℕ → ℝ) : ℕ → ℝ :=
  let v := lagrangeBasis1D R n z (pt 0) v
  let s := Verif.HexN.saveColumn n 0 v t
  let v := lagrangeBasis1D R n z (pt 1) s.1
  let s := Verif.HexN.saveColumn n 1 v s.2
  let v := lagrangeBasis1D R n z (pt 2) s.1
  let s := Verif.HexN.saveColumn n 2 v s.2
  Verif.HexN.tensor n (fun i j k => R.fl (R.fl (s.2 i 0 * s.2 j 1) * s.2 k 2)) b

/-- `HexN::partial_xi_basis`, elements/elements.cpp:5552-5609. -/
noncomputable def partialXi (n : ℕ) (z pt : ℕ → ℝ) (v dv : ℕ → ℝ) (t dt : ℕ → ℕ → ℝ) (b : ℕ → ℝ) : ℕ → ℝ :=
  let dv := lagrangeDerivative1D R n z (pt 0) dv
  let ds := Verif.HexN.saveColumn n 0 dv dt
  let v := lagrangeBasis1D R n z (pt 1) v
  let s := Verif.HexN.saveColumn n 1 v t
  let v := lagrangeBasis1D R n z (pt 2) s.1
  let s := Verif.HexN.saveColumn n 2 v s.2
  Verif.HexN.tensor n (fun i j k => R.fl (R.fl (ds.2 i 0 * s.2 j 1) * s.2 k 2)) b

/-- `HexN::partial_eta_basis`, elements/elements.cpp:5612-5667. -/
noncomputable def partialEta (n : ℕ) (z pt : ℕ → ℝ) (v dv : ℕ → ℝ) (t dt : ℕ → ℕ → ℝ) (b : ℕ → ℝ) : ℕ → ℝ :=
  let v := lagrangeBasis1D R n z (pt 0) v
  let s := Verif.HexN.saveColumn n 0 v t
  let dv := lagrangeDerivative1D R n z (pt 1) dv
  let ds := Verif.HexN.saveColumn n 1 dv dt
  let v := lagrangeBasis1D R n z (pt 2) s.1
  let s := Verif.HexN.saveColumn n 2 v s.2
  Verif.HexN.tensor n (fun i j k => R.fl (R.fl (s.2 i 0 * ds.2 j 1) * s.2 k 2)) b

/-- `HexN::partial_mu_basis`, elements/elements.cpp:5670-5725. -/
noncomputable def partialMu (n : ℕ) (z pt : ℕ → ℝ) (v dv : ℕ → ℝ) (t dt : ℕ → ℕ → ℝ) (b : ℕ → ℝ) : ℕ → ℝ :=
  let v := lagrangeBasis1D R n z (pt 0) v
  let s := Verif.HexN.saveColumn n 0 v t
  let v := lagrangeBasis1D R n z (pt 1) s.1
  let s := Verif.HexN.saveColumn n 1 v s.2
  let dv := lagrangeDerivative1D R n z (pt 2) dv
  let ds := Verif.HexN.saveColumnOther n 2 dv s.1 dt
  Verif.HexN.tensor n (fun i j k => R.fl (R.fl (s.2 i 0 * s.2 j 1) * ds.2 k 2)) b

/-- One iteration over `j` of `QuadN::lagrange_1D`, elements/elements.cpp:3996-4012; the state is `(n, d, c, p, q)`. -/
noncomputable def quadStep (n : ℕ) (z : ℕ → ℝ) (x : ℝ) (i j : ℕ) (s : ℝ × ℝ × ℝ × ℝ × ℝ) : ℝ × ℝ × ℝ × ℝ × ℝ :=
  let num := if j ≠ i then R.fl (s.1 * R.fl (x - z j)) else s.1
  let den := if j ≠ i then R.fl (s.2.1 * R.fl (z i - z j)) else s.2.1
  let p := if j ≠ i then R.fl (s.2.2.2.1 + productGradient R n z x i j) else s.2.2.2.1
  (num, den, R.fl (num / den), p, R.fl (p / den))

/-- `QuadN::lagrange_1D`, elements/elements.cpp:3973-4019, `n = orderN + 1`; returns `(interp, Dinterp)`. -/
noncomputable def quadLagrange1D (n : ℕ) (z : ℕ → ℝ) (x : ℝ) (interp der : ℕ → ℝ) : (ℕ → ℝ) × (ℕ → ℝ) :=
  let r := loop n (fun i (s : (ℕ → ℝ) × (ℕ → ℝ) × ℝ) =>
    let t := loop n (quadStep R n z x i) (1, 1, 1, 0, s.2.2)
    (store s.1 i t.2.2.1, store s.2.1 i t.2.2.2.2, t.2.2.2.2)) (interp, der, 0)
  (r.1, r.2.1)

/-- Body of the loop over `m` of `QuadN::basis_partials`, elements/elements.cpp:4126-4168. -/
noncomputable def quadBody (n : ℕ) (z pt : ℕ → ℝ) (m : ℕ) (s : Verif.HexN.QuadState ℝ) : Verif.HexN.QuadState ℝ :=
  let j := m / n + 1
  let i := (m + 1) - n * (j - 1)
  let nodes := store2 (store2 s.nodes m 0 (z (i - 1))) m 1 (z (j - 1))
  let r := quadLagrange1D R n z (pt 0) s.val1 s.dval1
  let val2 := store2 s.val2 m 0 (r.1 (i - 1))
  let dval2 := store2 s.dval2 m 0 (r.2 (i - 1))
  let c := loop n (fun i (c : (ℕ → ℝ) × (ℕ → ℝ)) => (store c.1 i 0, store c.2 i 0)) r
  let r := quadLagrange1D R n z (pt 1) c.1 c.2
  let val2 := store2 val2 m 1 (r.1 (j - 1))
  let dval2 := store2 dval2 m 1 (r.2 (j - 1))
  let c := loop n (fun i (c : (ℕ → ℝ) × (ℕ → ℝ)) => (store c.1 i 0, store c.2 i 0)) r
  { nodes := nodes, val1 := c.1, dval1 := c.2, val2 := val2, dval2 := dval2
    basis := store s.basis m (R.fl (val2 m 0 * val2 m 1))
    part := store2 (store2 s.part m 0 (R.fl (dval2 m 0 * val2 m 1))) m 1 (R.fl (val2 m 0 * dval2 m 1)) }

/-- `QuadN::basis_partials`, elements/elements.cpp:4085-4170, `n = orderN + 1`. -/
noncomputable def quadBasisPartials (n : ℕ) (z pt : ℕ → ℝ) (s : Verif.HexN.QuadState ℝ) : Verif.HexN.QuadState ℝ :=
  loop (n * n) (quadBody R n z pt) s

/-- `QuadN::physical_position`, elements/elements.cpp:4067-4082: accumulates into `x_point` without clearing it. -/
noncomputable def quadPhysicalPosition (n : ℕ) (nodes : ℕ → ℕ → ℝ) (b : ℕ → ℝ) (x0 : ℕ → ℝ) : ℕ → ℝ :=
  loop (n * n) (fun v p => loop 2 (fun d p => store p d (R.fl (p d + R.fl (nodes v d * b v)))) p) x0

end Verif.Fp.HexN
