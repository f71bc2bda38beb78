import Verif.Shape.Attr
import Verif.Shape.Model

/-!
Entry lemmas of the fixed-order element model (generated by `tools/gen_shape.py`): every entry of the
tables and of the arrays filled by the routines, by computation.
-/

set_option maxRecDepth 4000

namespace Verif.Shape

variable {K : Type*} [Field K]

namespace Quad4
@[shape_entry] theorem rv_0_0 : rv 0 0 = (-1 : K) := rfl
@[shape_entry] theorem rv_0_1 : rv 0 1 = (-1 : K) := rfl
@[shape_entry] theorem rv_1_0 : rv 1 0 = (1 : K) := rfl
@[shape_entry] theorem rv_1_1 : rv 1 1 = (-1 : K) := rfl
@[shape_entry] theorem rv_2_0 : rv 2 0 = (1 : K) := rfl
@[shape_entry] theorem rv_2_1 : rv 2 1 = (1 : K) := rfl
@[shape_entry] theorem rv_3_0 : rv 3 0 = (-1 : K) := rfl
@[shape_entry] theorem rv_3_1 : rv 3 1 = (1 : K) := rfl
@[shape_entry] theorem basis_0 (x b : ℕ → K) : basis x b 0 =
    (1/4) * (1 + x 0*(-1)) * (1 + x 1*(-1)) := rfl
@[shape_entry] theorem basis_1 (x b : ℕ → K) : basis x b 1 =
    (1/4) * (1 + x 0*1) * (1 + x 1*(-1)) := rfl
@[shape_entry] theorem basis_2 (x b : ℕ → K) : basis x b 2 =
    (1/4) * (1 + x 0*1) * (1 + x 1*1) := rfl
@[shape_entry] theorem basis_3 (x b : ℕ → K) : basis x b 3 =
    (1/4) * (1 + x 0*(-1)) * (1 + x 1*1) := rfl
@[shape_entry] theorem partialXi_0 (x b : ℕ → K) : partialXi x b 0 =
    (1/4) * ((-1)) * (1 + x 1*(-1)) := rfl
@[shape_entry] theorem partialXi_1 (x b : ℕ → K) : partialXi x b 1 =
    (1/4) * (1) * (1 + x 1*(-1)) := rfl
@[shape_entry] theorem partialXi_2 (x b : ℕ → K) : partialXi x b 2 =
    (1/4) * (1) * (1 + x 1*1) := rfl
@[shape_entry] theorem partialXi_3 (x b : ℕ → K) : partialXi x b 3 =
    (1/4) * ((-1)) * (1 + x 1*1) := rfl
@[shape_entry] theorem partialEta_0 (x b : ℕ → K) : partialEta x b 0 =
    (1/4) * (1 + x 0*(-1)) * ((-1)) := rfl
@[shape_entry] theorem partialEta_1 (x b : ℕ → K) : partialEta x b 1 =
    (1/4) * (1 + x 0*1) * ((-1)) := rfl
@[shape_entry] theorem partialEta_2 (x b : ℕ → K) : partialEta x b 2 =
    (1/4) * (1 + x 0*1) * (1) := rfl
@[shape_entry] theorem partialEta_3 (x b : ℕ → K) : partialEta x b 3 =
    (1/4) * (1 + x 0*(-1)) * (1) := rfl
end Quad4

namespace Quad8
@[shape_entry] theorem rv_0_0 : rv 0 0 = (-1 : K) := rfl
@[shape_entry] theorem rv_0_1 : rv 0 1 = (-1 : K) := rfl
@[shape_entry] theorem rv_1_0 : rv 1 0 = (1 : K) := rfl
@[shape_entry] theorem rv_1_1 : rv 1 1 = (-1 : K) := rfl
@[shape_entry] theorem rv_2_0 : rv 2 0 = (1 : K) := rfl
@[shape_entry] theorem rv_2_1 : rv 2 1 = (1 : K) := rfl
@[shape_entry] theorem rv_3_0 : rv 3 0 = (-1 : K) := rfl
@[shape_entry] theorem rv_3_1 : rv 3 1 = (1 : K) := rfl
@[shape_entry] theorem rv_4_0 : rv 4 0 = (0 : K) := rfl
@[shape_entry] theorem rv_4_1 : rv 4 1 = (-1 : K) := rfl
@[shape_entry] theorem rv_5_0 : rv 5 0 = (1 : K) := rfl
@[shape_entry] theorem rv_5_1 : rv 5 1 = (0 : K) := rfl
@[shape_entry] theorem rv_6_0 : rv 6 0 = (0 : K) := rfl
@[shape_entry] theorem rv_6_1 : rv 6 1 = (1 : K) := rfl
@[shape_entry] theorem rv_7_0 : rv 7 0 = (-1 : K) := rfl
@[shape_entry] theorem rv_7_1 : rv 7 1 = (0 : K) := rfl
@[shape_entry] theorem basis_0 (x b : ℕ → K) : basis x b 0 =
    (1/4) * (1 + x 0*(-1)) * (1 + x 1*(-1)) * (x 0*(-1) + x 1*(-1) - 1) := rfl
@[shape_entry] theorem basis_1 (x b : ℕ → K) : basis x b 1 =
    (1/4) * (1 + x 0*1) * (1 + x 1*(-1)) * (x 0*1 + x 1*(-1) - 1) := rfl
@[shape_entry] theorem basis_2 (x b : ℕ → K) : basis x b 2 =
    (1/4) * (1 + x 0*1) * (1 + x 1*1) * (x 0*1 + x 1*1 - 1) := rfl
@[shape_entry] theorem basis_3 (x b : ℕ → K) : basis x b 3 =
    (1/4) * (1 + x 0*(-1)) * (1 + x 1*1) * (x 0*(-1) + x 1*1 - 1) := rfl
@[shape_entry] theorem basis_4 (x b : ℕ → K) : basis x b 4 =
    (1/2) * (1 - x 0*x 0) * (1 + x 1*(-1)) := rfl
@[shape_entry] theorem basis_6 (x b : ℕ → K) : basis x b 6 =
    (1/2) * (1 - x 0*x 0) * (1 + x 1*1) := rfl
@[shape_entry] theorem basis_5 (x b : ℕ → K) : basis x b 5 =
    (1/2) * (1 + x 0*1) * (1 - x 1*x 1) := rfl
@[shape_entry] theorem basis_7 (x b : ℕ → K) : basis x b 7 =
    (1/2) * (1 + x 0*(-1)) * (1 - x 1*x 1) := rfl
@[shape_entry] theorem partialXi_0 (x b : ℕ → K) : partialXi x b 0 =
    1/4 * ((-1)) * (1 + (-1)*x 1) *((2 * (-1)*x 0) + ((-1)*x 1)) := rfl
@[shape_entry] theorem partialXi_1 (x b : ℕ → K) : partialXi x b 1 =
    1/4 * (1) * (1 + (-1)*x 1) *((2 * 1*x 0) + ((-1)*x 1)) := rfl
@[shape_entry] theorem partialXi_2 (x b : ℕ → K) : partialXi x b 2 =
    1/4 * (1) * (1 + 1*x 1) *((2 * 1*x 0) + (1*x 1)) := rfl
@[shape_entry] theorem partialXi_3 (x b : ℕ → K) : partialXi x b 3 =
    1/4 * ((-1)) * (1 + 1*x 1) *((2 * (-1)*x 0) + (1*x 1)) := rfl
@[shape_entry] theorem partialXi_4 (x b : ℕ → K) : partialXi x b 4 =
    -1 * (x 0) * (1 + (-1)*x 1) := rfl
@[shape_entry] theorem partialXi_6 (x b : ℕ → K) : partialXi x b 6 =
    -1 * (x 0) * (1 + 1*x 1) := rfl
@[shape_entry] theorem partialXi_5 (x b : ℕ → K) : partialXi x b 5 =
    1/2 * (1) * (1 - x 1*x 1) := rfl
@[shape_entry] theorem partialXi_7 (x b : ℕ → K) : partialXi x b 7 =
    1/2 * ((-1)) * (1 - x 1*x 1) := rfl
@[shape_entry] theorem partialEta_0 (x b : ℕ → K) : partialEta x b 0 =
    (1/4) * (1 + (-1)*x 0) * ((-1)) *(((-1)*x 0) + (2 * (-1)*x 1)) := rfl
@[shape_entry] theorem partialEta_1 (x b : ℕ → K) : partialEta x b 1 =
    (1/4) * (1 + 1*x 0) * ((-1)) *((1*x 0) + (2 * (-1)*x 1)) := rfl
@[shape_entry] theorem partialEta_2 (x b : ℕ → K) : partialEta x b 2 =
    (1/4) * (1 + 1*x 0) * (1) *((1*x 0) + (2 * 1*x 1)) := rfl
@[shape_entry] theorem partialEta_3 (x b : ℕ → K) : partialEta x b 3 =
    (1/4) * (1 + (-1)*x 0) * (1) *(((-1)*x 0) + (2 * 1*x 1)) := rfl
@[shape_entry] theorem partialEta_4 (x b : ℕ → K) : partialEta x b 4 =
    (1/2) * (1 - x 0*x 0) * ((-1)) := rfl
@[shape_entry] theorem partialEta_6 (x b : ℕ → K) : partialEta x b 6 =
    (1/2) * (1 - x 0*x 0) * (1) := rfl
@[shape_entry] theorem partialEta_5 (x b : ℕ → K) : partialEta x b 5 =
    (-1) * (1 + 1*x 0) * (x 1) := rfl
@[shape_entry] theorem partialEta_7 (x b : ℕ → K) : partialEta x b 7 =
    (-1) * (1 + (-1)*x 0) * (x 1) := rfl
end Quad8

namespace Quad12
@[shape_entry] theorem rv_0_0 : rv 0 0 = (-1 : K) := rfl
@[shape_entry] theorem rv_0_1 : rv 0 1 = (-1 : K) := rfl
@[shape_entry] theorem rv_1_0 : rv 1 0 = (1 : K) := rfl
@[shape_entry] theorem rv_1_1 : rv 1 1 = (-1 : K) := rfl
@[shape_entry] theorem rv_2_0 : rv 2 0 = (1 : K) := rfl
@[shape_entry] theorem rv_2_1 : rv 2 1 = (1 : K) := rfl
@[shape_entry] theorem rv_3_0 : rv 3 0 = (-1 : K) := rfl
@[shape_entry] theorem rv_3_1 : rv 3 1 = (1 : K) := rfl
@[shape_entry] theorem rv_4_0 : rv 4 0 = (-1/3 : K) := rfl
@[shape_entry] theorem rv_4_1 : rv 4 1 = (-1 : K) := rfl
@[shape_entry] theorem rv_5_0 : rv 5 0 = (1/3 : K) := rfl
@[shape_entry] theorem rv_5_1 : rv 5 1 = (-1 : K) := rfl
@[shape_entry] theorem rv_6_0 : rv 6 0 = (1/3 : K) := rfl
@[shape_entry] theorem rv_6_1 : rv 6 1 = (1 : K) := rfl
@[shape_entry] theorem rv_7_0 : rv 7 0 = (-1/3 : K) := rfl
@[shape_entry] theorem rv_7_1 : rv 7 1 = (1 : K) := rfl
@[shape_entry] theorem rv_8_0 : rv 8 0 = (-1 : K) := rfl
@[shape_entry] theorem rv_8_1 : rv 8 1 = (-1/3 : K) := rfl
@[shape_entry] theorem rv_9_0 : rv 9 0 = (1 : K) := rfl
@[shape_entry] theorem rv_9_1 : rv 9 1 = (-1/3 : K) := rfl
@[shape_entry] theorem rv_10_0 : rv 10 0 = (1 : K) := rfl
@[shape_entry] theorem rv_10_1 : rv 10 1 = (1/3 : K) := rfl
@[shape_entry] theorem rv_11_0 : rv 11 0 = (-1 : K) := rfl
@[shape_entry] theorem rv_11_1 : rv 11 1 = (1/3 : K) := rfl
@[shape_entry] theorem basis_0 (x b : ℕ → K) : basis x b 0 =
    1/32 * (1 + (-1) * x 0) * (1 + (-1) * x 1) * (9 * (x 0 * x 0 + x 1 * x 1) - (10)) := rfl
@[shape_entry] theorem basis_1 (x b : ℕ → K) : basis x b 1 =
    1/32 * (1 + 1 * x 0) * (1 + (-1) * x 1) * (9 * (x 0 * x 0 + x 1 * x 1) - (10)) := rfl
@[shape_entry] theorem basis_2 (x b : ℕ → K) : basis x b 2 =
    1/32 * (1 + 1 * x 0) * (1 + 1 * x 1) * (9 * (x 0 * x 0 + x 1 * x 1) - (10)) := rfl
@[shape_entry] theorem basis_3 (x b : ℕ → K) : basis x b 3 =
    1/32 * (1 + (-1) * x 0) * (1 + 1 * x 1) * (9 * (x 0 * x 0 + x 1 * x 1) - (10)) := rfl
@[shape_entry] theorem basis_4 (x b : ℕ → K) : basis x b 4 =
    9/32 * (1 - x 0 * x 0) * (1 + x 1 * (-1)) * (1 + 9 * x 0 * (-1/3)) := rfl
@[shape_entry] theorem basis_5 (x b : ℕ → K) : basis x b 5 =
    9/32 * (1 - x 0 * x 0) * (1 + x 1 * (-1)) * (1 + 9 * x 0 * (1/3)) := rfl
@[shape_entry] theorem basis_6 (x b : ℕ → K) : basis x b 6 =
    9/32 * (1 - x 0 * x 0) * (1 + x 1 * 1) * (1 + 9 * x 0 * (1/3)) := rfl
@[shape_entry] theorem basis_7 (x b : ℕ → K) : basis x b 7 =
    9/32 * (1 - x 0 * x 0) * (1 + x 1 * 1) * (1 + 9 * x 0 * (-1/3)) := rfl
@[shape_entry] theorem basis_8 (x b : ℕ → K) : basis x b 8 =
    9/32 * (1 + x 0 * (-1)) * (1 - x 1 * x 1) * (1 + 9 * x 1 * (-1/3)) := rfl
@[shape_entry] theorem basis_9 (x b : ℕ → K) : basis x b 9 =
    9/32 * (1 + x 0 * 1) * (1 - x 1 * x 1) * (1 + 9 * x 1 * (-1/3)) := rfl
@[shape_entry] theorem basis_10 (x b : ℕ → K) : basis x b 10 =
    9/32 * (1 + x 0 * 1) * (1 - x 1 * x 1) * (1 + 9 * x 1 * (1/3)) := rfl
@[shape_entry] theorem basis_11 (x b : ℕ → K) : basis x b 11 =
    9/32 * (1 + x 0 * (-1)) * (1 - x 1 * x 1) * (1 + 9 * x 1 * (1/3)) := rfl
@[shape_entry] theorem partialXi_0 (x b : ℕ → K) : partialXi x b 0 =
    1/32 * (1 + x 1 * (-1)) *((9 * (-1) * (x 0 * x 0 + x 1 * x 1)) + (18 * x 0 * (1 + x 0 *
    (-1))) - (10 * (-1))) := rfl
@[shape_entry] theorem partialXi_1 (x b : ℕ → K) : partialXi x b 1 =
    1/32 * (1 + x 1 * (-1)) *((9 * 1 * (x 0 * x 0 + x 1 * x 1)) + (18 * x 0 * (1 + x 0 * 1)) -
    (10 * 1)) := rfl
@[shape_entry] theorem partialXi_2 (x b : ℕ → K) : partialXi x b 2 =
    1/32 * (1 + x 1 * 1) *((9 * 1 * (x 0 * x 0 + x 1 * x 1)) + (18 * x 0 * (1 + x 0 * 1)) - (10
    * 1)) := rfl
@[shape_entry] theorem partialXi_3 (x b : ℕ → K) : partialXi x b 3 =
    1/32 * (1 + x 1 * 1) *((9 * (-1) * (x 0 * x 0 + x 1 * x 1)) + (18 * x 0 * (1 + x 0 * (-1)))
    - (10 * (-1))) := rfl
@[shape_entry] theorem partialXi_4 (x b : ℕ → K) : partialXi x b 4 =
    (9/32) * (1 + x 1 * (-1)) *((9 * (-1/3) * (1 - 3 * x 0*x 0)) - (2 * x 0)) := rfl
@[shape_entry] theorem partialXi_5 (x b : ℕ → K) : partialXi x b 5 =
    (9/32) * (1 + x 1 * (-1)) *((9 * (1/3) * (1 - 3 * x 0*x 0)) - (2 * x 0)) := rfl
@[shape_entry] theorem partialXi_6 (x b : ℕ → K) : partialXi x b 6 =
    (9/32) * (1 + x 1 * 1) *((9 * (1/3) * (1 - 3 * x 0*x 0)) - (2 * x 0)) := rfl
@[shape_entry] theorem partialXi_7 (x b : ℕ → K) : partialXi x b 7 =
    (9/32) * (1 + x 1 * 1) *((9 * (-1/3) * (1 - 3 * x 0*x 0)) - (2 * x 0)) := rfl
@[shape_entry] theorem partialXi_8 (x b : ℕ → K) : partialXi x b 8 =
    9/32 * ((-1)) * (1 - x 1 * x 1) * (1 + 9 * x 1 * (-1/3)) := rfl
@[shape_entry] theorem partialXi_9 (x b : ℕ → K) : partialXi x b 9 =
    9/32 * (1) * (1 - x 1 * x 1) * (1 + 9 * x 1 * (-1/3)) := rfl
@[shape_entry] theorem partialXi_10 (x b : ℕ → K) : partialXi x b 10 =
    9/32 * (1) * (1 - x 1 * x 1) * (1 + 9 * x 1 * (1/3)) := rfl
@[shape_entry] theorem partialXi_11 (x b : ℕ → K) : partialXi x b 11 =
    9/32 * ((-1)) * (1 - x 1 * x 1) * (1 + 9 * x 1 * (1/3)) := rfl
@[shape_entry] theorem partialEta_0 (x b : ℕ → K) : partialEta x b 0 =
    1/32 * (1 + x 0 * (-1)) *((9 * (-1) * (x 0 * x 0 + x 1 * x 1)) + (18 * x 1 * (1 + x 1 *
    (-1))) - (10 * (-1))) := rfl
@[shape_entry] theorem partialEta_1 (x b : ℕ → K) : partialEta x b 1 =
    1/32 * (1 + x 0 * 1) *((9 * (-1) * (x 0 * x 0 + x 1 * x 1)) + (18 * x 1 * (1 + x 1 * (-1)))
    - (10 * (-1))) := rfl
@[shape_entry] theorem partialEta_2 (x b : ℕ → K) : partialEta x b 2 =
    1/32 * (1 + x 0 * 1) *((9 * 1 * (x 0 * x 0 + x 1 * x 1)) + (18 * x 1 * (1 + x 1 * 1)) - (10
    * 1)) := rfl
@[shape_entry] theorem partialEta_3 (x b : ℕ → K) : partialEta x b 3 =
    1/32 * (1 + x 0 * (-1)) *((9 * 1 * (x 0 * x 0 + x 1 * x 1)) + (18 * x 1 * (1 + x 1 * 1)) -
    (10 * 1)) := rfl
@[shape_entry] theorem partialEta_4 (x b : ℕ → K) : partialEta x b 4 =
    9/32 * (1 - x 0 * x 0) * (1 + 9 * x 0 * (-1/3)) * ((-1)) := rfl
@[shape_entry] theorem partialEta_5 (x b : ℕ → K) : partialEta x b 5 =
    9/32 * (1 - x 0 * x 0) * (1 + 9 * x 0 * (1/3)) * ((-1)) := rfl
@[shape_entry] theorem partialEta_6 (x b : ℕ → K) : partialEta x b 6 =
    9/32 * (1 - x 0 * x 0) * (1 + 9 * x 0 * (1/3)) * (1) := rfl
@[shape_entry] theorem partialEta_7 (x b : ℕ → K) : partialEta x b 7 =
    9/32 * (1 - x 0 * x 0) * (1 + 9 * x 0 * (-1/3)) * (1) := rfl
@[shape_entry] theorem partialEta_8 (x b : ℕ → K) : partialEta x b 8 =
    9/32 * (1 + x 0 * (-1)) *((9 * (-1/3) * (1 - 3 * x 1*x 1)) - (2 * x 1)) := rfl
@[shape_entry] theorem partialEta_9 (x b : ℕ → K) : partialEta x b 9 =
    9/32 * (1 + x 0 * 1) *((9 * (-1/3) * (1 - 3 * x 1*x 1)) - (2 * x 1)) := rfl
@[shape_entry] theorem partialEta_10 (x b : ℕ → K) : partialEta x b 10 =
    9/32 * (1 + x 0 * 1) *((9 * (1/3) * (1 - 3 * x 1*x 1)) - (2 * x 1)) := rfl
@[shape_entry] theorem partialEta_11 (x b : ℕ → K) : partialEta x b 11 =
    9/32 * (1 + x 0 * (-1)) *((9 * (1/3) * (1 - 3 * x 1*x 1)) - (2 * x 1)) := rfl
end Quad12

namespace Hex8
@[shape_entry] theorem rv_0_0 : rv 0 0 = (-1 : K) := rfl
@[shape_entry] theorem rv_0_1 : rv 0 1 = (-1 : K) := rfl
@[shape_entry] theorem rv_0_2 : rv 0 2 = (-1 : K) := rfl
@[shape_entry] theorem rv_1_0 : rv 1 0 = (1 : K) := rfl
@[shape_entry] theorem rv_1_1 : rv 1 1 = (-1 : K) := rfl
@[shape_entry] theorem rv_1_2 : rv 1 2 = (-1 : K) := rfl
@[shape_entry] theorem rv_2_0 : rv 2 0 = (-1 : K) := rfl
@[shape_entry] theorem rv_2_1 : rv 2 1 = (1 : K) := rfl
@[shape_entry] theorem rv_2_2 : rv 2 2 = (-1 : K) := rfl
@[shape_entry] theorem rv_3_0 : rv 3 0 = (1 : K) := rfl
@[shape_entry] theorem rv_3_1 : rv 3 1 = (1 : K) := rfl
@[shape_entry] theorem rv_3_2 : rv 3 2 = (-1 : K) := rfl
@[shape_entry] theorem rv_4_0 : rv 4 0 = (-1 : K) := rfl
@[shape_entry] theorem rv_4_1 : rv 4 1 = (-1 : K) := rfl
@[shape_entry] theorem rv_4_2 : rv 4 2 = (1 : K) := rfl
@[shape_entry] theorem rv_5_0 : rv 5 0 = (1 : K) := rfl
@[shape_entry] theorem rv_5_1 : rv 5 1 = (-1 : K) := rfl
@[shape_entry] theorem rv_5_2 : rv 5 2 = (1 : K) := rfl
@[shape_entry] theorem rv_6_0 : rv 6 0 = (-1 : K) := rfl
@[shape_entry] theorem rv_6_1 : rv 6 1 = (1 : K) := rfl
@[shape_entry] theorem rv_6_2 : rv 6 2 = (1 : K) := rfl
@[shape_entry] theorem rv_7_0 : rv 7 0 = (1 : K) := rfl
@[shape_entry] theorem rv_7_1 : rv 7 1 = (1 : K) := rfl
@[shape_entry] theorem rv_7_2 : rv 7 2 = (1 : K) := rfl
@[shape_entry] theorem basis_0 (x b : ℕ → K) : basis x b 0 =
    1/8 * (1 + x 0*(-1)) * (1 + x 1*(-1)) * (1 + x 2*(-1)) := rfl
@[shape_entry] theorem basis_1 (x b : ℕ → K) : basis x b 1 =
    1/8 * (1 + x 0*1) * (1 + x 1*(-1)) * (1 + x 2*(-1)) := rfl
@[shape_entry] theorem basis_2 (x b : ℕ → K) : basis x b 2 =
    1/8 * (1 + x 0*(-1)) * (1 + x 1*1) * (1 + x 2*(-1)) := rfl
@[shape_entry] theorem basis_3 (x b : ℕ → K) : basis x b 3 =
    1/8 * (1 + x 0*1) * (1 + x 1*1) * (1 + x 2*(-1)) := rfl
@[shape_entry] theorem basis_4 (x b : ℕ → K) : basis x b 4 =
    1/8 * (1 + x 0*(-1)) * (1 + x 1*(-1)) * (1 + x 2*1) := rfl
@[shape_entry] theorem basis_5 (x b : ℕ → K) : basis x b 5 =
    1/8 * (1 + x 0*1) * (1 + x 1*(-1)) * (1 + x 2*1) := rfl
@[shape_entry] theorem basis_6 (x b : ℕ → K) : basis x b 6 =
    1/8 * (1 + x 0*(-1)) * (1 + x 1*1) * (1 + x 2*1) := rfl
@[shape_entry] theorem basis_7 (x b : ℕ → K) : basis x b 7 =
    1/8 * (1 + x 0*1) * (1 + x 1*1) * (1 + x 2*1) := rfl
@[shape_entry] theorem partialXi_0 (x b : ℕ → K) : partialXi x b 0 =
    (1/8) * ((-1)) * (1 + x 1*(-1)) * (1 + x 2*(-1)) := rfl
@[shape_entry] theorem partialXi_1 (x b : ℕ → K) : partialXi x b 1 =
    (1/8) * (1) * (1 + x 1*(-1)) * (1 + x 2*(-1)) := rfl
@[shape_entry] theorem partialXi_2 (x b : ℕ → K) : partialXi x b 2 =
    (1/8) * ((-1)) * (1 + x 1*1) * (1 + x 2*(-1)) := rfl
@[shape_entry] theorem partialXi_3 (x b : ℕ → K) : partialXi x b 3 =
    (1/8) * (1) * (1 + x 1*1) * (1 + x 2*(-1)) := rfl
@[shape_entry] theorem partialXi_4 (x b : ℕ → K) : partialXi x b 4 =
    (1/8) * ((-1)) * (1 + x 1*(-1)) * (1 + x 2*1) := rfl
@[shape_entry] theorem partialXi_5 (x b : ℕ → K) : partialXi x b 5 =
    (1/8) * (1) * (1 + x 1*(-1)) * (1 + x 2*1) := rfl
@[shape_entry] theorem partialXi_6 (x b : ℕ → K) : partialXi x b 6 =
    (1/8) * ((-1)) * (1 + x 1*1) * (1 + x 2*1) := rfl
@[shape_entry] theorem partialXi_7 (x b : ℕ → K) : partialXi x b 7 =
    (1/8) * (1) * (1 + x 1*1) * (1 + x 2*1) := rfl
@[shape_entry] theorem partialEta_0 (x b : ℕ → K) : partialEta x b 0 =
    (1/8) * (1 + x 0*(-1)) * ((-1)) * (1 + x 2*(-1)) := rfl
@[shape_entry] theorem partialEta_1 (x b : ℕ → K) : partialEta x b 1 =
    (1/8) * (1 + x 0*1) * ((-1)) * (1 + x 2*(-1)) := rfl
@[shape_entry] theorem partialEta_2 (x b : ℕ → K) : partialEta x b 2 =
    (1/8) * (1 + x 0*(-1)) * (1) * (1 + x 2*(-1)) := rfl
@[shape_entry] theorem partialEta_3 (x b : ℕ → K) : partialEta x b 3 =
    (1/8) * (1 + x 0*1) * (1) * (1 + x 2*(-1)) := rfl
@[shape_entry] theorem partialEta_4 (x b : ℕ → K) : partialEta x b 4 =
    (1/8) * (1 + x 0*(-1)) * ((-1)) * (1 + x 2*1) := rfl
@[shape_entry] theorem partialEta_5 (x b : ℕ → K) : partialEta x b 5 =
    (1/8) * (1 + x 0*1) * ((-1)) * (1 + x 2*1) := rfl
@[shape_entry] theorem partialEta_6 (x b : ℕ → K) : partialEta x b 6 =
    (1/8) * (1 + x 0*(-1)) * (1) * (1 + x 2*1) := rfl
@[shape_entry] theorem partialEta_7 (x b : ℕ → K) : partialEta x b 7 =
    (1/8) * (1 + x 0*1) * (1) * (1 + x 2*1) := rfl
@[shape_entry] theorem partialMu_0 (x b : ℕ → K) : partialMu x b 0 =
    (1/8) * (1 + x 0*(-1)) * (1 + x 1*(-1)) * ((-1)) := rfl
@[shape_entry] theorem partialMu_1 (x b : ℕ → K) : partialMu x b 1 =
    (1/8) * (1 + x 0*1) * (1 + x 1*(-1)) * ((-1)) := rfl
@[shape_entry] theorem partialMu_2 (x b : ℕ → K) : partialMu x b 2 =
    (1/8) * (1 + x 0*(-1)) * (1 + x 1*1) * ((-1)) := rfl
@[shape_entry] theorem partialMu_3 (x b : ℕ → K) : partialMu x b 3 =
    (1/8) * (1 + x 0*1) * (1 + x 1*1) * ((-1)) := rfl
@[shape_entry] theorem partialMu_4 (x b : ℕ → K) : partialMu x b 4 =
    (1/8) * (1 + x 0*(-1)) * (1 + x 1*(-1)) * (1) := rfl
@[shape_entry] theorem partialMu_5 (x b : ℕ → K) : partialMu x b 5 =
    (1/8) * (1 + x 0*1) * (1 + x 1*(-1)) * (1) := rfl
@[shape_entry] theorem partialMu_6 (x b : ℕ → K) : partialMu x b 6 =
    (1/8) * (1 + x 0*(-1)) * (1 + x 1*1) * (1) := rfl
@[shape_entry] theorem partialMu_7 (x b : ℕ → K) : partialMu x b 7 =
    (1/8) * (1 + x 0*1) * (1 + x 1*1) * (1) := rfl
end Hex8

namespace Hex20
@[shape_entry] theorem rv_0_0 : rv 0 0 = (-1 : K) := rfl
@[shape_entry] theorem rv_0_1 : rv 0 1 = (-1 : K) := rfl
@[shape_entry] theorem rv_0_2 : rv 0 2 = (-1 : K) := rfl
@[shape_entry] theorem rv_1_0 : rv 1 0 = (1 : K) := rfl
@[shape_entry] theorem rv_1_1 : rv 1 1 = (-1 : K) := rfl
@[shape_entry] theorem rv_1_2 : rv 1 2 = (-1 : K) := rfl
@[shape_entry] theorem rv_2_0 : rv 2 0 = (1 : K) := rfl
@[shape_entry] theorem rv_2_1 : rv 2 1 = (1 : K) := rfl
@[shape_entry] theorem rv_2_2 : rv 2 2 = (-1 : K) := rfl
@[shape_entry] theorem rv_3_0 : rv 3 0 = (-1 : K) := rfl
@[shape_entry] theorem rv_3_1 : rv 3 1 = (1 : K) := rfl
@[shape_entry] theorem rv_3_2 : rv 3 2 = (-1 : K) := rfl
@[shape_entry] theorem rv_4_0 : rv 4 0 = (-1 : K) := rfl
@[shape_entry] theorem rv_4_1 : rv 4 1 = (-1 : K) := rfl
@[shape_entry] theorem rv_4_2 : rv 4 2 = (1 : K) := rfl
@[shape_entry] theorem rv_5_0 : rv 5 0 = (1 : K) := rfl
@[shape_entry] theorem rv_5_1 : rv 5 1 = (-1 : K) := rfl
@[shape_entry] theorem rv_5_2 : rv 5 2 = (1 : K) := rfl
@[shape_entry] theorem rv_6_0 : rv 6 0 = (1 : K) := rfl
@[shape_entry] theorem rv_6_1 : rv 6 1 = (1 : K) := rfl
@[shape_entry] theorem rv_6_2 : rv 6 2 = (1 : K) := rfl
@[shape_entry] theorem rv_7_0 : rv 7 0 = (-1 : K) := rfl
@[shape_entry] theorem rv_7_1 : rv 7 1 = (1 : K) := rfl
@[shape_entry] theorem rv_7_2 : rv 7 2 = (1 : K) := rfl
@[shape_entry] theorem rv_8_0 : rv 8 0 = (0 : K) := rfl
@[shape_entry] theorem rv_8_1 : rv 8 1 = (-1 : K) := rfl
@[shape_entry] theorem rv_8_2 : rv 8 2 = (-1 : K) := rfl
@[shape_entry] theorem rv_9_0 : rv 9 0 = (1 : K) := rfl
@[shape_entry] theorem rv_9_1 : rv 9 1 = (0 : K) := rfl
@[shape_entry] theorem rv_9_2 : rv 9 2 = (-1 : K) := rfl
@[shape_entry] theorem rv_10_0 : rv 10 0 = (0 : K) := rfl
@[shape_entry] theorem rv_10_1 : rv 10 1 = (1 : K) := rfl
@[shape_entry] theorem rv_10_2 : rv 10 2 = (-1 : K) := rfl
@[shape_entry] theorem rv_11_0 : rv 11 0 = (-1 : K) := rfl
@[shape_entry] theorem rv_11_1 : rv 11 1 = (0 : K) := rfl
@[shape_entry] theorem rv_11_2 : rv 11 2 = (-1 : K) := rfl
@[shape_entry] theorem rv_12_0 : rv 12 0 = (0 : K) := rfl
@[shape_entry] theorem rv_12_1 : rv 12 1 = (-1 : K) := rfl
@[shape_entry] theorem rv_12_2 : rv 12 2 = (1 : K) := rfl
@[shape_entry] theorem rv_13_0 : rv 13 0 = (1 : K) := rfl
@[shape_entry] theorem rv_13_1 : rv 13 1 = (0 : K) := rfl
@[shape_entry] theorem rv_13_2 : rv 13 2 = (1 : K) := rfl
@[shape_entry] theorem rv_14_0 : rv 14 0 = (0 : K) := rfl
@[shape_entry] theorem rv_14_1 : rv 14 1 = (1 : K) := rfl
@[shape_entry] theorem rv_14_2 : rv 14 2 = (1 : K) := rfl
@[shape_entry] theorem rv_15_0 : rv 15 0 = (-1 : K) := rfl
@[shape_entry] theorem rv_15_1 : rv 15 1 = (0 : K) := rfl
@[shape_entry] theorem rv_15_2 : rv 15 2 = (1 : K) := rfl
@[shape_entry] theorem rv_16_0 : rv 16 0 = (-1 : K) := rfl
@[shape_entry] theorem rv_16_1 : rv 16 1 = (-1 : K) := rfl
@[shape_entry] theorem rv_16_2 : rv 16 2 = (0 : K) := rfl
@[shape_entry] theorem rv_17_0 : rv 17 0 = (1 : K) := rfl
@[shape_entry] theorem rv_17_1 : rv 17 1 = (-1 : K) := rfl
@[shape_entry] theorem rv_17_2 : rv 17 2 = (0 : K) := rfl
@[shape_entry] theorem rv_18_0 : rv 18 0 = (1 : K) := rfl
@[shape_entry] theorem rv_18_1 : rv 18 1 = (1 : K) := rfl
@[shape_entry] theorem rv_18_2 : rv 18 2 = (0 : K) := rfl
@[shape_entry] theorem rv_19_0 : rv 19 0 = (-1 : K) := rfl
@[shape_entry] theorem rv_19_1 : rv 19 1 = (1 : K) := rfl
@[shape_entry] theorem rv_19_2 : rv 19 2 = (0 : K) := rfl
@[shape_entry] theorem basis_0 (x b : ℕ → K) : basis x b 0 =
    1/8 * (1 + x 0*(-1)) * (1 + x 1*(-1)) * (1 + x 2*(-1)) * (x 0*(-1) + x 1*(-1) + x 2*(-1) -
    2) := rfl
@[shape_entry] theorem basis_1 (x b : ℕ → K) : basis x b 1 =
    1/8 * (1 + x 0*1) * (1 + x 1*(-1)) * (1 + x 2*(-1)) * (x 0*1 + x 1*(-1) + x 2*(-1) - 2) := rfl
@[shape_entry] theorem basis_2 (x b : ℕ → K) : basis x b 2 =
    1/8 * (1 + x 0*1) * (1 + x 1*1) * (1 + x 2*(-1)) * (x 0*1 + x 1*1 + x 2*(-1) - 2) := rfl
@[shape_entry] theorem basis_3 (x b : ℕ → K) : basis x b 3 =
    1/8 * (1 + x 0*(-1)) * (1 + x 1*1) * (1 + x 2*(-1)) * (x 0*(-1) + x 1*1 + x 2*(-1) - 2) := rfl
@[shape_entry] theorem basis_4 (x b : ℕ → K) : basis x b 4 =
    1/8 * (1 + x 0*(-1)) * (1 + x 1*(-1)) * (1 + x 2*1) * (x 0*(-1) + x 1*(-1) + x 2*1 - 2) := rfl
@[shape_entry] theorem basis_5 (x b : ℕ → K) : basis x b 5 =
    1/8 * (1 + x 0*1) * (1 + x 1*(-1)) * (1 + x 2*1) * (x 0*1 + x 1*(-1) + x 2*1 - 2) := rfl
@[shape_entry] theorem basis_6 (x b : ℕ → K) : basis x b 6 =
    1/8 * (1 + x 0*1) * (1 + x 1*1) * (1 + x 2*1) * (x 0*1 + x 1*1 + x 2*1 - 2) := rfl
@[shape_entry] theorem basis_7 (x b : ℕ → K) : basis x b 7 =
    1/8 * (1 + x 0*(-1)) * (1 + x 1*1) * (1 + x 2*1) * (x 0*(-1) + x 1*1 + x 2*1 - 2) := rfl
@[shape_entry] theorem basis_8 (x b : ℕ → K) : basis x b 8 =
    1/4 * (1 - x 0*x 0) * (1 + x 1*(-1)) * (1 + x 2*(-1)) := rfl
@[shape_entry] theorem basis_10 (x b : ℕ → K) : basis x b 10 =
    1/4 * (1 - x 0*x 0) * (1 + x 1*1) * (1 + x 2*(-1)) := rfl
@[shape_entry] theorem basis_12 (x b : ℕ → K) : basis x b 12 =
    1/4 * (1 - x 0*x 0) * (1 + x 1*(-1)) * (1 + x 2*1) := rfl
@[shape_entry] theorem basis_14 (x b : ℕ → K) : basis x b 14 =
    1/4 * (1 - x 0*x 0) * (1 + x 1*1) * (1 + x 2*1) := rfl
@[shape_entry] theorem basis_16 (x b : ℕ → K) : basis x b 16 =
    1/4 * (1 + x 0*(-1)) * (1 + x 1*(-1)) * (1 - x 2*x 2) := rfl
@[shape_entry] theorem basis_17 (x b : ℕ → K) : basis x b 17 =
    1/4 * (1 + x 0*1) * (1 + x 1*(-1)) * (1 - x 2*x 2) := rfl
@[shape_entry] theorem basis_18 (x b : ℕ → K) : basis x b 18 =
    1/4 * (1 + x 0*1) * (1 + x 1*1) * (1 - x 2*x 2) := rfl
@[shape_entry] theorem basis_19 (x b : ℕ → K) : basis x b 19 =
    1/4 * (1 + x 0*(-1)) * (1 + x 1*1) * (1 - x 2*x 2) := rfl
@[shape_entry] theorem basis_9 (x b : ℕ → K) : basis x b 9 =
    1/4 * (1 + x 0*1) * (1 - x 1*x 1) * (1 + x 2*(-1)) := rfl
@[shape_entry] theorem basis_11 (x b : ℕ → K) : basis x b 11 =
    1/4 * (1 + x 0*(-1)) * (1 - x 1*x 1) * (1 + x 2*(-1)) := rfl
@[shape_entry] theorem basis_13 (x b : ℕ → K) : basis x b 13 =
    1/4 * (1 + x 0*1) * (1 - x 1*x 1) * (1 + x 2*1) := rfl
@[shape_entry] theorem basis_15 (x b : ℕ → K) : basis x b 15 =
    1/4 * (1 + x 0*(-1)) * (1 - x 1*x 1) * (1 + x 2*1) := rfl
@[shape_entry] theorem partialXi_0 (x b : ℕ → K) : partialXi x b 0 =
    (1/8) * ((-1)) * (1 + (x 1*(-1))) * (1 + (x 2*(-1))) * (2 * (x 0*(-1)) + x 1*(-1) + x 2*(-1)
    - 1) := rfl
@[shape_entry] theorem partialXi_1 (x b : ℕ → K) : partialXi x b 1 =
    (1/8) * (1) * (1 + (x 1*(-1))) * (1 + (x 2*(-1))) * (2 * (x 0*1) + x 1*(-1) + x 2*(-1) - 1) := rfl
@[shape_entry] theorem partialXi_2 (x b : ℕ → K) : partialXi x b 2 =
    (1/8) * (1) * (1 + (x 1*1)) * (1 + (x 2*(-1))) * (2 * (x 0*1) + x 1*1 + x 2*(-1) - 1) := rfl
@[shape_entry] theorem partialXi_3 (x b : ℕ → K) : partialXi x b 3 =
    (1/8) * ((-1)) * (1 + (x 1*1)) * (1 + (x 2*(-1))) * (2 * (x 0*(-1)) + x 1*1 + x 2*(-1) - 1) := rfl
@[shape_entry] theorem partialXi_4 (x b : ℕ → K) : partialXi x b 4 =
    (1/8) * ((-1)) * (1 + (x 1*(-1))) * (1 + (x 2*1)) * (2 * (x 0*(-1)) + x 1*(-1) + x 2*1 - 1) := rfl
@[shape_entry] theorem partialXi_5 (x b : ℕ → K) : partialXi x b 5 =
    (1/8) * (1) * (1 + (x 1*(-1))) * (1 + (x 2*1)) * (2 * (x 0*1) + x 1*(-1) + x 2*1 - 1) := rfl
@[shape_entry] theorem partialXi_6 (x b : ℕ → K) : partialXi x b 6 =
    (1/8) * (1) * (1 + (x 1*1)) * (1 + (x 2*1)) * (2 * (x 0*1) + x 1*1 + x 2*1 - 1) := rfl
@[shape_entry] theorem partialXi_7 (x b : ℕ → K) : partialXi x b 7 =
    (1/8) * ((-1)) * (1 + (x 1*1)) * (1 + (x 2*1)) * (2 * (x 0*(-1)) + x 1*1 + x 2*1 - 1) := rfl
@[shape_entry] theorem partialXi_8 (x b : ℕ → K) : partialXi x b 8 =
    (-1/2) * (x 0) * (1 + x 1*(-1)) * (1 + x 2*(-1)) := rfl
@[shape_entry] theorem partialXi_10 (x b : ℕ → K) : partialXi x b 10 =
    (-1/2) * (x 0) * (1 + x 1*1) * (1 + x 2*(-1)) := rfl
@[shape_entry] theorem partialXi_12 (x b : ℕ → K) : partialXi x b 12 =
    (-1/2) * (x 0) * (1 + x 1*(-1)) * (1 + x 2*1) := rfl
@[shape_entry] theorem partialXi_14 (x b : ℕ → K) : partialXi x b 14 =
    (-1/2) * (x 0) * (1 + x 1*1) * (1 + x 2*1) := rfl
@[shape_entry] theorem partialXi_9 (x b : ℕ → K) : partialXi x b 9 =
    (1/4) * (1) * (1 + x 1*0) * (1 - x 2*x 2) := rfl
@[shape_entry] theorem partialXi_11 (x b : ℕ → K) : partialXi x b 11 =
    (1/4) * ((-1)) * (1 + x 1*0) * (1 - x 2*x 2) := rfl
@[shape_entry] theorem partialXi_13 (x b : ℕ → K) : partialXi x b 13 =
    (1/4) * (1) * (1 + x 1*0) * (1 - x 2*x 2) := rfl
@[shape_entry] theorem partialXi_15 (x b : ℕ → K) : partialXi x b 15 =
    (1/4) * ((-1)) * (1 + x 1*0) * (1 - x 2*x 2) := rfl
@[shape_entry] theorem partialXi_16 (x b : ℕ → K) : partialXi x b 16 =
    (1/4) * ((-1)) * (1 - x 1*x 1) * (1 + x 2*0) := rfl
@[shape_entry] theorem partialXi_17 (x b : ℕ → K) : partialXi x b 17 =
    (1/4) * (1) * (1 - x 1*x 1) * (1 + x 2*0) := rfl
@[shape_entry] theorem partialXi_18 (x b : ℕ → K) : partialXi x b 18 =
    (1/4) * (1) * (1 - x 1*x 1) * (1 + x 2*0) := rfl
@[shape_entry] theorem partialXi_19 (x b : ℕ → K) : partialXi x b 19 =
    (1/4) * ((-1)) * (1 - x 1*x 1) * (1 + x 2*0) := rfl
@[shape_entry] theorem partialEta_0 (x b : ℕ → K) : partialEta x b 0 =
    (1/8) * (1 + x 0*(-1)) * ((-1)) * (1 + x 2*(-1)) * (x 0*(-1) + 2 * x 1*(-1) + x 2*(-1) - 1) := rfl
@[shape_entry] theorem partialEta_1 (x b : ℕ → K) : partialEta x b 1 =
    (1/8) * (1 + x 0*1) * ((-1)) * (1 + x 2*(-1)) * (x 0*1 + 2 * x 1*(-1) + x 2*(-1) - 1) := rfl
@[shape_entry] theorem partialEta_2 (x b : ℕ → K) : partialEta x b 2 =
    (1/8) * (1 + x 0*1) * (1) * (1 + x 2*(-1)) * (x 0*1 + 2 * x 1*1 + x 2*(-1) - 1) := rfl
@[shape_entry] theorem partialEta_3 (x b : ℕ → K) : partialEta x b 3 =
    (1/8) * (1 + x 0*(-1)) * (1) * (1 + x 2*(-1)) * (x 0*(-1) + 2 * x 1*1 + x 2*(-1) - 1) := rfl
@[shape_entry] theorem partialEta_4 (x b : ℕ → K) : partialEta x b 4 =
    (1/8) * (1 + x 0*(-1)) * ((-1)) * (1 + x 2*1) * (x 0*(-1) + 2 * x 1*(-1) + x 2*1 - 1) := rfl
@[shape_entry] theorem partialEta_5 (x b : ℕ → K) : partialEta x b 5 =
    (1/8) * (1 + x 0*1) * ((-1)) * (1 + x 2*1) * (x 0*1 + 2 * x 1*(-1) + x 2*1 - 1) := rfl
@[shape_entry] theorem partialEta_6 (x b : ℕ → K) : partialEta x b 6 =
    (1/8) * (1 + x 0*1) * (1) * (1 + x 2*1) * (x 0*1 + 2 * x 1*1 + x 2*1 - 1) := rfl
@[shape_entry] theorem partialEta_7 (x b : ℕ → K) : partialEta x b 7 =
    (1/8) * (1 + x 0*(-1)) * (1) * (1 + x 2*1) * (x 0*(-1) + 2 * x 1*1 + x 2*1 - 1) := rfl
@[shape_entry] theorem partialEta_8 (x b : ℕ → K) : partialEta x b 8 =
    (1/4) * (1 - (x 0*x 0)) * ((-1)) * (1 + x 2*(-1)) := rfl
@[shape_entry] theorem partialEta_10 (x b : ℕ → K) : partialEta x b 10 =
    (1/4) * (1 - (x 0*x 0)) * (1) * (1 + x 2*(-1)) := rfl
@[shape_entry] theorem partialEta_12 (x b : ℕ → K) : partialEta x b 12 =
    (1/4) * (1 - (x 0*x 0)) * ((-1)) * (1 + x 2*1) := rfl
@[shape_entry] theorem partialEta_14 (x b : ℕ → K) : partialEta x b 14 =
    (1/4) * (1 - (x 0*x 0)) * (1) * (1 + x 2*1) := rfl
@[shape_entry] theorem partialEta_9 (x b : ℕ → K) : partialEta x b 9 =
    (-1/2) * (1 + x 0*1) * (x 1) * (1 + x 2*(-1)) := rfl
@[shape_entry] theorem partialEta_11 (x b : ℕ → K) : partialEta x b 11 =
    (-1/2) * (1 + x 0*(-1)) * (x 1) * (1 + x 2*(-1)) := rfl
@[shape_entry] theorem partialEta_13 (x b : ℕ → K) : partialEta x b 13 =
    (-1/2) * (1 + x 0*1) * (x 1) * (1 + x 2*1) := rfl
@[shape_entry] theorem partialEta_15 (x b : ℕ → K) : partialEta x b 15 =
    (-1/2) * (1 + x 0*(-1)) * (x 1) * (1 + x 2*1) := rfl
@[shape_entry] theorem partialEta_16 (x b : ℕ → K) : partialEta x b 16 =
    (1/4) * (1 + x 0*(-1)) * ((-1)) * (1 - (x 2*x 2)) := rfl
@[shape_entry] theorem partialEta_17 (x b : ℕ → K) : partialEta x b 17 =
    (1/4) * (1 + x 0*1) * ((-1)) * (1 - (x 2*x 2)) := rfl
@[shape_entry] theorem partialEta_18 (x b : ℕ → K) : partialEta x b 18 =
    (1/4) * (1 + x 0*1) * (1) * (1 - (x 2*x 2)) := rfl
@[shape_entry] theorem partialEta_19 (x b : ℕ → K) : partialEta x b 19 =
    (1/4) * (1 + x 0*(-1)) * (1) * (1 - (x 2*x 2)) := rfl
@[shape_entry] theorem partialMu_0 (x b : ℕ → K) : partialMu x b 0 =
    (1/8) * (1 + x 0*(-1)) * (1 + x 1*(-1)) * ((-1)) * ((x 0*(-1)) + (x 1*(-1)) + (2 * x 2*(-1))
    - 1) := rfl
@[shape_entry] theorem partialMu_1 (x b : ℕ → K) : partialMu x b 1 =
    (1/8) * (1 + x 0*1) * (1 + x 1*(-1)) * ((-1)) * ((x 0*1) + (x 1*(-1)) + (2 * x 2*(-1)) - 1) := rfl
@[shape_entry] theorem partialMu_2 (x b : ℕ → K) : partialMu x b 2 =
    (1/8) * (1 + x 0*1) * (1 + x 1*1) * ((-1)) * ((x 0*1) + (x 1*1) + (2 * x 2*(-1)) - 1) := rfl
@[shape_entry] theorem partialMu_3 (x b : ℕ → K) : partialMu x b 3 =
    (1/8) * (1 + x 0*(-1)) * (1 + x 1*1) * ((-1)) * ((x 0*(-1)) + (x 1*1) + (2 * x 2*(-1)) - 1) := rfl
@[shape_entry] theorem partialMu_4 (x b : ℕ → K) : partialMu x b 4 =
    (1/8) * (1 + x 0*(-1)) * (1 + x 1*(-1)) * (1) * ((x 0*(-1)) + (x 1*(-1)) + (2 * x 2*1) - 1) := rfl
@[shape_entry] theorem partialMu_5 (x b : ℕ → K) : partialMu x b 5 =
    (1/8) * (1 + x 0*1) * (1 + x 1*(-1)) * (1) * ((x 0*1) + (x 1*(-1)) + (2 * x 2*1) - 1) := rfl
@[shape_entry] theorem partialMu_6 (x b : ℕ → K) : partialMu x b 6 =
    (1/8) * (1 + x 0*1) * (1 + x 1*1) * (1) * ((x 0*1) + (x 1*1) + (2 * x 2*1) - 1) := rfl
@[shape_entry] theorem partialMu_7 (x b : ℕ → K) : partialMu x b 7 =
    (1/8) * (1 + x 0*(-1)) * (1 + x 1*1) * (1) * ((x 0*(-1)) + (x 1*1) + (2 * x 2*1) - 1) := rfl
@[shape_entry] theorem partialMu_8 (x b : ℕ → K) : partialMu x b 8 =
    (1/4) * (1 - (x 0*x 0)) * (1 + x 1*(-1)) * ((-1)) := rfl
@[shape_entry] theorem partialMu_10 (x b : ℕ → K) : partialMu x b 10 =
    (1/4) * (1 - (x 0*x 0)) * (1 + x 1*1) * ((-1)) := rfl
@[shape_entry] theorem partialMu_12 (x b : ℕ → K) : partialMu x b 12 =
    (1/4) * (1 - (x 0*x 0)) * (1 + x 1*(-1)) * (1) := rfl
@[shape_entry] theorem partialMu_14 (x b : ℕ → K) : partialMu x b 14 =
    (1/4) * (1 - (x 0*x 0)) * (1 + x 1*1) * (1) := rfl
@[shape_entry] theorem partialMu_9 (x b : ℕ → K) : partialMu x b 9 =
    (1/4) * (1 + x 0*1) * (1 - x 1*x 1) * ((-1)) := rfl
@[shape_entry] theorem partialMu_11 (x b : ℕ → K) : partialMu x b 11 =
    (1/4) * (1 + x 0*(-1)) * (1 - x 1*x 1) * ((-1)) := rfl
@[shape_entry] theorem partialMu_13 (x b : ℕ → K) : partialMu x b 13 =
    (1/4) * (1 + x 0*1) * (1 - x 1*x 1) * (1) := rfl
@[shape_entry] theorem partialMu_15 (x b : ℕ → K) : partialMu x b 15 =
    (1/4) * (1 + x 0*(-1)) * (1 - x 1*x 1) * (1) := rfl
@[shape_entry] theorem partialMu_16 (x b : ℕ → K) : partialMu x b 16 =
    (-1/2) * (1 + x 0*(-1)) * (1 + x 1*(-1)) * (x 2) := rfl
@[shape_entry] theorem partialMu_17 (x b : ℕ → K) : partialMu x b 17 =
    (-1/2) * (1 + x 0*1) * (1 + x 1*(-1)) * (x 2) := rfl
@[shape_entry] theorem partialMu_18 (x b : ℕ → K) : partialMu x b 18 =
    (-1/2) * (1 + x 0*1) * (1 + x 1*1) * (x 2) := rfl
@[shape_entry] theorem partialMu_19 (x b : ℕ → K) : partialMu x b 19 =
    (-1/2) * (1 + x 0*(-1)) * (1 + x 1*1) * (x 2) := rfl
end Hex20

namespace Hex32
@[shape_entry] theorem rv_0_0 : rv 0 0 = (-1 : K) := rfl
@[shape_entry] theorem rv_0_1 : rv 0 1 = (-1 : K) := rfl
@[shape_entry] theorem rv_0_2 : rv 0 2 = (-1 : K) := rfl
@[shape_entry] theorem rv_1_0 : rv 1 0 = (1 : K) := rfl
@[shape_entry] theorem rv_1_1 : rv 1 1 = (-1 : K) := rfl
@[shape_entry] theorem rv_1_2 : rv 1 2 = (-1 : K) := rfl
@[shape_entry] theorem rv_2_0 : rv 2 0 = (1 : K) := rfl
@[shape_entry] theorem rv_2_1 : rv 2 1 = (1 : K) := rfl
@[shape_entry] theorem rv_2_2 : rv 2 2 = (-1 : K) := rfl
@[shape_entry] theorem rv_3_0 : rv 3 0 = (-1 : K) := rfl
@[shape_entry] theorem rv_3_1 : rv 3 1 = (1 : K) := rfl
@[shape_entry] theorem rv_3_2 : rv 3 2 = (-1 : K) := rfl
@[shape_entry] theorem rv_4_0 : rv 4 0 = (-1 : K) := rfl
@[shape_entry] theorem rv_4_1 : rv 4 1 = (-1 : K) := rfl
@[shape_entry] theorem rv_4_2 : rv 4 2 = (1 : K) := rfl
@[shape_entry] theorem rv_5_0 : rv 5 0 = (1 : K) := rfl
@[shape_entry] theorem rv_5_1 : rv 5 1 = (-1 : K) := rfl
@[shape_entry] theorem rv_5_2 : rv 5 2 = (1 : K) := rfl
@[shape_entry] theorem rv_6_0 : rv 6 0 = (1 : K) := rfl
@[shape_entry] theorem rv_6_1 : rv 6 1 = (1 : K) := rfl
@[shape_entry] theorem rv_6_2 : rv 6 2 = (1 : K) := rfl
@[shape_entry] theorem rv_7_0 : rv 7 0 = (-1 : K) := rfl
@[shape_entry] theorem rv_7_1 : rv 7 1 = (1 : K) := rfl
@[shape_entry] theorem rv_7_2 : rv 7 2 = (1 : K) := rfl
@[shape_entry] theorem rv_8_0 : rv 8 0 = (-1 : K) := rfl
@[shape_entry] theorem rv_8_1 : rv 8 1 = (-1/3 : K) := rfl
@[shape_entry] theorem rv_8_2 : rv 8 2 = (-1 : K) := rfl
@[shape_entry] theorem rv_9_0 : rv 9 0 = (1 : K) := rfl
@[shape_entry] theorem rv_9_1 : rv 9 1 = (-1/3 : K) := rfl
@[shape_entry] theorem rv_9_2 : rv 9 2 = (-1 : K) := rfl
@[shape_entry] theorem rv_10_0 : rv 10 0 = (1 : K) := rfl
@[shape_entry] theorem rv_10_1 : rv 10 1 = (1/3 : K) := rfl
@[shape_entry] theorem rv_10_2 : rv 10 2 = (-1 : K) := rfl
@[shape_entry] theorem rv_11_0 : rv 11 0 = (-1 : K) := rfl
@[shape_entry] theorem rv_11_1 : rv 11 1 = (1/3 : K) := rfl
@[shape_entry] theorem rv_11_2 : rv 11 2 = (-1 : K) := rfl
@[shape_entry] theorem rv_12_0 : rv 12 0 = (-1 : K) := rfl
@[shape_entry] theorem rv_12_1 : rv 12 1 = (-1/3 : K) := rfl
@[shape_entry] theorem rv_12_2 : rv 12 2 = (1 : K) := rfl
@[shape_entry] theorem rv_13_0 : rv 13 0 = (1 : K) := rfl
@[shape_entry] theorem rv_13_1 : rv 13 1 = (-1/3 : K) := rfl
@[shape_entry] theorem rv_13_2 : rv 13 2 = (1 : K) := rfl
@[shape_entry] theorem rv_14_0 : rv 14 0 = (1 : K) := rfl
@[shape_entry] theorem rv_14_1 : rv 14 1 = (1/3 : K) := rfl
@[shape_entry] theorem rv_14_2 : rv 14 2 = (1 : K) := rfl
@[shape_entry] theorem rv_15_0 : rv 15 0 = (-1 : K) := rfl
@[shape_entry] theorem rv_15_1 : rv 15 1 = (1/3 : K) := rfl
@[shape_entry] theorem rv_15_2 : rv 15 2 = (1 : K) := rfl
@[shape_entry] theorem rv_16_0 : rv 16 0 = (-1/3 : K) := rfl
@[shape_entry] theorem rv_16_1 : rv 16 1 = (-1 : K) := rfl
@[shape_entry] theorem rv_16_2 : rv 16 2 = (-1 : K) := rfl
@[shape_entry] theorem rv_17_0 : rv 17 0 = (1/3 : K) := rfl
@[shape_entry] theorem rv_17_1 : rv 17 1 = (-1 : K) := rfl
@[shape_entry] theorem rv_17_2 : rv 17 2 = (-1 : K) := rfl
@[shape_entry] theorem rv_18_0 : rv 18 0 = (1/3 : K) := rfl
@[shape_entry] theorem rv_18_1 : rv 18 1 = (1 : K) := rfl
@[shape_entry] theorem rv_18_2 : rv 18 2 = (-1 : K) := rfl
@[shape_entry] theorem rv_19_0 : rv 19 0 = (-1/3 : K) := rfl
@[shape_entry] theorem rv_19_1 : rv 19 1 = (1 : K) := rfl
@[shape_entry] theorem rv_19_2 : rv 19 2 = (-1 : K) := rfl
@[shape_entry] theorem rv_20_0 : rv 20 0 = (-1/3 : K) := rfl
@[shape_entry] theorem rv_20_1 : rv 20 1 = (-1 : K) := rfl
@[shape_entry] theorem rv_20_2 : rv 20 2 = (1 : K) := rfl
@[shape_entry] theorem rv_21_0 : rv 21 0 = (1/3 : K) := rfl
@[shape_entry] theorem rv_21_1 : rv 21 1 = (-1 : K) := rfl
@[shape_entry] theorem rv_21_2 : rv 21 2 = (1 : K) := rfl
@[shape_entry] theorem rv_22_0 : rv 22 0 = (1/3 : K) := rfl
@[shape_entry] theorem rv_22_1 : rv 22 1 = (1 : K) := rfl
@[shape_entry] theorem rv_22_2 : rv 22 2 = (1 : K) := rfl
@[shape_entry] theorem rv_23_0 : rv 23 0 = (-1/3 : K) := rfl
@[shape_entry] theorem rv_23_1 : rv 23 1 = (1 : K) := rfl
@[shape_entry] theorem rv_23_2 : rv 23 2 = (1 : K) := rfl
@[shape_entry] theorem rv_24_0 : rv 24 0 = (-1 : K) := rfl
@[shape_entry] theorem rv_24_1 : rv 24 1 = (-1 : K) := rfl
@[shape_entry] theorem rv_24_2 : rv 24 2 = (-1/3 : K) := rfl
@[shape_entry] theorem rv_25_0 : rv 25 0 = (1 : K) := rfl
@[shape_entry] theorem rv_25_1 : rv 25 1 = (-1 : K) := rfl
@[shape_entry] theorem rv_25_2 : rv 25 2 = (-1/3 : K) := rfl
@[shape_entry] theorem rv_26_0 : rv 26 0 = (1 : K) := rfl
@[shape_entry] theorem rv_26_1 : rv 26 1 = (1 : K) := rfl
@[shape_entry] theorem rv_26_2 : rv 26 2 = (-1/3 : K) := rfl
@[shape_entry] theorem rv_27_0 : rv 27 0 = (-1 : K) := rfl
@[shape_entry] theorem rv_27_1 : rv 27 1 = (1 : K) := rfl
@[shape_entry] theorem rv_27_2 : rv 27 2 = (-1/3 : K) := rfl
@[shape_entry] theorem rv_28_0 : rv 28 0 = (-1 : K) := rfl
@[shape_entry] theorem rv_28_1 : rv 28 1 = (-1 : K) := rfl
@[shape_entry] theorem rv_28_2 : rv 28 2 = (1/3 : K) := rfl
@[shape_entry] theorem rv_29_0 : rv 29 0 = (1 : K) := rfl
@[shape_entry] theorem rv_29_1 : rv 29 1 = (-1 : K) := rfl
@[shape_entry] theorem rv_29_2 : rv 29 2 = (1/3 : K) := rfl
@[shape_entry] theorem rv_30_0 : rv 30 0 = (1 : K) := rfl
@[shape_entry] theorem rv_30_1 : rv 30 1 = (1 : K) := rfl
@[shape_entry] theorem rv_30_2 : rv 30 2 = (1/3 : K) := rfl
@[shape_entry] theorem rv_31_0 : rv 31 0 = (-1 : K) := rfl
@[shape_entry] theorem rv_31_1 : rv 31 1 = (1 : K) := rfl
@[shape_entry] theorem rv_31_2 : rv 31 2 = (1/3 : K) := rfl
@[shape_entry] theorem basis_0 (x b : ℕ → K) : basis x b 0 =
    (1/64) * (1 + x 0*(-1)) * (1 + x 1*(-1)) * (1 + x 2*(-1)) * (9 * x 0*x 0 + 9 * x 1*x 1 + 9 *
    x 2*x 2 - 19) := rfl
@[shape_entry] theorem basis_1 (x b : ℕ → K) : basis x b 1 =
    (1/64) * (1 + x 0*1) * (1 + x 1*(-1)) * (1 + x 2*(-1)) * (9 * x 0*x 0 + 9 * x 1*x 1 + 9 * x
    2*x 2 - 19) := rfl
@[shape_entry] theorem basis_2 (x b : ℕ → K) : basis x b 2 =
    (1/64) * (1 + x 0*1) * (1 + x 1*1) * (1 + x 2*(-1)) * (9 * x 0*x 0 + 9 * x 1*x 1 + 9 * x 2*x
    2 - 19) := rfl
@[shape_entry] theorem basis_3 (x b : ℕ → K) : basis x b 3 =
    (1/64) * (1 + x 0*(-1)) * (1 + x 1*1) * (1 + x 2*(-1)) * (9 * x 0*x 0 + 9 * x 1*x 1 + 9 * x
    2*x 2 - 19) := rfl
@[shape_entry] theorem basis_4 (x b : ℕ → K) : basis x b 4 =
    (1/64) * (1 + x 0*(-1)) * (1 + x 1*(-1)) * (1 + x 2*1) * (9 * x 0*x 0 + 9 * x 1*x 1 + 9 * x
    2*x 2 - 19) := rfl
@[shape_entry] theorem basis_5 (x b : ℕ → K) : basis x b 5 =
    (1/64) * (1 + x 0*1) * (1 + x 1*(-1)) * (1 + x 2*1) * (9 * x 0*x 0 + 9 * x 1*x 1 + 9 * x 2*x
    2 - 19) := rfl
@[shape_entry] theorem basis_6 (x b : ℕ → K) : basis x b 6 =
    (1/64) * (1 + x 0*1) * (1 + x 1*1) * (1 + x 2*1) * (9 * x 0*x 0 + 9 * x 1*x 1 + 9 * x 2*x 2
    - 19) := rfl
@[shape_entry] theorem basis_7 (x b : ℕ → K) : basis x b 7 =
    (1/64) * (1 + x 0*(-1)) * (1 + x 1*1) * (1 + x 2*1) * (9 * x 0*x 0 + 9 * x 1*x 1 + 9 * x 2*x
    2 - 19) := rfl
@[shape_entry] theorem basis_8 (x b : ℕ → K) : basis x b 8 =
    (9/64) * (1 + x 0*(-1)) * (1 - x 1*x 1) * (1 + 9 * x 1*(-1/3)) * (1 + x 2*(-1)) := rfl
@[shape_entry] theorem basis_9 (x b : ℕ → K) : basis x b 9 =
    (9/64) * (1 + x 0*1) * (1 - x 1*x 1) * (1 + 9 * x 1*(-1/3)) * (1 + x 2*(-1)) := rfl
@[shape_entry] theorem basis_10 (x b : ℕ → K) : basis x b 10 =
    (9/64) * (1 + x 0*1) * (1 - x 1*x 1) * (1 + 9 * x 1*(1/3)) * (1 + x 2*(-1)) := rfl
@[shape_entry] theorem basis_11 (x b : ℕ → K) : basis x b 11 =
    (9/64) * (1 + x 0*(-1)) * (1 - x 1*x 1) * (1 + 9 * x 1*(1/3)) * (1 + x 2*(-1)) := rfl
@[shape_entry] theorem basis_12 (x b : ℕ → K) : basis x b 12 =
    (9/64) * (1 + x 0*(-1)) * (1 - x 1*x 1) * (1 + 9 * x 1*(-1/3)) * (1 + x 2*1) := rfl
@[shape_entry] theorem basis_13 (x b : ℕ → K) : basis x b 13 =
    (9/64) * (1 + x 0*1) * (1 - x 1*x 1) * (1 + 9 * x 1*(-1/3)) * (1 + x 2*1) := rfl
@[shape_entry] theorem basis_14 (x b : ℕ → K) : basis x b 14 =
    (9/64) * (1 + x 0*1) * (1 - x 1*x 1) * (1 + 9 * x 1*(1/3)) * (1 + x 2*1) := rfl
@[shape_entry] theorem basis_15 (x b : ℕ → K) : basis x b 15 =
    (9/64) * (1 + x 0*(-1)) * (1 - x 1*x 1) * (1 + 9 * x 1*(1/3)) * (1 + x 2*1) := rfl
@[shape_entry] theorem basis_16 (x b : ℕ → K) : basis x b 16 =
    (9/64) * (1 - x 0*x 0) * (1 + 9 * x 0*(-1/3)) * (1 + x 1*(-1)) * (1 + x 2*(-1)) := rfl
@[shape_entry] theorem basis_17 (x b : ℕ → K) : basis x b 17 =
    (9/64) * (1 - x 0*x 0) * (1 + 9 * x 0*(1/3)) * (1 + x 1*(-1)) * (1 + x 2*(-1)) := rfl
@[shape_entry] theorem basis_18 (x b : ℕ → K) : basis x b 18 =
    (9/64) * (1 - x 0*x 0) * (1 + 9 * x 0*(1/3)) * (1 + x 1*1) * (1 + x 2*(-1)) := rfl
@[shape_entry] theorem basis_19 (x b : ℕ → K) : basis x b 19 =
    (9/64) * (1 - x 0*x 0) * (1 + 9 * x 0*(-1/3)) * (1 + x 1*1) * (1 + x 2*(-1)) := rfl
@[shape_entry] theorem basis_20 (x b : ℕ → K) : basis x b 20 =
    (9/64) * (1 - x 0*x 0) * (1 + 9 * x 0*(-1/3)) * (1 + x 1*(-1)) * (1 + x 2*1) := rfl
@[shape_entry] theorem basis_21 (x b : ℕ → K) : basis x b 21 =
    (9/64) * (1 - x 0*x 0) * (1 + 9 * x 0*(1/3)) * (1 + x 1*(-1)) * (1 + x 2*1) := rfl
@[shape_entry] theorem basis_22 (x b : ℕ → K) : basis x b 22 =
    (9/64) * (1 - x 0*x 0) * (1 + 9 * x 0*(1/3)) * (1 + x 1*1) * (1 + x 2*1) := rfl
@[shape_entry] theorem basis_23 (x b : ℕ → K) : basis x b 23 =
    (9/64) * (1 - x 0*x 0) * (1 + 9 * x 0*(-1/3)) * (1 + x 1*1) * (1 + x 2*1) := rfl
@[shape_entry] theorem basis_24 (x b : ℕ → K) : basis x b 24 =
    (9/64) * (1 + x 0*(-1)) * (1 + x 1*(-1)) * (1 + 9 * x 2*(-1/3)) * (1 - x 2*x 2) := rfl
@[shape_entry] theorem basis_25 (x b : ℕ → K) : basis x b 25 =
    (9/64) * (1 + x 0*1) * (1 + x 1*(-1)) * (1 + 9 * x 2*(-1/3)) * (1 - x 2*x 2) := rfl
@[shape_entry] theorem basis_26 (x b : ℕ → K) : basis x b 26 =
    (9/64) * (1 + x 0*1) * (1 + x 1*1) * (1 + 9 * x 2*(-1/3)) * (1 - x 2*x 2) := rfl
@[shape_entry] theorem basis_27 (x b : ℕ → K) : basis x b 27 =
    (9/64) * (1 + x 0*(-1)) * (1 + x 1*1) * (1 + 9 * x 2*(-1/3)) * (1 - x 2*x 2) := rfl
@[shape_entry] theorem basis_28 (x b : ℕ → K) : basis x b 28 =
    (9/64) * (1 + x 0*(-1)) * (1 + x 1*(-1)) * (1 + 9 * x 2*(1/3)) * (1 - x 2*x 2) := rfl
@[shape_entry] theorem basis_29 (x b : ℕ → K) : basis x b 29 =
    (9/64) * (1 + x 0*1) * (1 + x 1*(-1)) * (1 + 9 * x 2*(1/3)) * (1 - x 2*x 2) := rfl
@[shape_entry] theorem basis_30 (x b : ℕ → K) : basis x b 30 =
    (9/64) * (1 + x 0*1) * (1 + x 1*1) * (1 + 9 * x 2*(1/3)) * (1 - x 2*x 2) := rfl
@[shape_entry] theorem basis_31 (x b : ℕ → K) : basis x b 31 =
    (9/64) * (1 + x 0*(-1)) * (1 + x 1*1) * (1 + 9 * x 2*(1/3)) * (1 - x 2*x 2) := rfl
@[shape_entry] theorem partialXi_0 (x b : ℕ → K) : partialXi x b 0 =
    (1/64) * (1 + x 1 * (-1)) * (1 + x 2 * (-1)) *((9 * ((-1)) * (x 0*x 0 + x 1*x 1 + x 2*x 2))
    + (18 * x 0 * (1 + x 0*(-1))) - (19 * (-1))) := rfl
@[shape_entry] theorem partialXi_1 (x b : ℕ → K) : partialXi x b 1 =
    (1/64) * (1 + x 1 * (-1)) * (1 + x 2 * (-1)) *((9 * (1) * (x 0*x 0 + x 1*x 1 + x 2*x 2)) +
    (18 * x 0 * (1 + x 0*1)) - (19 * 1)) := rfl
@[shape_entry] theorem partialXi_2 (x b : ℕ → K) : partialXi x b 2 =
    (1/64) * (1 + x 1 * 1) * (1 + x 2 * (-1)) *((9 * (1) * (x 0*x 0 + x 1*x 1 + x 2*x 2)) + (18
    * x 0 * (1 + x 0*1)) - (19 * 1)) := rfl
@[shape_entry] theorem partialXi_3 (x b : ℕ → K) : partialXi x b 3 =
    (1/64) * (1 + x 1 * 1) * (1 + x 2 * (-1)) *((9 * ((-1)) * (x 0*x 0 + x 1*x 1 + x 2*x 2)) +
    (18 * x 0 * (1 + x 0*(-1))) - (19 * (-1))) := rfl
@[shape_entry] theorem partialXi_4 (x b : ℕ → K) : partialXi x b 4 =
    (1/64) * (1 + x 1 * (-1)) * (1 + x 2 * 1) *((9 * ((-1)) * (x 0*x 0 + x 1*x 1 + x 2*x 2)) +
    (18 * x 0 * (1 + x 0*(-1))) - (19 * (-1))) := rfl
@[shape_entry] theorem partialXi_5 (x b : ℕ → K) : partialXi x b 5 =
    (1/64) * (1 + x 1 * (-1)) * (1 + x 2 * 1) *((9 * (1) * (x 0*x 0 + x 1*x 1 + x 2*x 2)) + (18
    * x 0 * (1 + x 0*1)) - (19 * 1)) := rfl
@[shape_entry] theorem partialXi_6 (x b : ℕ → K) : partialXi x b 6 =
    (1/64) * (1 + x 1 * 1) * (1 + x 2 * 1) *((9 * (1) * (x 0*x 0 + x 1*x 1 + x 2*x 2)) + (18 * x
    0 * (1 + x 0*1)) - (19 * 1)) := rfl
@[shape_entry] theorem partialXi_7 (x b : ℕ → K) : partialXi x b 7 =
    (1/64) * (1 + x 1 * 1) * (1 + x 2 * 1) *((9 * ((-1)) * (x 0*x 0 + x 1*x 1 + x 2*x 2)) + (18
    * x 0 * (1 + x 0*(-1))) - (19 * (-1))) := rfl
@[shape_entry] theorem partialXi_8 (x b : ℕ → K) : partialXi x b 8 =
    (9/64) * ((-1)) * (1 + x 1 * (-1/3)) * (1 + 9 * x 2 * (-1)) * (1 - x 2 * x 2) := rfl
@[shape_entry] theorem partialXi_9 (x b : ℕ → K) : partialXi x b 9 =
    (9/64) * (1) * (1 + x 1 * (-1/3)) * (1 + 9 * x 2 * (-1)) * (1 - x 2 * x 2) := rfl
@[shape_entry] theorem partialXi_10 (x b : ℕ → K) : partialXi x b 10 =
    (9/64) * (1) * (1 + x 1 * (1/3)) * (1 + 9 * x 2 * (-1)) * (1 - x 2 * x 2) := rfl
@[shape_entry] theorem partialXi_11 (x b : ℕ → K) : partialXi x b 11 =
    (9/64) * ((-1)) * (1 + x 1 * (1/3)) * (1 + 9 * x 2 * (-1)) * (1 - x 2 * x 2) := rfl
@[shape_entry] theorem partialXi_12 (x b : ℕ → K) : partialXi x b 12 =
    (9/64) * ((-1)) * (1 + x 1 * (-1/3)) * (1 + 9 * x 2 * 1) * (1 - x 2 * x 2) := rfl
@[shape_entry] theorem partialXi_13 (x b : ℕ → K) : partialXi x b 13 =
    (9/64) * (1) * (1 + x 1 * (-1/3)) * (1 + 9 * x 2 * 1) * (1 - x 2 * x 2) := rfl
@[shape_entry] theorem partialXi_14 (x b : ℕ → K) : partialXi x b 14 =
    (9/64) * (1) * (1 + x 1 * (1/3)) * (1 + 9 * x 2 * 1) * (1 - x 2 * x 2) := rfl
@[shape_entry] theorem partialXi_15 (x b : ℕ → K) : partialXi x b 15 =
    (9/64) * ((-1)) * (1 + x 1 * (1/3)) * (1 + 9 * x 2 * 1) * (1 - x 2 * x 2) := rfl
@[shape_entry] theorem partialXi_16 (x b : ℕ → K) : partialXi x b 16 =
    (9/64) * (1 + x 1 * (-1)) * (1 + x 2 * (-1)) * (9 * (-1/3) * (1 - 3 * x 0 * x 0) - (2 * x
    0)) := rfl
@[shape_entry] theorem partialXi_17 (x b : ℕ → K) : partialXi x b 17 =
    (9/64) * (1 + x 1 * (-1)) * (1 + x 2 * (-1)) * (9 * (1/3) * (1 - 3 * x 0 * x 0) - (2 * x 0)) := rfl
@[shape_entry] theorem partialXi_18 (x b : ℕ → K) : partialXi x b 18 =
    (9/64) * (1 + x 1 * 1) * (1 + x 2 * (-1)) * (9 * (1/3) * (1 - 3 * x 0 * x 0) - (2 * x 0)) := rfl
@[shape_entry] theorem partialXi_19 (x b : ℕ → K) : partialXi x b 19 =
    (9/64) * (1 + x 1 * 1) * (1 + x 2 * (-1)) * (9 * (-1/3) * (1 - 3 * x 0 * x 0) - (2 * x 0)) := rfl
@[shape_entry] theorem partialXi_20 (x b : ℕ → K) : partialXi x b 20 =
    (9/64) * (1 + x 1 * (-1)) * (1 + x 2 * 1) * (9 * (-1/3) * (1 - 3 * x 0 * x 0) - (2 * x 0)) := rfl
@[shape_entry] theorem partialXi_21 (x b : ℕ → K) : partialXi x b 21 =
    (9/64) * (1 + x 1 * (-1)) * (1 + x 2 * 1) * (9 * (1/3) * (1 - 3 * x 0 * x 0) - (2 * x 0)) := rfl
@[shape_entry] theorem partialXi_22 (x b : ℕ → K) : partialXi x b 22 =
    (9/64) * (1 + x 1 * 1) * (1 + x 2 * 1) * (9 * (1/3) * (1 - 3 * x 0 * x 0) - (2 * x 0)) := rfl
@[shape_entry] theorem partialXi_23 (x b : ℕ → K) : partialXi x b 23 =
    (9/64) * (1 + x 1 * 1) * (1 + x 2 * 1) * (9 * (-1/3) * (1 - 3 * x 0 * x 0) - (2 * x 0)) := rfl
@[shape_entry] theorem partialXi_24 (x b : ℕ → K) : partialXi x b 24 =
    (9/64) * ((-1)) * (1 - x 1 * x 1) * (1 + 9 * x 1 * (-1)) * (1 + x 2 * (-1/3)) := rfl
@[shape_entry] theorem partialXi_25 (x b : ℕ → K) : partialXi x b 25 =
    (9/64) * (1) * (1 - x 1 * x 1) * (1 + 9 * x 1 * (-1)) * (1 + x 2 * (-1/3)) := rfl
@[shape_entry] theorem partialXi_26 (x b : ℕ → K) : partialXi x b 26 =
    (9/64) * (1) * (1 - x 1 * x 1) * (1 + 9 * x 1 * 1) * (1 + x 2 * (-1/3)) := rfl
@[shape_entry] theorem partialXi_27 (x b : ℕ → K) : partialXi x b 27 =
    (9/64) * ((-1)) * (1 - x 1 * x 1) * (1 + 9 * x 1 * 1) * (1 + x 2 * (-1/3)) := rfl
@[shape_entry] theorem partialXi_28 (x b : ℕ → K) : partialXi x b 28 =
    (9/64) * ((-1)) * (1 - x 1 * x 1) * (1 + 9 * x 1 * (-1)) * (1 + x 2 * (1/3)) := rfl
@[shape_entry] theorem partialXi_29 (x b : ℕ → K) : partialXi x b 29 =
    (9/64) * (1) * (1 - x 1 * x 1) * (1 + 9 * x 1 * (-1)) * (1 + x 2 * (1/3)) := rfl
@[shape_entry] theorem partialXi_30 (x b : ℕ → K) : partialXi x b 30 =
    (9/64) * (1) * (1 - x 1 * x 1) * (1 + 9 * x 1 * 1) * (1 + x 2 * (1/3)) := rfl
@[shape_entry] theorem partialXi_31 (x b : ℕ → K) : partialXi x b 31 =
    (9/64) * ((-1)) * (1 - x 1 * x 1) * (1 + 9 * x 1 * 1) * (1 + x 2 * (1/3)) := rfl
@[shape_entry] theorem partialEta_0 (x b : ℕ → K) : partialEta x b 0 =
    (1/64) * (1 + x 0 * (-1)) * (1 + x 2 * (-1)) *((9 * (-1) * (x 0*x 0 + x 1*x 1 + x 2*x 2)) +
    (18 * x 1 * (1 + x 1*(-1))) - (19 * (-1))) := rfl
@[shape_entry] theorem partialEta_1 (x b : ℕ → K) : partialEta x b 1 =
    (1/64) * (1 + x 0 * 1) * (1 + x 2 * (-1)) *((9 * (-1) * (x 0*x 0 + x 1*x 1 + x 2*x 2)) + (18
    * x 1 * (1 + x 1*(-1))) - (19 * (-1))) := rfl
@[shape_entry] theorem partialEta_2 (x b : ℕ → K) : partialEta x b 2 =
    (1/64) * (1 + x 0 * 1) * (1 + x 2 * (-1)) *((9 * 1 * (x 0*x 0 + x 1*x 1 + x 2*x 2)) + (18 *
    x 1 * (1 + x 1*1)) - (19 * 1)) := rfl
@[shape_entry] theorem partialEta_3 (x b : ℕ → K) : partialEta x b 3 =
    (1/64) * (1 + x 0 * (-1)) * (1 + x 2 * (-1)) *((9 * 1 * (x 0*x 0 + x 1*x 1 + x 2*x 2)) + (18
    * x 1 * (1 + x 1*1)) - (19 * 1)) := rfl
@[shape_entry] theorem partialEta_4 (x b : ℕ → K) : partialEta x b 4 =
    (1/64) * (1 + x 0 * (-1)) * (1 + x 2 * 1) *((9 * (-1) * (x 0*x 0 + x 1*x 1 + x 2*x 2)) + (18
    * x 1 * (1 + x 1*(-1))) - (19 * (-1))) := rfl
@[shape_entry] theorem partialEta_5 (x b : ℕ → K) : partialEta x b 5 =
    (1/64) * (1 + x 0 * 1) * (1 + x 2 * 1) *((9 * (-1) * (x 0*x 0 + x 1*x 1 + x 2*x 2)) + (18 *
    x 1 * (1 + x 1*(-1))) - (19 * (-1))) := rfl
@[shape_entry] theorem partialEta_6 (x b : ℕ → K) : partialEta x b 6 =
    (1/64) * (1 + x 0 * 1) * (1 + x 2 * 1) *((9 * 1 * (x 0*x 0 + x 1*x 1 + x 2*x 2)) + (18 * x 1
    * (1 + x 1*1)) - (19 * 1)) := rfl
@[shape_entry] theorem partialEta_7 (x b : ℕ → K) : partialEta x b 7 =
    (1/64) * (1 + x 0 * (-1)) * (1 + x 2 * 1) *((9 * 1 * (x 0*x 0 + x 1*x 1 + x 2*x 2)) + (18 *
    x 1 * (1 + x 1*1)) - (19 * 1)) := rfl
@[shape_entry] theorem partialEta_8 (x b : ℕ → K) : partialEta x b 8 =
    (9/64) * (1 + x 0 * (-1)) * (1 + x 2 * (-1)) *((9 * (-1/3) * (1 - 3 * x 1 * x 1)) - (2 * x
    1)) := rfl
@[shape_entry] theorem partialEta_9 (x b : ℕ → K) : partialEta x b 9 =
    (9/64) * (1 + x 0 * 1) * (1 + x 2 * (-1)) *((9 * (-1/3) * (1 - 3 * x 1 * x 1)) - (2 * x 1)) := rfl
@[shape_entry] theorem partialEta_10 (x b : ℕ → K) : partialEta x b 10 =
    (9/64) * (1 + x 0 * 1) * (1 + x 2 * (-1)) *((9 * (1/3) * (1 - 3 * x 1 * x 1)) - (2 * x 1)) := rfl
@[shape_entry] theorem partialEta_11 (x b : ℕ → K) : partialEta x b 11 =
    (9/64) * (1 + x 0 * (-1)) * (1 + x 2 * (-1)) *((9 * (1/3) * (1 - 3 * x 1 * x 1)) - (2 * x
    1)) := rfl
@[shape_entry] theorem partialEta_12 (x b : ℕ → K) : partialEta x b 12 =
    (9/64) * (1 + x 0 * (-1)) * (1 + x 2 * 1) *((9 * (-1/3) * (1 - 3 * x 1 * x 1)) - (2 * x 1)) := rfl
@[shape_entry] theorem partialEta_13 (x b : ℕ → K) : partialEta x b 13 =
    (9/64) * (1 + x 0 * 1) * (1 + x 2 * 1) *((9 * (-1/3) * (1 - 3 * x 1 * x 1)) - (2 * x 1)) := rfl
@[shape_entry] theorem partialEta_14 (x b : ℕ → K) : partialEta x b 14 =
    (9/64) * (1 + x 0 * 1) * (1 + x 2 * 1) *((9 * (1/3) * (1 - 3 * x 1 * x 1)) - (2 * x 1)) := rfl
@[shape_entry] theorem partialEta_15 (x b : ℕ → K) : partialEta x b 15 =
    (9/64) * (1 + x 0 * (-1)) * (1 + x 2 * 1) *((9 * (1/3) * (1 - 3 * x 1 * x 1)) - (2 * x 1)) := rfl
@[shape_entry] theorem partialEta_16 (x b : ℕ → K) : partialEta x b 16 =
    (9/64) * (1 - x 0 * x 0) * (1 + 9 * x 0 * (-1/3)) * ((-1)) * (1 + x 2 * (-1)) := rfl
@[shape_entry] theorem partialEta_17 (x b : ℕ → K) : partialEta x b 17 =
    (9/64) * (1 - x 0 * x 0) * (1 + 9 * x 0 * (1/3)) * ((-1)) * (1 + x 2 * (-1)) := rfl
@[shape_entry] theorem partialEta_18 (x b : ℕ → K) : partialEta x b 18 =
    (9/64) * (1 - x 0 * x 0) * (1 + 9 * x 0 * (1/3)) * (1) * (1 + x 2 * (-1)) := rfl
@[shape_entry] theorem partialEta_19 (x b : ℕ → K) : partialEta x b 19 =
    (9/64) * (1 - x 0 * x 0) * (1 + 9 * x 0 * (-1/3)) * (1) * (1 + x 2 * (-1)) := rfl
@[shape_entry] theorem partialEta_20 (x b : ℕ → K) : partialEta x b 20 =
    (9/64) * (1 - x 0 * x 0) * (1 + 9 * x 0 * (-1/3)) * ((-1)) * (1 + x 2 * 1) := rfl
@[shape_entry] theorem partialEta_21 (x b : ℕ → K) : partialEta x b 21 =
    (9/64) * (1 - x 0 * x 0) * (1 + 9 * x 0 * (1/3)) * ((-1)) * (1 + x 2 * 1) := rfl
@[shape_entry] theorem partialEta_22 (x b : ℕ → K) : partialEta x b 22 =
    (9/64) * (1 - x 0 * x 0) * (1 + 9 * x 0 * (1/3)) * (1) * (1 + x 2 * 1) := rfl
@[shape_entry] theorem partialEta_23 (x b : ℕ → K) : partialEta x b 23 =
    (9/64) * (1 - x 0 * x 0) * (1 + 9 * x 0 * (-1/3)) * (1) * (1 + x 2 * 1) := rfl
@[shape_entry] theorem partialEta_24 (x b : ℕ → K) : partialEta x b 24 =
    (9/64) * (1 + x 0 * (-1)) * ((-1)) * (1 + 9 * x 2 * (-1/3)) * (1 - x 2 * x 2) := rfl
@[shape_entry] theorem partialEta_25 (x b : ℕ → K) : partialEta x b 25 =
    (9/64) * (1 + x 0 * 1) * ((-1)) * (1 + 9 * x 2 * (-1/3)) * (1 - x 2 * x 2) := rfl
@[shape_entry] theorem partialEta_26 (x b : ℕ → K) : partialEta x b 26 =
    (9/64) * (1 + x 0 * 1) * (1) * (1 + 9 * x 2 * (-1/3)) * (1 - x 2 * x 2) := rfl
@[shape_entry] theorem partialEta_27 (x b : ℕ → K) : partialEta x b 27 =
    (9/64) * (1 + x 0 * (-1)) * (1) * (1 + 9 * x 2 * (-1/3)) * (1 - x 2 * x 2) := rfl
@[shape_entry] theorem partialEta_28 (x b : ℕ → K) : partialEta x b 28 =
    (9/64) * (1 + x 0 * (-1)) * ((-1)) * (1 + 9 * x 2 * (1/3)) * (1 - x 2 * x 2) := rfl
@[shape_entry] theorem partialEta_29 (x b : ℕ → K) : partialEta x b 29 =
    (9/64) * (1 + x 0 * 1) * ((-1)) * (1 + 9 * x 2 * (1/3)) * (1 - x 2 * x 2) := rfl
@[shape_entry] theorem partialEta_30 (x b : ℕ → K) : partialEta x b 30 =
    (9/64) * (1 + x 0 * 1) * (1) * (1 + 9 * x 2 * (1/3)) * (1 - x 2 * x 2) := rfl
@[shape_entry] theorem partialEta_31 (x b : ℕ → K) : partialEta x b 31 =
    (9/64) * (1 + x 0 * (-1)) * (1) * (1 + 9 * x 2 * (1/3)) * (1 - x 2 * x 2) := rfl
@[shape_entry] theorem partialMu_0 (x b : ℕ → K) : partialMu x b 0 =
    (1/64) * (1 + x 0 * (-1)) * (1 + x 1 * (-1)) *((9 * ((-1)) * (x 0*x 0 + x 1*x 1 + x 2*x 2))
    + (18 * x 2 * (1 + x 2*(-1))) - (19 * (-1))) := rfl
@[shape_entry] theorem partialMu_1 (x b : ℕ → K) : partialMu x b 1 =
    (1/64) * (1 + x 0 * 1) * (1 + x 1 * (-1)) *((9 * ((-1)) * (x 0*x 0 + x 1*x 1 + x 2*x 2)) +
    (18 * x 2 * (1 + x 2*(-1))) - (19 * (-1))) := rfl
@[shape_entry] theorem partialMu_2 (x b : ℕ → K) : partialMu x b 2 =
    (1/64) * (1 + x 0 * 1) * (1 + x 1 * 1) *((9 * ((-1)) * (x 0*x 0 + x 1*x 1 + x 2*x 2)) + (18
    * x 2 * (1 + x 2*(-1))) - (19 * (-1))) := rfl
@[shape_entry] theorem partialMu_3 (x b : ℕ → K) : partialMu x b 3 =
    (1/64) * (1 + x 0 * (-1)) * (1 + x 1 * 1) *((9 * ((-1)) * (x 0*x 0 + x 1*x 1 + x 2*x 2)) +
    (18 * x 2 * (1 + x 2*(-1))) - (19 * (-1))) := rfl
@[shape_entry] theorem partialMu_4 (x b : ℕ → K) : partialMu x b 4 =
    (1/64) * (1 + x 0 * (-1)) * (1 + x 1 * (-1)) *((9 * (1) * (x 0*x 0 + x 1*x 1 + x 2*x 2)) +
    (18 * x 2 * (1 + x 2*1)) - (19 * 1)) := rfl
@[shape_entry] theorem partialMu_5 (x b : ℕ → K) : partialMu x b 5 =
    (1/64) * (1 + x 0 * 1) * (1 + x 1 * (-1)) *((9 * (1) * (x 0*x 0 + x 1*x 1 + x 2*x 2)) + (18
    * x 2 * (1 + x 2*1)) - (19 * 1)) := rfl
@[shape_entry] theorem partialMu_6 (x b : ℕ → K) : partialMu x b 6 =
    (1/64) * (1 + x 0 * 1) * (1 + x 1 * 1) *((9 * (1) * (x 0*x 0 + x 1*x 1 + x 2*x 2)) + (18 * x
    2 * (1 + x 2*1)) - (19 * 1)) := rfl
@[shape_entry] theorem partialMu_7 (x b : ℕ → K) : partialMu x b 7 =
    (1/64) * (1 + x 0 * (-1)) * (1 + x 1 * 1) *((9 * (1) * (x 0*x 0 + x 1*x 1 + x 2*x 2)) + (18
    * x 2 * (1 + x 2*1)) - (19 * 1)) := rfl
@[shape_entry] theorem partialMu_8 (x b : ℕ → K) : partialMu x b 8 =
    (9/64) * (1 + x 0 * (-1)) * (1 - x 1 * x 1) * (1 + 9 * x 1 * (-1/3)) * ((-1)) := rfl
@[shape_entry] theorem partialMu_9 (x b : ℕ → K) : partialMu x b 9 =
    (9/64) * (1 + x 0 * 1) * (1 - x 1 * x 1) * (1 + 9 * x 1 * (-1/3)) * ((-1)) := rfl
@[shape_entry] theorem partialMu_10 (x b : ℕ → K) : partialMu x b 10 =
    (9/64) * (1 + x 0 * 1) * (1 - x 1 * x 1) * (1 + 9 * x 1 * (1/3)) * ((-1)) := rfl
@[shape_entry] theorem partialMu_11 (x b : ℕ → K) : partialMu x b 11 =
    (9/64) * (1 + x 0 * (-1)) * (1 - x 1 * x 1) * (1 + 9 * x 1 * (1/3)) * ((-1)) := rfl
@[shape_entry] theorem partialMu_12 (x b : ℕ → K) : partialMu x b 12 =
    (9/64) * (1 + x 0 * (-1)) * (1 - x 1 * x 1) * (1 + 9 * x 1 * (-1/3)) * (1) := rfl
@[shape_entry] theorem partialMu_13 (x b : ℕ → K) : partialMu x b 13 =
    (9/64) * (1 + x 0 * 1) * (1 - x 1 * x 1) * (1 + 9 * x 1 * (-1/3)) * (1) := rfl
@[shape_entry] theorem partialMu_14 (x b : ℕ → K) : partialMu x b 14 =
    (9/64) * (1 + x 0 * 1) * (1 - x 1 * x 1) * (1 + 9 * x 1 * (1/3)) * (1) := rfl
@[shape_entry] theorem partialMu_15 (x b : ℕ → K) : partialMu x b 15 =
    (9/64) * (1 + x 0 * (-1)) * (1 - x 1 * x 1) * (1 + 9 * x 1 * (1/3)) * (1) := rfl
@[shape_entry] theorem partialMu_16 (x b : ℕ → K) : partialMu x b 16 =
    (9/64) * (1 - x 0 * x 0) * (1 + 9 * x 0 * (-1/3)) * (1 + x 1 * (-1)) * ((-1)) := rfl
@[shape_entry] theorem partialMu_17 (x b : ℕ → K) : partialMu x b 17 =
    (9/64) * (1 - x 0 * x 0) * (1 + 9 * x 0 * (1/3)) * (1 + x 1 * (-1)) * ((-1)) := rfl
@[shape_entry] theorem partialMu_18 (x b : ℕ → K) : partialMu x b 18 =
    (9/64) * (1 - x 0 * x 0) * (1 + 9 * x 0 * (1/3)) * (1 + x 1 * 1) * ((-1)) := rfl
@[shape_entry] theorem partialMu_19 (x b : ℕ → K) : partialMu x b 19 =
    (9/64) * (1 - x 0 * x 0) * (1 + 9 * x 0 * (-1/3)) * (1 + x 1 * 1) * ((-1)) := rfl
@[shape_entry] theorem partialMu_20 (x b : ℕ → K) : partialMu x b 20 =
    (9/64) * (1 - x 0 * x 0) * (1 + 9 * x 0 * (-1/3)) * (1 + x 1 * (-1)) * (1) := rfl
@[shape_entry] theorem partialMu_21 (x b : ℕ → K) : partialMu x b 21 =
    (9/64) * (1 - x 0 * x 0) * (1 + 9 * x 0 * (1/3)) * (1 + x 1 * (-1)) * (1) := rfl
@[shape_entry] theorem partialMu_22 (x b : ℕ → K) : partialMu x b 22 =
    (9/64) * (1 - x 0 * x 0) * (1 + 9 * x 0 * (1/3)) * (1 + x 1 * 1) * (1) := rfl
@[shape_entry] theorem partialMu_23 (x b : ℕ → K) : partialMu x b 23 =
    (9/64) * (1 - x 0 * x 0) * (1 + 9 * x 0 * (-1/3)) * (1 + x 1 * 1) * (1) := rfl
@[shape_entry] theorem partialMu_24 (x b : ℕ → K) : partialMu x b 24 =
    (9/64) * (1 + x 0 * (-1)) * (1 + x 1 * (-1)) *((9 * (-1/3) * (1 - 3 * x 2 * x 2)) - (2 * x
    2)) := rfl
@[shape_entry] theorem partialMu_25 (x b : ℕ → K) : partialMu x b 25 =
    (9/64) * (1 + x 0 * 1) * (1 + x 1 * (-1)) *((9 * (-1/3) * (1 - 3 * x 2 * x 2)) - (2 * x 2)) := rfl
@[shape_entry] theorem partialMu_26 (x b : ℕ → K) : partialMu x b 26 =
    (9/64) * (1 + x 0 * 1) * (1 + x 1 * 1) *((9 * (-1/3) * (1 - 3 * x 2 * x 2)) - (2 * x 2)) := rfl
@[shape_entry] theorem partialMu_27 (x b : ℕ → K) : partialMu x b 27 =
    (9/64) * (1 + x 0 * (-1)) * (1 + x 1 * 1) *((9 * (-1/3) * (1 - 3 * x 2 * x 2)) - (2 * x 2)) := rfl
@[shape_entry] theorem partialMu_28 (x b : ℕ → K) : partialMu x b 28 =
    (9/64) * (1 + x 0 * (-1)) * (1 + x 1 * (-1)) *((9 * (1/3) * (1 - 3 * x 2 * x 2)) - (2 * x
    2)) := rfl
@[shape_entry] theorem partialMu_29 (x b : ℕ → K) : partialMu x b 29 =
    (9/64) * (1 + x 0 * 1) * (1 + x 1 * (-1)) *((9 * (1/3) * (1 - 3 * x 2 * x 2)) - (2 * x 2)) := rfl
@[shape_entry] theorem partialMu_30 (x b : ℕ → K) : partialMu x b 30 =
    (9/64) * (1 + x 0 * 1) * (1 + x 1 * 1) *((9 * (1/3) * (1 - 3 * x 2 * x 2)) - (2 * x 2)) := rfl
@[shape_entry] theorem partialMu_31 (x b : ℕ → K) : partialMu x b 31 =
    (9/64) * (1 + x 0 * (-1)) * (1 + x 1 * 1) *((9 * (1/3) * (1 - 3 * x 2 * x 2)) - (2 * x 2)) := rfl
end Hex32

namespace Tess16
@[shape_entry] theorem rv_0_0 : rv 0 0 = (-1 : K) := rfl
@[shape_entry] theorem rv_0_1 : rv 0 1 = (-1 : K) := rfl
@[shape_entry] theorem rv_0_2 : rv 0 2 = (-1 : K) := rfl
@[shape_entry] theorem rv_0_3 : rv 0 3 = (-1 : K) := rfl
@[shape_entry] theorem rv_1_0 : rv 1 0 = (1 : K) := rfl
@[shape_entry] theorem rv_1_1 : rv 1 1 = (-1 : K) := rfl
@[shape_entry] theorem rv_1_2 : rv 1 2 = (-1 : K) := rfl
@[shape_entry] theorem rv_1_3 : rv 1 3 = (-1 : K) := rfl
@[shape_entry] theorem rv_2_0 : rv 2 0 = (1 : K) := rfl
@[shape_entry] theorem rv_2_1 : rv 2 1 = (-1 : K) := rfl
@[shape_entry] theorem rv_2_2 : rv 2 2 = (1 : K) := rfl
@[shape_entry] theorem rv_2_3 : rv 2 3 = (-1 : K) := rfl
@[shape_entry] theorem rv_3_0 : rv 3 0 = (-1 : K) := rfl
@[shape_entry] theorem rv_3_1 : rv 3 1 = (-1 : K) := rfl
@[shape_entry] theorem rv_3_2 : rv 3 2 = (1 : K) := rfl
@[shape_entry] theorem rv_3_3 : rv 3 3 = (-1 : K) := rfl
@[shape_entry] theorem rv_4_0 : rv 4 0 = (-1 : K) := rfl
@[shape_entry] theorem rv_4_1 : rv 4 1 = (1 : K) := rfl
@[shape_entry] theorem rv_4_2 : rv 4 2 = (-1 : K) := rfl
@[shape_entry] theorem rv_4_3 : rv 4 3 = (-1 : K) := rfl
@[shape_entry] theorem rv_5_0 : rv 5 0 = (1 : K) := rfl
@[shape_entry] theorem rv_5_1 : rv 5 1 = (1 : K) := rfl
@[shape_entry] theorem rv_5_2 : rv 5 2 = (-1 : K) := rfl
@[shape_entry] theorem rv_5_3 : rv 5 3 = (-1 : K) := rfl
@[shape_entry] theorem rv_6_0 : rv 6 0 = (1 : K) := rfl
@[shape_entry] theorem rv_6_1 : rv 6 1 = (1 : K) := rfl
@[shape_entry] theorem rv_6_2 : rv 6 2 = (1 : K) := rfl
@[shape_entry] theorem rv_6_3 : rv 6 3 = (-1 : K) := rfl
@[shape_entry] theorem rv_7_0 : rv 7 0 = (-1 : K) := rfl
@[shape_entry] theorem rv_7_1 : rv 7 1 = (1 : K) := rfl
@[shape_entry] theorem rv_7_2 : rv 7 2 = (1 : K) := rfl
@[shape_entry] theorem rv_7_3 : rv 7 3 = (-1 : K) := rfl
@[shape_entry] theorem rv_8_0 : rv 8 0 = (-1 : K) := rfl
@[shape_entry] theorem rv_8_1 : rv 8 1 = (-1 : K) := rfl
@[shape_entry] theorem rv_8_2 : rv 8 2 = (-1 : K) := rfl
@[shape_entry] theorem rv_8_3 : rv 8 3 = (1 : K) := rfl
@[shape_entry] theorem rv_9_0 : rv 9 0 = (1 : K) := rfl
@[shape_entry] theorem rv_9_1 : rv 9 1 = (-1 : K) := rfl
@[shape_entry] theorem rv_9_2 : rv 9 2 = (-1 : K) := rfl
@[shape_entry] theorem rv_9_3 : rv 9 3 = (1 : K) := rfl
@[shape_entry] theorem rv_10_0 : rv 10 0 = (1 : K) := rfl
@[shape_entry] theorem rv_10_1 : rv 10 1 = (-1 : K) := rfl
@[shape_entry] theorem rv_10_2 : rv 10 2 = (1 : K) := rfl
@[shape_entry] theorem rv_10_3 : rv 10 3 = (1 : K) := rfl
@[shape_entry] theorem rv_11_0 : rv 11 0 = (-1 : K) := rfl
@[shape_entry] theorem rv_11_1 : rv 11 1 = (-1 : K) := rfl
@[shape_entry] theorem rv_11_2 : rv 11 2 = (1 : K) := rfl
@[shape_entry] theorem rv_11_3 : rv 11 3 = (1 : K) := rfl
@[shape_entry] theorem rv_12_0 : rv 12 0 = (-1 : K) := rfl
@[shape_entry] theorem rv_12_1 : rv 12 1 = (1 : K) := rfl
@[shape_entry] theorem rv_12_2 : rv 12 2 = (-1 : K) := rfl
@[shape_entry] theorem rv_12_3 : rv 12 3 = (1 : K) := rfl
@[shape_entry] theorem rv_13_0 : rv 13 0 = (1 : K) := rfl
@[shape_entry] theorem rv_13_1 : rv 13 1 = (1 : K) := rfl
@[shape_entry] theorem rv_13_2 : rv 13 2 = (-1 : K) := rfl
@[shape_entry] theorem rv_13_3 : rv 13 3 = (1 : K) := rfl
@[shape_entry] theorem rv_14_0 : rv 14 0 = (1 : K) := rfl
@[shape_entry] theorem rv_14_1 : rv 14 1 = (1 : K) := rfl
@[shape_entry] theorem rv_14_2 : rv 14 2 = (1 : K) := rfl
@[shape_entry] theorem rv_14_3 : rv 14 3 = (1 : K) := rfl
@[shape_entry] theorem rv_15_0 : rv 15 0 = (-1 : K) := rfl
@[shape_entry] theorem rv_15_1 : rv 15 1 = (1 : K) := rfl
@[shape_entry] theorem rv_15_2 : rv 15 2 = (1 : K) := rfl
@[shape_entry] theorem rv_15_3 : rv 15 3 = (1 : K) := rfl
@[shape_entry] theorem basis_0 (x b : ℕ → K) : basis x b 0 =
    1/16 * (1 + x 0*(-1)) * (1 + x 1*(-1)) * (1 + x 2*(-1)) * (1 + x 3*(-1)) := rfl
@[shape_entry] theorem basis_1 (x b : ℕ → K) : basis x b 1 =
    1/16 * (1 + x 0*1) * (1 + x 1*(-1)) * (1 + x 2*(-1)) * (1 + x 3*(-1)) := rfl
@[shape_entry] theorem basis_2 (x b : ℕ → K) : basis x b 2 =
    1/16 * (1 + x 0*1) * (1 + x 1*(-1)) * (1 + x 2*1) * (1 + x 3*(-1)) := rfl
@[shape_entry] theorem basis_3 (x b : ℕ → K) : basis x b 3 =
    1/16 * (1 + x 0*(-1)) * (1 + x 1*(-1)) * (1 + x 2*1) * (1 + x 3*(-1)) := rfl
@[shape_entry] theorem basis_4 (x b : ℕ → K) : basis x b 4 =
    1/16 * (1 + x 0*(-1)) * (1 + x 1*1) * (1 + x 2*(-1)) * (1 + x 3*(-1)) := rfl
@[shape_entry] theorem basis_5 (x b : ℕ → K) : basis x b 5 =
    1/16 * (1 + x 0*1) * (1 + x 1*1) * (1 + x 2*(-1)) * (1 + x 3*(-1)) := rfl
@[shape_entry] theorem basis_6 (x b : ℕ → K) : basis x b 6 =
    1/16 * (1 + x 0*1) * (1 + x 1*1) * (1 + x 2*1) * (1 + x 3*(-1)) := rfl
@[shape_entry] theorem basis_7 (x b : ℕ → K) : basis x b 7 =
    1/16 * (1 + x 0*(-1)) * (1 + x 1*1) * (1 + x 2*1) * (1 + x 3*(-1)) := rfl
@[shape_entry] theorem basis_8 (x b : ℕ → K) : basis x b 8 =
    1/16 * (1 + x 0*(-1)) * (1 + x 1*(-1)) * (1 + x 2*(-1)) * (1 + x 3*1) := rfl
@[shape_entry] theorem basis_9 (x b : ℕ → K) : basis x b 9 =
    1/16 * (1 + x 0*1) * (1 + x 1*(-1)) * (1 + x 2*(-1)) * (1 + x 3*1) := rfl
@[shape_entry] theorem basis_10 (x b : ℕ → K) : basis x b 10 =
    1/16 * (1 + x 0*1) * (1 + x 1*(-1)) * (1 + x 2*1) * (1 + x 3*1) := rfl
@[shape_entry] theorem basis_11 (x b : ℕ → K) : basis x b 11 =
    1/16 * (1 + x 0*(-1)) * (1 + x 1*(-1)) * (1 + x 2*1) * (1 + x 3*1) := rfl
@[shape_entry] theorem basis_12 (x b : ℕ → K) : basis x b 12 =
    1/16 * (1 + x 0*(-1)) * (1 + x 1*1) * (1 + x 2*(-1)) * (1 + x 3*1) := rfl
@[shape_entry] theorem basis_13 (x b : ℕ → K) : basis x b 13 =
    1/16 * (1 + x 0*1) * (1 + x 1*1) * (1 + x 2*(-1)) * (1 + x 3*1) := rfl
@[shape_entry] theorem basis_14 (x b : ℕ → K) : basis x b 14 =
    1/16 * (1 + x 0*1) * (1 + x 1*1) * (1 + x 2*1) * (1 + x 3*1) := rfl
@[shape_entry] theorem basis_15 (x b : ℕ → K) : basis x b 15 =
    1/16 * (1 + x 0*(-1)) * (1 + x 1*1) * (1 + x 2*1) * (1 + x 3*1) := rfl
@[shape_entry] theorem partialXi_0 (x b : ℕ → K) : partialXi x b 0 =
    1/16 * ((-1)) * (1 + x 1*(-1)) * (1 + x 2*(-1)) * (1 + x 3*(-1)) := rfl
@[shape_entry] theorem partialXi_1 (x b : ℕ → K) : partialXi x b 1 =
    1/16 * (1) * (1 + x 1*(-1)) * (1 + x 2*(-1)) * (1 + x 3*(-1)) := rfl
@[shape_entry] theorem partialXi_2 (x b : ℕ → K) : partialXi x b 2 =
    1/16 * (1) * (1 + x 1*(-1)) * (1 + x 2*1) * (1 + x 3*(-1)) := rfl
@[shape_entry] theorem partialXi_3 (x b : ℕ → K) : partialXi x b 3 =
    1/16 * ((-1)) * (1 + x 1*(-1)) * (1 + x 2*1) * (1 + x 3*(-1)) := rfl
@[shape_entry] theorem partialXi_4 (x b : ℕ → K) : partialXi x b 4 =
    1/16 * ((-1)) * (1 + x 1*1) * (1 + x 2*(-1)) * (1 + x 3*(-1)) := rfl
@[shape_entry] theorem partialXi_5 (x b : ℕ → K) : partialXi x b 5 =
    1/16 * (1) * (1 + x 1*1) * (1 + x 2*(-1)) * (1 + x 3*(-1)) := rfl
@[shape_entry] theorem partialXi_6 (x b : ℕ → K) : partialXi x b 6 =
    1/16 * (1) * (1 + x 1*1) * (1 + x 2*1) * (1 + x 3*(-1)) := rfl
@[shape_entry] theorem partialXi_7 (x b : ℕ → K) : partialXi x b 7 =
    1/16 * ((-1)) * (1 + x 1*1) * (1 + x 2*1) * (1 + x 3*(-1)) := rfl
@[shape_entry] theorem partialXi_8 (x b : ℕ → K) : partialXi x b 8 =
    1/16 * ((-1)) * (1 + x 1*(-1)) * (1 + x 2*(-1)) * (1 + x 3*1) := rfl
@[shape_entry] theorem partialXi_9 (x b : ℕ → K) : partialXi x b 9 =
    1/16 * (1) * (1 + x 1*(-1)) * (1 + x 2*(-1)) * (1 + x 3*1) := rfl
@[shape_entry] theorem partialXi_10 (x b : ℕ → K) : partialXi x b 10 =
    1/16 * (1) * (1 + x 1*(-1)) * (1 + x 2*1) * (1 + x 3*1) := rfl
@[shape_entry] theorem partialXi_11 (x b : ℕ → K) : partialXi x b 11 =
    1/16 * ((-1)) * (1 + x 1*(-1)) * (1 + x 2*1) * (1 + x 3*1) := rfl
@[shape_entry] theorem partialXi_12 (x b : ℕ → K) : partialXi x b 12 =
    1/16 * ((-1)) * (1 + x 1*1) * (1 + x 2*(-1)) * (1 + x 3*1) := rfl
@[shape_entry] theorem partialXi_13 (x b : ℕ → K) : partialXi x b 13 =
    1/16 * (1) * (1 + x 1*1) * (1 + x 2*(-1)) * (1 + x 3*1) := rfl
@[shape_entry] theorem partialXi_14 (x b : ℕ → K) : partialXi x b 14 =
    1/16 * (1) * (1 + x 1*1) * (1 + x 2*1) * (1 + x 3*1) := rfl
@[shape_entry] theorem partialXi_15 (x b : ℕ → K) : partialXi x b 15 =
    1/16 * ((-1)) * (1 + x 1*1) * (1 + x 2*1) * (1 + x 3*1) := rfl
@[shape_entry] theorem partialEta_0 (x b : ℕ → K) : partialEta x b 0 =
    1/16 * (1 + x 0*(-1)) * ((-1)) * (1 + x 2*(-1)) * (1 + x 3*(-1)) := rfl
@[shape_entry] theorem partialEta_1 (x b : ℕ → K) : partialEta x b 1 =
    1/16 * (1 + x 0*1) * ((-1)) * (1 + x 2*(-1)) * (1 + x 3*(-1)) := rfl
@[shape_entry] theorem partialEta_2 (x b : ℕ → K) : partialEta x b 2 =
    1/16 * (1 + x 0*1) * ((-1)) * (1 + x 2*1) * (1 + x 3*(-1)) := rfl
@[shape_entry] theorem partialEta_3 (x b : ℕ → K) : partialEta x b 3 =
    1/16 * (1 + x 0*(-1)) * ((-1)) * (1 + x 2*1) * (1 + x 3*(-1)) := rfl
@[shape_entry] theorem partialEta_4 (x b : ℕ → K) : partialEta x b 4 =
    1/16 * (1 + x 0*(-1)) * (1) * (1 + x 2*(-1)) * (1 + x 3*(-1)) := rfl
@[shape_entry] theorem partialEta_5 (x b : ℕ → K) : partialEta x b 5 =
    1/16 * (1 + x 0*1) * (1) * (1 + x 2*(-1)) * (1 + x 3*(-1)) := rfl
@[shape_entry] theorem partialEta_6 (x b : ℕ → K) : partialEta x b 6 =
    1/16 * (1 + x 0*1) * (1) * (1 + x 2*1) * (1 + x 3*(-1)) := rfl
@[shape_entry] theorem partialEta_7 (x b : ℕ → K) : partialEta x b 7 =
    1/16 * (1 + x 0*(-1)) * (1) * (1 + x 2*1) * (1 + x 3*(-1)) := rfl
@[shape_entry] theorem partialEta_8 (x b : ℕ → K) : partialEta x b 8 =
    1/16 * (1 + x 0*(-1)) * ((-1)) * (1 + x 2*(-1)) * (1 + x 3*1) := rfl
@[shape_entry] theorem partialEta_9 (x b : ℕ → K) : partialEta x b 9 =
    1/16 * (1 + x 0*1) * ((-1)) * (1 + x 2*(-1)) * (1 + x 3*1) := rfl
@[shape_entry] theorem partialEta_10 (x b : ℕ → K) : partialEta x b 10 =
    1/16 * (1 + x 0*1) * ((-1)) * (1 + x 2*1) * (1 + x 3*1) := rfl
@[shape_entry] theorem partialEta_11 (x b : ℕ → K) : partialEta x b 11 =
    1/16 * (1 + x 0*(-1)) * ((-1)) * (1 + x 2*1) * (1 + x 3*1) := rfl
@[shape_entry] theorem partialEta_12 (x b : ℕ → K) : partialEta x b 12 =
    1/16 * (1 + x 0*(-1)) * (1) * (1 + x 2*(-1)) * (1 + x 3*1) := rfl
@[shape_entry] theorem partialEta_13 (x b : ℕ → K) : partialEta x b 13 =
    1/16 * (1 + x 0*1) * (1) * (1 + x 2*(-1)) * (1 + x 3*1) := rfl
@[shape_entry] theorem partialEta_14 (x b : ℕ → K) : partialEta x b 14 =
    1/16 * (1 + x 0*1) * (1) * (1 + x 2*1) * (1 + x 3*1) := rfl
@[shape_entry] theorem partialEta_15 (x b : ℕ → K) : partialEta x b 15 =
    1/16 * (1 + x 0*(-1)) * (1) * (1 + x 2*1) * (1 + x 3*1) := rfl
@[shape_entry] theorem partialMu_0 (x b : ℕ → K) : partialMu x b 0 =
    1/16 * (1 + x 0*(-1)) * (1 + x 1*(-1)) * ((-1)) * (1 + x 3*(-1)) := rfl
@[shape_entry] theorem partialMu_1 (x b : ℕ → K) : partialMu x b 1 =
    1/16 * (1 + x 0*1) * (1 + x 1*(-1)) * ((-1)) * (1 + x 3*(-1)) := rfl
@[shape_entry] theorem partialMu_2 (x b : ℕ → K) : partialMu x b 2 =
    1/16 * (1 + x 0*1) * (1 + x 1*(-1)) * (1) * (1 + x 3*(-1)) := rfl
@[shape_entry] theorem partialMu_3 (x b : ℕ → K) : partialMu x b 3 =
    1/16 * (1 + x 0*(-1)) * (1 + x 1*(-1)) * (1) * (1 + x 3*(-1)) := rfl
@[shape_entry] theorem partialMu_4 (x b : ℕ → K) : partialMu x b 4 =
    1/16 * (1 + x 0*(-1)) * (1 + x 1*1) * ((-1)) * (1 + x 3*(-1)) := rfl
@[shape_entry] theorem partialMu_5 (x b : ℕ → K) : partialMu x b 5 =
    1/16 * (1 + x 0*1) * (1 + x 1*1) * ((-1)) * (1 + x 3*(-1)) := rfl
@[shape_entry] theorem partialMu_6 (x b : ℕ → K) : partialMu x b 6 =
    1/16 * (1 + x 0*1) * (1 + x 1*1) * (1) * (1 + x 3*(-1)) := rfl
@[shape_entry] theorem partialMu_7 (x b : ℕ → K) : partialMu x b 7 =
    1/16 * (1 + x 0*(-1)) * (1 + x 1*1) * (1) * (1 + x 3*(-1)) := rfl
@[shape_entry] theorem partialMu_8 (x b : ℕ → K) : partialMu x b 8 =
    1/16 * (1 + x 0*(-1)) * (1 + x 1*(-1)) * ((-1)) * (1 + x 3*1) := rfl
@[shape_entry] theorem partialMu_9 (x b : ℕ → K) : partialMu x b 9 =
    1/16 * (1 + x 0*1) * (1 + x 1*(-1)) * ((-1)) * (1 + x 3*1) := rfl
@[shape_entry] theorem partialMu_10 (x b : ℕ → K) : partialMu x b 10 =
    1/16 * (1 + x 0*1) * (1 + x 1*(-1)) * (1) * (1 + x 3*1) := rfl
@[shape_entry] theorem partialMu_11 (x b : ℕ → K) : partialMu x b 11 =
    1/16 * (1 + x 0*(-1)) * (1 + x 1*(-1)) * (1) * (1 + x 3*1) := rfl
@[shape_entry] theorem partialMu_12 (x b : ℕ → K) : partialMu x b 12 =
    1/16 * (1 + x 0*(-1)) * (1 + x 1*1) * ((-1)) * (1 + x 3*1) := rfl
@[shape_entry] theorem partialMu_13 (x b : ℕ → K) : partialMu x b 13 =
    1/16 * (1 + x 0*1) * (1 + x 1*1) * ((-1)) * (1 + x 3*1) := rfl
@[shape_entry] theorem partialMu_14 (x b : ℕ → K) : partialMu x b 14 =
    1/16 * (1 + x 0*1) * (1 + x 1*1) * (1) * (1 + x 3*1) := rfl
@[shape_entry] theorem partialMu_15 (x b : ℕ → K) : partialMu x b 15 =
    1/16 * (1 + x 0*(-1)) * (1 + x 1*1) * (1) * (1 + x 3*1) := rfl
@[shape_entry] theorem partialTau_0 (x b : ℕ → K) : partialTau x b 0 =
    1/16 * (1 + x 0*(-1)) * (1 + x 1*(-1)) * (1 + x 2*(-1)) * ((-1)) := rfl
@[shape_entry] theorem partialTau_1 (x b : ℕ → K) : partialTau x b 1 =
    1/16 * (1 + x 0*1) * (1 + x 1*(-1)) * (1 + x 2*(-1)) * ((-1)) := rfl
@[shape_entry] theorem partialTau_2 (x b : ℕ → K) : partialTau x b 2 =
    1/16 * (1 + x 0*1) * (1 + x 1*(-1)) * (1 + x 2*1) * ((-1)) := rfl
@[shape_entry] theorem partialTau_3 (x b : ℕ → K) : partialTau x b 3 =
    1/16 * (1 + x 0*(-1)) * (1 + x 1*(-1)) * (1 + x 2*1) * ((-1)) := rfl
@[shape_entry] theorem partialTau_4 (x b : ℕ → K) : partialTau x b 4 =
    1/16 * (1 + x 0*(-1)) * (1 + x 1*1) * (1 + x 2*(-1)) * ((-1)) := rfl
@[shape_entry] theorem partialTau_5 (x b : ℕ → K) : partialTau x b 5 =
    1/16 * (1 + x 0*1) * (1 + x 1*1) * (1 + x 2*(-1)) * ((-1)) := rfl
@[shape_entry] theorem partialTau_6 (x b : ℕ → K) : partialTau x b 6 =
    1/16 * (1 + x 0*1) * (1 + x 1*1) * (1 + x 2*1) * ((-1)) := rfl
@[shape_entry] theorem partialTau_7 (x b : ℕ → K) : partialTau x b 7 =
    1/16 * (1 + x 0*(-1)) * (1 + x 1*1) * (1 + x 2*1) * ((-1)) := rfl
@[shape_entry] theorem partialTau_8 (x b : ℕ → K) : partialTau x b 8 =
    1/16 * (1 + x 0*(-1)) * (1 + x 1*(-1)) * (1 + x 2*(-1)) * (1) := rfl
@[shape_entry] theorem partialTau_9 (x b : ℕ → K) : partialTau x b 9 =
    1/16 * (1 + x 0*1) * (1 + x 1*(-1)) * (1 + x 2*(-1)) * (1) := rfl
@[shape_entry] theorem partialTau_10 (x b : ℕ → K) : partialTau x b 10 =
    1/16 * (1 + x 0*1) * (1 + x 1*(-1)) * (1 + x 2*1) * (1) := rfl
@[shape_entry] theorem partialTau_11 (x b : ℕ → K) : partialTau x b 11 =
    1/16 * (1 + x 0*(-1)) * (1 + x 1*(-1)) * (1 + x 2*1) * (1) := rfl
@[shape_entry] theorem partialTau_12 (x b : ℕ → K) : partialTau x b 12 =
    1/16 * (1 + x 0*(-1)) * (1 + x 1*1) * (1 + x 2*(-1)) * (1) := rfl
@[shape_entry] theorem partialTau_13 (x b : ℕ → K) : partialTau x b 13 =
    1/16 * (1 + x 0*1) * (1 + x 1*1) * (1 + x 2*(-1)) * (1) := rfl
@[shape_entry] theorem partialTau_14 (x b : ℕ → K) : partialTau x b 14 =
    1/16 * (1 + x 0*1) * (1 + x 1*1) * (1 + x 2*1) * (1) := rfl
@[shape_entry] theorem partialTau_15 (x b : ℕ → K) : partialTau x b 15 =
    1/16 * (1 + x 0*(-1)) * (1 + x 1*1) * (1 + x 2*1) * (1) := rfl
end Tess16

end Verif.Shape
