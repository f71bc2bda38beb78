import Verif.Loop
import Mathlib.Algebra.Field.Basic

/-!
# Model of the small Jacobian / inverse helpers of `elements/elements.cpp`

Matrices are functions `row → column → entry`.
-/

namespace Verif.Jacobian

variable {K : Type*} [Field K]

/-- elements/elements.cpp:1929-1948 (2D), 1963-1983 (3D), 2005-2021 (4D): zero the `dim × dim` matrix,
then accumulate `J(j,k) += vertices(v,k) * partial(v,j)`. -/
def fill (dim numVerts : ℕ) (vertices part : ℕ → ℕ → K) (J : ℕ → ℕ → K) : ℕ → ℕ → K :=
  let J := loop dim (fun j J => loop dim (fun k J => store2 J j k 0) J) J
  loop dim (fun j J => loop dim (fun k J =>
    loop numVerts (fun v J => store2 J j k (J j k + vertices v k * part v j)) J) J) J

/-- `jacobian_2d`, elements/elements.cpp:1920-1952; returns `(J_matrix, det_J)`. -/
def jacobian2d (numVerts : ℕ) (vertices part J : ℕ → ℕ → K) : (ℕ → ℕ → K) × K :=
  let J := fill 2 numVerts vertices part J
  (J, J 0 0 * J 1 1 - J 0 1 * J 1 0)

/-- `jacobian_3d`, elements/elements.cpp:1955-1993; the determinant is transcribed with the
parenthesisation of lines 1987-1992. -/
def jacobian3d (numVerts : ℕ) (vertices part J : ℕ → ℕ → K) : (ℕ → ℕ → K) × K :=
  let J := fill 3 numVerts vertices part J
  (J, J 0 0 * (J 1 1 * J 2 2) - (J 2 1 * J 1 2)
    - J 0 1 * (J 1 0 * J 2 2) - (J 2 0 * J 1 2)
    + J 0 2 * (J 1 0 * J 2 1) - (J 2 0 * J 1 1))

/-- `jacobian_4d`, elements/elements.cpp:1996-2046, with its `dim` argument. -/
def jacobian4d (numVerts dim : ℕ) (vertices part J : ℕ → ℕ → K) : (ℕ → ℕ → K) × K :=
  let J := fill dim numVerts vertices part J
  (J, J 0 3 * J 1 2 * J 2 1 * J 3 0
    - J 0 2 * J 1 3 * J 2 1 * J 3 0
    - J 0 3 * J 1 1 * J 2 2 * J 3 0
    + J 0 1 * J 1 3 * J 2 2 * J 3 0
    + J 0 2 * J 1 1 * J 2 3 * J 3 0
    - J 0 1 * J 1 2 * J 2 3 * J 3 0
    - J 0 3 * J 1 2 * J 2 0 * J 3 1
    + J 0 2 * J 1 3 * J 2 0 * J 3 1
    + J 0 3 * J 1 0 * J 2 2 * J 3 1
    - J 0 0 * J 1 3 * J 2 2 * J 3 1
    - J 0 2 * J 1 0 * J 2 3 * J 3 1
    + J 0 0 * J 1 2 * J 2 3 * J 3 1
    + J 0 3 * J 1 1 * J 2 0 * J 3 2
    - J 0 1 * J 1 3 * J 2 0 * J 3 2
    - J 0 3 * J 1 0 * J 2 1 * J 3 2
    + J 0 0 * J 1 3 * J 2 1 * J 3 2
    + J 0 1 * J 1 0 * J 2 3 * J 3 2
    - J 0 0 * J 1 1 * J 2 3 * J 3 2
    - J 0 2 * J 1 1 * J 2 0 * J 3 3
    + J 0 1 * J 1 2 * J 2 0 * J 3 3
    + J 0 2 * J 1 0 * J 2 1 * J 3 3
    - J 0 0 * J 1 2 * J 2 1 * J 3 3
    - J 0 1 * J 1 0 * J 2 2 * J 3 3
    + J 0 0 * J 1 1 * J 2 2 * J 3 3)

/-- `mat_inverse`, elements/elements.cpp:1266-1290; returns `mat_inv`. -/
def matInverse (Minv M : ℕ → ℕ → K) : ℕ → ℕ → K :=
  let det := M 0 0 * (M 1 1 * M 2 2 - M 2 1 * M 1 2) - M 0 1 * (M 1 0 * M 2 2 - M 1 2 * M 2 0)
    + M 0 2 * (M 1 0 * M 2 1 - M 1 1 * M 2 0)
  let d := 1 / det
  let Minv := store2 Minv 0 0 ((M 1 1 * M 2 2 - M 2 1 * M 1 2) * d)
  let Minv := store2 Minv 0 1 ((M 0 2 * M 2 1 - M 0 1 * M 2 2) * d)
  let Minv := store2 Minv 0 2 ((M 0 1 * M 1 2 - M 0 2 * M 1 1) * d)
  let Minv := store2 Minv 1 0 ((M 1 2 * M 2 0 - M 1 0 * M 2 2) * d)
  let Minv := store2 Minv 1 1 ((M 0 0 * M 2 2 - M 0 2 * M 2 0) * d)
  let Minv := store2 Minv 1 2 ((M 1 0 * M 0 2 - M 0 0 * M 1 2) * d)
  let Minv := store2 Minv 2 0 ((M 1 0 * M 2 1 - M 2 0 * M 1 1) * d)
  let Minv := store2 Minv 2 1 ((M 2 0 * M 0 1 - M 0 0 * M 2 1) * d)
  store2 Minv 2 2 ((M 0 0 * M 1 1 - M 1 0 * M 0 1) * d)

/-- `jacobian_inverse_2d`, elements/elements.cpp:2049-2062. -/
def jacobianInverse2d (Jinv J : ℕ → ℕ → K) : ℕ → ℕ → K :=
  let det := J 0 0 * J 1 1 - J 0 1 * J 1 0
  let Jinv := store2 Jinv 0 0 (J 1 1 / det)
  let Jinv := store2 Jinv 0 1 (-J 0 1 / det)
  let Jinv := store2 Jinv 1 0 (-J 1 0 / det)
  store2 Jinv 1 1 (J 0 0 / det)

/-- `jacobian_inverse_3d`, elements/elements.cpp:2065-2111. -/
def jacobianInverse3d (Jinv J : ℕ → ℕ → K) : ℕ → ℕ → K :=
  let A11 := J 1 1 * J 2 2 - J 1 2 * J 2 1
  let A22 := J 2 2 * J 0 0 - J 2 0 * J 0 2
  let A33 := J 0 0 * J 1 1 - J 0 1 * J 1 0
  let A12 := J 1 2 * J 2 0 - J 1 0 * J 2 2
  let A23 := J 2 0 * J 0 1 - J 2 1 * J 0 0
  let A31 := J 0 1 * J 1 2 - J 0 2 * J 1 1
  let A21 := J 2 1 * J 0 2 - J 0 1 * J 2 2
  let A32 := J 0 2 * J 1 0 - J 1 2 * J 0 0
  let A13 := J 1 0 * J 1 1 - J 2 0 * J 1 1
  let det := J 0 0 * A11 + J 0 1 * A21 + J 0 2 * A31
  let Jinv := store2 Jinv 0 0 (A11 / det)
  let Jinv := store2 Jinv 0 1 (A12 / det)
  let Jinv := store2 Jinv 0 2 (A13 / det)
  let Jinv := store2 Jinv 1 0 (A21 / det)
  let Jinv := store2 Jinv 1 1 (A22 / det)
  let Jinv := store2 Jinv 1 2 (A23 / det)
  let Jinv := store2 Jinv 2 0 (A31 / det)
  let Jinv := store2 Jinv 2 1 (A32 / det)
  store2 Jinv 2 2 (A33 / det)

/-- `jacobian_inverse_4d`, elements/elements.cpp:2114-2273. `m` is the row-major copy, the local
array `inv` (uninitialised in the code, every entry written before it is read) starts at 0. -/
def jacobianInverse4d (Jinv J : ℕ → ℕ → K) (detJ : K) : ℕ → ℕ → K :=
  let m : ℕ → K := loop 4 (fun a m => store m a (J 0 a)) (fun _ => 0)
  let m := loop 4 (fun a m => store m (4 + a) (J 1 (4 + a - 4))) m
  let m := loop 4 (fun a m => store m (8 + a) (J 2 (8 + a - 8))) m
  let m := loop 4 (fun a m => store m (12 + a) (J 3 (12 + a - 12))) m
  let inv : ℕ → K := fun _ => 0
  let inv := store inv 0 (m 5 * m 10 * m 15 - m 5 * m 11 * m 14 - m 9 * m 6 * m 15 + m 9 * m 7 *
      m 14 + m 13 * m 6 * m 11 - m 13 * m 7 * m 10)
  let inv := store inv 4 (-m 4 * m 10 * m 15 + m 4 * m 11 * m 14 + m 8 * m 6 * m 15 - m 8 * m 7 *
      m 14 - m 12 * m 6 * m 11 + m 12 * m 7 * m 10)
  let inv := store inv 8 (m 4 * m 9 * m 15 - m 4 * m 11 * m 13 - m 8 * m 5 * m 15 + m 8 * m 7 *
      m 13 + m 12 * m 5 * m 11 - m 12 * m 7 * m 9)
  let inv := store inv 12 (-m 4 * m 9 * m 14 + m 4 * m 10 * m 13 + m 8 * m 5 * m 14 - m 8 * m 6 *
      m 13 - m 12 * m 5 * m 10 + m 12 * m 6 * m 9)
  let inv := store inv 1 (-m 1 * m 10 * m 15 + m 1 * m 11 * m 14 + m 9 * m 2 * m 15 - m 9 * m 3 *
      m 14 - m 13 * m 2 * m 11 + m 13 * m 3 * m 10)
  let inv := store inv 5 (m 0 * m 10 * m 15 - m 0 * m 11 * m 14 - m 8 * m 2 * m 15 + m 8 * m 3 *
      m 14 + m 12 * m 2 * m 11 - m 12 * m 3 * m 10)
  let inv := store inv 9 (-m 0 * m 9 * m 15 + m 0 * m 11 * m 13 + m 8 * m 1 * m 15 - m 8 * m 3 *
      m 13 - m 12 * m 1 * m 11 + m 12 * m 3 * m 9)
  let inv := store inv 13 (m 0 * m 9 * m 14 - m 0 * m 10 * m 13 - m 8 * m 1 * m 14 + m 8 * m 2 *
      m 13 + m 12 * m 1 * m 10 - m 12 * m 2 * m 9)
  let inv := store inv 2 (m 1 * m 6 * m 15 - m 1 * m 7 * m 14 - m 5 * m 2 * m 15 + m 5 * m 3 *
      m 14 + m 13 * m 2 * m 7 - m 13 * m 3 * m 6)
  let inv := store inv 6 (-m 0 * m 6 * m 15 + m 0 * m 7 * m 14 + m 4 * m 2 * m 15 - m 4 * m 3 *
      m 14 - m 12 * m 2 * m 7 + m 12 * m 3 * m 6)
  let inv := store inv 10 (m 0 * m 5 * m 15 - m 0 * m 7 * m 13 - m 4 * m 1 * m 15 + m 4 * m 3 *
      m 13 + m 12 * m 1 * m 7 - m 12 * m 3 * m 5)
  let inv := store inv 14 (-m 0 * m 5 * m 14 + m 0 * m 6 * m 13 + m 4 * m 1 * m 14 - m 4 * m 2 *
      m 13 - m 12 * m 1 * m 6 + m 12 * m 2 * m 5)
  let inv := store inv 3 (-m 1 * m 6 * m 11 + m 1 * m 7 * m 10 + m 5 * m 2 * m 11 - m 5 * m 3 *
      m 10 - m 9 * m 2 * m 7 + m 9 * m 3 * m 6)
  let inv := store inv 7 (m 0 * m 6 * m 11 - m 0 * m 7 * m 10 - m 4 * m 2 * m 11 + m 4 * m 3 *
      m 10 + m 8 * m 2 * m 7 - m 8 * m 3 * m 6)
  let inv := store inv 11 (-m 0 * m 5 * m 11 + m 0 * m 7 * m 9 + m 4 * m 1 * m 11 - m 4 * m 3 *
      m 9 - m 8 * m 1 * m 7 + m 8 * m 3 * m 5)
  let inv := store inv 15 (m 0 * m 5 * m 10 - m 0 * m 6 * m 9 - m 4 * m 1 * m 10 + m 4 * m 2 * m 9
      + m 8 * m 1 * m 6 - m 8 * m 2 * m 5)
  let detInv := 1 / detJ
  let invMat := loop 16 (fun i im => store im i (inv i * detInv)) (fun _ => 0)
  let Jinv := loop 4 (fun a Ji => store2 Ji 0 a (invMat a)) Jinv
  let Jinv := loop 4 (fun a Ji => store2 Ji 1 (4 + a - 4) (invMat (4 + a))) Jinv
  let Jinv := loop 4 (fun a Ji => store2 Ji 2 (8 + a - 8) (invMat (8 + a))) Jinv
  loop 4 (fun a Ji => store2 Ji 3 (12 + a - 12) (invMat (12 + a))) Jinv

end Verif.Jacobian
