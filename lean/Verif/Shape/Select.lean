import Verif.Shape.Theorems

/-!
# C82: `element_selector`

Model of `choose_3Delem_type` and `choose_2Delem_type` and what a caller gets.  A pointer to an element object of the selector is the class of
the object; `none` is any other value, e.g. an uninitialised pointer.
-/

namespace Verif.Shape

/-- `elem_types::elem_type`, elements/elements.h:1144-1160. -/
inductive ElemType
  | Quad4 | Quad8 | Quad12 | QuadN | Hex8 | Hex20 | Hex32 | HexN
  deriving DecidableEq

/-- `element_selector::choose_3Delem_type`, elements/elements.cpp:6081-6127: the new value of the pointer `elem`. -/
def choose3D (t : ElemType) (elem : Option Kind) : Option Kind :=
  match t with
  | .Hex8 => some .hex8
  | .Hex20 => some .hex20
  | .Hex32 => some .hex32
  | .HexN => elem
  | _ => some .hex8

/-- `element_selector::choose_2Delem_type`, elements/elements.cpp:6138-6190: the new value of the pointer `elem2D`. -/
def choose2D (t : ElemType) (elem : Option Kind) : Option Kind :=
  match t with
  | .Quad4 => some .quad4
  | .Quad8 => some .quad8
  | .Quad12 => some .quad12
  | .QuadN => elem
  | _ => some .quad4

/-! ### Specification -/

/-- Dimension and number of nodes according to the comments of the enumeration; none for the elements of arbitrary order. -/
def ElemType.documented : ElemType → Option (ℕ × ℕ)
  | .Quad4 => some (2, 4) | .Quad8 => some (2, 8) | .Quad12 => some (2, 12)
  | .Hex8 => some (3, 8) | .Hex20 => some (3, 20) | .Hex32 => some (3, 32)
  | .QuadN | .HexN => none

/-- **C82 (three dimensions).**  Whatever the pointer was, after choosing Hex8, Hex20 or Hex32 it points to an element of dimension 3 with the
number of vertices in the name and as many shape functions, each 1 at its own vertex and 0 at the others.  A two-dimensional type gives
the 8-node hexahedron. -/
theorem C82_choose3D_partial (t : ElemType) (elem : Option Kind) (h : t ≠ .HexN) :
    ∃ k, choose3D t elem = some k ∧ k.dim = 3 ∧ (∀ n, t.documented = some (3, n) → k.numVerts = n) ∧
      (∀ n, t.documented = some (2, n) → k = .hex8) ∧
      ∀ (b : ℕ → ℝ) v w, v < k.numVerts → w < k.numVerts → k.basis (k.refLoc w) b v = if v = w then 1 else 0 := by
  obtain ⟨k, h1, h2, h3, h4⟩ : ∃ k, choose3D t elem = some k ∧ k.dim = 3 ∧ (∀ n, t.documented = some (3, n) → k.numVerts = n) ∧
      ∀ n, t.documented = some (2, n) → k = .hex8 := by
    cases t <;> first | exact absurd rfl h | exact ⟨_, rfl, rfl, by rintro n ⟨⟩ <;> rfl, by rintro n ⟨⟩ <;> rfl⟩
  exact ⟨k, h1, h2, h3, h4, fun b v w hv hw => C23_nodal k b v w hv hw⟩

/-- **C82 (two dimensions).**  Likewise for Quad4, Quad8 and Quad12; a three-dimensional type gives the 4-node quadrilateral. -/
theorem C82_choose2D_partial (t : ElemType) (elem : Option Kind) (h : t ≠ .QuadN) :
    ∃ k, choose2D t elem = some k ∧ k.dim = 2 ∧ (∀ n, t.documented = some (2, n) → k.numVerts = n) ∧
      (∀ n, t.documented = some (3, n) → k = .quad4) ∧ (t = .HexN → k = .quad4) ∧
      ∀ (b : ℕ → ℝ) v w, v < k.numVerts → w < k.numVerts → k.basis (k.refLoc w) b v = if v = w then 1 else 0 := by
  obtain ⟨k, h1, h2, h3, h4, h5⟩ : ∃ k, choose2D t elem = some k ∧ k.dim = 2 ∧ (∀ n, t.documented = some (2, n) → k.numVerts = n) ∧
      (∀ n, t.documented = some (3, n) → k = .quad4) ∧ (t = .HexN → k = .quad4) := by
    cases t <;> first | exact absurd rfl h | exact ⟨_, rfl, rfl, by rintro n ⟨⟩ <;> rfl, by rintro n ⟨⟩ <;> rfl, by rintro ⟨⟩ <;> rfl⟩
  exact ⟨k, h1, h2, h3, h4, h5, fun b v w hv hw => C23_nodal k b v w hv hw⟩

/-- **C82 (elements of arbitrary order: the claim fails).**  Choosing HexN or QuadN leaves the pointer as it was: the element chosen before
stays selected, and a pointer that was not set stays unset. -/
theorem C82_arbitrary_negation (elem : Option Kind) : choose3D .HexN elem = elem ∧ choose2D .QuadN elem = elem ∧
    (∀ t, choose3D .HexN (choose3D t elem) = choose3D t elem) ∧ choose3D .HexN none = none := ⟨rfl, rfl, fun _ => rfl, rfl⟩

/-- Non-vacuity: a pointer to the 8-node hexahedron is turned into one to the 20-node hexahedron, and then kept. -/
example : choose3D .HexN (choose3D .Hex20 (some .hex8)) = some .hex20 ∧ Kind.hex20.numVerts = 20 ∧ choose3D .Quad12 none = some .hex8 ∧
    choose2D .Hex32 none = some .quad4 := ⟨rfl, rfl, rfl, rfl⟩

end Verif.Shape
