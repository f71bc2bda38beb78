import Verif.Loop

/-!
# Dynamic memory of the element classes, of the state of the Average example and of the BLAS/LAPACK and VTK routines

Blocks obtained with `new T[n]` and given back with `delete[]`.  A block is a number of entries (of type `NumType`, `Real` or `int`);
what it contains is the subject of the other modules.  Addresses are not used again (a `delete[]` of an address
that has been given back is undefined behaviour in any case).  Not modelled: the memory of MATAR arrays, allocation failures.
-/

namespace Verif.Heap

/-- `size a` is the number of entries of the block at address `a`, if there is one. -/
structure Heap where
  next : ℕ
  size : ℕ → Option ℕ

/-- `new T[n]` -/
def Heap.new (h : Heap) (n : ℕ) : ℕ × Heap := (h.next, ⟨h.next + 1, store h.size h.next (some n)⟩)

/-- `delete[] p` -/
def Heap.delete (h : Heap) (p : ℕ) : Option Heap :=
  match h.size p with
  | some _ => some ⟨h.next, store h.size p none⟩
  | none => none

/-- The pointers `mat_id_`, `coords_`, `field_`, `volume_` of a `mat_pt_t` and the sizes of their blocks. -/
structure MatPt where
  n : ℕ
  k : ℕ
  id : ℕ
  coords : ℕ
  field : ℕ
  vol : ℕ

/-- Pointer members of an object (for elements, `Np`, `N`, `Ne`, `Z`, `ijk`, `rad` own no memory). -/
inductive Obj where
  | lagrange (N w C : ℕ)
  | legendre (N C : ℕ)
  /-- `node_t` with `node_field_ = NULL` or a block of `n` entries at `p`, examples/average/include/state.h:15-61. -/
  | node (f : Option (ℕ × ℕ))
  /-- `mat_pt_t` with four null pointers, or after `init_mat_pt_state` with `n` material points and `k = num_rk * num_dim`,
  examples/average/include/state.h:66-138. -/
  | matpt (f : Option MatPt)

/-- Heap and objects; destroyed objects are `none`. -/
structure State where
  heap : Heap
  num : ℕ
  obj : ℕ → Option Obj

/-- Operations of a program. -/
inductive Op where
  /-- Construction of a `LagrangeElement` with `N` vertices. -/
  | lagrange (N : ℕ)
  /-- Construction of a `LegendreElement` with `N` functions. -/
  | legendre (N : ℕ)
  /-- Construction of an element as a copy of object `i`. -/
  | copy (i : ℕ)
  /-- Destruction of object `i`. -/
  | destroy (i : ℕ)
  /-- `matar2blas::matvec` with an `m` times `n` matrix. -/
  | matvec (m n : ℕ)
  /-- `matar2blas::matmul` of an `m` times `k` and a `k` times `n` matrix. -/
  | matmul (m k n : ℕ)
  /-- `matar2lapack::invert` of an `n` times `n` matrix. -/
  | invert (n : ℕ)
  /-- `matar2lapack::eig_sym_tri` of order `n + 1`. -/
  | eig (n : ℕ)
  /-- Construction of a `node_t`. -/
  | node
  /-- Construction of a `mat_pt_t`. -/
  | matpt
  /-- `init_node_state` of object `i`, on a mesh with `n` nodes. -/
  | initNode (i n : ℕ)
  /-- `init_mat_pt_state` of object `i`, on a mesh with `n` cells, `k = num_rk * num_dim`. -/
  | initMatpt (i n k : ℕ)
  /-- `init_swage_mesh` or `init_vtk_grid` with `n` vertices per element. -/
  | vtk (n : ℕ)

/-- `LagrangeElement::LagrangeElement`, elements/lagrange_element.cpp:15, 19. -/
def newLagrange (h : Heap) (N : ℕ) : Obj × Heap :=
  let w := h.new N
  let C := w.2.new (3 * N)
  (.lagrange N w.1 C.1, C.2)

/-- `LegendreElement::LegendreElement`, elements/legendre_element.cpp:14. -/
def newLegendre (h : Heap) (N : ℕ) : Obj × Heap :=
  let C := h.new (2 * N)
  (.legendre N C.1, C.2)

/-- `init_node_state`, examples/average/include/state.h:39. -/
def initNode (h : Heap) (n : ℕ) : Obj × Heap :=
  let f := h.new n
  (.node (some (f.1, n)), f.2)

/-- `init_mat_pt_state`, examples/average/include/state.h:98-105. -/
def initMatpt (h : Heap) (n k : ℕ) : Obj × Heap :=
  let id := h.new n
  let co := id.2.new (k * n)
  let fi := co.2.new n
  let vo := fi.2.new n
  (.matpt (some ⟨n, k, id.1, co.1, fi.1, vo.1⟩), vo.2)

/-- The destructors, elements/lagrange_element.cpp:23-25, legendre_element.cpp:18 and examples/average/include/state.h:57-59, 130-137.
`delete [] w, C;` is `(delete [] w), C;`.  `delete[]` of a null pointer does nothing. -/
def Obj.destroy : Obj → Heap → Option Heap
  | .lagrange _ w _, h => h.delete w
  | .legendre _ _, h => some h
  | .node none, h => some h
  | .node (some f), h => h.delete f.1
  | .matpt none, h => some h
  | .matpt (some f), h => do
    let h ← h.delete f.id
    let h ← h.delete f.coords
    let h ← h.delete f.field
    h.delete f.vol

/-- `matar2blas::matvec`, common/matar_blas_lapack_interface.cpp:66, 98. -/
def matvec (h : Heap) (m n : ℕ) : Option Heap :=
  let a := h.new (m * n)
  a.2.delete a.1

/-- `matar2blas::matmul`, common/matar_blas_lapack_interface.cpp:130, 135, 158, 177 (`delete[] a, b, c;`). -/
def matmul (h : Heap) (m k n : ℕ) : Option Heap :=
  let a := h.new (m * k)
  let b := a.2.new (k * n)
  let c := b.2.new (m * n)
  c.2.delete a.1

/-- `matar2lapack::invert`, common/matar_blas_lapack_interface.cpp:209, 219, 230, 258 (`delete[] a, ipiv, b;`). -/
def invert (h : Heap) (n : ℕ) : Option Heap :=
  let a := h.new (n * n)
  let ipiv := a.2.new n
  let b := ipiv.2.new (n * n)
  b.2.delete a.1

/-- The eigensolver wrapper for order `n + 1`, common/matar_blas_lapack_interface.cpp:290, 295, 312. -/
def eig (h : Heap) (n : ℕ) : Option Heap :=
  let diag := h.new (n + 1)
  let work := diag.2.new (2 * (n + 1) - 2)
  work.2.delete work.1

/-- `vert_map` of `init_swage_mesh` and `init_vtk_grid`, io/vtk_io.cpp:126, 145, 187, 226. -/
def vtk (h : Heap) (n : ℕ) : Option Heap :=
  let v := h.new n
  v.2.delete v.1

/-- Object `i` gets other pointers. -/
def State.put (s : State) (i : ℕ) (r : Obj × Heap) : State := ⟨r.2, s.num, store s.obj i (some r.1)⟩

/-- A new object. -/
def State.push (s : State) (r : Obj × Heap) : State := ⟨r.2, s.num + 1, store s.obj s.num (some r.1)⟩

/-- One operation.  No class declares a copy constructor (elements/lagrange_element.h:5-43, legendre_element.h:5-29,
examples/average/include/state.h:13-138), so a copy has the same pointers. -/
def State.step (s : State) : Op → Option State
  | .lagrange N => some (s.push (newLagrange s.heap N))
  | .legendre N => some (s.push (newLegendre s.heap N))
  | .copy i => (s.obj i).map fun o => s.push (o, s.heap)
  | .destroy i => do
    let o ← s.obj i
    let h ← o.destroy s.heap
    pure ⟨h, s.num, store s.obj i none⟩
  | .matvec m n => (matvec s.heap m n).map fun h => { s with heap := h }
  | .matmul m k n => (matmul s.heap m k n).map fun h => { s with heap := h }
  | .invert n => (invert s.heap n).map fun h => { s with heap := h }
  | .eig n => (eig s.heap n).map fun h => { s with heap := h }
  | .node => some (s.push (.node none, s.heap))
  | .matpt => some (s.push (.matpt none, s.heap))
  | .initNode i n => match s.obj i with
    | some (.node _) => some (s.put i (initNode s.heap n))
    | _ => none
  | .initMatpt i n k => match s.obj i with
    | some (.matpt _) => some (s.put i (initMatpt s.heap n k))
    | _ => none
  | .vtk n => (vtk s.heap n).map fun h => { s with heap := h }

/-- A whole program. -/
def State.run (s : State) : List Op → Option State
  | [] => some s
  | o :: l => (s.step o).bind fun s => s.run l

/-- Before the first operation. -/
def State.init : State := ⟨⟨0, fun _ => none⟩, 0, fun _ => none⟩

end Verif.Heap
