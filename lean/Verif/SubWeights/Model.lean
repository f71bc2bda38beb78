import Verif.Quad.Tables

/-!
# Model of `length_weights`, `sub_weights`, `set_nodes_wgts` and `set_unit_normals`, elements/elements.cpp:1160-1400

`real_t` is `ℝ`; an access outside an array is `none`.  The consecutive `if (p_order == …)` have exclusive conditions and are written
as a chain.
-/

namespace Verif.SubWeights
open Verif.Quad

/-- The two ratios at the start of both routines, elements.cpp:1174-1179 and 1216-1221. -/
noncomputable def alphas (w x : Arr ℝ) : Option (ℝ × ℝ) := do
  let x1 ← x.get 1
  let x0 ← x.get 0
  let w0 ← w.get 0
  let w1 ← w.get 1
  let x2 ← x.get 2
  let w2 ← w.get 2
  pure ((x1 - x0 - w0) / w1, (x2 - x0 - (w0 + w1)) / w2)

/-- `length_weights`, elements.cpp:1168-1203. -/
noncomputable def lengthWeights (len w x : Arr ℝ) (p : ℕ) : Option (Arr ℝ) := do
  let a ← alphas w x
  if p = 1 then do
    let len ← len.set 0 1
    len.set 1 1
  else if p = 2 then do
    let w0 ← w.get 0
    let w1 ← w.get 1
    let w2 ← w.get 2
    let len ← len.set 0 (w0 + a.1 * w1)
    let len ← len.set 1 ((1 - a.1) * w1 + 1 / 2 * w2)
    let t ← len.get 1
    let len ← len.set 2 t
    let t ← len.get 0
    len.set 3 t
  else if p = 3 then do
    let w0 ← w.get 0
    let w1 ← w.get 1
    let w2 ← w.get 2
    let w3 ← w.get 3
    let len ← len.set 0 (w0 + a.1 * w1)
    let len ← len.set 1 ((1 - a.1) * w1 + a.2 * w2)
    let len ← len.set 2 ((1 - a.2) * w2 + 1 / 2 * w3)
    let t ← len.get 2
    let len ← len.set 3 t
    let t ← len.get 1
    let len ← len.set 4 t
    let t ← len.get 0
    len.set 5 t
  else pure len

/-- `sub_weights`, elements.cpp:1210-1261. -/
noncomputable def subWeights (sub w x : Arr ℝ) (p : ℕ) : Option (Arr ℝ) := do
  let a ← alphas w x
  if p = 0 then do
    let w0 ← w.get 0
    let sub ← sub.set 0 w0
    let w1 ← w.get 1
    sub.set 1 w1
  else if p = 1 then do
    let w0 ← w.get 0
    let sub ← sub.set 0 w0
    let w1 ← w.get 1
    let sub ← sub.set 1 (1 / 2 * w1)
    let t ← sub.get 1
    let sub ← sub.set 2 t
    let t ← sub.get 0
    sub.set 3 t
  else if p = 2 then do
    let w0 ← w.get 0
    let w1 ← w.get 1
    let w2 ← w.get 2
    let sub ← sub.set 0 w0
    let sub ← sub.set 1 (a.1 * w1)
    let sub ← sub.set 2 ((1 - a.1) * w1)
    let sub ← sub.set 3 (1 / 2 * w2)
    let t ← sub.get 3
    let sub ← sub.set 4 t
    let t ← sub.get 2
    let sub ← sub.set 5 t
    let t ← sub.get 1
    let sub ← sub.set 6 t
    let t ← sub.get 0
    sub.set 7 t
  else if p = 3 then do
    let w0 ← w.get 0
    let w1 ← w.get 1
    let w2 ← w.get 2
    let w3 ← w.get 3
    let sub ← sub.set 0 w0
    let sub ← sub.set 1 (a.1 * w1)
    let sub ← sub.set 2 ((1 - a.1) * w1)
    let sub ← sub.set 3 (a.2 * w2)
    let sub ← sub.set 4 ((1 - a.2) * w2)
    let sub ← sub.set 5 (1 / 2 * w3)
    let t ← sub.get 5
    let sub ← sub.set 6 t
    let t ← sub.get 4
    let sub ← sub.set 7 t
    let t ← sub.get 3
    let sub ← sub.set 8 t
    let t ← sub.get 2
    let sub ← sub.set 9 t
    let t ← sub.get 1
    let sub ← sub.set 10 t
    let t ← sub.get 0
    sub.set 11 t
  else pure sub

/-- The four arrays of `set_nodes_wgts`. -/
structure Wts where
  nodes : Arr ℝ
  weights : Arr ℝ
  len : Arr ℝ
  sub : Arr ℝ

/-- `set_nodes_wgts`, elements.cpp:1330-1351. -/
noncomputable def setNodesWgts (s : Wts) (p : ℕ) : Option Wts := do
  let w ← lobatto_weights_1D (2 * p + 1) s.weights
  let x ← lobatto_nodes_1D (2 * p + 1) s.nodes
  let l ← lengthWeights s.len w x p
  let u ← subWeights s.sub w x p
  pure ⟨x, w, l, u⟩

/-- The entries assigned by `set_unit_normals`, elements.cpp:1358-1400, in source order: `(corner, direction, value)`. -/
def normalsTable : List (ℕ × ℕ × ℝ) :=
  [(0, 0, -1), (0, 1, -1), (0, 2, -1), (1, 0, 1), (1, 1, -1), (1, 2, -1), (2, 0, -1), (2, 1, 1), (2, 2, -1), (3, 0, 1), (3, 1, 1),
    (3, 2, -1), (4, 0, -1), (4, 1, -1), (4, 2, 1), (5, 0, 1), (5, 1, -1), (5, 2, 1), (6, 0, -1), (6, 1, 1), (6, 2, 1), (7, 0, 1),
    (7, 1, 1), (7, 2, 1)]

/-- `set_unit_normals`: the assignments on the 8 by 3 array. -/
def setUnitNormals (a : Arr ℝ) : Option (Arr ℝ) :=
  normalsTable.foldlM (fun a t => a.set (t.1 * 3 + t.2.1) t.2.2) a

end Verif.SubWeights
