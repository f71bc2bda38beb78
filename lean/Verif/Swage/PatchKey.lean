import Verif.Swage.Patch
import Mathlib.Analysis.Real.Sqrt
import Mathlib.Algebra.Order.Floor.Semiring
import Mathlib.Tactic.Ring

/-!
# Model of the hash keys of `build_patch_connectivity` and of `check_bdy`

Over the real numbers, for `num_dim_ = 3` (the distance loop of the code reads three coordinates whatever
`num_dim_` is).  `x n d` is `node_coords(n, d)`, `nodes c l` is `nodes_in_cell(c, l)`.
Not modelled: rounding, and overflow of the `int` conversion of the key.
-/

namespace Verif.Swage.Key
open Verif.Swage

/-- `coord_max`, swage/swage.cpp:1369-1389. -/
noncomputable def coordMax (N : ℕ) (x : ℕ → ℕ → ℝ) (d : ℕ) : ℝ := loop N (fun n m => max m (x n d)) (-10 ^ 64)
/-- `coord_min`, swage/swage.cpp:1369-1389. -/
noncomputable def coordMin (N : ℕ) (x : ℕ → ℕ → ℝ) (d : ℕ) : ℝ := loop N (fun n m => min m (x n d)) (10 ^ 64)

/-- Distance of the vertices `a` and `b` of a cell, swage/swage.cpp:1424-1427. -/
noncomputable def dist1 (v : ℕ → ℕ → ℝ) (a b : ℕ) : ℝ :=
  |√((v b 0 - v a 0) ^ 2 + (v b 1 - v a 1) ^ 2 + (v b 2 - v a 2) ^ 2)|

/-- Advance of `countA`, `countB`, `loop`, swage/swage.cpp:1429-1437. -/
def advance (s : ℕ × ℕ × ℕ) : ℕ × ℕ × ℕ :=
  if s.2.1 + 1 > 7 then (0, 1 + (s.2.2 + 1), s.2.2 + 1) else (s.1 + 1, s.2.1 + 1, s.2.2)

/-- The distance loop, swage/swage.cpp:1411-1438: state (`countA`, `countB`, `loop`) and `dist`. -/
noncomputable def distLoop (v : ℕ → ℕ → ℝ) (junk : ℕ → ℝ) : (ℕ × ℕ × ℕ) × (ℕ → ℝ) :=
  loop 28 (fun i s => (advance s.1, store s.2 i (dist1 v s.1.1 s.1.2.1))) ((0, 1, 0), junk)

/-- `dist_min` of a cell, swage/swage.cpp:1440-1446 (`dist_max` is not used). -/
noncomputable def cellDistMin (v : ℕ → ℕ → ℝ) (junk : ℕ → ℝ) : ℝ :=
  loop 28 (fun i m => min ((distLoop v junk).2 i) m) ((distLoop v junk).2 0)

/-- `dist_min` after the loop over the cells, swage/swage.cpp:1402-1447: it is reassigned for every cell, so
the last cell decides; `junk0` is its uninitialised value. -/
noncomputable def distMin (C : ℕ) (nodes : ℕ → ℕ → ℕ) (x : ℕ → ℕ → ℝ) (junk : ℕ → ℝ) (junk0 : ℝ) : ℝ :=
  loop C (fun c _ => cellDistMin (fun l d => x (nodes c l) d) junk) junk0

/-- `node_hash_delta`, swage/swage.cpp:1363, 1449-1450. -/
noncomputable def delta (C : ℕ) (nodes : ℕ → ℕ → ℕ) (x : ℕ → ℕ → ℝ) (junk : ℕ → ℝ) (junk0 : ℝ) : ℝ :=
  min (10 ^ 64) (distMin C nodes x junk junk0) / 3

/-- `num_bins`, swage/swage.cpp:1453-1457 (a real number). -/
noncomputable def numBins (N : ℕ) (x : ℕ → ℕ → ℝ) (δ : ℝ) (d : ℕ) : ℝ :=
  (coordMax N x d - coordMin N x d + 1 / 10 ^ 12) / δ

/-- `patch_coords` of a side, swage/swage.cpp:1470-1488. -/
noncomputable def sideCoord (nodes : ℕ → ℕ → ℕ) (x : ℕ → ℕ → ℝ) (c p d : ℕ) : ℝ :=
  loop 4 (fun q s => s + x (nodeInPatchInCell nodes c p q) d / 4) 0

/-- `patch_hash_idx_real`, swage/swage.cpp:1491-1493. -/
noncomputable def hashIdx (N : ℕ) (nodes : ℕ → ℕ → ℕ) (x : ℕ → ℕ → ℝ) (δ : ℝ) (c p d : ℕ) : ℝ :=
  max (1 / 10 ^ 16) ((sideCoord nodes x c p d - coordMin N x d + 1 / 10 ^ 12) / δ)

/-- `patch_hash_idx_real_1d` for `num_dim_ = 3`, swage/swage.cpp:1504-1507. -/
noncomputable def hash1 (N : ℕ) (nodes : ℕ → ℕ → ℕ) (x : ℕ → ℕ → ℝ) (δ : ℝ) (c p : ℕ) : ℝ :=
  hashIdx N nodes x δ c p 0 + hashIdx N nodes x δ c p 1 * numBins N x δ 0
    + hashIdx N nodes x δ c p 2 * numBins N x δ 0 * numBins N x δ 1

/-- `hash_keys[6 c + p]`, swage/swage.cpp:1462-1515: truncation of a non-negative real. -/
noncomputable def key (C N : ℕ) (nodes : ℕ → ℕ → ℕ) (x : ℕ → ℕ → ℝ) (junk : ℕ → ℝ) (junk0 : ℝ) (e : ℕ) : ℕ :=
  ⌊hash1 N nodes x (delta C nodes x junk junk0) (e / 6) (e % 6)⌋₊

/-- `mesh_t::patch_coords(g, d)`, swage/swage.cpp:1047-1064. -/
noncomputable def patchCoord (k : Patches) (x : ℕ → ℕ → ℝ) (g d : ℕ) : Option ℝ :=
  loopM 4 (fun q s => do
    let n ← k.nodeInPatch g q
    pure (s + x n.toNat d / 4)) 0

/-- `mesh_t::check_bdy`, swage/swage.cpp:1981-2040, as a predicate on the patch coordinates. -/
noncomputable def checkBdy (y : ℕ → ℝ) (tag : ℕ) (val : ℝ) : Prop :=
  if tag = 0 then |y 0 - val| ≤ 1 / 10 ^ 8
  else if tag = 1 then |y 1 - val| ≤ 1 / 10 ^ 8
  else if tag = 2 then |y 2 - val| ≤ 1 / 10 ^ 8
  else if tag = 3 then |√(y 0 * y 0 + y 1 * y 1) - val| ≤ 1 / 10 ^ 8
  else if tag = 4 then |√(y 0 * y 0 + y 1 * y 1 + y 2 * y 2) - val| ≤ 1 / 10 ^ 8
  else False

end Verif.Swage.Key
