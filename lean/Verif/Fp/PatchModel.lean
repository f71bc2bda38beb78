import Verif.Fp.RefineModel
import Verif.Swage.PatchKey

/-!
# The hash keys of `build_patch_connectivity` in rounded arithmetic

The same expressions as in `Verif/Swage/PatchKey.lean` (swage/swage.cpp:1360-1515, `num_dim_ = 3`), with a rounding after every arithmetic
operation and every decimal literal, in source order.  The rest of the function is integer code (`Verif/Swage/Patch.lean`) and takes the keys as input.

Simplifications as in `Verif/Fp/RefineModel.lean`: unbounded exponent range, `pow (d, 2.0)` is the rounded product, `sqrt` is correctly rounded, no fused
operations; the conversion of the key to `int` is assumed in range.
-/

namespace Verif.Swage.Key
open Verif.Swage Verif.Fp

/-- `coord_max`, swage/swage.cpp:1369-1389 (comparisons are exact, the literal is rounded). -/
noncomputable def coordMaxR (R : Rounding) (N : ℕ) (x : ℕ → ℕ → ℝ) (d : ℕ) : ℝ := loop N (fun n m => max m (x n d)) (-R.fl (10 ^ 64))
/-- `coord_min`, swage/swage.cpp:1369-1389. -/
noncomputable def coordMinR (R : Rounding) (N : ℕ) (x : ℕ → ℕ → ℝ) (d : ℕ) : ℝ := loop N (fun n m => min m (x n d)) (R.fl (10 ^ 64))

/-- `dist_min` of one cell, swage/swage.cpp:1411-1446; the loop that fills `dist` is, word for word, the one of `refine_mesh`
(`Refine.distLoopR`), but the minimum starts at `dist(0)`. -/
noncomputable def cellDistMinR (R : Rounding) (v : ℕ → ℕ → ℝ) (junk : ℕ → ℝ) : ℝ :=
  loop 28 (fun i m => min ((Refine.distLoopR R v junk).2 i) m) ((Refine.distLoopR R v junk).2 0)

/-- `dist_min` after the loop over the cells, swage/swage.cpp:1402-1447 (reassigned for every cell). -/
noncomputable def distMinR (R : Rounding) (C : ℕ) (nodes : ℕ → ℕ → ℕ) (x : ℕ → ℕ → ℝ) (junk : ℕ → ℝ) (junk0 : ℝ) : ℝ :=
  loop C (fun c _ => cellDistMinR R (fun l d => x (nodes c l) d) junk) junk0

/-- `node_hash_delta`, swage/swage.cpp:1363, 1449-1450. -/
noncomputable def deltaR (R : Rounding) (C : ℕ) (nodes : ℕ → ℕ → ℕ) (x : ℕ → ℕ → ℝ) (junk : ℕ → ℝ) (junk0 : ℝ) : ℝ :=
  R.fl (min (R.fl (10 ^ 64)) (distMinR R C nodes x junk junk0) / 3)

/-- `num_bins`, swage/swage.cpp:1453-1457. -/
noncomputable def numBinsR (R : Rounding) (N : ℕ) (x : ℕ → ℕ → ℝ) (δ : ℝ) (d : ℕ) : ℝ :=
  R.fl (R.fl (R.fl (coordMaxR R N x d - coordMinR R N x d) + R.fl (1 / 10 ^ 12)) / δ)

/-- `patch_coords` of a side, swage/swage.cpp:1470-1488. -/
noncomputable def sideCoordR (R : Rounding) (nodes : ℕ → ℕ → ℕ) (x : ℕ → ℕ → ℝ) (c p d : ℕ) : ℝ :=
  loop 4 (fun q s => R.fl (s + R.fl (x (nodeInPatchInCell nodes c p q) d / 4))) 0

/-- `patch_hash_idx_real`, swage/swage.cpp:1491-1493. -/
noncomputable def hashIdxR (R : Rounding) (N : ℕ) (nodes : ℕ → ℕ → ℕ) (x : ℕ → ℕ → ℝ) (δ : ℝ) (c p d : ℕ) : ℝ :=
  max (R.fl (1 / 10 ^ 16)) (R.fl (R.fl (R.fl (sideCoordR R nodes x c p d - coordMinR R N x d) + R.fl (1 / 10 ^ 12)) / δ))

/-- `patch_hash_idx_real_1d`, swage/swage.cpp:1504-1507. -/
noncomputable def hash1R (R : Rounding) (N : ℕ) (nodes : ℕ → ℕ → ℕ) (x : ℕ → ℕ → ℝ) (δ : ℝ) (c p : ℕ) : ℝ :=
  R.fl (R.fl (hashIdxR R N nodes x δ c p 0 + R.fl (hashIdxR R N nodes x δ c p 1 * numBinsR R N x δ 0))
    + R.fl (R.fl (hashIdxR R N nodes x δ c p 2 * numBinsR R N x δ 0) * numBinsR R N x δ 1))

/-- `hash_keys[6 c + p]`, swage/swage.cpp:1462-1515. -/
noncomputable def keyR (R : Rounding) (C N : ℕ) (nodes : ℕ → ℕ → ℕ) (x : ℕ → ℕ → ℝ) (junk : ℕ → ℝ) (junk0 : ℝ) (e : ℕ) : ℕ :=
  ⌊hash1R R N nodes x (deltaR R C nodes x junk junk0) (e / 6) (e % 6)⌋₊

end Verif.Swage.Key
