import Verif.Fp.Arith
import Verif.Swage.Refine

/-!
# `refine_mesh` in rounded arithmetic

The same function as in `Verif/Swage/Refine.lean` (swage/swage.cpp:2049-2502), with a rounding after every arithmetic operation and every
decimal literal, in source order.  The part after the hash keys (integers only) is `finish`, the same for both models.

Simplifications: the exponent range is unbounded; `pow (d, 2.0)` is taken to be the rounded product `d * d` and `sqrt` to be
correctly rounded; the compiler is assumed not to contract `s += b * x` into one fused operation; overflow of the
`int` keys is the subject of `Verif/Int32`.
-/

namespace Verif.Swage.Refine
open Verif.Swage Verif.Fp

/-- `lobatto_nodes_1D_tmp` in rounded arithmetic, swage/swage.cpp:63-327: decimal literals are rounded (a sign in front of one is an exact negation), the expressions of the rules with 4, 5
and 6 points are evaluated with roundings. -/
noncomputable def lobNodesR (R : Rounding) : ℕ → List ℝ
  | 4 => [-1, R.fl (R.fl (-1 / 5) * R.fl √5), R.fl (R.fl (1 / 5) * R.fl √5), 1]
  | 5 => [-1, R.fl (R.fl (-1 / 7) * R.fl √21), 0, R.fl (R.fl (1 / 7) * R.fl √21), 1]
  | 6 => [-1, -R.fl √(R.fl (R.fl (1 / 21) * R.fl (7 + R.fl (2 * R.fl √7)))), -R.fl √(R.fl (R.fl (1 / 21) * R.fl (7 - R.fl (2 * R.fl √7)))),
      R.fl √(R.fl (R.fl (1 / 21) * R.fl (7 - R.fl (2 * R.fl √7)))), R.fl √(R.fl (R.fl (1 / 21) * R.fl (7 + R.fl (2 * R.fl √7)))), 1]
  | n => (Quad.lobNodesQ n).map fun q : ℚ => if q < 0 then -R.fl ((-q : ℚ) : ℝ) else R.fl (q : ℝ)

/-- `basis[v]`, swage/swage.cpp:2168-2173. -/
noncomputable def basisR (R : Rounding) (L : ℕ → ℝ) (i j k v : ℕ) : ℝ :=
  R.fl (R.fl (R.fl (R.fl (1 / 8) * R.fl (1 + R.fl (tempPts L i j k 0 * refVert v 0))) * R.fl (1 + R.fl (tempPts L i j k 1 * refVert v 1)))
    * R.fl (1 + R.fl (tempPts L i j k 2 * refVert v 2)))

/-- One component of a Gauss point, swage/swage.cpp:2175-2184. -/
noncomputable def gPointR (R : Rounding) (b xs : ℕ → ℝ) : ℝ := loop 8 (fun v s => R.fl (s + R.fl (b v * xs v))) 0

/-- Filling `g_points_in_mesh`, swage/swage.cpp:2150-2191: state (`g_point_count`, array of rows). -/
noncomputable def gaussPointsR (R : Rounding) (E n : ℕ) (nodes : ℕ → ℕ → ℕ) (x : ℕ → ℕ → ℝ) (L : ℕ → ℝ) (a : Arr (ℕ → ℝ)) :
    Option (ℕ × Arr (ℕ → ℝ)) :=
  loopM E (fun e => loopM n fun k => loopM n fun j => loopM n fun i s => do
    let a ← s.2.set s.1 (fun d => gPointR R (basisR R L i j k) (fun v => x (nodes e v) d))
    pure (s.1 + 1, a)) (0, a)

/-- `pos_max`, swage/swage.cpp:2199-2218 (comparisons are exact, the literal is rounded). -/
noncomputable def posMaxR (R : Rounding) (N : ℕ) (x : ℕ → ℕ → ℝ) (d : ℕ) : ℝ := loop N (fun n m => max m (x n d)) (-R.fl (10 ^ 16))
/-- `pos_min`, swage/swage.cpp:2199-2218. -/
noncomputable def posMinR (R : Rounding) (N : ℕ) (x : ℕ → ℕ → ℝ) (d : ℕ) : ℝ := loop N (fun n m => min m (x n d)) (R.fl (10 ^ 16))

/-- Distance of the vertices `a` and `b` of a cell, swage/swage.cpp:2254-2256. -/
noncomputable def dist1R (R : Rounding) (v : ℕ → ℕ → ℝ) (a b : ℕ) : ℝ :=
  |R.fl √(R.fl (R.fl (R.fl (R.fl (v b 0 - v a 0) * R.fl (v b 0 - v a 0)) + R.fl (R.fl (v b 1 - v a 1) * R.fl (v b 1 - v a 1)))
    + R.fl (R.fl (v b 2 - v a 2) * R.fl (v b 2 - v a 2))))|

/-- The distance loop, swage/swage.cpp:2240-2268. -/
noncomputable def distLoopR (R : Rounding) (v : ℕ → ℕ → ℝ) (junk : ℕ → ℝ) : (ℕ × ℕ × ℕ) × (ℕ → ℝ) :=
  loop 28 (fun i s => (Key.advance s.1, store s.2 i (dist1R R v s.1.1 s.1.2.1))) ((0, 1, 0), junk)

/-- `dist_min` of one cell, swage/swage.cpp:2270-2277. -/
noncomputable def cellDistR (R : Rounding) (v : ℕ → ℕ → ℝ) (junk : ℕ → ℝ) : ℝ :=
  loop 28 (fun i m => min ((distLoopR R v junk).2 i) m) (R.fl (10 ^ 64))

/-- `dist_min` after the loop over the cells, swage/swage.cpp:2230-2278 (reassigned for every cell). -/
noncomputable def distMinR (R : Rounding) (E : ℕ) (nodes : ℕ → ℕ → ℕ) (x : ℕ → ℕ → ℝ) (junk : ℕ → ℝ) (junk0 : ℝ) : ℝ :=
  loop E (fun c _ => cellDistR R (fun l d => x (nodes c l) d) junk) junk0

/-- `h`, swage/swage.cpp:2282-2288. -/
noncomputable def hashDistR (R : Rounding) (p : ℕ) (dm : ℝ) : ℝ := R.fl (dm / R.fl (7 * if p = 0 then 1 else (p : ℝ)))

/-- `int_bins[d]`, swage/swage.cpp:2293-2305. -/
noncomputable def binsR (R : Rounding) (N : ℕ) (x : ℕ → ℕ → ℝ) (h : ℝ) (d : ℕ) : ℕ :=
  ⌊max (R.fl (1 / 10 ^ 16)) (R.fl (R.fl (R.fl (R.fl (posMaxR R N x d - posMinR R N x d) + 1) + R.fl (1 / 10 ^ 14)) / h))⌋₊

/-- `int_idx[d]` of a point, swage/swage.cpp:2320-2325. -/
noncomputable def indexR (R : Rounding) (N : ℕ) (x : ℕ → ℕ → ℝ) (h : ℝ) (y : ℕ → ℝ) (d : ℕ) : ℕ :=
  ⌊max (R.fl (1 / 10 ^ 16)) (R.fl (R.fl (R.fl (y d - posMinR R N x d) + R.fl (1 / 10 ^ 14)) / h))⌋₊

/-- `key` of a point, swage/swage.cpp:2333-2338. -/
noncomputable def keyR (R : Rounding) (N : ℕ) (x : ℕ → ℕ → ℝ) (h : ℝ) (y : ℕ → ℝ) : ℕ :=
  indexR R N x h y 0 + indexR R N x h y 1 * binsR R N x h 0 + indexR R N x h y 2 * binsR R N x h 0 * binsR R N x h 1

/-- From the Gauss points and the keys to the refined mesh, swage/swage.cpp:2343-2502: no floating-point operation. -/
noncomputable def finish (E p : ℕ) (g : Arr (ℕ → ℝ)) (keys : ℕ → ℕ) (q : Junk) : Option Refined := do
  let c := initElement p 3 E
  let n := pts1d p
  let S := sub1d p
  let K := n ^ 3 * E
  let t ← zeroTable K ⟨K, keys⟩ ⟨maxKey K keys + 10, q.table⟩
  let w ← walk K ⟨K, keys⟩ ⟨t, ⟨K, q.ntg⟩, 0, 0, ⟨E * c.gPts, q.nig⟩⟩
  let coords ← writeCoords w.numNodes w.ntg g ⟨w.numNodes, q.coords⟩
  let cells ← cellLoop E S n c.cells ⟨⟨E * S ^ 3 * 8, q.gic⟩, ⟨E * c.cells, q.cie⟩, ⟨E * S ^ 3, q.eic⟩⟩
  let r ← nodeLoop E S n w.nig (0, ⟨E * S ^ 3 * 8, q.nic⟩)
  pure ⟨c, g, w.numNodes, w.nig, coords, cells, r.2⟩

/-- `refine_mesh(init_mesh, mesh, p_order, 3)` in rounded arithmetic, swage/swage.cpp:2049-2502. -/
noncomputable def refineMeshR (R : Rounding) (E N p : ℕ) (nodes : ℕ → ℕ → ℕ) (x : ℕ → ℕ → ℝ) (q : Junk) : Option Refined := do
  let n := pts1d p
  let lob ← Quad.assign (lobNodesR R n) ⟨n, q.lob⟩
  let g ← gaussPointsR R E n nodes x lob.val ⟨E * n ^ 3, q.gauss⟩
  let h := hashDistR R p (distMinR R E nodes x q.dist q.dist0)
  let _ ← if h = 0 then none else some ()
  finish E p g.2 (fun i => keyR R N x h (g.2.val i)) q

end Verif.Swage.Refine
