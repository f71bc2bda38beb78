import Verif.Swage.Refine
import Verif.Swage.HighOrder

/-!
# Model of the hash keys of `refine_mesh`, `refine_high_order_mesh` and `build_patch_connectivity` with 32-bit `int`s

The models of `Swage/Refine.lean`, `Swage/HighOrder.lean` and `Swage/PatchKey.lean` compute the keys with unbounded integers.
Here every conversion of a `real_t` to `int` and every `int` sum and product on the way to the keys and to the size of
the hash table is checked: a result of `2^31` or more is undefined behaviour (`none`).  The other `int`s of these functions
(numbers of nodes and cells, loop counters) are at most the number of Gauss points (of sides), whose `int` product is
checked too.  All quantities are non-negative, so the lower bound `-2^31` plays no role.  Not modelled: rounding, the size
of the stack (`h_keys` and `hash_keys` are variable-length arrays).
-/

namespace Verif.Int32
open Verif.Swage

/-- Result `n ≥ 0` of an `int` operation: undefined when it does not fit. -/
def int32 (n : ℕ) : Option ℕ := if n < 2 ^ 31 then some n else none

/-- `(int) r` for `r ≥ 0`: truncation, undefined when the truncated value does not fit. -/
noncomputable def toInt (r : ℝ) : Option ℕ := if r < 2 ^ 31 then some ⌊r⌋₊ else none

/-- `int_bins[d]`, swage/swage.cpp:2289-2301 and swage/refine_high_order_mesh.cpp:161-172; `mn`, `mx` are `pos_min`, `pos_max`. -/
noncomputable def bins32 (mn mx : ℕ → ℝ) (h : ℝ) (d : ℕ) : Option ℕ :=
  toInt (max (1 / 10 ^ 16) ((mx d - mn d + 1 + 1 / 10 ^ 14) / h))

/-- `int_idx[d]`, swage/swage.cpp:2316-2321 and swage/refine_high_order_mesh.cpp:185-189. -/
noncomputable def index32 (mn : ℕ → ℝ) (h : ℝ) (y : ℕ → ℝ) (d : ℕ) : Option ℕ :=
  toInt (max (1 / 10 ^ 16) ((y d - mn d + 1 / 10 ^ 14) / h))

/-- `i + j*num_x + k*num_x*num_y`, swage/swage.cpp:2330-2334 and swage/refine_high_order_mesh.cpp:191-198: five `int` operations. -/
def combine32 (i j k bx by_ : ℕ) : Option ℕ := do
  let a ← int32 (j * bx)
  let s ← int32 (i + a)
  let c ← int32 (k * bx)
  let e ← int32 (c * by_)
  int32 (s + e)

/-- `key` of a point, swage/swage.cpp:2313-2334 and swage/refine_high_order_mesh.cpp:182-198. -/
noncomputable def key32 (mn : ℕ → ℝ) (h : ℝ) (bx by_ : ℕ) (y : ℕ → ℝ) : Option ℕ := do
  let i ← index32 mn h y 0
  let j ← index32 mn h y 1
  let k ← index32 mn h y 2
  combine32 i j k bx by_

/-- Filling an array of keys and their maximum: `h_keys`, `max_key` (swage/swage.cpp:2311-2338,
swage/refine_high_order_mesh.cpp:178-202) and `hash_keys`, `max_key` (swage/swage.cpp:1460-1515). -/
def fillKeys (K : ℕ) (f : ℕ → Option ℕ) (a : Arr ℕ) : Option (Arr ℕ × ℕ) :=
  loopM K (fun i s => do
    let k ← f i
    let a ← s.1.set i k
    pure (a, max s.2 k)) (a, 0)

/-- `int_bins`, `h_keys`, `max_key`, swage/swage.cpp:2289-2338 and swage/refine_high_order_mesh.cpp:161-202. -/
noncomputable def keys32 (mn mx : ℕ → ℝ) (h : ℝ) (K : ℕ) (g : Arr (ℕ → ℝ)) (a : Arr ℕ) : Option (Arr ℕ × ℕ) := do
  let bx ← bins32 mn mx h 0
  let by_ ← bins32 mn mx h 1
  let _ ← bins32 mn mx h 2
  fillKeys K (fun i => do
    let y ← g.get i
    key32 mn h bx by_ y) a

/-- `refine_mesh(init_mesh, mesh, p_order, 3)` with 32-bit `int`s, swage/swage.cpp:2049-2502; `jk` are the initial contents of
`h_keys`. -/
noncomputable def refineMesh32 (E N p : ℕ) (nodes : ℕ → ℕ → ℕ) (x : ℕ → ℕ → ℝ) (q : Refine.Junk) (jk : ℕ → ℕ) :
    Option Refine.Refined := do
  let c := Refine.initElement p 3 E
  let n := Refine.pts1d p
  let S := Refine.sub1d p
  let G ← int32 (n ^ 3)
  let K ← int32 (G * E)
  let lob ← Quad.lobatto_nodes_1D n ⟨n, q.lob⟩
  let g ← Refine.gaussPoints E n nodes x lob.val ⟨E * n ^ 3, q.gauss⟩
  let h := Refine.hashDist p (Refine.distMin E nodes x q.dist q.dist0)
  let _ ← if h = 0 then none else some ()
  let ks ← keys32 (Refine.posMin N x) (Refine.posMax N x) h K g.2 ⟨K, jk⟩
  let sz ← int32 (ks.2 + 10)
  let t ← Refine.zeroTable K ks.1 ⟨sz, q.table⟩
  let w ← Refine.walk K ks.1 ⟨t, ⟨K, q.ntg⟩, 0, 0, ⟨E * c.gPts, q.nig⟩⟩
  let coords ← Refine.writeCoords w.numNodes w.ntg g.2 ⟨w.numNodes, q.coords⟩
  let cells ← Refine.cellLoop E S n c.cells ⟨⟨E * S ^ 3 * 8, q.gic⟩, ⟨E * c.cells, q.cie⟩, ⟨E * S ^ 3, q.eic⟩⟩
  let r ← Refine.nodeLoop E S n w.nig (0, ⟨E * S ^ 3 * 8, q.nic⟩)
  pure ⟨c, g.2, w.numNodes, w.nig, coords, cells, r.2⟩

/-- `refine_high_order_mesh(input_mesh, mesh)` with 32-bit `int`s, swage/refine_high_order_mesh.cpp:8-368. -/
noncomputable def refineHighOrder32 (E N p : ℕ) (nodes : ℕ → ℕ → ℕ) (x : ℕ → ℕ → ℝ) (q : HighOrder.Junk) (jk : ℕ → ℕ) :
    Option Refine.Refined := do
  let c := Refine.initElement p 3 E
  let n := 2 * p + 1
  let S := p * 2
  let G ← int32 (n ^ 3)
  let K ← int32 (G * E)
  let Z ← Points.equispacedPoints (p + 1) (-1) 1 q.vert
  let lob ← Quad.lobatto_nodes_1D n ⟨n, q.lob⟩
  let V := (p + 1) ^ 3
  let g ← HighOrder.gaussPoints E p n nodes x Z lob.val q.work ⟨⟨⟨V, q.vx⟩, ⟨V, q.vy⟩, ⟨V, q.vz⟩⟩, 0, ⟨E * n ^ 3, q.gauss⟩⟩
  let h := HighOrder.hashDist p (HighOrder.minDist E p nodes x)
  let _ ← if h = 0 then none else some ()
  let ks ← keys32 (HighOrder.posMin N x) (HighOrder.posMax N x) h K g.g ⟨K, jk⟩
  let sz ← int32 (ks.2 + 10)
  let t ← Refine.zeroTable K ks.1 ⟨sz, q.table⟩
  let w ← Refine.walk K ks.1 ⟨t, ⟨K, q.ntg⟩, 0, 0, ⟨E * c.gPts, q.nig⟩⟩
  let coords ← Refine.writeCoords w.numNodes w.ntg g.g ⟨w.numNodes, q.coords⟩
  let cells ← Refine.cellLoop E S n c.cells ⟨⟨E * S ^ 3 * 8, q.gic⟩, ⟨E * c.cells, q.cie⟩, ⟨E * S ^ 3, q.eic⟩⟩
  let r ← Refine.nodeLoop E S n w.nig (0, ⟨E * S ^ 3 * 8, q.nic⟩)
  pure ⟨c, g.g, w.numNodes, w.nig, coords, cells, r.2⟩

/-- `mesh_t::build_patch_connectivity` with 32-bit `int`s, swage/swage.cpp:1360-1640: the keys are truncations of real numbers
(`hash_keys[hash_count] = (int)patch_hash_idx_real_1d`), `max_key + 10` is an `int` sum.  If `node_hash_delta` is zero the quotients
by it are infinite and their conversion is undefined. -/
noncomputable def buildPatches32 (C N : ℕ) (nodes : ℕ → ℕ → ℕ) (x : ℕ → ℕ → ℝ) (junk : ℕ → ℝ) (junk0 : ℝ) (jkey : ℕ → ℕ)
    (jt jc js jn : ℕ → ℤ) (ji : ℕ → ℕ → ℤ) (jk : ℕ → ℕ → ℕ) : Option Patches := do
  let K ← int32 (C * 6)
  let δ := Key.delta C nodes x junk junk0
  let _ ← if δ = 0 then none else some ()
  let ks ← fillKeys K (fun e => toInt (Key.hash1 N nodes x δ (e / 6) (e % 6))) ⟨K, jkey⟩
  let sz ← int32 (ks.2 + 10)
  let t ← initTable K ks.1 ⟨sz, jt⟩
  let n ← numberLoop C ks.1 t
  let cells ← fillNeg (2 * n.2.1) ⟨n.2.1 * 2, jc⟩
  let sides ← fillNeg (2 * n.2.1) ⟨n.2.1 * 2, js⟩
  let pn ← fillNeg (4 * n.2.1) ⟨n.2.1 * 4, jn⟩
  let r ← loopM C (fun c s => loopM 6 (fun p s => patchBody nodes ks.1 n.1 c p s) s)
    (⟨n.2.1, cells, sides, pn, ji, jk, 0⟩, 0)
  pure r.1

end Verif.Int32
