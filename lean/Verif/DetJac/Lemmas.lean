import Verif.DetJac.Interp
import Verif.Vtk.MapTheorems

/-!
# Lemmas on `evaluate_jacobian_determinants`
-/

namespace Verif.DetJac
open Verif.Swage.HighOrder (tol Verts pt refPt tol_pos tol_cast dig_lt)
open LagrangeElement LagrangeElement.Spec
open Swage.Refine (lob_val assign_some)

/-! ### Lobatto nodes are further apart than the tolerance -/

theorem gap_check : ∀ p ∈ ([1, 3, 4, 5, 6, 7, 8, 9] : List ℕ), ∀ i : ℕ, i < 2 * p →
    (2 * (2 * (1 / 2 ^ 52)) : ℚ) ≤ (Quad.lobNodesQ (2 * p + 1)).getD (i + 1) 0 - (Quad.lobNodesQ (2 * p + 1)).getD i 0 := by
  decide +kernel

theorem lob_gap {p : ℕ} (hp : 1 ≤ p) (hp9 : p ≤ 9) {a : ℕ → ℝ} {lob : Arr ℝ}
    (h : Quad.lobatto_nodes_1D (2 * p + 1) ⟨2 * p + 1, a⟩ = some lob) {i : ℕ} (hi : i < 2 * p) :
    2 * tol ≤ lob.val (i + 1) - lob.val i := by
  rw [lob_val (by omega) (by omega) h i (by omega), lob_val (by omega) (by omega) h (i + 1) (by omega)]
  by_cases h2 : p = 2
  · subst h2
    have hx : Quad.lobNodes (2 * 2 + 1) = [-1, -1/7*√21, 0, 1/7*√21, (1:ℝ)] := rfl
    have hs : √21 ^ 2 = (21 : ℝ) := Real.sq_sqrt (by norm_num)
    have h0 : 0 < √21 := Real.sqrt_pos.2 (by norm_num)
    have h1 : √21 < 4.6 := by nlinarith
    have h3 : 4.5 < √21 := by nlinarith
    have ht : 2 * tol ≤ 1 / 10 := by unfold tol; norm_num
    rw [hx]
    refine ht.trans ?_
    interval_cases i <;> norm_num <;> linarith
  · have hm : p ∈ [1, 3, 4, 5, 6, 7, 8, 9] := by
      have : p = 1 ∨ p = 3 ∨ p = 4 ∨ p = 5 ∨ p = 6 ∨ p = 7 ∨ p = 8 ∨ p = 9 := by omega
      simpa using this
    have hc := gap_check p hm i hi
    rw [Quad.lobNodes_eq (by omega), Quad.getD_map_cast, Quad.getD_map_cast, tol_cast]
    have := (Rat.cast_le (K := ℝ)).2 hc
    rw [Rat.cast_sub, Rat.cast_mul] at this
    exact_mod_cast this

theorem lob_sep {p : ℕ} (hp : 1 ≤ p) (hp9 : p ≤ 9) {a : ℕ → ℝ} {lob : Arr ℝ}
    (h : Quad.lobatto_nodes_1D (2 * p + 1) ⟨2 * p + 1, a⟩ = some lob) {i j : ℕ} (hij : i < j) (hj : j < 2 * p + 1) :
    2 * tol ≤ lob.val j - lob.val i := by
  induction j with
  | zero => omega
  | succ j ih =>
    have hg := lob_gap hp hp9 h (i := j) (by omega)
    have ht := tol_pos
    by_cases hc : i = j
    · subst hc; exact hg
    · have := ih (by omega) (by omega)
      linarith

theorem lob_abs {p : ℕ} (hp : 1 ≤ p) (hp9 : p ≤ 9) {a : ℕ → ℝ} {lob : Arr ℝ}
    (h : Quad.lobatto_nodes_1D (2 * p + 1) ⟨2 * p + 1, a⟩ = some lob) {i j : ℕ} (hi : i < 2 * p + 1) (hj : j < 2 * p + 1)
    (hij : i ≠ j) : 2 * tol ≤ |lob.val i - lob.val j| := by
  rcases Nat.lt_or_gt_of_ne hij with hlt | hlt
  · rw [abs_sub_comm]; exact (lob_sep hp hp9 h hlt hj).trans (le_abs_self _)
  · exact (lob_sep hp hp9 h hlt hi).trans (le_abs_self _)

/-- The reference element on every second Lobatto node. -/
theorem even_separated {p : ℕ} (hp : 1 ≤ p) (hp9 : p ≤ 9) {a : ℕ → ℝ} {lob : Arr ℝ}
    (h : Quad.lobatto_nodes_1D (2 * p + 1) ⟨2 * p + 1, a⟩ = some lob) {Z : ℕ → ℝ} (hZ : ∀ v < p + 1, Z v = lob.val (2 * v)) :
    Separated tol (p + 1) Z := by
  refine ⟨by omega, tol_pos, ?_, ?_⟩
  · calc (p + 1) * (p + 1) * (p + 1) ≤ 10 * 10 * 10 := by gcongr <;> omega
      _ < 2 ^ 64 := by norm_num
  · intro j hj k hk hjk
    rw [hZ j hj, hZ k hk]
    exact lob_abs hp hp9 h (by omega) (by omega) (by omega)

theorem even_resolved {p : ℕ} (hp : 1 ≤ p) (hp9 : p ≤ 9) {a : ℕ → ℝ} {lob : Arr ℝ}
    (h : Quad.lobatto_nodes_1D (2 * p + 1) ⟨2 * p + 1, a⟩ = some lob) {Z : ℕ → ℝ} (hZ : ∀ v < p + 1, Z v = lob.val (2 * v))
    {i : ℕ} (hi : i < 2 * p + 1) : Resolved tol (p + 1) Z (lob.val i) := by
  intro j hj
  rw [hZ j hj]
  by_cases hij : 2 * j = i
  · left; rw [hij]
  · right
    have := lob_abs hp hp9 h (i := 2 * j) (j := i) (by omega) hi hij
    have := tol_pos
    linarith

theorem lob_size {n : ℕ} {a : ℕ → ℝ} {lob : Arr ℝ} (h : Quad.lobatto_nodes_1D n ⟨n, a⟩ = some lob) : lob.size = n := by
  unfold Quad.lobatto_nodes_1D Quad.assign at h
  refine loopM_inv h (fun _ (b : Arr ℝ) => b.size = n) rfl ?_
  intro i s s' hi hs e
  unfold Arr.set at e
  split at e
  · rw [← Option.some.inj e]; exact hs
  · exact absurd e (by simp)

/-! ### The vertex map -/

theorem nodeId_eq {n I J K : ℕ} (hn : n ^ 3 < 2 ^ 64) (hI : I < n) (hJ : J < n) (hK : K < n) :
    nodeId n I J K = I + J * n + K * n * n := Vtk.swageId_eq hn hI hJ hK

/-- Local node number of vertex `v`: the lattice point with doubled digits. -/
def evenNode (p v : ℕ) : ℕ :=
  2 * (v % (p + 1)) + 2 * (v / (p + 1) % (p + 1)) * (2 * p + 1) + 2 * (v / (p + 1) / (p + 1)) * (2 * p + 1) * (2 * p + 1)

theorem evenNode_lt {p v : ℕ} (hv : v < (p + 1) ^ 3) : evenNode p v < (2 * p + 1) ^ 3 := by
  obtain ⟨a, b, c⟩ := dig_lt (N := p + 1) (I := v) (lt_of_lt_of_eq hv (by ring))
  have := lex3_lt (n := 2 * p + 1) (m := 2 * p + 1) (l := 2 * p + 1) (i := 2 * (v % (p + 1))) (j := 2 * (v / (p + 1) % (p + 1)))
    (k := 2 * (v / (p + 1) / (p + 1))) (by omega) (by omega) (by omega)
  unfold evenNode
  exact lt_of_lt_of_eq this (by ring)

theorem vertNodeMap_spec {p : ℕ} (hp9 : p ≤ 9) (a : ℕ → ℕ) :
    ∃ r, vertNodeMap p (2 * p + 1) ⟨(p + 1) ^ 3, a⟩ = some r ∧ r.2.size = (p + 1) ^ 3 ∧
      ∀ v < (p + 1) ^ 3, r.2.val v = evenNode p v := by
  have hfit : (2 * p + 1) ^ 3 < 2 ^ 64 := by
    calc (2 * p + 1) ^ 3 ≤ 19 ^ 3 := by gcongr; omega
      _ < 2 ^ 64 := by norm_num
  obtain ⟨r, h1, h2, h3, h4⟩ := loopM3_spec (nk := p + 1) (nj := p + 1) (ni := p + 1)
    (body := fun k j i (s : ℕ × Arr ℕ) => do
      let map ← s.2.set s.1 (nodeId (2 * p + 1) (2 * i) (2 * j) (2 * k))
      pure (s.1 + 1, map)) (s := (0, (⟨(p + 1) ^ 3, a⟩ : Arr ℕ)))
    (fun c (s : ℕ × Arr ℕ) => s.1 = c ∧ s.2.size = (p + 1) ^ 3 ∧ ∀ v < c, s.2.val v = evenNode p v)
    ⟨rfl, rfl, fun v hv => absurd hv (Nat.not_lt_zero _)⟩ (by
      rintro k j i ⟨c, ⟨sz, f⟩⟩ hk hj hi ⟨e1, e2, e3⟩
      simp only [] at e1 e2 e3
      subst e2
      have hlt : i + j * (p + 1) + k * (p + 1) * (p + 1) < (p + 1) ^ 3 := lt_of_lt_of_eq (lex3_lt hi hj hk) (by ring)
      refine ⟨(c + 1, ⟨(p + 1) ^ 3, store f c (nodeId (2 * p + 1) (2 * i) (2 * j) (2 * k))⟩), ?_, by simp only []; omega, rfl, ?_⟩
      · show ((⟨(p + 1) ^ 3, f⟩ : Arr ℕ).set c _).bind _ = _
        rw [Arr.set_lt _ (show c < (p + 1) ^ 3 by rw [e1]; exact hlt), Option.bind_some]
        rfl
      · intro v hv
        simp only []
        by_cases hvc : v = c
        · subst hvc
          rw [store_same, nodeId_eq hfit (by omega) (by omega) (by omega)]
          obtain ⟨m0, m1, m2⟩ := lex3_mod (k := k) hi hj
          unfold evenNode
          rw [e1, m0, m1, m2]
        · rw [store_ne _ _ hvc]; exact e3 v (by omega))
  exact ⟨r, h1, h3, fun v hv => h4 v (lt_of_lt_of_eq hv (by ring))⟩

theorem vertCoords_spec {p : ℕ} {map : Arr ℕ} {lob : Arr ℝ} (hs : map.size = (p + 1) ^ 3)
    (hm : ∀ v < (p + 1) ^ 3, map.val v = evenNode p v) (hl : lob.size = 2 * p + 1) (a : ℕ → ℝ) :
    ∃ z, vertCoords (p + 1) map lob ⟨p + 1, a⟩ = some z ∧ ∀ v < p + 1, z.val v = lob.val (2 * v) := by
  have hle : p + 1 ≤ (p + 1) ^ 3 := Nat.le_self_pow (by norm_num) _
  have he : ∀ v < p + 1, evenNode p v = 2 * v := by
    intro v hv
    unfold evenNode
    rw [Nat.mod_eq_of_lt hv, Nat.div_eq_of_lt hv]; simp
  obtain ⟨z, h1, h2, h3⟩ := loopM_spec (n := p + 1) (body := fun v (z : Arr ℝ) => do
      let m ← map.get v
      let x ← lob.get m
      Arr.set z v x) (s := ⟨p + 1, a⟩) (fun m (z : Arr ℝ) => z.size = p + 1 ∧ ∀ v < m, z.val v = lob.val (2 * v))
    ⟨rfl, fun v hv => absurd hv (Nat.not_lt_zero _)⟩ (by
      rintro m ⟨sz, f⟩ hm' ⟨e1, e2⟩
      simp only [] at e1 e2
      subst e1
      have hmv := hm m (by omega)
      rw [he m hm'] at hmv
      refine ⟨⟨p + 1, store f m (lob.val (2 * m))⟩, ?_, rfl, ?_⟩
      · show (map.get m).bind _ = _
        rw [Arr.get_lt (by rw [hs]; omega), Option.bind_some, hmv]
        show (lob.get (2 * m)).bind _ = _
        rw [Arr.get_lt (by rw [hl]; omega), Option.bind_some]
        exact Arr.set_lt _ (by exact hm')
      · intro v hv
        simp only []
        by_cases hvm : v = m
        · subst hvm; rw [store_same]
        · rw [store_ne _ _ hvm]; exact e2 v (by omega))
  exact ⟨z, h1, h3⟩

/-! ### Well-formed meshes -/

/-- `nodes_in_elem` has a row of `stride` entries per element, of which the first `w` are node ids below `num_nodes`. -/
structure WellFormed (m : Mesh) (w : ℕ) : Prop where
  size : m.nodes.size = m.numElems * m.stride
  row : w ≤ m.stride
  ids : ∀ e < m.numElems, ∀ l < w, m.nodes.val (e * m.stride + l) < m.coords.size

/-- `nodes_in_elem(e, l)`. -/
def Mesh.node (m : Mesh) (e l : ℕ) : ℕ := m.nodes.val (e * m.stride + l)

/-- `node_coords(nodes_in_elem(e, l), d)`. -/
def Mesh.pos (m : Mesh) (e l d : ℕ) : ℝ := m.coords.val (m.node e l) d

theorem WellFormed.get {m : Mesh} {w : ℕ} (W : WellFormed m w) {e l : ℕ} (he : e < m.numElems) (hl : l < w) :
    m.nodes.get (e * m.stride + l) = some (m.node e l) := by
  apply Arr.get_lt
  rw [W.size]
  calc e * m.stride + l < e * m.stride + m.stride := by have := W.row; omega
    _ = (e + 1) * m.stride := by ring
    _ ≤ _ := Nat.mul_le_mul_right _ he

theorem verts_spec {V e w : ℕ} {m : Mesh} (W : WellFormed m w) (he : e < m.numElems) (idx : ℕ → ℕ) (hidx : ∀ v < V, idx v < w)
    (get : ℕ → Option ℕ) (hget : ∀ v < V, get v = some (idx v)) (s : Verts) (h1 : s.vx.size = V) (h2 : s.vy.size = V)
    (h3 : s.vz.size = V) :
    ∃ r : Verts, loopM V (fun v (s : Verts) => do
        let id ← get v
        let g ← m.nodes.get (e * m.stride + id)
        let x ← m.coords.get g
        let vx ← s.vx.set v (x 0)
        let vy ← s.vy.set v (x 1)
        let vz ← s.vz.set v (x 2)
        pure (⟨vx, vy, vz⟩ : Verts)) s = some r ∧ r.vx.size = V ∧ r.vy.size = V ∧ r.vz.size = V ∧
      ∀ v < V, r.vx.val v = m.pos e (idx v) 0 ∧ r.vy.val v = m.pos e (idx v) 1 ∧ r.vz.val v = m.pos e (idx v) 2 := by
  apply loopM_spec (fun t (r : Verts) => r.vx.size = V ∧ r.vy.size = V ∧ r.vz.size = V ∧
      ∀ v < t, r.vx.val v = m.pos e (idx v) 0 ∧ r.vy.val v = m.pos e (idx v) 1 ∧ r.vz.val v = m.pos e (idx v) 2)
  · exact ⟨h1, h2, h3, fun v hv => absurd hv (Nat.not_lt_zero _)⟩
  · rintro t ⟨⟨a, fa⟩, ⟨b, fb⟩, ⟨c, fc⟩⟩ ht ⟨e1, e2, e3, e4⟩
    simp only [] at e1 e2 e3 e4
    subst e1
    subst e2
    subst e3
    refine ⟨⟨⟨c, store fa t (m.pos e (idx t) 0)⟩, ⟨c, store fb t (m.pos e (idx t) 1)⟩, ⟨c, store fc t (m.pos e (idx t) 2)⟩⟩, ?_,
      rfl, rfl, rfl, ?_⟩
    · show (get t).bind _ = _
      rw [hget t ht, Option.bind_some]
      show (m.nodes.get (e * m.stride + idx t)).bind _ = _
      rw [W.get he (hidx t ht), Option.bind_some]
      show (m.coords.get (m.node e (idx t))).bind _ = _
      rw [Arr.get_lt (show m.node e (idx t) < m.coords.size from W.ids e he _ (hidx t ht)), Option.bind_some]
      show ((⟨c, fa⟩ : Arr ℝ).set t _).bind _ = _
      rw [Arr.set_lt _ (by exact ht), Option.bind_some]
      show ((⟨c, fb⟩ : Arr ℝ).set t _).bind _ = _
      rw [Arr.set_lt _ (by exact ht), Option.bind_some]
      show ((⟨c, fc⟩ : Arr ℝ).set t _).bind _ = _
      rw [Arr.set_lt _ (by exact ht), Option.bind_some]
      rfl
    · intro v hv
      simp only []
      by_cases h : v = t
      · subst h; simp only [store_same, and_self]
      · rw [store_ne _ _ h, store_ne _ _ h, store_ne _ _ h]; exact e4 v (by omega)

/-! ### The main loop -/

/-- The map of element `e`: the interpolant of degree `p` of the positions of its nodes with even lattice numbers, at
every second Lobatto node. -/
noncomputable def elemMap (m : Mesh) (L : ℕ → ℝ) (e a : ℕ) : (ℕ → ℝ) → ℝ :=
  interp (m.order + 1) (fun v => L (2 * v)) (fun v => m.pos e (evenNode m.order v) a)

/-- Node and value of the `t`-th store. -/
noncomputable def wrNode (m : Mesh) (G t : ℕ) : ℕ := m.node (t / G) (t % G)
noncomputable def wrVal (m : Mesh) (n G : ℕ) (L : ℕ → ℝ) (t : ℕ) : ℝ := jacDet (elemMap m L (t / G)) (refPt n L (t % G))

/-- After `T` stores: the last store to a node decides; entries of other nodes are as before. -/
def Stored (node : ℕ → ℕ) (val : ℕ → ℝ) (d0 : ℕ → ℝ) (T : ℕ) (d : ℕ → ℝ) : Prop :=
  (∀ t < T, (∀ t', t < t' → t' < T → node t' ≠ node t) → d (node t) = val t) ∧ ∀ g, (∀ t < T, node t ≠ g) → d g = d0 g

theorem Stored.step {node : ℕ → ℕ} {val d0 d : ℕ → ℝ} {T : ℕ} (h : Stored node val d0 T d) :
    Stored node val d0 (T + 1) (store d (node T) (val T)) := by
  refine ⟨fun t ht hlast => ?_, fun g hg => ?_⟩
  · by_cases htT : t = T
    · subst htT; rw [store_same]
    · rw [store_ne _ _ (fun hh => hlast T (by omega) (by omega) hh.symm)]
      exact h.1 t (by omega) fun t' h1 h2 => hlast t' h1 (by omega)
  · rw [store_ne _ _ (fun hh => hg T (by omega) hh.symm)]
    exact h.2 g fun t ht => hg t (by omega)

/-- Main run: what `gauss_pt_det_j` contains. -/
theorem evaluate_run (m : Mesh) (hp : 1 ≤ m.order) (hp9 : m.order ≤ 9) (W : WellFormed m ((2 * m.order + 1) ^ 3)) (det : Arr ℝ)
    (hdet : m.coords.size ≤ det.size) (q : Junk) :
    ∃ r lob, evaluate m det q = some r ∧ Quad.lobatto_nodes_1D (2 * m.order + 1) ⟨2 * m.order + 1, q.lob⟩ = some lob ∧
      r.size = det.size ∧
      Stored (wrNode m ((2 * m.order + 1) ^ 3)) (wrVal m (2 * m.order + 1) ((2 * m.order + 1) ^ 3) lob.val) det.val
        ((2 * m.order + 1) ^ 3 * m.numElems) r.val := by
  obtain ⟨lob, hl⟩ := assign_some (2 * m.order + 1) q.lob
  obtain ⟨map, hm1, hm2, hm3⟩ := vertNodeMap_spec hp9 q.map
  obtain ⟨z, hz1, hz2⟩ := vertCoords_spec hm2 hm3 (lob_size hl) q.z
  set p := m.order with hpdef
  set n := 2 * p + 1 with hn
  have hn0 : 0 < n := by omega
  have hn3 : 0 < n ^ 3 := by positivity
  have hfit : n * n * n < 2 ^ 64 := by
    calc n * n * n ≤ 19 * 19 * 19 := by gcongr <;> omega
      _ < 2 ^ 64 := by norm_num
  have hsep := even_separated hp hp9 hl hz2
  set G := n ^ 3 with hG
  obtain ⟨s, hs1, hs2⟩ := loopM_spec (n := m.numElems) (body := fun e (s : St) => do
      let vs ← elemVerts m map.2 ((p + 1) ^ 3) e s.verts
      loopM G (detAt m (p + 1) n z.val lob q.jac e) ⟨vs, s.work, s.det⟩)
    (s := ⟨⟨⟨(p + 1) ^ 3, q.vx⟩, ⟨(p + 1) ^ 3, q.vy⟩, ⟨(p + 1) ^ 3, q.vz⟩⟩, q.work, det⟩)
    (fun e (s : St) => s.verts.vx.size = (p + 1) ^ 3 ∧ s.verts.vy.size = (p + 1) ^ 3 ∧ s.verts.vz.size = (p + 1) ^ 3 ∧
      s.det.size = det.size ∧ Stored (wrNode m G) (wrVal m n G lob.val) det.val (G * e) s.det.val)
    ⟨rfl, rfl, rfl, rfl, fun t ht => absurd ht (by simp), fun g _ => rfl⟩ (by
      rintro e ⟨vs, C, d⟩ he ⟨e1, e2, e3, e4, e5⟩
      simp only [] at e1 e2 e3 e4 e5
      obtain ⟨r, hr, r1, r2, r3, r4⟩ := verts_spec (V := (p + 1) ^ 3) W he (evenNode p) (fun v hv => evenNode_lt hv)
        map.2.get (fun v hv => by rw [Arr.get_lt (by rw [hm2]; exact hv), hm3 v hv]) vs e1 e2 e3
      obtain ⟨s', t1, t2, t3, t4⟩ := loopM_spec (n := G) (body := detAt m (p + 1) n z.val lob q.jac e) (s := ⟨r, C, d⟩)
        (fun l (s : St) => s.verts = r ∧ s.det.size = det.size ∧
          Stored (wrNode m G) (wrVal m n G lob.val) det.val (G * e + l) s.det.val) ⟨rfl, e4, e5⟩ (by
          rintro l ⟨vs', C', ⟨dz, dv⟩⟩ hl' ⟨f1, f2, f3⟩
          simp only [] at f1 f2 f3
          subst f1
          have hl3 : l < n * n * n := lt_of_lt_of_eq hl' (by rw [hG]; ring)
          obtain ⟨d1, d2, d3⟩ := dig_lt hl3
          have hdiv : (G * e + l) / G = e := by rw [Nat.mul_add_div hn3, Nat.div_eq_of_lt hl', Nat.add_zero]
          have hmod : (G * e + l) % G = l := by rw [Nat.mul_add_mod, Nat.mod_eq_of_lt hl']
          have hX : ∀ c < 3, Resolved tol (p + 1) z.val (refPt n lob.val l c) := by
            intro c hc
            unfold refPt pt
            interval_cases c
            · exact even_resolved hp hp9 hl hz2 d1
            · exact even_resolved hp hp9 hl hz2 d2
            · exact even_resolved hp hp9 hl hz2 d3
          have hval : (evalDetJac tol (p + 1) z.val C' vs'.vx.val vs'.vy.val vs'.vz.val (refPt n lob.val l) (q.jac e l)).1 =
              wrVal m n G lob.val (G * e + l) := by
            rw [detJac_eq hsep hX C' _ _ _ (q.jac e l) (fun a v => m.pos e (evenNode p v) a)
              (fun v hv => (r4 v hv).1) (fun v hv => (r4 v hv).2.1) (fun v hv => (r4 v hv).2.2)]
            unfold wrVal
            rw [hdiv, hmod]
            exact jacDet_congr (fun a _ => interp_congr hz2 fun v _ => rfl) _
          have hnode : m.node e l = wrNode m G (G * e + l) := by unfold wrNode; rw [hdiv, hmod]
          set R := evalDetJac tol (p + 1) z.val C' vs'.vx.val vs'.vy.val vs'.vz.val (refPt n lob.val l) (q.jac e l) with hR
          refine ⟨⟨vs', R.2, ⟨dz, store dv (m.node e l) R.1⟩⟩, ?_, rfl, f2, ?_⟩
          · unfold detAt
            show (digits n l).bind _ = _
            rw [digits_eq hn0 hfit hl3, Option.bind_some]
            show (lob.get (l % n)).bind _ = _
            rw [Arr.get_lt (by rw [lob_size hl]; exact d1), Option.bind_some]
            show (lob.get (l / n % n)).bind _ = _
            rw [Arr.get_lt (by rw [lob_size hl]; exact d2), Option.bind_some]
            show (lob.get (l / n / n)).bind _ = _
            rw [Arr.get_lt (by rw [lob_size hl]; exact d3), Option.bind_some]
            show (m.nodes.get (e * m.stride + l)).bind _ = _
            rw [W.get he hl', Option.bind_some]
            show ((⟨dz, dv⟩ : Arr ℝ).set (m.node e l) R.1).bind _ = _
            rw [Arr.set_lt _ (show m.node e l < dz by
              rw [f2]; exact lt_of_lt_of_le (W.ids e he l hl') hdet), Option.bind_some]
            rfl
          · simp only []
            rw [hval, hnode]
            exact f3.step)
      refine ⟨s', ?_, ?_, ?_, ?_, t3, ?_⟩
      · show (elemVerts m map.2 ((p + 1) ^ 3) e vs).bind _ = _
        rw [show elemVerts m map.2 ((p + 1) ^ 3) e vs = some r from hr, Option.bind_some]
        exact t1
      · rw [t2]; exact r1
      · rw [t2]; exact r2
      · rw [t2]; exact r3
      · rw [Nat.mul_succ]; exact t4)
  refine ⟨s.det, lob, ?_, hl, hs2.2.2.2.1, hs2.2.2.2.2⟩
  unfold evaluate
  show (vertNodeMap p n ⟨(p + 1) ^ 3, q.map⟩).bind _ = _
  rw [hm1, Option.bind_some]
  show (Quad.lobatto_nodes_1D n ⟨n, q.lob⟩).bind _ = _
  rw [hl, Option.bind_some]
  show (vertCoords (p + 1) map.2 lob ⟨p + 1, q.z⟩).bind _ = _
  rw [hz1, Option.bind_some]
  show (loopM m.numElems _ _).bind _ = _
  rw [hs1]
  rfl

end Verif.DetJac
