import Verif.Average.SetupMesh

/-!
# C77: from the mesh file to the boundary sets
-/

namespace Verif.Average
open Verif.Swage Verif.Swage.Refine

/-- `nodes_in_cell(c, l)` of the mesh. -/
def Mesh.node (m : Mesh) (c l : ℕ) : ℕ := m.nodesInCell.val (c * 8 + l)

/-- Mean position of the four nodes of side `w` of cell `c`. -/
noncomputable def Mesh.sideMean (m : Mesh) (c w d : ℕ) : ℝ :=
  (m.coords.val (nodeInPatchInCell m.node c w 0) d + m.coords.val (nodeInPatchInCell m.node c w 1) d +
    m.coords.val (nodeInPatchInCell m.node c w 2) d + m.coords.val (nodeInPatchInCell m.node c w 3) d) / 4

/-- Node `n` lies on a boundary side of the mesh (a side with the nodes of no other side) that meets the condition `b`. -/
def Mesh.OnBoundary (m : Mesh) (b : Bdy) (n : ℕ) : Prop :=
  ∃ c < m.cells, ∃ w < 6, Key.BdySide m.cells m.node c w ∧ Key.checkBdy (m.sideMean c w) b.surface b.value ∧
    ∃ j < 4, nodeInPatchInCell m.node c w j = n

/-- What the routines of the example need: node-to-cell lists as in C35, valid element tables that cover the mesh, no isolated
node, and different nodes at different positions. -/
structure Mesh.Ready (m : Mesh) : Prop where
  ok : m.Ok
  elemOk : m.ElemOk
  covered : m.Covered
  noIsolated : ∀ n < m.nodes, m.cellsOf n ≠ []
  coordsSize : m.coords.size = m.nodes
  separate : ∀ n < m.nodes, ∀ n' < m.nodes, (∀ d < 3, m.coords.val n d = m.coords.val n' d) → n = n'

theorem checkBdy_plane {y : ℕ → ℝ} {d : ℕ} (hd : d < 3) (v : ℝ) : Key.checkBdy y d v ↔ |y d - v| ≤ 1 / 10 ^ 8 := by
  unfold Key.checkBdy
  have : d = 0 ∨ d = 1 ∨ d = 2 := by omega
  rcases this with rfl | rfl | rfl <;> simp

/-- The setup for a grid mesh. -/
theorem setup_spec (E N p : ℕ) (hp : p ≤ 5) (nodes : ℕ → ℕ → ℕ) (x : ℕ → ℕ → ℝ) (X : ℕ → ℤ → ℝ)
    (pos : ℕ → ℕ → ℤ) (hL : Key.Grid E N nodes x X pos) (hsmall : ∃ d < 3, X d (pos (E - 1) d + 1) - X d (pos (E - 1) d) ≤ 7)
    (hfirst : ∀ c < E, ∀ l < 8, nodes c l = nodes 0 0 → c = 0 ∧ l = 0)
    (hshare : ∃ c < E, ∃ c' < E, c' ≠ c ∧ Share 8 nodes c c') (boundary : List Bdy) (q : SetupJunk) :
    ∃ m, setup E N p nodes x boundary q = some m ∧ m.Ready ∧ m.elems = E ∧ m.cells = E * numSub p ^ 3 ∧
      (∀ b < boundary.length, m.SetOk b ∧ ∀ n, m.OnSet b n ↔ m.OnBoundary (boundary.getD b ⟨0, 0⟩) n) ∧
      ∃ t : ℕ → ℝ, (∀ i < pts1d p, t i = (1 + (Quad.lobNodes (pts1d p)).getD i 0) / 2) ∧ t 0 = 0 ∧ t (numSub p) = 1 ∧ (∀ i < numSub p, 1 / 35 ≤ t (i + 1) - t i) ∧
        Key.Grid m.cells m.nodes m.node m.coords.val (fineX (numSub p) X t) (finePos (numSub p) pos) := by
  obtain ⟨r, hr, R, t, tv, t0, t1, tg, hplace, hG⟩ := refined_grid E N p hp nodes x X pos hL hsmall hfirst q.refine
  obtain ⟨q1, q2, q3, q4⟩ := run_counts R
  have hSub : numSub p = sub1d p := rfl
  have hS := sub_pos p
  have hE := hL.ne
  have hP : 0 < pts1d p := by have := sub_pts p; omega
  obtain ⟨c0, i1, -⟩ := buildCells_spec E N nodes x q.init hL.valid hshare
  obtain ⟨cc, a1, a2, a3⟩ := buildCells_spec (E * sub1d p ^ 3) r.numNodes r.cellNode r.x q.conn hG.valid (fine_share hL hG hshare)
  obtain ⟨el, b1, b2⟩ := buildElems_spec E (pts1d p ^ 3) r.numNodes (E * sub1d p ^ 3) (by positivity)
    (Nat.le_mul_of_pos_right _ (by positivity)) ⟨r.nig.size, fun i => (r.nig.val i).toNat⟩ R.nig_size (fun y hy => by
      have := R.nig_range y hy
      show (r.nig.val y).toNat < _
      omega) q.conn
  obtain ⟨bs, d1, d2⟩ := generateBcs_spec (E * sub1d p ^ 3) r.cellNode _ r.x _ _ _ _ _ _ cc.patches a3 boundary q.bdy q.set1 q.set2 q.set3
  obtain ⟨k, k1, k2, -⟩ := Key.C38_grid_partial hG q.conn.dist q.conn.dist0 q.conn.paTable q.conn.paCells q.conn.paSides
    q.conn.paNodes q.conn.paCell q.conn.paSide
  obtain rfl : k = cc.patches := Option.some.inj (k1.symm.trans a3)
  obtain ⟨k', k1', -, kr, -⟩ := C38_patches_partial (E * sub1d p ^ 3) r.cellNode (Key.key (E * sub1d p ^ 3) r.numNodes r.cellNode r.x
    q.conn.dist q.conn.dist0) q.conn.paTable q.conn.paCells q.conn.paSides q.conn.paNodes q.conn.paCell q.conn.paSide
  obtain rfl : k' = cc.patches := Option.some.inj (k1'.symm.trans a3)
  obtain ⟨m1, m2, m3, m4⟩ := mesh_ready R hG.valid cc el bs a2 b2
  have hcells : (meshOf E r cc el bs).cells = E * sub1d p ^ 3 := q1
  have hsep : ∀ n < r.numNodes, ∀ n' < r.numNodes, (∀ d < 3, r.coords.val n d = r.coords.val n' d) → n = n' := by
    intro n hn n' hn' hx
    have hin : ∀ n < r.numNodes, ∃ c < E * sub1d p ^ 3, ∃ l < 8, r.cellNode c l = n := by
      intro n hn
      obtain ⟨g, hg, e1, -⟩ := R.coords n hn
      obtain ⟨c, hc, l, hl, e⟩ := gauss_cell R hg
      exact ⟨c, hc, l, hl, by rw [e, e1, Int.toNat_natCast]⟩
    obtain ⟨c, hc, l, hl, rfl⟩ := hin n hn
    obtain ⟨c', hc', l', hl', rfl⟩ := hin n' hn'
    exact hG.conform c hc l hl c' hc' l' hl' hx
  refine ⟨meshOf E r cc el bs, ?_, ⟨m1, m2, m3, m4, R.coords_size, hsep⟩, rfl, hcells, ?_, t, tv, t0, t1, tg, ?_⟩
  · unfold setup
    rw [if_pos hE, i1]
    show (some ()).bind _ = _
    rw [Option.bind_some]
    show (refineMesh E N p nodes x q.refine).bind _ = _
    rw [hr, Option.bind_some]
    show (buildCells r.counts.numCells _ _ _ _).bind _ = _
    rw [q1, a1, Option.bind_some]
    show (buildElems E r.counts.gPts _ _ _ _).bind _ = _
    rw [q4, b1, Option.bind_some]
    show (generateBcs _ _ _ _ _ _ _).bind _ = _
    rw [d1, Option.bind_some]
    rfl
  · intro b hb
    obtain ⟨L, l1, l2, l3, l4⟩ := d2 b hb
    have hmean : ∀ c w, (meshOf E r cc el bs).sideMean c w = Key.sideCoord r.cellNode r.x c w := by
      intro c w
      funext d
      rw [Key.sideCoord_eq]
      rfl
    constructor
    · refine ⟨L.length, l1, fun i hi => ⟨L[i], l2 i hi, fun j hj => ?_⟩⟩
      obtain ⟨hg, c, hc, w, hw, -, -, hn, -⟩ := (l4 L[i]).1 (List.getElem_mem hi)
      exact ⟨_, hn j hj, hG.valid c hc _ (Key.table_lt w hw j hj)⟩
    · intro n
      constructor
      · rintro ⟨k, hk, i, hi, g, hg, j, hj, hn⟩
        have hk : bs.num.get b = some k := hk
        have hg : bs.inSet b i = some g := hg
        have hn : cc.patches.nodeInPatch g j = some (n : ℤ) := hn
        rw [l1] at hk
        obtain rfl := Option.some.inj hk
        rw [l2 i hi] at hg
        obtain rfl := Option.some.inj hg
        obtain ⟨-, c, hc, w, hw, h1, h2, h3, h4⟩ := (l4 L[i]).1 (List.getElem_mem hi)
        rw [h3 j hj] at hn
        refine ⟨c, by rw [hcells]; exact hc, w, hw, ?_, by rw [hmean]; exact h4, j, hj, by exact_mod_cast Option.some.inj hn⟩
        rw [hcells]
        intro c' hc' w' hw' hs
        exact h2 c' hc' w' hw' (((k2 c' hc' w' hw' c hc w hw).2 hs).trans h1)
      · rintro ⟨c, hc, w, hw, h1, h2, j, hj, rfl⟩
        rw [hcells] at hc h1
        rw [hmean] at h2
        obtain ⟨r1, r2⟩ := kr c hc w hw
        obtain ⟨g, hg⟩ : ∃ g : ℕ, cc.patches.inCell c w = g := ⟨(cc.patches.inCell c w).toNat, by omega⟩
        have huniq : ∀ c' < E * sub1d p ^ 3, ∀ w' < 6, cc.patches.inCell c' w' = (g : ℤ) → c' = c ∧ w' = w := by
          intro c' hc' w' hw' h
          exact h1 c' hc' w' hw' ((k2 c' hc' w' hw' c hc w hw).1 (h.trans hg.symm))
        have hnodes : ∀ q < 4, cc.patches.nodeInPatch g q = some (nodeInPatchInCell r.cellNode c w q : ℤ) := by
          obtain ⟨k3, e3, -, -, -, -, hp3⟩ := C38_patches_partial (E * sub1d p ^ 3) r.cellNode
            (Key.key (E * sub1d p ^ 3) r.numNodes r.cellNode r.x q.conn.dist q.conn.dist0) q.conn.paTable q.conn.paCells
            q.conn.paSides q.conn.paNodes q.conn.paCell q.conn.paSide
          obtain rfl : k3 = cc.patches := Option.some.inj (e3.symm.trans a3)
          obtain ⟨a, L', s1, -, -, s4, -⟩ := hp3 g (by omega)
          have ha : a ∈ sidesOf cc.patches (E * sub1d p ^ 3) g := by rw [s1]; simp
          unfold sidesOf at ha
          rw [List.mem_filter, List.mem_range, decide_eq_true_eq] at ha
          obtain ⟨u1, u2⟩ := huniq (a / 6) (by omega) (a % 6) (by omega) ha.2
          intro q hq
          rw [s4 q hq, u1, u2]
        have hmem : g ∈ L := (l4 g).2 ⟨by omega, c, hc, w, hw, hg, huniq, hnodes, h2⟩
        obtain ⟨i, hi, e⟩ := List.getElem_of_mem hmem
        exact ⟨L.length, l1, i, hi, g, by rw [← e]; exact l2 i hi, j, hj, hnodes j hj⟩
  · rw [hcells]; exact hG

/-- **C77 (setup).**  For every mesh whose cells are different cells of a rectilinear grid with conforming nodes, the last cell being
at most 3% thicker than any other in each direction, every order up to 5 and every content of the allocated memory, the setup of the example (connectivity of the initial mesh, `refine_mesh`,
connectivity of the refined mesh, `generate_bcs`) runs without undefined behaviour and gives a mesh that meets the assumptions of
the smoothing and output routines (C54, C55, C75); boundary set `b` consists of the nodes of the boundary sides that meet
condition `b`; and for a condition that is a plane bounding the domain these are exactly the nodes of the mesh on the plane.
(Missing from the full claim, because it is false: `C77_single_negation`, and C38, C42, C71 for other meshes.) -/
theorem C77_setup_partial (E N p : ℕ) (hp : p ≤ 5) (nodes : ℕ → ℕ → ℕ) (x : ℕ → ℕ → ℝ) (X : ℕ → ℤ → ℝ)
    (pos : ℕ → ℕ → ℤ) (hL : Key.Grid E N nodes x X pos) (hsmall : ∃ d < 3, X d (pos (E - 1) d + 1) - X d (pos (E - 1) d) ≤ 7)
    (hfirst : ∀ c < E, ∀ l < 8, nodes c l = nodes 0 0 → c = 0 ∧ l = 0)
    (hshare : ∃ c < E, ∃ c' < E, c' ≠ c ∧ Share 8 nodes c c') (boundary : List Bdy) (q : SetupJunk) :
    ∃ m, setup E N p nodes x boundary q = some m ∧ m.Ready ∧ m.elems = E ∧ m.cells = E * numSub p ^ 3 ∧
      (∀ b < boundary.length, m.SetOk b ∧ ∀ n, m.OnSet b n ↔ m.OnBoundary (boundary.getD b ⟨0, 0⟩) n) ∧
      ∀ b (hb : b < boundary.length), ∀ d < 3, boundary[b].surface = d →
        1 / 10 ^ 6 ≤ X d (pos (E - 1) d + 1) - X d (pos (E - 1) d) → ∀ z : ℤ,
        (∀ e < E, z ≤ pos e d) ∨ (∀ e < E, pos e d < z) → boundary[b].value = X d z →
        ∀ n, m.OnSet b n ↔ n < m.nodes ∧ m.coords.val n d = boundary[b].value := by
  obtain ⟨m, h1, h2, h3, h4, h5, t, -, t0, t1, tg, hG⟩ := setup_spec E N p hp nodes x X pos hL hsmall hfirst hshare boundary q
  refine ⟨m, h1, h2, h3, h4, h5, fun b hb d hd hsurf hs z hz hval n => ?_⟩
  have hS : 0 < numSub p := sub_pos p
  have hS' : (0 : ℤ) < numSub p := by exact_mod_cast hS
  have hget : boundary.getD b ⟨0, 0⟩ = boundary[b] := by simp [hb]
  have hX : fineX (numSub p) X t d (z * numSub p) = X d z := by
    have := fineX_eq hS (X := X) t0 t1 d z (Nat.zero_le _)
    rw [t0] at this
    simpa using this
  have hb' : Key.Bounds m.cells (finePos (numSub p) pos) d (z * numSub p) := by
    have hel : ∀ c < m.cells, cellElem (numSub p) c < E := by
      intro c hc
      rw [h4] at hc
      unfold cellElem
      exact Nat.div_lt_of_lt_mul (by rw [show numSub p * numSub p * numSub p * E = E * numSub p ^ 3 by ring]; exact hc)
    have hdg : ∀ c, cellDig (numSub p) c d < numSub p := by
      intro c
      unfold cellDig
      refine dig_lt (Nat.mod_lt _ hS) (Nat.mod_lt _ hS) ?_
      rw [Nat.div_lt_iff_lt_mul (by positivity)]
      have := Nat.mod_lt c (show 0 < numSub p * numSub p * numSub p by positivity)
      rw [← Nat.mul_assoc]; exact this
    rcases hz with hz | hz
    · left
      intro c hc
      have := hz _ (hel c hc)
      have := mul_le_mul_of_nonneg_right this hS'.le
      unfold finePos
      omega
    · right
      intro c hc
      have h6 := hz _ (hel c hc)
      have h7 : (pos (cellElem (numSub p) c) d + 1) * numSub p ≤ z * numSub p := mul_le_mul_of_nonneg_right h6 hS'.le
      have h8 := hdg c
      rw [add_mul, one_mul] at h7
      unfold finePos
      omega
  have hgap : (1 : ℝ) / 10 ^ 8 < (fineX (numSub p) X t d (finePos (numSub p) pos (m.cells - 1) d + 1) -
      fineX (numSub p) X t d (finePos (numSub p) pos (m.cells - 1) d)) / 2.06 := by
    have hE := hL.ne
    have hlast : finePos (numSub p) pos (m.cells - 1) d / (numSub p : ℤ) = pos (E - 1) d := by
      have h6 : 0 < E * numSub p ^ 3 := by positivity
      have h7 : cellElem (numSub p) (m.cells - 1) = E - 1 := by
        unfold cellElem
        rw [h4]
        obtain ⟨E', rfl⟩ : ∃ E', E = E' + 1 := ⟨E - 1, by omega⟩
        have h8 : 0 < numSub p * numSub p * numSub p := by positivity
        rw [show (E' + 1) * numSub p ^ 3 - 1 = (numSub p * numSub p * numSub p - 1) + (numSub p * numSub p * numSub p) * E' by
          have : (E' + 1) * numSub p ^ 3 = numSub p * numSub p * numSub p + (numSub p * numSub p * numSub p) * E' := by ring
          omega, Nat.add_mul_div_left _ _ h8, Nat.div_eq_of_lt (by omega)]
        omega
      have hdg : cellDig (numSub p) (m.cells - 1) d < numSub p := by
        unfold cellDig
        refine dig_lt (Nat.mod_lt _ hS) (Nat.mod_lt _ hS) ?_
        rw [Nat.div_lt_iff_lt_mul (by positivity)]
        have := Nat.mod_lt (m.cells - 1) (show 0 < numSub p * numSub p * numSub p by positivity)
        rw [← Nat.mul_assoc]; exact this
      unfold finePos
      rw [h7, add_comm, Int.add_mul_ediv_right _ _ hS'.ne', Int.ediv_eq_zero_of_lt (by omega) (by omega), zero_add]
    obtain ⟨i, hi, e⟩ := fineX_gap hS (X := X) t0 t1 d (finePos (numSub p) pos (m.cells - 1) d)
    rw [e, hlast]
    have : (1 : ℝ) / 10 ^ 6 * (1 / 35) ≤ (X d (pos (E - 1) d + 1) - X d (pos (E - 1) d)) * (t (i + 1) - t i) :=
      mul_le_mul hs (tg i hi) (by norm_num) (by linarith [hL.incr d hd (pos (E - 1) d)])
    rw [lt_div_iff₀ (by norm_num)]
    norm_num at this ⊢
    linarith
  have hP := hG.plane hd hb' (by norm_num) hgap n
  rw [(h5 b hb).2 n, hget]
  unfold Mesh.OnBoundary
  rw [hval, hsurf]
  rw [hX] at hP
  have hnode : (∃ c < m.cells, ∃ l < 8, m.node c l = n) ↔ n < m.nodes := by
    constructor
    · rintro ⟨c, hc, l, hl, rfl⟩; exact hG.valid c hc l hl
    · intro hn
      obtain ⟨c, hc⟩ := List.exists_mem_of_ne_nil _ (h2.noIsolated n hn)
      obtain ⟨h7, l, hl, e⟩ := mem_cellsOf.1 hc
      exact ⟨c, h7, l, hl, e⟩
  rw [hnode] at hP
  rw [← hP]
  refine exists_congr fun c => and_congr_right fun _ => exists_congr fun w => and_congr_right fun _ => and_congr_right fun _ => ?_
  rw [checkBdy_plane hd, Key.sideCoord_eq]
  rfl

/-- **C77 (one cell).**  For a mesh file in which no two different cells share a node (in particular with one cell) the behaviour of
the setup is undefined. -/
theorem C77_single_negation (E N p : ℕ) (hE : 0 < E) (nodes : ℕ → ℕ → ℕ) (x : ℕ → ℕ → ℝ) (hv : ∀ c < E, ∀ l < 8, nodes c l < N)
    (hno : ¬ ∃ c < E, ∃ c' < E, c' ≠ c ∧ Share 8 nodes c c') (boundary : List Bdy) (q : SetupJunk) :
    setup E N p nodes x boundary q = none := by
  unfold setup
  rw [if_pos hE, buildCells_none E N nodes x q.init hv hno]
  rfl

/-- The hypotheses of `C77_setup_partial` hold for two unit cubes between `x = 0` and `x = 2`. -/
example : ∃ X pos, Key.Grid 2 12 Key.duoNodes (Key.duoCoords 1) X pos ∧ (∃ d < 3, X d (pos 1 d + 1) - X d (pos 1 d) ≤ 7) ∧
    (∀ c < 2, ∀ l < 8, Key.duoNodes c l = Key.duoNodes 0 0 → c = 0 ∧ l = 0) ∧
    (∃ c < 2, ∃ c' < 2, c' ≠ c ∧ Share 8 Key.duoNodes c c') ∧ 1 / 10 ^ 6 ≤ X 0 (pos 1 0 + 1) - X 0 (pos 1 0) ∧
    (∀ e < 2, (0 : ℤ) ≤ pos e 0) ∧ (∀ e < 2, pos e 0 < 2) ∧ X 0 0 = 0 ∧ X 0 2 = 2 :=
  ⟨_, _, Key.duo_lattice.grid, ⟨0, by omega, by norm_num⟩, by decide,
    ⟨0, by omega, 1, by omega, by omega, 1, by omega, 0, by omega, by decide⟩, by norm_num, by decide, by decide, by norm_num, by norm_num⟩

/-- The hypotheses of `C77_single_negation` hold for a mesh of one cell. -/
example : (∀ c < 1, ∀ l < 8, (fun _ l => l) c l < 8) ∧ ¬ ∃ c < 1, ∃ c' < 1, c' ≠ c ∧ Share 8 (fun _ l => l) c c' :=
  ⟨fun _ _ l hl => hl, by rintro ⟨c, hc, c', hc', h, -⟩; omega⟩

end Verif.Average
