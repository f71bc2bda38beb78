import Verif.Vtk.MapTheorems

/-!
# C51: writing and reading grids
-/

namespace Verif.Vtk
open Verif.Common

/-- Number of vertices of an element of order `p`. -/
abbrev nVerts (p : ℕ) : ℕ := (p + 1) ^ 3

/-- The global number of vertex `v` of element `e`. -/
def Mesh.node (m : Mesh) (e v : ℕ) : ℕ := m.nodesInElem.val (e * m.stride + v)

/-- The position of node `n`. -/
def Mesh.pos (m : Mesh) (n : ℕ) : ℝ × ℝ × ℝ := (m.coords.val (n * 3 + 0), m.coords.val (n * 3 + 1), m.coords.val (n * 3 + 2))

/-- A mesh as set up by `init_nodes` and `init_element` whose elements name existing nodes. -/
structure Mesh.OK (m : Mesh) : Prop where
  coords : m.coords.size = m.numNodes * 3
  stride : m.stride = (Swage.Refine.initElement m.order 3 m.numElems).gPts
  list : m.nodesInElem.size = m.numElems * m.stride
  node : ∀ e < m.numElems, ∀ v < nVerts m.order, m.node e v < m.numNodes

/-- A grid of VTK with cells of order `p` which name existing points. -/
structure Grid.OK (g : Grid) (p : ℕ) : Prop where
  types : ∀ t ∈ g.types, t = VTK_LAGRANGE_HEXAHEDRON ∨ t = VTK_TRIQUADRATIC_HEXAHEDRON
  size : ∀ c ∈ g.cells, c.size = nVerts p
  ids : ∀ c ∈ g.cells, ∀ i < nVerts p, c.val i < g.pts.size

theorem nVerts_le (p E : ℕ) : nVerts p ≤ (Swage.Refine.initElement p 3 E).gPts := by
  show (p + 1) ^ 3 ≤ Swage.Refine.pts1d p ^ 3
  refine Nat.pow_le_pow_left ?_ 3
  unfold Swage.Refine.pts1d
  split <;> omega

theorem row_lt {E S e v : ℕ} (he : e < E) (hv : v < S) : e * S + v < E * S := by
  have : (e + 1) * S ≤ E * S := Nat.mul_le_mul_right _ he
  rw [Nat.add_mul] at this; omega

/-- What has been stored after the first `t` vertices of the double loop. -/
structure Written (fl : ℝ → ℝ) (m : Mesh) (sv : ℕ → ℕ → ℝ) (jpts : ℕ → ℝ × ℝ × ℝ) (jsol : ℕ → ℝ) (t : ℕ) (pts : Arr (ℝ × ℝ × ℝ)) (sol : Arr ℝ) :
    Prop where
  ps : pts.size = m.numNodes
  ss : sol.size = m.numNodes
  hit : ∀ e < m.numElems, ∀ v < nVerts m.order, nVerts m.order * e + v < t → pts.val (m.node e v) = keep fl (m.pos (m.node e v))
  miss : ∀ n, (∀ e < m.numElems, ∀ v < nVerts m.order, nVerts m.order * e + v < t → m.node e v ≠ n) →
    pts.val n = jpts n ∧ sol.val n = jsol n
  last : ∀ e < m.numElems, ∀ v < nVerts m.order, nVerts m.order * e + v < t →
    (∀ e' < m.numElems, ∀ v' < nVerts m.order, nVerts m.order * e' + v' < t → nVerts m.order * e + v < nVerts m.order * e' + v' →
      m.node e' v' ≠ m.node e v) → sol.val (m.node e v) = sv e v

theorem flat_inj {w e v e' v' : ℕ} (hv : v < w) (hv' : v' < w) (h : w * e + v = w * e' + v') : e = e' ∧ v = v' := by
  have h1 : (w * e + v) / w = e := by rw [Nat.mul_add_div (by omega), Nat.div_eq_of_lt hv, Nat.add_zero]
  have h2 : (w * e' + v') / w = e' := by rw [Nat.mul_add_div (by omega), Nat.div_eq_of_lt hv', Nat.add_zero]
  have : e = e' := by rw [← h1, ← h2, h]
  subst this
  exact ⟨rfl, by omega⟩

theorem writeVert_spec {fl : ℝ → ℝ} {m : Mesh} (hm : m.OK) {map : Arr ℕ} (hs : map.size = nVerts m.order) (hf : ∀ v < nVerts m.order, map.val v < nVerts m.order)
    {solution : Arr ℝ} {cols : ℕ} (hc : nVerts m.order ≤ cols) (hz : solution.size = m.numElems * cols) {jpts : ℕ → ℝ × ℝ × ℝ} {jsol : ℕ → ℝ}
    {e v : ℕ} (he : e < m.numElems) (hv : v < nVerts m.order) {s : Wr}
    (h : Written fl m (fun e v => solution.val (e * cols + v)) jpts jsol (nVerts m.order * e + v) s.pts s.sol) (hh : s.hex.size = nVerts m.order) :
    ∃ pts sol, writeVert fl m map solution cols e v s = some ⟨pts, sol, ⟨nVerts m.order, store s.hex.val (map.val v) (m.node e v)⟩, s.cells⟩ ∧
      Written fl m (fun e v => solution.val (e * cols + v)) jpts jsol (nVerts m.order * e + v + 1) pts sol := by
  obtain ⟨⟨pz, pv⟩, ⟨sz, sv⟩, ⟨xz, xv⟩, cells⟩ := s
  have hps := h.ps
  have hss := h.ss
  simp only [] at hps hss hh
  subst hps hss hh
  have hn := hm.node e he v hv
  have hst : v < m.stride := by rw [hm.stride]; exact lt_of_lt_of_le hv (nVerts_le _ _)
  refine ⟨⟨m.numNodes, store pv (m.node e v) (keep fl (m.pos (m.node e v)))⟩, ⟨m.numNodes, store sv (m.node e v) (solution.val (e * cols + v))⟩, ?_, ?_⟩
  · unfold writeVert
    simp only [Option.bind_eq_bind]
    rw [Arr.get_lt (show e * m.stride + v < m.nodesInElem.size by rw [hm.list]; exact row_lt he hst), Option.bind_some]
    rw [show m.nodesInElem.val (e * m.stride + v) = m.node e v from rfl]
    rw [Arr.get_lt (by rw [hm.coords]; omega), Option.bind_some,
      Arr.get_lt (show m.node e v * 3 + 1 < m.coords.size by rw [hm.coords]; omega), Option.bind_some,
      Arr.get_lt (show m.node e v * 3 + 2 < m.coords.size by rw [hm.coords]; omega), Option.bind_some, Arr.set_lt _ (show _ < m.numNodes from hn), Option.bind_some,
      Arr.get_lt (show v < map.size by omega), Option.bind_some, Arr.set_lt _ (show map.val v < nVerts m.order from hf v hv),
      Option.bind_some, Arr.get_lt (show e * cols + v < solution.size by rw [hz]; exact row_lt he (by omega)), Option.bind_some,
      Arr.set_lt _ (show m.node e v < m.numNodes from hn), Option.bind_some]
    rfl
  · refine ⟨rfl, rfl, ?_, ?_, ?_⟩
    · intro e' he' v' hv' hlt
      show store _ _ _ _ = _
      by_cases hk : m.node e' v' = m.node e v
      · rw [hk, store_same]
      · rw [store_ne _ _ hk]
        refine h.hit e' he' v' hv' ?_
        rcases Nat.lt_succ_iff_lt_or_eq.1 hlt with h2 | h2
        · exact h2
        · obtain ⟨rfl, rfl⟩ := flat_inj hv' hv h2; exact absurd rfl hk
    · intro n hno
      have hk : n ≠ m.node e v := (hno e he v hv (by omega)).symm
      show store _ _ _ _ = _ ∧ store _ _ _ _ = _
      rw [store_ne _ _ hk, store_ne _ _ hk]
      exact h.miss n fun e' he' v' hv' hlt => hno e' he' v' hv' (by omega)
    · intro e' he' v' hv' hlt hlast
      show store _ _ _ _ = _
      rcases Nat.lt_succ_iff_lt_or_eq.1 hlt with h2 | h2
      · rw [store_ne _ _ (hlast e he v hv (by omega) h2).symm]
        exact h.last e' he' v' hv' h2 fun e'' he'' v'' hv'' hlt'' h3 => hlast e'' he'' v'' hv'' (by omega) h3
      · obtain ⟨rfl, rfl⟩ := flat_inj hv' hv h2
        rw [store_same]

/-- **C51 (writing).**  For every mesh whose elements name existing nodes and every solution array, `init_vtk_grid` stays in bounds and gives
a grid with one Lagrange hexahedron per element: the point with VTK's number of `(I, J, K)` is the node at `(I, J, K)`, the points
are the nodes, and the data at a node is the solution at the last element vertex that is this node.  Points in no element are never set. -/
theorem C51_write (fl : ℝ → ℝ) (V : PointIndex) (m : Mesh) (hm : m.OK) (hp : nVerts m.order < 2 ^ 31) (hV : Numbering V m.order) (solution : Arr ℝ)
    (cols : ℕ) (hc : nVerts m.order ≤ cols) (hz : solution.size = m.numElems * cols) (jpts : ℕ → ℝ × ℝ × ℝ) (jsol : ℕ → ℝ)
    (jhex jmap : ℕ → ℕ) :
    ∃ g : Grid, initVtkGrid fl V m solution cols jpts jsol jhex jmap = some g ∧ g.OK m.order ∧
      g.pts.size = m.numNodes ∧ g.sol.size = m.numNodes ∧ g.cells.length = m.numElems ∧ g.types.length = m.numElems ∧
      (∀ t ∈ g.types, t = VTK_LAGRANGE_HEXAHEDRON) ∧
      (∀ e < m.numElems, ∃ c, g.cells[e]? = some c ∧ c.size = nVerts m.order ∧ ∀ I J K, I ≤ m.order → J ≤ m.order → K ≤ m.order →
        c.val (V m.order I J K) = m.node e (I + J * (m.order + 1) + K * (m.order + 1) * (m.order + 1))) ∧
      (∀ e < m.numElems, ∀ v < nVerts m.order, g.pts.val (m.node e v) = keep fl (m.pos (m.node e v))) ∧
      (∀ e < m.numElems, ∀ v < nVerts m.order, (∀ e' < m.numElems, ∀ v' < nVerts m.order, e < e' ∨ e = e' ∧ v < v' →
        m.node e' v' ≠ m.node e v) → g.sol.val (m.node e v) = solution.val (e * cols + v)) ∧
      ∀ n, (∀ e < m.numElems, ∀ v < nVerts m.order, m.node e v ≠ n) → g.pts.val n = jpts n ∧ g.sol.val n = jsol n := by
  obtain ⟨f, r, e1, -, fs, -, key, fr, rf⟩ := C51_maps V m.order hp hV jmap jmap
  obtain ⟨s, e2, hW, hs, hl, hcl⟩ := loopM_spec (n := m.numElems) (body := fun e (s : Wr) => do
      let s ← loopM (nVerts m.order) (writeVert fl m f solution cols e) s
      pure (⟨s.pts, s.sol, s.hex, s.cells ++ [s.hex]⟩ : Wr))
    (s := ⟨⟨m.numNodes, jpts⟩, ⟨m.numNodes, jsol⟩, ⟨nVerts m.order, jhex⟩, []⟩)
    (fun e (s : Wr) => Written fl m (fun e v => solution.val (e * cols + v)) jpts jsol (nVerts m.order * e) s.pts s.sol ∧
      s.hex.size = nVerts m.order ∧ s.cells.length = e ∧
      ∀ e' < e, ∃ c, s.cells[e']? = some c ∧ c.size = nVerts m.order ∧ ∀ v < nVerts m.order, c.val (f.val v) = m.node e' v)
    ⟨⟨rfl, rfl, fun _ _ _ _ h => by omega, fun _ _ => ⟨rfl, rfl⟩, fun _ _ _ _ h => by omega⟩, rfl, rfl, fun _ h => by omega⟩
    (by
      intro e s he ⟨hW, hs, hl, hcl⟩
      obtain ⟨s', e3, hW', hs', hh', hc'⟩ := loopM_spec (n := nVerts m.order) (body := writeVert fl m f solution cols e) (s := s)
        (fun v (s' : Wr) => Written fl m (fun e v => solution.val (e * cols + v)) jpts jsol (nVerts m.order * e + v) s'.pts s'.sol ∧
          s'.hex.size = nVerts m.order ∧ (∀ v' < v, s'.hex.val (f.val v') = m.node e v') ∧ s'.cells = s.cells)
        ⟨hW, hs, fun _ h => by omega, rfl⟩
        (by
          intro v s' hv ⟨k1, k2, k3, k4⟩
          obtain ⟨pts, sol, w1, w2⟩ := writeVert_spec hm fs (fun v hv => (fr v hv).1) hc hz he hv k1 k2
          refine ⟨_, w1, w2, rfl, ?_, k4⟩
          intro v' hv'
          show store _ _ _ _ = _
          by_cases h : v' = v
          · rw [h, store_same]
          · have hv'' : v' < v := by omega
            rw [store_ne _ _ fun hk => h (by rw [← (fr v' (hv''.trans hv)).2, hk, (fr v hv).2])]
            exact k3 v' (by omega))
      refine ⟨⟨s'.pts, s'.sol, s'.hex, s'.cells ++ [s'.hex]⟩, ?_, ?_, hs', ?_, ?_⟩
      · simp only [Option.bind_eq_bind]
        rw [e3]; rfl
      · rw [Nat.mul_succ]; exact hW'
      · simp [hc', hl]
      · intro e' he'
        simp only [hc']
        rcases Nat.lt_succ_iff_lt_or_eq.1 he' with h | h
        · rw [List.getElem?_append_left (by omega)]
          exact hcl e' h
        · subst h
          refine ⟨s'.hex, ?_, hs', hh'⟩
          rw [List.getElem?_append_right (by omega), hl]; simp)
  have cells : ∀ e < m.numElems, ∃ c, s.cells[e]? = some c ∧ c.size = nVerts m.order ∧ ∀ v < nVerts m.order, c.val (f.val v) = m.node e v := hcl
  have ft : ∀ e < m.numElems, ∀ v < nVerts m.order, nVerts m.order * e + v < nVerts m.order * m.numElems := fun e he v hv => by
    have := row_lt (S := nVerts m.order) he hv
    rw [Nat.mul_comm, Nat.mul_comm _ m.numElems]; exact this
  refine ⟨⟨s.pts, s.cells, s.cells.map fun _ => VTK_LAGRANGE_HEXAHEDRON, s.sol⟩, ?_, ⟨?_, ?_, ?_⟩, hW.ps, hW.ss, hl, by simp [hl], ?_, ?_, ?_, ?_, ?_⟩
  · unfold initVtkGrid
    show (makeMap V m.order false _).bind _ = _
    rw [e1, Option.bind_some]
    show (loopM _ _ _).bind _ = _
    rw [e2]; rfl
  · intro t ht
    exact Or.inl (by simpa using (List.mem_map.1 ht).choose_spec.2.symm)
  · intro c hc
    obtain ⟨e, he, rfl⟩ := List.mem_iff_getElem.1 hc
    obtain ⟨c', h1, h2, -⟩ := cells e (lt_of_lt_of_eq he hl)
    rw [List.getElem?_eq_getElem he] at h1
    injection h1 with h1
    rw [h1]; exact h2
  · intro c hc i hi
    obtain ⟨e, he, rfl⟩ := List.mem_iff_getElem.1 hc
    obtain ⟨c', h1, h2, h3⟩ := cells e (lt_of_lt_of_eq he hl)
    rw [List.getElem?_eq_getElem he] at h1
    injection h1 with h1
    show _ < s.pts.size
    rw [h1, hW.ps, ← (rf i hi).2, h3 _ (rf i hi).1]
    exact hm.node e (lt_of_lt_of_eq he hl) _ (rf i hi).1
  · intro t ht
    exact (by simpa using (List.mem_map.1 ht).choose_spec.2.symm)
  · intro e he
    obtain ⟨c, h1, h2, h3⟩ := cells e he
    refine ⟨c, h1, h2, fun I J K hI hJ hK => ?_⟩
    have hv : I + J * (m.order + 1) + K * (m.order + 1) * (m.order + 1) < nVerts m.order := by
      rw [show nVerts m.order = (m.order + 1) * (m.order + 1) * (m.order + 1) by unfold nVerts; ring]
      exact lex3_lt (by omega) (by omega) (by omega)
    rw [← h3 _ hv, (key I J K hI hJ hK).1]
  · exact fun e he v hv => hW.hit e he v hv (ft e he v hv)
  · intro e he v hv h
    refine hW.last e he v hv (ft e he v hv) fun e' he' v' hv' _ hlt => h e' he' v' hv' ?_
    by_contra hno
    push Not at hno
    rcases Nat.lt_or_ge e' e with h2 | h2
    · have := Nat.mul_le_mul_left (nVerts m.order) h2
      rw [Nat.mul_succ] at this; omega
    · have : e = e' := by omega
      subst this
      have := hno.2 rfl
      omega
  · exact fun n hn => hW.miss n fun e he v hv _ => hn e he v hv

/-- What the two reading loops do. -/
theorem read_spec {V : PointIndex} {p : ℕ} (hp : nVerts p < 2 ^ 31) (hV : Numbering V p) (g : Grid) (hg : g.OK p) (jc : ℕ → ℝ)
    (jl jmap : ℕ → ℕ) :
    ∃ m : Mesh, initSwageMesh V p g jc jl jmap = some (Except.ok m) ∧ m.OK ∧ m.order = p ∧ m.numNodes = g.pts.size ∧
      m.numElems = g.cells.length ∧ (∀ n < g.pts.size, m.pos n = g.pts.val n) ∧
      ∀ e, (h : e < g.cells.length) → ∀ I J K, I ≤ p → J ≤ p → K ≤ p →
        m.node e (I + J * (p + 1) + K * (p + 1) * (p + 1)) = g.cells[e].val (V p I J K) := by
  obtain ⟨f, r, -, e1, -, rs, key, fr, rf⟩ := C51_maps V p hp hV jmap jmap
  have hbad : badCell g.types = none := by
    unfold badCell
    rw [List.findIdx?_eq_none_iff]
    intro t ht
    rcases hg.types t ht with h | h <;> simp [h]
  obtain ⟨co, e2, cs, cv⟩ : ∃ co : Arr ℝ, readCoords g ⟨g.pts.size * 3, jc⟩ = some co ∧ co.size = g.pts.size * 3 ∧
      ∀ n < g.pts.size, co.val (n * 3 + 0) = (g.pts.val n).1 ∧ co.val (n * 3 + 1) = (g.pts.val n).2.1 ∧
        co.val (n * 3 + 2) = (g.pts.val n).2.2 := by
    unfold readCoords
    refine loopM_spec (fun k (a : Arr ℝ) => a.size = g.pts.size * 3 ∧ ∀ n < k, a.val (n * 3 + 0) = (g.pts.val n).1 ∧
      a.val (n * 3 + 1) = (g.pts.val n).2.1 ∧ a.val (n * 3 + 2) = (g.pts.val n).2.2) ⟨rfl, fun _ h => by omega⟩ ?_
    rintro k ⟨z, a⟩ hk ⟨a1, a2⟩
    simp only [] at a1 a2
    subst a1
    refine ⟨⟨g.pts.size * 3, store (store (store a (k * 3 + 0) (g.pts.val k).1) (k * 3 + 1) (g.pts.val k).2.1) (k * 3 + 2)
      (g.pts.val k).2.2⟩, ?_, rfl, ?_⟩
    · simp only [Option.bind_eq_bind]
      rw [Arr.get_lt hk, Option.bind_some, Arr.set_lt _ (show _ < _ * 3 by omega), Option.bind_some, Arr.set_lt _ (show _ < _ * 3 by omega),
        Option.bind_some, Arr.set_lt _ (show _ < _ * 3 by omega)]
    · intro n hn
      rcases Nat.lt_succ_iff_lt_or_eq.1 hn with h | h
      · simp only []
        rw [store_ne _ _ (by omega), store_ne _ _ (by omega), store_ne _ _ (by omega), store_ne _ _ (by omega), store_ne _ _ (by omega),
          store_ne _ _ (by omega), store_ne _ _ (by omega), store_ne _ _ (by omega), store_ne _ _ (by omega)]
        exact a2 n h
      · subst h
        simp only []
        rw [store_ne _ _ (by omega), store_ne _ _ (by omega), store_same, store_ne _ _ (by omega), store_same, store_same]
        exact ⟨rfl, rfl, rfl⟩
  have hstr := nVerts_le p g.cells.length
  obtain ⟨S, hS⟩ : ∃ S, S = (Swage.Refine.initElement p 3 g.cells.length).gPts := ⟨_, rfl⟩
  rw [← hS] at hstr
  obtain ⟨li, e3, ls, lv⟩ : ∃ li : Arr ℕ, readCells g r (nVerts p) S ⟨g.cells.length * S, jl⟩ = some li ∧
      li.size = g.cells.length * S ∧ ∀ e, (h : e < g.cells.length) → ∀ i < nVerts p, li.val (e * S + r.val i) = g.cells[e].val i := by
    unfold readCells
    obtain ⟨li, a1, a2, a3⟩ := loopM2_spec (n := g.cells.length) (w := nVerts p) (body := fun e i (a : Arr ℕ) => do
        let ids ← g.cells[e]?
        let gid ← ids.get i
        let v ← r.get i
        Arr.set a (e * S + v) gid) (s := ⟨g.cells.length * S, jl⟩)
      (fun t (a : Arr ℕ) => a.size = g.cells.length * S ∧ ∀ e, (h : e < g.cells.length) → ∀ i < nVerts p, nVerts p * e + i < t →
        a.val (e * S + r.val i) = g.cells[e].val i) ⟨rfl, fun _ _ _ _ h => by omega⟩ (by
          rintro e i ⟨z, a⟩ he hi ⟨a1, a2⟩
          simp only [] at a1 a2
          subst a1
          have hr : r.val i < S := lt_of_lt_of_le (rf i hi).1 hstr
          refine ⟨⟨g.cells.length * S, store a (e * S + r.val i) (g.cells[e].val i)⟩, ?_, rfl, ?_⟩
          · simp only [Option.bind_eq_bind]
            rw [List.getElem?_eq_getElem he, Option.bind_some,
              Arr.get_lt (show i < g.cells[e].size by rw [hg.size _ (List.getElem_mem he)]; exact hi), Option.bind_some,
              Arr.get_lt (by rw [rs]; exact hi), Option.bind_some, Arr.set_lt _ (show _ < g.cells.length * S from row_lt he hr)]
          · intro e' he' i' hi' hlt
            show store _ _ _ _ = _
            by_cases h : e' = e ∧ i' = i
            · obtain ⟨rfl, rfl⟩ := h; rw [store_same]
            · have hr' : r.val i' < S := lt_of_lt_of_le (rf i' hi').1 hstr
              rw [store_ne]
              · refine a2 e' he' i' hi' ?_
                rcases Nat.lt_succ_iff_lt_or_eq.1 hlt with h2 | h2
                · exact h2
                · exact absurd (flat_inj hi' hi h2) h
              · intro hk
                rw [Nat.mul_comm e', Nat.mul_comm e] at hk
                obtain ⟨k1, k2⟩ := flat_inj hr' hr hk
                exact h ⟨k1, by rw [← (rf i' hi').2, k2, (rf i hi).2]⟩)
    refine ⟨li, a1, a2, fun e h i hi => a3 e h i hi ?_⟩
    have := row_lt (S := nVerts p) h hi
    rw [Nat.mul_comm, Nat.mul_comm (nVerts p) g.cells.length]; exact this
  have lf : ∀ e, (h : e < g.cells.length) → ∀ v < nVerts p, li.val (e * S + v) = g.cells[e].val (f.val v) := by
    intro e h v hv
    rw [← lv e h _ (fr v hv).1, (fr v hv).2]
  refine ⟨⟨p, g.pts.size, co, g.cells.length, S, li⟩, ?_, ⟨cs, hS, ls, ?_⟩, rfl, rfl, rfl, ?_, ?_⟩
  · unfold initSwageMesh
    show (readCoords g _).bind _ = _
    rw [e2, Option.bind_some, hbad]
    show (makeMap V p true _).bind _ = _
    rw [e1, Option.bind_some, ← hS]
    show (readCells g r (nVerts p) S _).bind _ = _
    rw [e3]; rfl
  · intro e he v hv
    show li.val (e * S + v) < _
    rw [lf e he v hv]
    exact hg.ids _ (List.getElem_mem he) _ (fr v hv).1
  · intro n hn
    obtain ⟨h1, h2, h3⟩ := cv n hn
    unfold Mesh.pos
    simp only []
    rw [h1, h2, h3]
  · intro e he I J K hI hJ hK
    have hv : I + J * (p + 1) + K * (p + 1) * (p + 1) < nVerts p := by
      rw [show nVerts p = (p + 1) * (p + 1) * (p + 1) by unfold nVerts; ring]
      exact lex3_lt (by omega) (by omega) (by omega)
    show li.val (e * S + _) = _
    rw [lf e he _ hv, (key I J K hI hJ hK).1]

/-- **C51 (reading).**  For every grid of hexahedra of order `p` which name existing points, `init_swage_mesh` stays in bounds and gives a
mesh with the points as nodes, whose vertex `(I, J, K)` of an element is the point with VTK's number of `(I, J, K)`. -/
theorem C51_read (V : PointIndex) (p : ℕ) (hp : nVerts p < 2 ^ 31) (hV : Numbering V p) (g : Grid) (hg : g.OK p) (jc : ℕ → ℝ)
    (jl jmap : ℕ → ℕ) :
    ∃ m : Mesh, initSwageMesh V p g jc jl jmap = some (Except.ok m) ∧ m.OK ∧ m.order = p ∧ m.numNodes = g.pts.size ∧
      m.numElems = g.cells.length ∧ (∀ n < g.pts.size, m.pos n = g.pts.val n) ∧
      ∀ e, (h : e < g.cells.length) → ∀ I J K, I ≤ p → J ≤ p → K ≤ p →
        m.node e (I + J * (p + 1) + K * (p + 1) * (p + 1)) = g.cells[e].val (V p I J K) :=
  read_spec hp hV g hg jc jl jmap

/-- **C51 (cell types).**  A grid with a cell that is neither a Lagrange nor a triquadratic hexahedron is rejected: the exception names the
first such cell. -/
theorem C51_reject (V : PointIndex) (p : ℕ) (g : Grid) (jc : ℕ → ℝ) (jl jmap : ℕ → ℕ) (c : ℕ) (hc : c < g.types.length)
    (hb : g.types[c] ≠ VTK_LAGRANGE_HEXAHEDRON ∧ g.types[c] ≠ VTK_TRIQUADRATIC_HEXAHEDRON)
    (hf : ∀ c', (h : c' < c) → g.types[c'] = VTK_LAGRANGE_HEXAHEDRON ∨ g.types[c'] = VTK_TRIQUADRATIC_HEXAHEDRON) :
    initSwageMesh V p g jc jl jmap = some (Except.error c) := by
  have hbad : badCell g.types = some c := by
    unfold badCell
    rw [List.findIdx?_eq_some_iff_getElem]
    refine ⟨hc, by simpa using hb, fun j hj => ?_⟩
    rcases hf j hj with h | h <;> simp [h]
  obtain ⟨co, e⟩ : ∃ co, readCoords g ⟨g.pts.size * 3, jc⟩ = some co := by
    obtain ⟨co, e, -⟩ := loopM_spec (n := g.pts.size) (body := fun v (a : Arr ℝ) => do
      let x ← g.pts.get v
      let a ← Arr.set a (v * 3 + 0) x.1
      let a ← Arr.set a (v * 3 + 1) x.2.1
      Arr.set a (v * 3 + 2) x.2.2) (s := ⟨g.pts.size * 3, jc⟩) (fun _ (a : Arr ℝ) => a.size = g.pts.size * 3) rfl (by
        rintro k ⟨z, a⟩ hk a1
        simp only [] at a1
        subst a1
        refine ⟨⟨g.pts.size * 3, store (store (store a (k * 3 + 0) (g.pts.val k).1) (k * 3 + 1) (g.pts.val k).2.1) (k * 3 + 2)
          (g.pts.val k).2.2⟩, ?_, rfl⟩
        simp only [Option.bind_eq_bind]
        rw [Arr.get_lt hk, Option.bind_some, Arr.set_lt _ (show _ < _ * 3 by omega), Option.bind_some,
          Arr.set_lt _ (show _ < _ * 3 by omega), Option.bind_some, Arr.set_lt _ (show _ < _ * 3 by omega)])
    exact ⟨co, e⟩
  unfold initSwageMesh
  show (readCoords g _).bind _ = _
  rw [e, Option.bind_some, hbad]
  rfl

/-- A vertex number as lattice coordinates. -/
theorem vert_lex {p v : ℕ} (hv : v < nVerts p) :
    ∃ I J K, I ≤ p ∧ J ≤ p ∧ K ≤ p ∧ I + J * (p + 1) + K * (p + 1) * (p + 1) = v := by
  obtain ⟨a1, a2, a3, a4⟩ := lex3_surj (p := v) (n := p + 1) (m := p + 1) (l := p + 1)
    (by rw [show (p + 1) * (p + 1) * (p + 1) = nVerts p by unfold nVerts; ring]; exact hv)
  exact ⟨_, _, _, Nat.lt_succ_iff.1 a1, Nat.lt_succ_iff.1 a2, Nat.lt_succ_iff.1 a3, a4⟩

/-- **C51 (write, then read).**  Reading the grid written from a mesh restores the order, the counts, the connectivity and, as far as
the point array of VTK can hold them (`fl`), the coordinates of every node that belongs to an element.  Missing from the full claim: nodes
in no element, see `C51_orphan_negation`, and coordinates which are no single-precision numbers, see `C51_single_negation`. -/
theorem C51_roundtrip_partial (fl : ℝ → ℝ) (V : PointIndex) (m : Mesh) (hm : m.OK) (hp : nVerts m.order < 2 ^ 31) (hV : Numbering V m.order)
    (solution : Arr ℝ) (cols : ℕ) (hc : nVerts m.order ≤ cols) (hz : solution.size = m.numElems * cols) (jpts : ℕ → ℝ × ℝ × ℝ)
    (jsol : ℕ → ℝ) (jhex jmap : ℕ → ℕ) (jc : ℕ → ℝ) (jl jmap' : ℕ → ℕ) :
    ∃ (g : Grid) (m' : Mesh), initVtkGrid fl V m solution cols jpts jsol jhex jmap = some g ∧
      initSwageMesh V m.order g jc jl jmap' = some (Except.ok m') ∧ m'.OK ∧ m'.order = m.order ∧ m'.numNodes = m.numNodes ∧
      m'.numElems = m.numElems ∧ (∀ e < m.numElems, ∀ v < nVerts m.order, m'.node e v = m.node e v) ∧
      ∀ n, (∃ e < m.numElems, ∃ v < nVerts m.order, m.node e v = n) → m'.pos n = keep fl (m.pos n) := by
  obtain ⟨g, e1, hg, g1, -, g3, -, -, g6, g7, -, -⟩ := C51_write fl V m hm hp hV solution cols hc hz jpts jsol jhex jmap
  obtain ⟨m', e2, ok, o, n1, n2, n3, n4⟩ := C51_read V m.order hp hV g hg jc jl jmap'
  refine ⟨g, m', e1, e2, ok, o, by omega, by omega, ?_, ?_⟩
  · intro e he v hv
    obtain ⟨I, J, K, hI, hJ, hK, rfl⟩ := vert_lex hv
    obtain ⟨c, c1, -, c3⟩ := g6 e he
    have hl : e < g.cells.length := by omega
    rw [List.getElem?_eq_getElem hl] at c1
    injection c1 with c1
    rw [n4 e hl I J K hI hJ hK, c1, c3 I J K hI hJ hK]
  · rintro n ⟨e, he, v, hv, rfl⟩
    rw [n3 _ (by rw [g1]; exact hm.node e he v hv), g7 e he v hv]

/-- **C51 (nodes in no element: the claim fails).**  The coordinates of a node that belongs to no element are lost: after writing and
reading they are whatever the freshly allocated point array of VTK held. -/
theorem C51_orphan_negation (fl : ℝ → ℝ) (V : PointIndex) (m : Mesh) (hm : m.OK) (hp : nVerts m.order < 2 ^ 31) (hV : Numbering V m.order)
    (solution : Arr ℝ) (cols : ℕ) (hc : nVerts m.order ≤ cols) (hz : solution.size = m.numElems * cols) (jpts : ℕ → ℝ × ℝ × ℝ)
    (jsol : ℕ → ℝ) (jhex jmap : ℕ → ℕ) (jc : ℕ → ℝ) (jl jmap' : ℕ → ℕ) (n : ℕ) (hn : n < m.numNodes)
    (ho : ∀ e < m.numElems, ∀ v < nVerts m.order, m.node e v ≠ n) :
    ∃ (g : Grid) (m' : Mesh), initVtkGrid fl V m solution cols jpts jsol jhex jmap = some g ∧
      initSwageMesh V m.order g jc jl jmap' = some (Except.ok m') ∧ m'.pos n = jpts n := by
  obtain ⟨g, e1, hg, g1, -, -, -, -, -, -, -, g9⟩ := C51_write fl V m hm hp hV solution cols hc hz jpts jsol jhex jmap
  obtain ⟨m', e2, -, -, -, -, n3, -⟩ := C51_read V m.order hp hV g hg jc jl jmap'
  exact ⟨g, m', e1, e2, by rw [n3 n (by omega)]; exact (g9 n ho).1⟩

/-- The numbers with a significand of 24 bits: what a single-precision variable can hold at most. -/
def Single (x : ℝ) : Prop := ∃ m e : ℤ, |m| < 2 ^ 24 ∧ x = m * (2 : ℝ) ^ e

/-- **C51 (single precision: the claim fails).**  If the point array holds single-precision numbers, which is what `vtkNew<vtkPoints>` gives,
the position of a node with another coordinate is changed by writing and reading. -/
theorem C51_single_negation (fl : ℝ → ℝ) (hfl : ∀ x, Single (fl x)) (V : PointIndex) (m : Mesh) (hm : m.OK) (hp : nVerts m.order < 2 ^ 31)
    (hV : Numbering V m.order) (solution : Arr ℝ) (cols : ℕ) (hc : nVerts m.order ≤ cols) (hz : solution.size = m.numElems * cols)
    (jpts : ℕ → ℝ × ℝ × ℝ) (jsol : ℕ → ℝ) (jhex jmap : ℕ → ℕ) (jc : ℕ → ℝ) (jl jmap' : ℕ → ℕ) (n : ℕ)
    (hn : ∃ e < m.numElems, ∃ v < nVerts m.order, m.node e v = n) (hs : ¬ Single (m.pos n).1) :
    ∃ (g : Grid) (m' : Mesh), initVtkGrid fl V m solution cols jpts jsol jhex jmap = some g ∧
      initSwageMesh V m.order g jc jl jmap' = some (Except.ok m') ∧ m'.pos n ≠ m.pos n := by
  obtain ⟨g, m', e1, e2, -, -, -, -, -, h⟩ := C51_roundtrip_partial fl V m hm hp hV solution cols hc hz jpts jsol jhex jmap jc jl jmap'
  refine ⟨g, m', e1, e2, fun h2 => hs ?_⟩
  rw [← h2, h n hn]
  exact hfl _

/-- `2^24 + 1` is no single-precision number. -/
theorem not_single : ¬ Single 16777217 := by
  rintro ⟨m, e, hm, h⟩
  rcases lt_or_ge 0 e with he | he
  · obtain ⟨k, rfl⟩ : ∃ k : ℕ, e = k + 1 := ⟨(e - 1).toNat, by omega⟩
    have h1 : (16777217 : ℤ) = m * 2 ^ (k + 1) := by
      rw [show ((k : ℤ) + 1) = ((k + 1 : ℕ) : ℤ) by push_cast; ring, zpow_natCast] at h
      exact_mod_cast h
    rw [pow_succ, ← mul_assoc] at h1
    omega
  · obtain ⟨k, rfl⟩ : ∃ k : ℕ, e = -k := ⟨(-e).toNat, by omega⟩
    rw [zpow_neg, zpow_natCast] at h
    have h1 : (16777217 : ℤ) * 2 ^ k = m := by
      have : (2 : ℝ) ^ k ≠ 0 := by positivity
      field_simp at h
      exact_mod_cast h
    have h2 : (1 : ℤ) ≤ 2 ^ k := one_le_pow₀ (by norm_num)
    have := (abs_lt.1 hm).2
    omega

/-- **C51 (read, then write).**  Writing the mesh read from a grid restores every cell with its point ids and, as far as the point array
can hold them, every point used by a cell. -/
theorem C51_reverse (fl : ℝ → ℝ) (V : PointIndex) (p : ℕ) (hp : nVerts p < 2 ^ 31) (hV : Numbering V p) (g : Grid) (hg : g.OK p) (jc : ℕ → ℝ)
    (jl jmap : ℕ → ℕ) (solution : Arr ℝ) (cols : ℕ) (hc : nVerts p ≤ cols) (hz : solution.size = g.cells.length * cols)
    (jpts : ℕ → ℝ × ℝ × ℝ) (jsol : ℕ → ℝ) (jhex jmap' : ℕ → ℕ) :
    ∃ (m : Mesh) (g' : Grid), initSwageMesh V p g jc jl jmap = some (Except.ok m) ∧
      initVtkGrid fl V m solution cols jpts jsol jhex jmap' = some g' ∧ g'.cells.length = g.cells.length ∧ g'.pts.size = g.pts.size ∧
      ∀ e, (h : e < g.cells.length) → ∃ c, g'.cells[e]? = some c ∧ c.size = nVerts p ∧ ∀ i < nVerts p, c.val i = g.cells[e].val i ∧
        g'.pts.val (c.val i) = keep fl (g.pts.val (c.val i)) := by
  obtain ⟨m, e2, ok, rfl, n1, n2, n3, n4⟩ := C51_read V p hp hV g hg jc jl jmap
  obtain ⟨g', e1, hg', g1, -, g3, -, -, g6, g7, -, -⟩ := C51_write fl V m ok hp hV solution cols hc (by rw [hz, n2]) jpts jsol jhex jmap'
  refine ⟨m, g', e2, e1, by omega, by omega, fun e he => ?_⟩
  obtain ⟨c, c1, c2, c3⟩ := g6 e (by omega)
  refine ⟨c, c1, c2, fun i hi => ?_⟩
  obtain ⟨I, J, K, hI, hJ, hK, rfl⟩ := hV.surj hi
  have hv : I + J * (m.order + 1) + K * (m.order + 1) * (m.order + 1) < nVerts m.order := by
    rw [show nVerts m.order = (m.order + 1) * (m.order + 1) * (m.order + 1) by unfold nVerts; ring]
    exact lex3_lt hI hJ hK
  have h1 := c3 I J K (by omega) (by omega) (by omega)
  have h2 := n4 e he I J K (by omega) (by omega) (by omega)
  refine ⟨by rw [h1, h2], ?_⟩
  rw [h1, g7 e (by omega) _ hv, n3]
  rw [← n1]
  exact ok.node e (by omega) _ hv

/-- Non-vacuity: two unit cubes sharing a face, and one more node in no element. -/
def twoCubes : Mesh where
  order := 1
  numNodes := 13
  coords := ⟨39, fun i => i⟩
  numElems := 2
  stride := 27
  nodesInElem := ⟨54, fun i => if i < 27 then i % 8 else i % 27 % 8 + 4⟩

theorem twoCubes_ok : twoCubes.OK := by
  refine ⟨rfl, rfl, rfl, ?_⟩
  intro e he v hv
  have he : e < 2 := he
  have hv : v < 8 := hv
  show (if e * 27 + v < 27 then (e * 27 + v) % 8 else (e * 27 + v) % 27 % 8 + 4) < 13
  interval_cases e <;> interval_cases v <;> decide

example : ∃ (g : Grid) (m' : Mesh), initVtkGrid id hex8 twoCubes ⟨16, fun i => i⟩ 8 (fun _ => (7, 7, 7)) (fun _ => 0) (fun _ => 0) (fun _ => 0) = some g ∧
    initSwageMesh hex8 1 g (fun _ => 0) (fun _ => 0) (fun _ => 0) = some (Except.ok m') ∧ m'.node 1 5 = 9 ∧ m'.pos 9 = (27, 28, 29) ∧
    m'.pos 12 = (7, 7, 7) ∧ twoCubes.pos 12 = (36, 37, 38) := by
  obtain ⟨g, m', e1, e2, -, -, -, -, h1, h2⟩ := C51_roundtrip_partial id hex8 twoCubes twoCubes_ok (by norm_num [twoCubes]) hex8_numbering
    ⟨16, fun i => i⟩ 8 (by norm_num [twoCubes]) rfl (fun _ => (7, 7, 7)) (fun _ => 0) (fun _ => 0) (fun _ => 0) (fun _ => 0) (fun _ => 0) (fun _ => 0)
  obtain ⟨g', m'', e1', e2', h3⟩ := C51_orphan_negation id hex8 twoCubes twoCubes_ok (by norm_num [twoCubes]) hex8_numbering
    ⟨16, fun i => i⟩ 8 (by norm_num [twoCubes]) rfl (fun _ => (7, 7, 7)) (fun _ => 0) (fun _ => 0) (fun _ => 0) (fun _ => 0) (fun _ => 0) (fun _ => 0)
    12 (by norm_num [twoCubes]) (by
      intro e he v hv
      have he : e < 2 := he
      have hv : v < 8 := hv
      show (if e * 27 + v < 27 then (e * 27 + v) % 8 else (e * 27 + v) % 27 % 8 + 4) ≠ 12
      interval_cases e <;> interval_cases v <;> decide)
  rw [e1] at e1'
  injection e1' with e1'
  subst e1'
  rw [e2] at e2'
  injection e2' with e2'
  injection e2' with e2'
  subst e2'
  refine ⟨g, m', e1, e2, ?_, ?_, h3, ?_⟩
  · rw [h1 1 (by norm_num [twoCubes]) 5 (by norm_num [twoCubes])]; rfl
  · rw [h2 9 ⟨1, by norm_num [twoCubes], 5, by norm_num [twoCubes], rfl⟩]; norm_num [Mesh.pos, twoCubes, keep]
  · norm_num [Mesh.pos, twoCubes]

/-- Non-vacuity: the two cubes with a coordinate `2^24 + 1`, and a rounding to single precision. -/
noncomputable def toSingle : ℝ → ℝ := by
  classical exact fun x => if Single x then x else 0

theorem toSingle_single (x : ℝ) : Single (toSingle x) := by
  unfold toSingle
  split
  · assumption
  · exact ⟨0, 0, by norm_num, by norm_num⟩

example : ∃ (g : Grid) (m' : Mesh), initVtkGrid toSingle hex8 { twoCubes with coords := ⟨39, fun _ => 16777217⟩ } ⟨16, fun i => i⟩ 8
      (fun _ => (7, 7, 7)) (fun _ => 0) (fun _ => 0) (fun _ => 0) = some g ∧
    initSwageMesh hex8 1 g (fun _ => 0) (fun _ => 0) (fun _ => 0) = some (Except.ok m') ∧ m'.pos 9 ≠ (16777217, 16777217, 16777217) :=
  C51_single_negation toSingle toSingle_single hex8 { twoCubes with coords := ⟨39, fun _ => 16777217⟩ } ⟨rfl, rfl, rfl, twoCubes_ok.node⟩
    (by norm_num [twoCubes]) hex8_numbering ⟨16, fun i => i⟩ 8 (by norm_num [twoCubes]) rfl _ _ _ _ _ _ _ 9
    ⟨1, by norm_num [twoCubes], 5, by norm_num [twoCubes], rfl⟩ not_single

end Verif.Vtk
