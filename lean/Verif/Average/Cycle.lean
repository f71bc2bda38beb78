import Verif.Average.Smooth

/-!
# C54: `smooth_element`, `apply_boundary` and the cycle loop
-/

namespace Verif.Average
open Finset Verif.Swage

/-- Scatter loop: the entries `key x`, `x < E * w`, are set to `f (key x)`, the others are kept. -/
theorem scatter_spec {E w n : ℕ} {key : Arr ℕ} {F : ℕ → Option ℝ} {f : ℕ → ℝ} (hk : key.size = E * w) (hv : ∀ x < E * w, key.val x < n)
    (hF : ∀ c < n, F c = some (f c)) (a : Arr ℝ) (ha : a.size = n) :
    ∃ b : Arr ℝ, loopM E (fun e => loopM w fun i a => do
        let c ← key.get (e * w + i)
        let t ← F c
        Arr.set a c t) a = some b ∧ b.size = n ∧
      ∀ c < n, ((∃ x < E * w, key.val x = c) → b.val c = f c) ∧ ((∀ x < E * w, key.val x ≠ c) → b.val c = a.val c) := by
  obtain ⟨b, e, b1, b2⟩ := loopM2_spec (n := E) (w := w) (body := fun e i a => do
        let c ← key.get (e * w + i)
        let t ← F c
        Arr.set a c t) (s := a)
    (fun k b => b.size = n ∧ ∀ c < n, ((∃ x < k, key.val x = c) → b.val c = f c) ∧ ((∀ x < k, key.val x ≠ c) → b.val c = a.val c))
    ⟨ha, fun c _ => ⟨fun ⟨x, hx, _⟩ => by omega, fun _ => rfl⟩⟩ (by
      rintro e i ⟨M, v⟩ he hi ⟨g1, g2⟩
      simp only [] at g1 g2
      subst g1
      have hlt : e * w + i < E * w := by
        calc e * w + i < e * w + w := by omega
          _ = (e + 1) * w := by ring
          _ ≤ E * w := Nat.mul_le_mul_right _ he
      have hc := hv _ hlt
      refine ⟨⟨M, store v (key.val (e * w + i)) (f (key.val (e * w + i)))⟩, ?_, rfl, ?_⟩
      · simp only [Option.bind_eq_bind]
        rw [Arr.get_lt (by rw [hk]; exact hlt), Option.bind_some, hF _ hc, Option.bind_some, Arr.set_lt _ hc]
      · intro c hcn
        rw [Nat.mul_comm w e]
        show (_ → store v _ _ c = _) ∧ (_ → store v _ _ c = _)
        have := g2 c hcn
        rw [Nat.mul_comm w e] at this
        by_cases hcc : c = key.val (e * w + i)
        · rw [hcc, store_same]
          exact ⟨fun _ => rfl, fun hno => absurd rfl (hno (e * w + i) (by omega))⟩
        · rw [store_ne _ _ hcc]
          refine ⟨fun ⟨x, hx, hxc⟩ => this.1 ⟨x, ?_, hxc⟩, fun hno => this.2 fun x hx => hno x (by omega)⟩
          have : x ≠ e * w + i := by rintro rfl; exact hcc hxc.symm
          omega)
  rw [Nat.mul_comm w E] at b2
  exact ⟨b, e, b1, b2⟩

/-- The element tables are valid. -/
structure Mesh.ElemOk (m : Mesh) : Prop where
  cellSize : m.cellsInElem.size = m.elems * m.cellsPerElem
  cellLt : ∀ x < m.elems * m.cellsPerElem, m.cellsInElem.val x < m.cells
  nodeSize : m.nodesInElem.size = m.elems * m.nodesPerElem
  nodeLt : ∀ x < m.elems * m.nodesPerElem, m.nodesInElem.val x < m.nodes

/-- The elements cover the cells and the nodes. -/
structure Mesh.Covered (m : Mesh) : Prop where
  cell : ∀ c < m.cells, ∃ x < m.elems * m.cellsPerElem, m.cellsInElem.val x = c
  node : ∀ n < m.nodes, ∃ x < m.elems * m.nodesPerElem, m.nodesInElem.val x = n

theorem smoothElement_spec (m : Mesh) (h : m.Ok) (he : m.ElemOk) (s : State) (h1 : s.node.size = m.nodes) (h2 : s.cell.size = m.cells) :
    ∃ s', smoothElement m s = some s' ∧ s'.node.size = m.nodes ∧ s'.cell.size = m.cells ∧
      (∀ c < m.cells, ((∃ x < m.elems * m.cellsPerElem, m.cellsInElem.val x = c) → s'.cell.val c = m.cellMean s.node.val c) ∧
        ((∀ x < m.elems * m.cellsPerElem, m.cellsInElem.val x ≠ c) → s'.cell.val c = s.cell.val c)) ∧
      ∀ n < m.nodes, ((∃ x < m.elems * m.nodesPerElem, m.nodesInElem.val x = n) → s'.node.val n = m.nodeMean s'.cell.val n) ∧
        ((∀ x < m.elems * m.nodesPerElem, m.nodesInElem.val x ≠ n) → s'.node.val n = s.node.val n) := by
  obtain ⟨cell, e1, c1, c2⟩ := scatter_spec (F := cellAverage m s.node) he.cellSize he.cellLt (fun c hc => cellAverage_spec h h1 hc) s.cell h2
  obtain ⟨node, e2, n1, n2⟩ := scatter_spec (F := nodeAverage m cell) he.nodeSize he.nodeLt (fun n hn => nodeAverage_spec h c1 hn) s.node h1
  refine ⟨⟨node, cell⟩, ?_, n1, c1, c2, n2⟩
  unfold smoothElement
  show (loopM m.elems _ s.cell).bind _ = _
  rw [e1, Option.bind_some]
  show (loopM m.elems _ s.node).bind _ = _
  rw [e2]; rfl

/-- **C54 (element form).**  If the elements cover all cells and nodes, `smooth_element` computes the same fields as
`smooth_cells`. -/
theorem C54_element_value (m : Mesh) (h : m.Ok) (he : m.ElemOk) (hcov : m.Covered) (s : State) (h1 : s.node.size = m.nodes)
    (h2 : s.cell.size = m.cells) :
    ∃ s' t, smoothElement m s = some s' ∧ smoothCells m s = some t ∧ s'.node.size = m.nodes ∧ s'.cell.size = m.cells ∧
      (∀ c < m.cells, s'.cell.get c = some (m.cellMean s.node.val c) ∧ t.cell.get c = s'.cell.get c) ∧
      ∀ n < m.nodes, s'.node.get n = some (m.nodeMean (m.cellMean s.node.val) n) ∧ t.node.get n = s'.node.get n := by
  obtain ⟨t, et, -, -, t1, t2⟩ := C54_value m h s h1 h2
  obtain ⟨s', e, z1, z2, c1, n1⟩ := smoothElement_spec m h he s h1 h2
  have hc : ∀ c < m.cells, s'.cell.get c = some (m.cellMean s.node.val c) := fun c hc => by
    rw [Arr.get_lt (by omega), (c1 c hc).1 (hcov.cell c hc)]
  have hn : ∀ n < m.nodes, s'.node.get n = some (m.nodeMean (m.cellMean s.node.val) n) := fun n hn => by
    rw [Arr.get_lt (by omega), (n1 n hn).1 (hcov.node n hn)]
    unfold Mesh.nodeMean
    rw [List.map_congr_left fun c h => (Arr.get_eq_some (hc c (mem_cellsOf.1 h).1)).2]
  exact ⟨s', t, e, et, z1, z2, fun c h => ⟨hc c h, by rw [t1 c h, hc c h]⟩, fun n h => ⟨hn n h, by rw [t2 n h, hn n h]⟩⟩

/-- Node `n` lies on a patch of boundary set `b`. -/
def Mesh.OnSet (m : Mesh) (b n : ℕ) : Prop :=
  ∃ k, m.bdy.num.get b = some k ∧ ∃ i < k, ∃ p, m.bdy.inSet b i = some p ∧ ∃ q < 4, m.patches.nodeInPatch p q = some (n : ℤ)

/-- Boundary set `b` exists and its patches have valid nodes. -/
def Mesh.SetOk (m : Mesh) (b : ℕ) : Prop :=
  ∃ k, m.bdy.num.get b = some k ∧ ∀ i < k, ∃ p, m.bdy.inSet b i = some p ∧
    ∀ q < 4, ∃ n : ℕ, m.patches.nodeInPatch p q = some (n : ℤ) ∧ n < m.nodes

theorem setBoundary_spec (m : Mesh) {b : ℕ} (hb : m.SetOk b) (v : ℝ) (a : Arr ℝ) (ha : a.size = m.nodes) :
    ∃ r, setBoundary m b v a = some r ∧ r.size = m.nodes ∧
      ∀ n, (m.OnSet b n → r.val n = v) ∧ (¬ m.OnSet b n → r.val n = a.val n) := by
  obtain ⟨k, hk, hp⟩ := hb
  obtain ⟨r, e, r1, r2⟩ := loopM_spec (n := k) (body := fun i node => do
      let p ← m.bdy.inSet b i
      loopM 4 (fun q node => do
        let n ← m.patches.nodeInPatch p q
        if 0 ≤ n then Arr.set node n.toNat v else none) node) (s := a)
    (fun j r => r.size = m.nodes ∧ ∀ n : ℕ,
      ((∃ i < j, ∃ p, m.bdy.inSet b i = some p ∧ ∃ q < 4, m.patches.nodeInPatch p q = some (n : ℤ)) → r.val n = v) ∧
      ((¬ ∃ i < j, ∃ p, m.bdy.inSet b i = some p ∧ ∃ q < 4, m.patches.nodeInPatch p q = some (n : ℤ)) → r.val n = a.val n))
    ⟨ha, fun n => ⟨fun ⟨i, hi, _⟩ => by omega, fun _ => rfl⟩⟩ (by
      rintro i ⟨M, u⟩ hi ⟨g1, g2⟩
      simp only [] at g1 g2
      obtain ⟨p, ep, hq⟩ := hp i hi
      obtain ⟨r, e, q1, q2⟩ := loopM_spec (n := 4) (body := fun q node => do
          let n ← m.patches.nodeInPatch p q
          if 0 ≤ n then Arr.set node n.toNat v else none) (s := (⟨M, u⟩ : Arr ℝ))
        (fun j r => r.size = m.nodes ∧ ∀ n : ℕ, ((∃ q < j, m.patches.nodeInPatch p q = some (n : ℤ)) → r.val n = v) ∧
          ((¬ ∃ q < j, m.patches.nodeInPatch p q = some (n : ℤ)) → r.val n = u n))
        ⟨g1, fun n => ⟨fun ⟨i, hi, _⟩ => by omega, fun _ => rfl⟩⟩ (by
          rintro q ⟨M', u'⟩ hq4 ⟨f1, f2⟩
          simp only [] at f1 f2
          obtain ⟨n0, en, hn⟩ := hq q hq4
          refine ⟨⟨M', store u' n0 v⟩, ?_, f1, ?_⟩
          · simp only [Option.bind_eq_bind]
            rw [en, Option.bind_some, if_pos (by omega), Int.toNat_natCast, Arr.set_lt _ (show n0 < M' by omega)]
          · intro n
            show (_ → store u' n0 v n = _) ∧ (_ → store u' n0 v n = _)
            by_cases hnn : n = n0
            · subst hnn
              rw [store_same]
              exact ⟨fun _ => rfl, fun hno => absurd ⟨q, by omega, en⟩ hno⟩
            · rw [store_ne _ _ hnn]
              refine ⟨fun ⟨x, hx, ex⟩ => (f2 n).1 ⟨x, ?_, ex⟩, fun hno => (f2 n).2 fun ⟨x, hx, ex⟩ => hno ⟨x, by omega, ex⟩⟩
              have : x ≠ q := by
                rintro rfl
                rw [en] at ex
                have := Option.some.inj ex
                omega
              omega)
      refine ⟨r, ?_, q1, ?_⟩
      · show (m.bdy.inSet b i).bind _ = _
        rw [ep, Option.bind_some]; exact e
      · intro n
        constructor
        · rintro ⟨i', hi', p', ep', q, hq', en⟩
          by_cases hon : ∃ q < 4, m.patches.nodeInPatch p q = some (n : ℤ)
          · exact (q2 n).1 hon
          · rw [(q2 n).2 hon]
            refine (g2 n).1 ⟨i', ?_, p', ep', q, hq', en⟩
            have : i' ≠ i := by
              rintro rfl
              rw [ep] at ep'
              have := Option.some.inj ep'
              subst this
              exact hon ⟨q, hq', en⟩
            omega
        · intro hno
          rw [(q2 n).2 fun ⟨q, hq', en⟩ => hno ⟨i, by omega, p, ep, q, hq', en⟩]
          exact (g2 n).2 fun ⟨i', hi', z⟩ => hno ⟨i', by omega, z⟩)
  refine ⟨r, ?_, r1, ?_⟩
  · unfold setBoundary
    rw [hk]
    exact e
  · intro n
    have hiff : m.OnSet b n ↔ ∃ i < k, ∃ p, m.bdy.inSet b i = some p ∧ ∃ q < 4, m.patches.nodeInPatch p q = some (n : ℤ) := by
      constructor
      · rintro ⟨k', hk', z⟩
        rw [hk] at hk'
        have := Option.some.inj hk'
        subst this
        exact z
      · intro z; exact ⟨k, hk, z⟩
    rw [hiff]
    exact r2 n

/-- **C54 (boundary values).**  `apply_boundary` sets the nodes of boundary set 0 to 10, those of set 3 that are not in set
0 to 0, and changes nothing else. -/
theorem C54_boundary (m : Mesh) (h0 : m.SetOk 0) (h3 : m.SetOk 3) (s : State) (h1 : s.node.size = m.nodes) :
    ∃ s', applyBoundary m s = some s' ∧ s'.node.size = m.nodes ∧ s'.cell = s.cell ∧ ∀ n,
      (m.OnSet 0 n → s'.node.val n = 10) ∧ (m.OnSet 3 n → ¬ m.OnSet 0 n → s'.node.val n = 0) ∧
      (¬ m.OnSet 3 n → ¬ m.OnSet 0 n → s'.node.val n = s.node.val n) := by
  obtain ⟨a, e1, a1, a2⟩ := setBoundary_spec m h3 0 s.node h1
  obtain ⟨b, e2, b1, b2⟩ := setBoundary_spec m h0 10 a a1
  refine ⟨⟨b, s.cell⟩, ?_, b1, rfl, fun n => ⟨(b2 n).1, fun x y => ?_, fun x y => ?_⟩⟩
  · unfold applyBoundary
    simp only [Option.bind_eq_bind]
    rw [e1, Option.bind_some, e2]; rfl
  · exact ((b2 n).2 y).trans ((a2 n).1 x)
  · exact ((b2 n).2 y).trans ((a2 n).2 x)

/-- **C54 (cycles).**  The cycle loop of `main`: on a mesh without isolated nodes, if all nodal and cell values lie in
`[lo, hi]` and this interval contains the boundary values 0 and 10, then after any number of cycles all values lie in
`[lo, hi]`, and after at least one cycle the boundary values hold. -/
theorem C54_cycles (m : Mesh) (h : m.Ok) (he : m.ElemOk) (hiso : ∀ n < m.nodes, m.cellsOf n ≠ []) (h0 : m.SetOk 0) (h3 : m.SetOk 3)
    (lo hi : ℝ) (hlo : lo ≤ 0) (hhi : 10 ≤ hi) (s : State) (h1 : s.node.size = m.nodes) (h2 : s.cell.size = m.cells)
    (w1 : Within lo hi s.node) (w2 : Within lo hi s.cell) (k : ℕ) :
    ∃ s', cycles m k s = some s' ∧ s'.node.size = m.nodes ∧ s'.cell.size = m.cells ∧ Within lo hi s'.node ∧ Within lo hi s'.cell ∧
      (0 < k → ∀ n, (m.OnSet 0 n → s'.node.val n = 10) ∧ (m.OnSet 3 n → ¬ m.OnSet 0 n → s'.node.val n = 0)) := by
  refine loopM_spec (fun k (s' : State) => s'.node.size = m.nodes ∧ s'.cell.size = m.cells ∧ Within lo hi s'.node ∧ Within lo hi s'.cell ∧
      (0 < k → ∀ n, (m.OnSet 0 n → s'.node.val n = 10) ∧ (m.OnSet 3 n → ¬ m.OnSet 0 n → s'.node.val n = 0)))
    ⟨h1, h2, w1, w2, by omega⟩ ?_
  rintro i s - ⟨g1, g2, g3, g4, -⟩
  obtain ⟨t, e, z1, z2, c1, n1⟩ := smoothElement_spec m h he s g1 g2
  obtain ⟨r, e', y1, y2, y3⟩ := C54_boundary m h0 h3 t z1
  have hc : ∀ c < m.cells, lo ≤ t.cell.val c ∧ t.cell.val c ≤ hi := by
    intro c hc
    by_cases hx : ∃ x < m.elems * m.cellsPerElem, m.cellsInElem.val x = c
    · rw [(c1 c hc).1 hx]
      exact cellMean_within h (fun n hn => g3 n (by omega)) hc
    · rw [(c1 c hc).2 fun x hx' hxc => hx ⟨x, hx', hxc⟩]
      exact g4 c (by omega)
  have hn : ∀ n < m.nodes, lo ≤ t.node.val n ∧ t.node.val n ≤ hi := by
    intro n hn
    by_cases hx : ∃ x < m.elems * m.nodesPerElem, m.nodesInElem.val x = n
    · rw [(n1 n hn).1 hx]
      exact nodeMean_within hc (hiso n hn)
    · rw [(n1 n hn).2 fun x hx' hxc => hx ⟨x, hx', hxc⟩]
      exact g3 n (by omega)
  refine ⟨r, ?_, y1, by rw [y2]; exact z2, ?_, ?_, fun _ n => ⟨(y3 n).1, (y3 n).2.1⟩⟩
  · show (smoothElement m s).bind _ = _
    rw [e, Option.bind_some]; exact e'
  · intro n hn'
    by_cases o0 : m.OnSet 0 n
    · rw [(y3 n).1 o0]; constructor <;> linarith
    · by_cases o3 : m.OnSet 3 n
      · rw [(y3 n).2.1 o3 o0]; constructor <;> linarith
      · rw [(y3 n).2.2 o3 o0]; exact hn n (by omega)
  · rw [y2]
    intro c hc'
    exact hc c (by omega)

/-- **C54 (an isolated node breaks the principle).**  A node that belongs to no cell is set to zero by `smooth_cells`. -/
theorem C54_isolated_negation (m : Mesh) (h : m.Ok) (n : ℕ) (hn : n < m.nodes) (hiso : m.cellsOf n = []) (s : State)
    (h1 : s.node.size = m.nodes) (h2 : s.cell.size = m.cells) : ∃ s', smoothCells m s = some s' ∧ s'.node.get n = some 0 := by
  obtain ⟨s', e, -, -, -, v⟩ := C54_value m h s h1 h2
  refine ⟨s', e, ?_⟩
  rw [v n hn]
  unfold Mesh.nodeMean
  rw [hiso]; simp

end Verif.Average
