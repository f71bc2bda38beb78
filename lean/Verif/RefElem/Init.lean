import Verif.RefElem.CornerLemmas
import Verif.RefElem.PatchLoop
import Verif.RefElem.BasisLemmas
import Verif.Quad.Theorems

/-!
# The result of `ref_element::init`

`init_run`: for every order the function runs without an access out of bounds and its result is described by
`InitSpec`.
-/

namespace Verif.RefElem
open scoped Classical

theorem two_le_nodes (p : ℕ) : 2 ≤ nodes1D p := by unfold nodes1D; split <;> omega
theorem corners_eq (p : ℕ) : corners1D p = 2 * cells1D p := by
  have := two_le_nodes p
  unfold corners1D cells1D; omega
theorem cells_pos (p : ℕ) : 0 < cells1D p := by
  have := two_le_nodes p
  unfold cells1D; omega

set_option maxRecDepth 100000 in
theorem len_check : ∀ n < 21, (Quad.lobNodesQ n).length ≤ n ∧ (Quad.lobWeightsQ n).length ≤ n ∧
    (Quad.legNodesQ n).length ≤ n ∧ (Quad.legWeightsQ n).length ≤ n := by decide +kernel

theorem len_big (n : ℕ) : Quad.lobNodesQ (n + 21) = [] ∧ Quad.lobWeightsQ (n + 21) = [] ∧ Quad.legNodesQ (n + 21) = [] ∧
    Quad.legWeightsQ (n + 21) = [] := ⟨rfl, rfl, rfl, rfl⟩

theorem len_le (n : ℕ) : (Quad.lobNodes n).length ≤ n ∧ (Quad.lobWeights n).length ≤ n ∧
    (Quad.legNodes n).length ≤ n ∧ (Quad.legWeights n).length ≤ n := by
  have key : (Quad.lobNodesQ n).length ≤ n ∧ (Quad.lobWeightsQ n).length ≤ n ∧
    (Quad.legNodesQ n).length ≤ n ∧ (Quad.legWeightsQ n).length ≤ n := by
    rcases Nat.lt_or_ge n 21 with h | h
    · exact len_check n h
    · obtain ⟨m, rfl⟩ := Nat.exists_eq_add_of_le' h
      obtain ⟨a, b, c, d⟩ := len_big m
      rw [a, b, c, d]; simp
  refine ⟨?_, ?_, ?_, ?_⟩
  · by_cases h4 : n = 4
    · subst h4; exact le_refl 4
    by_cases h5 : n = 5
    · subst h5; exact le_refl 5
    by_cases h6 : n = 6
    · subst h6; exact le_refl 6
    rw [Quad.lobNodes_eq ⟨h4, h5, h6⟩, List.length_map]; exact key.1
  · by_cases h6 : n = 6
    · subst h6; exact le_refl 6
    rw [Quad.lobWeights_eq h6, List.length_map]; exact key.2.1
  · rw [Quad.legNodes_eq, List.length_map]; exact key.2.2.1
  · rw [Quad.legWeights_eq, List.length_map]; exact key.2.2.2

/-- A table of tensor-product Lagrange basis values at the points `pos`. -/
def IsBasis (V : ℕ) (z : ℕ → ℝ) (pos : Arr (ℕ → ℝ)) (t : Arr (ℕ → ℝ)) : Prop :=
  ∀ m < t.size, ∀ i j k, i < V → j < V → k < V →
    t.val m (rid V i j k) = HexN.L V z i (pos.val m 0) * HexN.L V z j (pos.val m 1) * HexN.L V z k (pos.val m 2)

/-- A table of gradients of the tensor-product Lagrange basis at the points `pos`. -/
def IsGrad (V : ℕ) (z : ℕ → ℝ) (pos : Arr (ℕ → ℝ)) (t : Arr (ℕ → ℕ → ℝ)) : Prop :=
  ∀ m < t.size, ∀ i j k, i < V → j < V → k < V →
    t.val m (rid V i j k) 0 = HexN.dL V z i (pos.val m 0) * HexN.L V z j (pos.val m 1) * HexN.L V z k (pos.val m 2) ∧
    t.val m (rid V i j k) 1 = HexN.L V z i (pos.val m 0) * HexN.dL V z j (pos.val m 1) * HexN.L V z k (pos.val m 2) ∧
    t.val m (rid V i j k) 2 = HexN.L V z i (pos.val m 0) * HexN.L V z j (pos.val m 1) * HexN.dL V z k (pos.val m 2)

/-- Everything about the result of `init`. -/
structure InitSpec (p : ℕ) (q : Junk) (r : Ref) : Prop where
  lob : Quad.lobatto_nodes_1D (nodes1D p) ⟨nodes1D p, q.lob⟩ = some r.lob
  lobw : Quad.lobatto_weights_1D (nodes1D p) ⟨nodes1D p, q.lobw⟩ = some r.lobw
  leg : Quad.legendre_nodes_1D (cells1D p) ⟨cells1D p, q.leg⟩ = some r.leg
  legw : Quad.legendre_weights_1D (cells1D p) ⟨cells1D p, q.legw⟩ = some r.legw
  lobSize : r.lob.size = nodes1D p
  lobwSize : r.lobw.size = nodes1D p
  legSize : r.leg.size = cells1D p
  legwSize : r.legw.size = cells1D p
  posSize : r.nodePos.size = nodes1D p * nodes1D p * nodes1D p
  wSize : r.nodeW.size = nodes1D p * nodes1D p * nodes1D p
  nodePos : ∀ i j k, i < nodes1D p → j < nodes1D p → k < nodes1D p →
    r.nodePos.val (rid (nodes1D p) i j k) = row3 (r.lob.val i) (r.lob.val j) (r.lob.val k)
  nodeW : ∀ i j k, i < nodes1D p → j < nodes1D p → k < nodes1D p →
    r.nodeW.val (rid (nodes1D p) i j k) = r.lobw.val i * r.lobw.val j * r.lobw.val k
  zoneSize : r.zone.size = zones1D p * zones1D p * zones1D p * zoneRow p
  zone0 : p = 0 → r.zone.val 0 = 0
  zone : p ≠ 0 → ∀ i j k, i < zones1D p → j < zones1D p → k < zones1D p → ∀ l < 8,
    r.zone.val (rid (zones1D p) i j k * 8 + l) = rid (cells1D p) (2 * i + l % 2) (2 * j + l / 2 % 2) (2 * k + l / 4)
  cnSize : r.cellNodes.size = cells1D p * cells1D p * cells1D p * 8
  cellNodes : ∀ i j k, i < cells1D p → j < cells1D p → k < cells1D p → ∀ l < 8,
    r.cellNodes.val (rid (cells1D p) i j k * 8 + l) = rid (nodes1D p) (i + l % 2) (j + l / 2 % 2) (k + l / 4)
  cwSize : r.cornerW.size = (2 * cells1D p) * (2 * cells1D p) * (2 * cells1D p)
  cornerW : ∀ i j k, i < 2 * cells1D p → j < 2 * cells1D p → k < 2 * cells1D p →
    r.cornerW.val (rid (2 * cells1D p) i j k) =
      cw1 (nodes1D p) r.lobw.val i * cw1 (nodes1D p) r.lobw.val j * cw1 (nodes1D p) r.lobw.val k
  crn : ∃ part : ℕ → ℕ → ℝ, (∀ i j k, i < 2 * cells1D p → j < 2 * cells1D p → k < 2 * cells1D p →
      part (rid (2 * cells1D p) i j k) = row3 (cw1 (nodes1D p) r.lobw.val i) (cw1 (nodes1D p) r.lobw.val j)
        (cw1 (nodes1D p) r.lobw.val k)) ∧
    CornersDone (nodes1D p) (cells1D p) part ((2 * cells1D p) * (2 * cells1D p) * (2 * cells1D p)) r.crn
  inSize : r.split.inside.size = (nodes1D p - 2) * (nodes1D p - 2) * (nodes1D p - 2)
  surfSize : r.split.surf.size =
    nodes1D p * nodes1D p * nodes1D p - (nodes1D p - 2) * (nodes1D p - 2) * (nodes1D p - 2)
  numIn : r.split.numIn = (nodes1D p - 2) * (nodes1D p - 2) * (nodes1D p - 2)
  numSurf : r.split.numSurf =
    nodes1D p * nodes1D p * nodes1D p - (nodes1D p - 2) * (nodes1D p - 2) * (nodes1D p - 2)
  inside : ∀ m < nodes1D p * nodes1D p * nodes1D p, Inner (nodes1D p) m →
    r.split.inside.val (Nat.count (Inner (nodes1D p)) m) = m
  surf : ∀ m < nodes1D p * nodes1D p * nodes1D p, ¬ Inner (nodes1D p) m →
    r.split.surf.val (Nat.count (fun x => ¬ Inner (nodes1D p) x) m) = m
  pat : PatchesDone (cells1D p) r.lob.val r.leg.val r.legw.val (cells1D p * cells1D p * cells1D p * 6) r.pat
  cposSize : r.pat.cellPos.size = cells1D p * cells1D p * cells1D p
  cwtSize : r.pat.cellWeights.size = cells1D p * cells1D p * cells1D p
  cellPos : ∀ i j k, i < cells1D p → j < cells1D p → k < cells1D p →
    r.pat.cellPos.val (rid (cells1D p) i j k) = row3 (r.leg.val i) (r.leg.val j) (r.leg.val k)
  cellW : ∀ i j k, i < cells1D p → j < cells1D p → k < cells1D p →
    r.pat.cellWeights.val (rid (cells1D p) i j k) = r.legw.val i * r.legw.val j * r.legw.val k
  verts : ∃ h, Quad.lobatto_nodes_1D (nodes1D p) ⟨nodes1D p * nodes1D p * nodes1D p, q.hexNodes⟩ = some h ∧
    r.verts = HexN.verts1d p h.val q.hexVerts
  nbSize : r.nodeBasis.size = nodes1D p * nodes1D p * nodes1D p
  ngSize : r.nodeGrad.size = nodes1D p * nodes1D p * nodes1D p
  pbSize : r.patchBasis.size = (cells1D p + 1) * (cells1D p * cells1D p) * 3
  pgSize : r.patchGrad.size = (cells1D p + 1) * (cells1D p * cells1D p) * 3
  cbSize : r.cellBasis.size = cells1D p * cells1D p * cells1D p
  cgSize : r.cellGrad.size = cells1D p * cells1D p * cells1D p
  nodeBasis : IsBasis (verts1D p) r.verts r.nodePos r.nodeBasis
  nodeGrad : IsGrad (verts1D p) r.verts r.nodePos r.nodeGrad
  patchBasis : IsBasis (verts1D p) r.verts r.pat.pos r.patchBasis
  patchGrad : IsGrad (verts1D p) r.verts r.pat.pos r.patchGrad
  cellBasis : IsBasis (verts1D p) r.verts r.pat.cellPos r.cellBasis
  cellGrad : IsGrad (verts1D p) r.verts r.pat.cellPos r.cellGrad

theorem zoneLoop_zero (v : ℕ → ℕ) : ∃ r, zoneLoop 0 ⟨zones1D 0 * zones1D 0 * zones1D 0 * zoneRow 0, v⟩ = some r ∧
    r.size = zones1D 0 * zones1D 0 * zones1D 0 * zoneRow 0 ∧ r.val 0 = 0 :=
  ⟨⟨1, store v 0 0⟩, rfl, rfl, rfl⟩

theorem zone_all (p : ℕ) (v : ℕ → ℕ) :
    ∃ r, zoneLoop p ⟨zones1D p * zones1D p * zones1D p * zoneRow p, v⟩ = some r ∧
      r.size = zones1D p * zones1D p * zones1D p * zoneRow p ∧ (p = 0 → r.val 0 = 0) ∧
      (p ≠ 0 → ∀ i j k, i < zones1D p → j < zones1D p → k < zones1D p → ∀ l < 8,
        r.val (rid (zones1D p) i j k * 8 + l) = rid (cells1D p) (2 * i + l % 2) (2 * j + l / 2 % 2) (2 * k + l / 4)) := by
  by_cases hp : p = 0
  · subst hp
    obtain ⟨r, h1, h2, h3⟩ := zoneLoop_zero v
    exact ⟨r, h1, h2, fun _ => h3, fun h => absurd rfl h⟩
  · obtain ⟨r, h1, h2, h3⟩ := zoneLoop_spec hp v
    exact ⟨r, h1, by rw [h2, show zoneRow p = 8 from if_neg hp], fun h => absurd h hp, fun _ => h3⟩

theorem bind_of {α β : Type} {o : Option α} {a : α} {f : α → Option β} {r : Option β} (h : o = some a) (h2 : f a = r) :
    (o >>= f) = r := by subst h; exact h2

/-- The function runs for every order. -/
theorem init_run (p : ℕ) (q : Junk) : ∃ r, init p q = some r ∧ InitSpec p q r := by
  obtain ⟨l1, l2, -, -⟩ := len_le (nodes1D p)
  obtain ⟨-, -, l3, l4⟩ := len_le (cells1D p)
  have hn := two_le_nodes p
  have hC : cells1D p + 1 = nodes1D p := by unfold cells1D; omega
  have hC' : nodes1D p - 1 = cells1D p := rfl
  have hR := corners_eq p
  obtain ⟨lob, a1, a2, -⟩ := Quad.assign_spec (Quad.lobNodes (nodes1D p)) ⟨nodes1D p, q.lob⟩ l1
  obtain ⟨lobw, b1, b2, -⟩ := Quad.assign_spec (Quad.lobWeights (nodes1D p)) ⟨nodes1D p, q.lobw⟩ l2
  obtain ⟨leg, c1, c2, -⟩ := Quad.assign_spec (Quad.legNodes (cells1D p)) ⟨cells1D p, q.leg⟩ l3
  obtain ⟨legw, d1, d2, -⟩ := Quad.assign_spec (Quad.legWeights (cells1D p)) ⟨cells1D p, q.legw⟩ l4
  simp only [] at a2 b2 c2 d2
  obtain ⟨nodes, e1, e2, e3, e4⟩ := nodeLoop_spec (n := nodes1D p) a2.ge b2.ge q.pos q.wts
  obtain ⟨cw, f1, f2, f3⟩ := cornerWeights1D_spec (n := nodes1D p) (R := 2 * cells1D p) hn rfl (lobw := lobw)
    (c := ⟨2 * cells1D p, q.c1⟩) b2.ge rfl
  obtain ⟨zone, g1, g2, g3, g4⟩ := zone_all p q.zone
  obtain ⟨cn, h1, h2, h3⟩ := cellNodeLoop_spec (n := nodes1D p) q.cellNodes
  obtain ⟨cws, i1, i2, i3, i4⟩ := cornerWeightLoop_spec (R := 2 * cells1D p) (c1 := cw) f2.ge q.part q.cw
  obtain ⟨crn, j1, j2⟩ := cornerLoop_spec (n := nodes1D p) (C := cells1D p) (part := cws.1) i2
    (s := ⟨⟨2 * cells1D p * (2 * cells1D p) * (2 * cells1D p), q.corners⟩,
      ⟨2 * cells1D p * (2 * cells1D p) * (2 * cells1D p), q.cnodes⟩,
      ⟨2 * cells1D p * (2 * cells1D p) * (2 * cells1D p), q.normals⟩,
      ⟨2 * cells1D p * (2 * cells1D p) * (2 * cells1D p), q.sw⟩, 0⟩)
    ⟨rfl, rfl, rfl, rfl, rfl, fun _ _ _ _ _ _ _ _ _ _ _ _ h => by omega, fun _ _ _ _ _ _ _ _ _ _ _ _ h => by omega,
      fun _ _ _ _ _ _ _ _ _ _ _ _ h => by omega, fun _ _ _ _ _ _ _ _ _ _ _ _ h => by omega⟩
  have hcube : nodes1D p ≤ nodes1D p * nodes1D p * nodes1D p := by nlinarith [Nat.mul_le_mul hn hn]
  obtain ⟨hex, k1, -, -⟩ := Quad.assign_spec (Quad.lobNodes (nodes1D p))
    ⟨nodes1D p * nodes1D p * nodes1D p, q.hexNodes⟩ (le_trans l1 hcube)
  obtain ⟨nb, m1, m2, m3⟩ := basisLoop_spec (M := nodes1D p * nodes1D p * nodes1D p) (V := verts1D p)
    (z := HexN.verts1d p hex.val q.hexVerts) (pos := nodes.1) e2.ge q.b q.nb
  obtain ⟨ng, n1, n2, n3⟩ := gradLoop_spec (M := nodes1D p * nodes1D p * nodes1D p) (V := verts1D p)
    (z := HexN.verts1d p hex.val q.hexVerts) (pos := nodes.1) e2.ge q.b q.ng q.xi q.eta q.mu
  obtain ⟨sp, o1, o2, o3, o4, o5, o6, o7⟩ := splitLoop_spec (nodes1D p) q.inside q.surf
  obtain ⟨list, p1, p2, p3⟩ := clearLoop_spec (S := cells1D p * cells1D p * cells1D p * 6) q.plist
  obtain ⟨pat, q1, q2, q3, q4, q5⟩ := patchLoop_spec (C := cells1D p) (lob := lob) (leg := leg) (legw := legw)
    (by omega) c2.ge d2.ge
    (s := ⟨list, 0, ⟨(cells1D p + 1) * (cells1D p * cells1D p) * 3, q.ppos⟩,
      ⟨(cells1D p + 1) * (cells1D p * cells1D p) * 3, q.pw⟩, ⟨cells1D p * cells1D p * cells1D p, q.cpos⟩,
      ⟨cells1D p * cells1D p * cells1D p, q.cwt⟩⟩)
    ⟨by simp, p2, rfl, rfl, fun t ht => by rw [if_neg (by omega)]; exact p3 t ht, fun _ h => by omega, fun _ h => by omega⟩
    rfl rfl
  obtain ⟨pb, r1, r2, r3⟩ := basisLoop_spec (M := (cells1D p + 1) * (cells1D p * cells1D p) * 3) (V := verts1D p)
    (z := HexN.verts1d p hex.val q.hexVerts) (pos := pat.pos) q2.psize.ge q.b q.pb
  obtain ⟨pg, s1, s2, s3⟩ := gradLoop_spec (M := (cells1D p + 1) * (cells1D p * cells1D p) * 3) (V := verts1D p)
    (z := HexN.verts1d p hex.val q.hexVerts) (pos := pat.pos) q2.psize.ge q.b q.pg ng.xi ng.eta ng.mu
  obtain ⟨cb, t1, t2, t3⟩ := basisLoop_spec (M := cells1D p * cells1D p * cells1D p) (V := verts1D p)
    (z := HexN.verts1d p hex.val q.hexVerts) (pos := pat.cellPos) q3.ge q.b q.cb
  obtain ⟨cg, u1, u2, u3⟩ := gradLoop_spec (M := cells1D p * cells1D p * cells1D p) (V := verts1D p)
    (z := HexN.verts1d p hex.val q.hexVerts) (pos := pat.cellPos) q3.ge q.b q.cg pg.xi pg.eta pg.mu
  refine ⟨⟨lob, lobw, leg, legw, nodes.1, nodes.2, zone, cn, cws.2, crn, sp, pat, HexN.verts1d p hex.val q.hexVerts,
    nb, ng.table, pb, pg.table, cb, cg.table⟩, ?_, ?_⟩
  · unfold init
    rw [hR]
    refine bind_of a1 ?_
    refine bind_of b1 ?_
    refine bind_of e1 ?_
    refine bind_of f1 ?_
    refine bind_of g1 ?_
    refine bind_of h1 ?_
    refine bind_of i1 ?_
    refine bind_of j1 ?_
    refine bind_of k1 ?_
    refine bind_of m1 ?_
    refine bind_of n1 ?_
    refine bind_of o1 ?_
    refine bind_of c1 ?_
    refine bind_of d1 ?_
    refine bind_of p1 ?_
    refine bind_of q1 ?_
    refine bind_of r1 ?_
    refine bind_of s1 ?_
    refine bind_of t1 ?_
    refine bind_of u1 ?_
    rfl
  · exact {
      lob := a1, lobw := b1, leg := c1, legw := d1, lobSize := a2, lobwSize := b2, legSize := c2, legwSize := d2
      posSize := e2, wSize := e3
      nodePos := fun i j k hi hj hk => (e4 i j k hi hj hk).1
      nodeW := fun i j k hi hj hk => (e4 i j k hi hj hk).2
      zoneSize := g2, zone0 := g3, zone := g4, cnSize := h2, cellNodes := h3, cwSize := i3
      cornerW := fun i j k hi hj hk => by
        rw [(i4 i j k hi hj hk).2, f3 i hi, f3 j hj, f3 k hk]
      crn := ⟨cws.1.val, fun i j k hi hj hk => by rw [(i4 i j k hi hj hk).1, f3 i hi, f3 j hj, f3 k hk], j2⟩
      inSize := o2, surfSize := o3, numIn := o4, numSurf := o5, inside := o6, surf := o7
      pat := q2, cposSize := q3, cwtSize := q4
      cellPos := fun i j k hi hj hk => (q5 i j k hi hj hk).1
      cellW := fun i j k hi hj hk => (q5 i j k hi hj hk).2
      verts := ⟨hex, k1, rfl⟩
      nbSize := m2, ngSize := n2, pbSize := r2, pgSize := s2, cbSize := t2, cgSize := u2
      nodeBasis := fun m hm => m3 m (by rw [← m2]; exact hm)
      nodeGrad := fun m hm => n3 m (by rw [← n2]; exact hm)
      patchBasis := fun m hm => r3 m (by rw [← r2]; exact hm)
      patchGrad := fun m hm => s3 m (by rw [← s2]; exact hm)
      cellBasis := fun m hm => t3 m (by rw [← t2]; exact hm)
      cellGrad := fun m hm => u3 m (by rw [← u2]; exact hm) }

end Verif.RefElem
