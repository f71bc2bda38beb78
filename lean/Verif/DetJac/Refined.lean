import Verif.DetJac.Theorems

/-!
# C70 after `refine_high_order_mesh`
-/

namespace Verif.DetJac
open Verif.Swage.HighOrder (tol pt refPt polyMap refineHighOrder Boxes FirstRows HRun high_run C69_lattice_partial isoMap isoMap_poly equi)
open Swage.Refine (initElement Refined cellId cellId_lt dig lob_val assign_some)

theorem Stored.agree {node : ℕ → ℕ} {val d0 d : ℕ → ℝ} {T : ℕ} (h : Stored node val d0 T d) {t : ℕ} (ht : t < T)
    (ha : ∀ t' < T, node t' = node t → val t' = val t) : d (node t) = val t := by
  have key : ∀ k, ∀ u < T, T - u ≤ k → node u = node t → d (node t) = val t := by
    intro k
    induction k with
    | zero => intro u hu hk; omega
    | succ k ih =>
      intro u hu hk hnu
      by_cases hl : ∀ t', u < t' → t' < T → node t' ≠ node u
      · have := h.1 u hu hl
        rw [hnu] at this
        rw [this]; exact ha u hu hnu
      · push Not at hl
        obtain ⟨t', h1, h2, h3⟩ := hl
        exact ih t' h2 (by omega) (h3.trans hnu)
  exact key (T - t) t ht le_rfl rfl

/-- **C70, agreeing elements (partial).**  If all places that have the node of quadrature point `(i, j, k)` of element
`e` give the same determinant (in particular if the node belongs to no other element), that is the stored value. -/
theorem C70_agree_partial (m : Mesh) (hp : 1 ≤ m.order) (hp9 : m.order ≤ 9) (W : WellFormed m ((2 * m.order + 1) ^ 3)) (det : Arr ℝ)
    (hdet : m.coords.size ≤ det.size) (q : Junk) :
    ∃ r lob, evaluate m det q = some r ∧ Quad.lobatto_nodes_1D (2 * m.order + 1) ⟨2 * m.order + 1, q.lob⟩ = some lob ∧
      ∀ e < m.numElems, ∀ i < 2 * m.order + 1, ∀ j < 2 * m.order + 1, ∀ k < 2 * m.order + 1, ∀ v,
        (∀ e' < m.numElems, ∀ i' < 2 * m.order + 1, ∀ j' < 2 * m.order + 1, ∀ k' < 2 * m.order + 1,
          m.node e' (i' + j' * (2 * m.order + 1) + k' * (2 * m.order + 1) ^ 2) =
            m.node e (i + j * (2 * m.order + 1) + k * (2 * m.order + 1) ^ 2) →
          jacDet (elemMap m lob.val e') (pt (lob.val i') (lob.val j') (lob.val k')) = v) →
        r.get (m.node e (i + j * (2 * m.order + 1) + k * (2 * m.order + 1) ^ 2)) = some v := by
  obtain ⟨r, lob, h1, h2, h3, h4⟩ := evaluate_run m hp hp9 W det hdet q
  set n := 2 * m.order + 1 with hn
  set G := n ^ 3 with hG
  have hG0 : 0 < G := by positivity
  refine ⟨r, lob, h1, h2, ?_⟩
  intro e he i hi j hj k hk v hv
  have hlt : ∀ i j k, i < n → j < n → k < n → i + j * n + k * n ^ 2 < G := by
    intro i j k hi hj hk
    have := lex3_lt (n := n) (m := n) (l := n) hi hj hk
    rw [show k * n ^ 2 = k * n * n by ring, hG]
    exact lt_of_lt_of_eq this (by ring)
  have hl := hlt i j k hi hj hk
  set l := i + j * n + k * n ^ 2 with hldef
  have hdiv : (G * e + l) / G = e := by rw [Nat.mul_add_div hG0, Nat.div_eq_of_lt hl, Nat.add_zero]
  have hmod : (G * e + l) % G = l := by rw [Nat.mul_add_mod, Nat.mod_eq_of_lt hl]
  have hT : G * e + l < G * m.numElems := by
    calc G * e + l < G * e + G := by omega
      _ = G * (e + 1) := by ring
      _ ≤ _ := Nat.mul_le_mul_left _ he
  have hself : wrVal m n G lob.val (G * e + l) = v := by
    unfold wrVal
    rw [hdiv, hmod, refPt_lex hi hj]
    exact hv e he i hi j hj k hk rfl
  have := h4.agree hT (by
    intro t' ht' hnode
    rw [hself]
    unfold wrNode at hnode
    rw [hdiv, hmod] at hnode
    have hm' : t' % G < n * n * n := lt_of_lt_of_eq (Nat.mod_lt _ hG0) (by rw [hG]; ring)
    obtain ⟨a1, a2, a3, a4⟩ := lex3_surj hm'
    have e4 : t' % G % n + t' % G / n % n * n + t' % G / n / n * n ^ 2 = t' % G := by
      rw [show t' % G / n / n * n ^ 2 = t' % G / n / n * n * n by ring]; exact a4
    have := hv (t' / G) (Nat.div_lt_of_lt_mul ht') _ a1 _ a2 _ a3 (by rw [e4]; exact hnode)
    unfold wrVal refPt
    exact this)
  rw [hself] at this
  unfold wrNode at this
  rw [hdiv, hmod] at this
  rw [Arr.get_lt (by rw [h3]; exact lt_of_lt_of_le (W.ids e he l hl) hdet), this]

/-- The mesh left by `refine_high_order_mesh`: `build_connectivity` sets `nodes_in_elem(e, g)` to
`node_in_gauss(gauss_in_elem(e, g))` (swage/swage.cpp:1660-1673). -/
def refinedMesh (E p : ℕ) (r : Refined) : Mesh :=
  ⟨p, E, (2 * p + 1) ^ 3, ⟨E * (2 * p + 1) ^ 3, fun g => (r.nig.val g).toNat⟩, r.coords⟩

theorem refined_wf {E N p : ℕ} {nodes : ℕ → ℕ → ℕ} {x : ℕ → ℕ → ℝ} {q : Swage.HighOrder.Junk} {r : Refined}
    (R : HRun E N p nodes x q r) : WellFormed (refinedMesh E p r) ((2 * p + 1) ^ 3) := by
  refine ⟨rfl, le_rfl, ?_⟩
  intro e he l hl
  have hlt : e * (2 * p + 1) ^ 3 + l < E * (2 * p + 1) ^ 3 := by
    calc e * (2 * p + 1) ^ 3 + l < e * (2 * p + 1) ^ 3 + (2 * p + 1) ^ 3 := by omega
      _ = (e + 1) * (2 * p + 1) ^ 3 := by ring
      _ ≤ _ := Nat.mul_le_mul_right _ he
  obtain ⟨h1, h2⟩ := R.nig_range _ hlt
  show (r.nig.val (e * (2 * p + 1) ^ 3 + l)).toNat < r.coords.size
  rw [R.coords_size]
  omega

theorem refined_nodes_le {E N p : ℕ} {nodes : ℕ → ℕ → ℕ} {x : ℕ → ℕ → ℝ} {q : Swage.HighOrder.Junk} {r : Refined}
    (R : HRun E N p nodes x q r) : r.coords.size ≤ E * (2 * p + 1) ^ 3 := by
  rw [R.coords_size]
  choose! f h1 h2 _ _ using R.coords
  have := Finset.card_le_card_of_injOn (s := Finset.range r.numNodes) (t := Finset.range (E * (2 * p + 1) ^ 3)) f
    (fun m hm => Finset.mem_coe.2 (Finset.mem_range.2 (h1 m (Finset.mem_range.1 (Finset.mem_coe.1 hm)))))
    (fun a ha b hb hab => by
      have e1 := h2 a (Finset.mem_range.1 (Finset.mem_coe.1 ha))
      have e2 := h2 b (Finset.mem_range.1 (Finset.mem_coe.1 hb))
      rw [hab, e2] at e1
      exact_mod_cast e1.symm)
  simpa using this

theorem lob_unique {n : ℕ} (h1 : 2 ≤ n) (h2 : n ≤ 20) {a b : ℕ → ℝ} {l l' : Arr ℝ} (ha : Quad.lobatto_nodes_1D n ⟨n, a⟩ = some l)
    (hb : Quad.lobatto_nodes_1D n ⟨n, b⟩ = some l') : ∀ i < n, l.val i = l'.val i := fun i hi => by
  rw [lob_val h1 h2 ha i hi, lob_val h1 h2 hb i hi]

theorem even_inj {p : ℕ} (hp : 1 ≤ p) (hp9 : p ≤ 9) {a : ℕ → ℝ} {lob : Arr ℝ}
    (h : Quad.lobatto_nodes_1D (2 * p + 1) ⟨2 * p + 1, a⟩ = some lob) :
    Set.InjOn (fun v => lob.val (2 * v)) (Finset.range (p + 1)) := by
  intro u hu v hv huv
  by_contra hne
  have hu := Finset.mem_range.1 (Finset.mem_coe.1 hu)
  have hv := Finset.mem_range.1 (Finset.mem_coe.1 hv)
  have := lob_abs hp hp9 h (i := 2 * u) (j := 2 * v) (by omega) (by omega) (by omega)
  have ht := Swage.HighOrder.tol_pos
  simp only [] at huv
  rw [huv, sub_self, abs_zero] at this
  linarith

/-- The map of a refined element, when every node has the position of its Gauss points and the input vertices are the images of
the equally spaced lattice under a polynomial map, is that polynomial map. -/
theorem refined_map {E N p : ℕ} (hp : 1 ≤ p) (hp9 : p ≤ 9) {nodes : ℕ → ℕ → ℕ} {x : ℕ → ℕ → ℝ} {q : Swage.HighOrder.Junk} {r : Refined}
    (R : HRun E N p nodes x q r)
    (hpos : ∀ g < E * (2 * p + 1) ^ 3, ∃ y, r.coords.get (r.nig.val g).toNat = some y ∧ ∀ d < 3, y d = r.gauss.val g d)
    {b : ℕ → ℝ} {lob : Arr ℝ} (hl : Quad.lobatto_nodes_1D (2 * p + 1) ⟨2 * p + 1, b⟩ = some lob)
    {e : ℕ} (he : e < E) (co : ℕ → ℕ → ℕ → ℕ → ℝ)
    (hx : ∀ i < p + 1, ∀ j < p + 1, ∀ k < p + 1, ∀ d < 3, x (nodes e (i + j * (p + 1) + k * (p + 1) ^ 2)) d =
      polyMap p (co d) (-1 + 2 * i / p) (-1 + 2 * j / p) (-1 + 2 * k / p)) :
    ∀ d < 3, elemMap (refinedMesh E p r) lob.val e d = polyAt p (co d) := by
  intro d hd
  obtain ⟨lob', hl', hg⟩ := R.gauss
  have hu := lob_unique (by omega) (by omega) hl hl'
  unfold elemMap
  refine interp_poly (even_inj hp hp9 hl) (co d) _ ?_
  intro i hi j hj k hk
  show (refinedMesh E p r).pos e (evenNode p _) d = _
  obtain ⟨m0, m1, m2⟩ := lex3_mod (k := k) hi hj
  have hev : evenNode p (i + j * (p + 1) + k * (p + 1) ^ 2) = 2 * i + 2 * j * (2 * p + 1) + 2 * k * (2 * p + 1) * (2 * p + 1) := by
    unfold evenNode
    rw [show i + j * (p + 1) + k * (p + 1) ^ 2 = i + j * (p + 1) + k * (p + 1) * (p + 1) by ring, m0, m1, m2]
  rw [hev]
  have hid : e * (2 * p + 1) ^ 3 + (2 * i + 2 * j * (2 * p + 1) + 2 * k * (2 * p + 1) * (2 * p + 1)) =
      cellId (2 * p + 1) e (2 * k) (2 * j) (2 * i) := by unfold cellId; ring
  have hlt : cellId (2 * p + 1) e (2 * k) (2 * j) (2 * i) < E * (2 * p + 1) ^ 3 :=
    lt_of_lt_of_eq (cellId_lt he (by omega) (by omega) (by omega)) (by ring)
  obtain ⟨y, hy1, hy2⟩ := hpos _ hlt
  have hgd := hg e (2 * k) (2 * j) (2 * i) he (by omega) (by omega) (by omega) d hd
  rw [← hy2 d hd] at hgd
  show r.coords.val (r.nig.val (e * (2 * p + 1) ^ 3 + (2 * i + 2 * j * (2 * p + 1) + 2 * k * (2 * p + 1) * (2 * p + 1)))).toNat d = _
  rw [hid, (Arr.get_eq_some hy1).2, hgd, isoMap_poly hp (co d)]
  · show polyMap p (co d) (lob'.val (2 * i)) (lob'.val (2 * j)) (lob'.val (2 * k)) = _
    rw [hu _ (show 2 * i < 2 * p + 1 by omega), hu _ (show 2 * j < 2 * p + 1 by omega), hu _ (show 2 * k < 2 * p + 1 by omega)]
  · intro i hi j hj k hk
    rw [hx i hi j hj k hk d hd]
    unfold equi
    congr 1 <;> ring

/-- **C70 after refinement (partial).**  Refine a mesh of order 1 to 9 whose elements are images of the reference cube under
polynomial maps `F e` of degree at most `p` in each variable.  If the refinement gives every node the position of its Gauss points
(see `C69_positions_partial`), then `evaluate_jacobian_determinants` on the result stores, for each node at which the elements
around it agree on the Jacobian determinant, this determinant. -/
theorem C70_refined_partial (E N p : ℕ) (hp : 1 ≤ p) (hp9 : p ≤ 9) (nodes : ℕ → ℕ → ℕ) (x : ℕ → ℕ → ℝ) (q : Swage.HighOrder.Junk)
    (hf : FirstRows E p nodes x) (co : ℕ → ℕ → ℕ → ℕ → ℕ → ℝ)
    (hx : ∀ e < E, ∀ i < p + 1, ∀ j < p + 1, ∀ k < p + 1, ∀ d < 3, x (nodes e (i + j * (p + 1) + k * (p + 1) ^ 2)) d =
      polyMap p (co e d) (-1 + 2 * i / p) (-1 + 2 * j / p) (-1 + 2 * k / p)) :
    ∃ r, refineHighOrder E N p nodes x q = some r ∧
      ((∀ g < E * (2 * p + 1) ^ 3, ∃ y, r.coords.get (r.nig.val g).toNat = some y ∧ ∀ d < 3, y d = r.gauss.val g d) →
        ∀ (det : Arr ℝ) (q' : Junk), det.size = E * (2 * p + 1) ^ 3 → ∃ s lob, evaluate (refinedMesh E p r) det q' = some s ∧
          Quad.lobatto_nodes_1D (2 * p + 1) ⟨2 * p + 1, q'.lob⟩ = some lob ∧
          ∀ e < E, ∀ i < 2 * p + 1, ∀ j < 2 * p + 1, ∀ k < 2 * p + 1, ∀ v,
            (∀ e' < E, ∀ i' < 2 * p + 1, ∀ j' < 2 * p + 1, ∀ k' < 2 * p + 1,
              r.nig.val (cellId (2 * p + 1) e' k' j' i') = r.nig.val (cellId (2 * p + 1) e k j i) →
              jacDet (fun d => polyAt p (co e' d)) (pt (lob.val i') (lob.val j') (lob.val k')) = v) →
            s.get (r.nig.val (cellId (2 * p + 1) e k j i)).toNat = some v) := by
  obtain ⟨r, hr, R⟩ := high_run (N := N) hp hp9 nodes x q hf
  refine ⟨r, hr, ?_⟩
  intro hpos det q' hdet
  obtain ⟨s, lob, h1, h2, h3⟩ := C70_agree_partial (refinedMesh E p r) hp hp9 (refined_wf R) det
    (by rw [hdet]; exact refined_nodes_le R) q'
  refine ⟨s, lob, h1, h2, ?_⟩
  intro e he i hi j hj k hk v hv
  have hid : ∀ e i j k, e * (2 * p + 1) ^ 3 + (i + j * (2 * p + 1) + k * (2 * p + 1) ^ 2) = cellId (2 * p + 1) e k j i := by
    intro e i j k; unfold cellId; ring
  have := h3 e he i hi j hj k hk v (by
    intro e' he' i' hi' j' hj' k' hk' hnode
    rw [jacDet_congr (refined_map hp hp9 R hpos h2 he' (co e') (hx e' he'))]
    refine hv e' he' i' hi' j' hj' k' hk' ?_
    have hnode : (r.nig.val (e' * (2 * p + 1) ^ 3 + (i' + j' * (2 * p + 1) + k' * (2 * p + 1) ^ 2))).toNat =
      (r.nig.val (e * (2 * p + 1) ^ 3 + (i + j * (2 * p + 1) + k * (2 * p + 1) ^ 2))).toNat := hnode
    rw [hid, hid] at hnode
    have hE : (2 * p + 1) * (2 * p + 1) * (2 * p + 1) * E = E * (2 * p + 1) ^ 3 := by ring
    have l1 : cellId (2 * p + 1) e' k' j' i' < E * (2 * p + 1) ^ 3 := lt_of_lt_of_eq (cellId_lt (show e' < E from he') hk' hj' hi') hE
    have l2 : cellId (2 * p + 1) e k j i < E * (2 * p + 1) ^ 3 := lt_of_lt_of_eq (cellId_lt he hk hj hi) hE
    have a1 := (R.nig_range _ l1).1
    have a2 := (R.nig_range _ l2).1
    omega)
  have e1 : (refinedMesh E p r).node e (i + j * (2 * p + 1) + k * (2 * p + 1) ^ 2) =
      (r.nig.val (e * (2 * p + 1) ^ 3 + (i + j * (2 * p + 1) + k * (2 * p + 1) ^ 2))).toNat := rfl
  rw [hid] at e1
  rw [← e1]
  exact this

end Verif.DetJac
