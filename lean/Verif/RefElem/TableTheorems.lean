import Verif.RefElem.PatchTheorems

/-!
# C65: the basis tables of the reference element
-/

namespace Verif.RefElem
open Finset Polynomial

theorem sum_zL {n : ℕ} (hn : 1 < n) {z : ℕ → ℝ} (hz : Set.InjOn z (range n : Set ℕ)) (x : ℝ) :
    ∑ i ∈ range n, z i * HexN.L n z i x = x := by
  have h := Lagrange.eq_interpolate_of_eval_eq (s := range n) (v := z) (r := z) (f := X) hz
    (by rw [degree_X, card_range]; exact_mod_cast hn) (fun i _ => by simp)
  have h2 := congrArg (Polynomial.eval x) h
  rw [eval_X, Lagrange.interpolate_apply, eval_finsetSum] at h2
  rw [h2]
  refine sum_congr rfl fun i _ => ?_
  rw [eval_mul, eval_C]; rw [← h2]; rfl

theorem sum_zdL {n : ℕ} (hn : 1 < n) {z : ℕ → ℝ} (hz : Set.InjOn z (range n : Set ℕ)) (x : ℝ) :
    ∑ i ∈ range n, z i * HexN.dL n z i x = 1 := by
  have h := Lagrange.eq_interpolate_of_eval_eq (s := range n) (v := z) (r := z) (f := X) hz
    (by rw [degree_X, card_range]; exact_mod_cast hn) (fun i _ => by simp)
  have h2 := congrArg (fun f => (derivative f).eval x) h
  simp only [derivative_X, eval_one, Lagrange.interpolate_apply, derivative_sum, eval_finsetSum] at h2
  rw [h2]
  refine sum_congr rfl fun i _ => ?_
  rw [derivative_C_mul, eval_mul, eval_C]; rfl

/-- Specification of the tables at `M` points `pos`, for basis functions `b < N` with vertices at `vpos`: values and
gradients of a partition of unity that reproduces the coordinates; `phi b` are the basis functions. -/
structure GoodTables (M N : ℕ) (vpos : ℕ → ℕ → ℝ) (phi : ℕ → (ℕ → ℝ) → ℝ) (pos : Arr (ℕ → ℝ)) (basis : Arr (ℕ → ℝ))
    (grad : Arr (ℕ → ℕ → ℝ)) : Prop where
  size1 : basis.size = M
  size2 : grad.size = M
  value : ∀ m < M, ∀ b < N, basis.val m b = phi b (pos.val m)
  deriv : ∀ m < M, ∀ b < N, ∀ d < 3, HasDerivAt (fun y => phi b (store (pos.val m) d y)) (grad.val m b d) (pos.val m d)
  unity : ∀ m < M, ∑ b ∈ range N, basis.val m b = 1
  gradUnity : ∀ m < M, ∀ d < 3, ∑ b ∈ range N, grad.val m b d = 0
  linear : ∀ m < M, ∀ d < 3, ∑ b ∈ range N, vpos b d * basis.val m b = pos.val m d
  gradLinear : ∀ m < M, ∀ d < 3, ∀ e < 3, ∑ b ∈ range N, vpos b e * grad.val m b d = if d = e then 1 else 0

/-- The basis function of vertex `b` on `V` vertices per direction: the tensor product of Lagrange polynomials. -/
noncomputable def phi (V : ℕ) (z : ℕ → ℝ) (b : ℕ) (x : ℕ → ℝ) : ℝ :=
  (Lagrange.basis (range V) z (b % V)).eval (x 0) * (Lagrange.basis (range V) z (b / V % V)).eval (x 1) *
    (Lagrange.basis (range V) z (b / V / V)).eval (x 2)

theorem phi_rid {V i j k : ℕ} (hi : i < V) (hj : j < V) (z : ℕ → ℝ) (x : ℕ → ℝ) :
    phi V z (rid V i j k) x = HexN.L V z i (x 0) * HexN.L V z j (x 1) * HexN.L V z k (x 2) := by
  have := lex3_mod (k := k) hi hj
  unfold phi rid
  rw [this.1, this.2.1, this.2.2]; rfl

theorem good_tables {M V : ℕ} (hV : 1 < V) {z : ℕ → ℝ} (hz : Set.InjOn z (range V : Set ℕ)) {vpos : ℕ → ℕ → ℝ}
    (hv : ∀ i j k, i < V → j < V → k < V → vpos (rid V i j k) = row3 (z i) (z j) (z k))
    {pos basis : Arr (ℕ → ℝ)} {grad : Arr (ℕ → ℕ → ℝ)} (h1 : basis.size = M) (h2 : grad.size = M)
    (hb : IsBasis V z pos basis) (hg : IsGrad V z pos grad) :
    GoodTables M (V ^ 3) vpos (phi V z) pos basis grad := by
  have e3 : V ^ 3 = V * V * V := by ring
  have s1 := HexN.sum_L V z hz (by omega)
  have s0 := HexN.sum_dL V z hz (by omega)
  have sz := sum_zL hV hz
  have sd := sum_zdL hV hz
  have hd : ∀ (i : ℕ) (x : ℝ), HasDerivAt (fun y => HexN.L V z i y) (HexN.dL V z i x) x := by
    intro i x
    exact Polynomial.hasDerivAt _ x
  subst h1
  rw [e3]
  refine ⟨rfl, h2, ?_, ?_, ?_, ?_, ?_, ?_⟩
  · intro m hm b hb'
    obtain ⟨i, j, k, hi, hj, hk, rfl⟩ := rid_surj hb'
    rw [hb m hm i j k hi hj hk, phi_rid hi hj]
  · intro m hm b hb' d hd'
    obtain ⟨i, j, k, hi, hj, hk, rfl⟩ := rid_surj hb'
    obtain ⟨g0, g1, g2⟩ := hg m (by rw [h2]; exact hm) i j k hi hj hk
    simp only [phi_rid hi hj]
    have c : d = 0 ∨ d = 1 ∨ d = 2 := by omega
    rcases c with rfl | rfl | rfl
    · rw [g0]
      simp only [store_same, store_ne _ _ (show (1 : ℕ) ≠ 0 by omega), store_ne _ _ (show (2 : ℕ) ≠ 0 by omega)]
      exact ((hd i _).mul_const _).mul_const _
    · rw [g1]
      simp only [store_same, store_ne _ _ (show (0 : ℕ) ≠ 1 by omega), store_ne _ _ (show (2 : ℕ) ≠ 1 by omega)]
      exact ((hd j _).const_mul _).mul_const _
    · rw [g2]
      simp only [store_same, store_ne _ _ (show (0 : ℕ) ≠ 2 by omega), store_ne _ _ (show (1 : ℕ) ≠ 2 by omega)]
      exact (hd k _).const_mul _
  · intro m hm
    rw [HexN.sum_triple V _ _ _ _ fun i hi j hj k hk => hb m hm i j k hi hj hk, s1, s1, s1]; norm_num
  · intro m hm d hd'
    have G := fun i hi j hj k hk => hg m (by rw [h2]; exact hm) i j k hi hj hk
    have c : d = 0 ∨ d = 1 ∨ d = 2 := by omega
    rcases c with rfl | rfl | rfl
    · rw [HexN.sum_triple V (fun b => grad.val m b 0) _ _ _ fun i hi j hj k hk => (G i hi j hj k hk).1, s0]; simp
    · rw [HexN.sum_triple V (fun b => grad.val m b 1) _ _ _ fun i hi j hj k hk => (G i hi j hj k hk).2.1, s0]; simp
    · rw [HexN.sum_triple V (fun b => grad.val m b 2) _ _ _ fun i hi j hj k hk => (G i hi j hj k hk).2.2, s0]; simp
  · intro m hm d hd'
    have B := fun i hi j hj k hk => hb m hm i j k hi hj hk
    have c : d = 0 ∨ d = 1 ∨ d = 2 := by omega
    rcases c with rfl | rfl | rfl
    · rw [HexN.sum_triple V (fun b => vpos b 0 * basis.val m b) (fun i => z i * HexN.L V z i (pos.val m 0))
        (fun j => HexN.L V z j (pos.val m 1)) (fun k => HexN.L V z k (pos.val m 2))
        (fun i hi j hj k hk => by
          have a := B i hi j hj k hk
          have b := hv i j k hi hj hk
          unfold rid at a b
          simp only [a, b]; simp only [row3, if_true]; ring), sz, s1, s1]; ring
    · rw [HexN.sum_triple V (fun b => vpos b 1 * basis.val m b) (fun i => HexN.L V z i (pos.val m 0))
        (fun j => z j * HexN.L V z j (pos.val m 1)) (fun k => HexN.L V z k (pos.val m 2))
        (fun i hi j hj k hk => by
          have a := B i hi j hj k hk
          have b := hv i j k hi hj hk
          unfold rid at a b
          simp only [a, b]; simp [row3]; ring), sz, s1, s1]; ring
    · rw [HexN.sum_triple V (fun b => vpos b 2 * basis.val m b) (fun i => HexN.L V z i (pos.val m 0))
        (fun j => HexN.L V z j (pos.val m 1)) (fun k => z k * HexN.L V z k (pos.val m 2))
        (fun i hi j hj k hk => by
          have a := B i hi j hj k hk
          have b := hv i j k hi hj hk
          unfold rid at a b
          simp only [a, b]; simp [row3]; ring), sz, s1, s1]; ring
  · intro m hm d hd' e he
    have G := fun i hi j hj k hk => hg m (by rw [h2]; exact hm) i j k hi hj hk
    -- one factor of each direction: value, derivative; with or without the coordinate
    have T := HexN.sum_triple V (fun b => vpos b e * grad.val m b d)
      (fun i => (if e = 0 then z i else 1) * (if d = 0 then HexN.dL V z i (pos.val m 0) else HexN.L V z i (pos.val m 0)))
      (fun j => (if e = 1 then z j else 1) * (if d = 1 then HexN.dL V z j (pos.val m 1) else HexN.L V z j (pos.val m 1)))
      (fun k => (if e = 2 then z k else 1) * (if d = 2 then HexN.dL V z k (pos.val m 2) else HexN.L V z k (pos.val m 2)))
      (fun i hi j hj k hk => by
        obtain ⟨g0, g1, g2⟩ := G i hi j hj k hk
        have b := hv i j k hi hj hk
        unfold rid at g0 g1 g2 b
        have c : d = 0 ∨ d = 1 ∨ d = 2 := by omega
        have c' : e = 0 ∨ e = 1 ∨ e = 2 := by omega
        rcases c with rfl | rfl | rfl <;> rcases c' with rfl | rfl | rfl <;>
          simp only [g0, g1, g2, b] <;> simp [row3] <;> ring)
    rw [T]
    have c : d = 0 ∨ d = 1 ∨ d = 2 := by omega
    have c' : e = 0 ∨ e = 1 ∨ e = 2 := by omega
    rcases c with rfl | rfl | rfl <;> rcases c' with rfl | rfl | rfl <;> simp [s0, s1, sz, sd]

/-! ### The vertices -/

theorem verts_val {p : ℕ} (hp : p ≤ 9) {q : Junk} {r : Ref} (h : InitSpec p q r) {a : ℕ} (ha : a < verts1D p) :
    (if p = 0 then 1 else 2) * a < nodes1D p ∧ r.verts a = r.lob.val ((if p = 0 then 1 else 2) * a) := by
  have hlt : (if p = 0 then 1 else 2) * a < nodes1D p := by
    unfold verts1D at ha; unfold nodes1D; split at ha <;> simp_all
  refine ⟨hlt, ?_⟩
  obtain ⟨x, e1, e2⟩ := h.verts
  have hn := two_le_nodes p
  have hl := lob_len hn (by have := nodes_le hp; omega)
  rw [e2, (HexN.C60_setup p x.val q.hexVerts (fun _ => 0) (fun _ _ => 0) a a a ha ha ha).2.2.2.2.2, lob_vals hp h hlt]
  refine assign_val e1 ?_ (by rw [hl]; exact hlt)
  rw [hl]
  nlinarith [Nat.mul_le_mul hn hn]

theorem lob_mono {p : ℕ} (hp : p ≤ 9) {q : Junk} {r : Ref} (h : InitSpec p q r) {i j : ℕ} (hij : i < j) (hj : j < nodes1D p) :
    r.lob.val i < r.lob.val j := by
  obtain ⟨x, w, e1, -, g, -, -⟩ := Quad.C30_lobatto (nodes1D p) (two_le_nodes p) (by have := nodes_le hp; omega) q.lob q.lobw
  obtain rfl : x = r.lob := by have := h.lob; rw [e1] at this; exact Option.some.inj this
  obtain ⟨d, rfl⟩ := Nat.exists_eq_add_of_lt hij
  clear hij
  induction d with
  | zero => exact g.increasing i hj
  | succ d ih => exact lt_trans (ih (by omega)) (g.increasing _ hj)

theorem verts_inj {p : ℕ} (hp : p ≤ 9) {q : Junk} {r : Ref} (h : InitSpec p q r) :
    Set.InjOn r.verts (range (verts1D p) : Set ℕ) := by
  intro a ha b hb e
  rw [coe_range, Set.mem_Iio] at ha hb
  obtain ⟨a1, a2⟩ := verts_val hp h ha
  obtain ⟨b1, b2⟩ := verts_val hp h hb
  rw [a2, b2] at e
  rcases lt_trichotomy a b with c | c | c
  · exact absurd e (lob_mono hp h (by split <;> omega) b1).ne
  · exact c
  · exact absurd e (lob_mono hp h (by split <;> omega) a1).ne'

theorem two_le_verts (p : ℕ) : 1 < verts1D p := by unfold verts1D; split <;> omega

theorem vertex_pos {p : ℕ} (hp : p ≤ 9) {q : Junk} {r : Ref} (h : InitSpec p q r) (m0 : ℕ → ℕ) {i j k : ℕ}
    (hi : i < verts1D p) (hj : j < verts1D p) (hk : k < verts1D p) :
    HexN.vertNodeMap p m0 (rid (verts1D p) i j k) < nodes1D p ^ 3 ∧
    r.nodePos.val (HexN.vertNodeMap p m0 (rid (verts1D p) i j k)) = row3 (r.verts i) (r.verts j) (r.verts k) := by
  obtain ⟨a1, a2⟩ := verts_val hp h hi
  obtain ⟨b1, b2⟩ := verts_val hp h hj
  obtain ⟨c1, c2⟩ := verts_val hp h hk
  have e : HexN.vertNodeMap p m0 (rid (verts1D p) i j k) = rid (nodes1D p) ((if p = 0 then 1 else 2) * i)
      ((if p = 0 then 1 else 2) * j) ((if p = 0 then 1 else 2) * k) :=
    (HexN.C60_setup p r.lob.val q.hexVerts m0 (fun _ _ => 0) i j k hi hj hk).1
  rw [e, h.nodePos _ _ _ a1 b1 c1, a2, b2, c2]
  refine ⟨?_, rfl⟩
  rw [show nodes1D p ^ 3 = nodes1D p * nodes1D p * nodes1D p by ring]
  exact rid_lt a1 b1 c1

/-- **C65 (tables).**  For the tabulated orders, the basis and gradient tables at the nodes, at the patch points and at
the cell points contain the values and the partial derivatives of the tensor-product Lagrange basis functions; at
every point the values sum to one, the gradients to zero, and both reproduce the coordinates from the positions of the
vertex nodes `vert_node_map(b)`.  `m0` is the previous contents of the map. -/
theorem C65_tables (p : ℕ) (hp : p ≤ 9) (q : Junk) (m0 : ℕ → ℕ) : ∃ r, init p q = some r ∧
    let V := verts1D p
    let C := cells1D p
    let vpos := fun b => r.nodePos.val (HexN.vertNodeMap p m0 b)
    GoodTables (nodes1D p ^ 3) (V ^ 3) vpos (phi V r.verts) r.nodePos r.nodeBasis r.nodeGrad ∧
    GoodTables (3 * C ^ 2 * (C + 1)) (V ^ 3) vpos (phi V r.verts) r.pat.pos r.patchBasis r.patchGrad ∧
    GoodTables (C ^ 3) (V ^ 3) vpos (phi V r.verts) r.pat.cellPos r.cellBasis r.cellGrad := by
  obtain ⟨r, h1, h2⟩ := init_run p q
  have hz := verts_inj hp h2
  have hv := fun i j k hi hj hk => (vertex_pos hp h2 m0 (i := i) (j := j) (k := k) hi hj hk).2
  have hV := two_le_verts p
  refine ⟨r, h1, ?_, ?_, ?_⟩
  · exact good_tables hV hz hv (by rw [h2.nbSize]; ring) (by rw [h2.ngSize]; ring) h2.nodeBasis h2.nodeGrad
  · exact good_tables hV hz hv (by rw [h2.pbSize]; ring) (by rw [h2.pgSize]; ring) h2.patchBasis h2.patchGrad
  · exact good_tables hV hz hv (by rw [h2.cbSize]; ring) (by rw [h2.cgSize]; ring) h2.cellBasis h2.cellGrad

/-- **C65 (nodal values).**  At the node of vertex `c` the table has the value one for vertex `c` and zero for every
other vertex. -/
theorem C65_nodal (p : ℕ) (hp : p ≤ 9) (q : Junk) (m0 : ℕ → ℕ) : ∃ r, init p q = some r ∧
    ∀ b < verts1D p ^ 3, ∀ c < verts1D p ^ 3, ∃ row,
      r.nodeBasis.get (HexN.vertNodeMap p m0 c) = some row ∧ row b = if b = c then 1 else 0 := by
  obtain ⟨r, h1, h2⟩ := init_run p q
  have hz := verts_inj hp h2
  refine ⟨r, h1, ?_⟩
  rw [show verts1D p ^ 3 = verts1D p * verts1D p * verts1D p by ring]
  intro b hb c hc
  obtain ⟨i, j, k, hi, hj, hk, rfl⟩ := rid_surj hb
  obtain ⟨i', j', k', hi', hj', hk', rfl⟩ := rid_surj hc
  obtain ⟨a1, a2⟩ := vertex_pos hp h2 m0 hi' hj' hk'
  have hsz : HexN.vertNodeMap p m0 (rid (verts1D p) i' j' k') < r.nodeBasis.size := by
    rw [h2.nbSize]; rw [show nodes1D p ^ 3 = nodes1D p * nodes1D p * nodes1D p by ring] at a1; exact a1
  refine ⟨_, Arr.get_lt hsz, ?_⟩
  rw [h2.nodeBasis _ hsz i j k hi hj hk, a2]
  simp only [row3, if_true, if_neg (show ¬ (1 : ℕ) = 0 by omega), if_neg (show ¬ (2 : ℕ) = 0 by omega),
    if_neg (show ¬ (2 : ℕ) = 1 by omega)]
  have D : ∀ i j, i < verts1D p → j < verts1D p → HexN.L (verts1D p) r.verts i (r.verts j) = if i = j then 1 else 0 := by
    intro i j hi hj
    rw [← HexN.C28_delta (verts1D p) r.verts hz (fun _ => 0) i j hi hj, HexN.lagrangeBasis1D_eq _ _ _ _ _ hi]
  rw [D i i' hi hi', D j j' hj hj', D k k' hk hk']
  by_cases t : i = i' ∧ j = j' ∧ k = k'
  · obtain ⟨rfl, rfl, rfl⟩ := t; simp
  · have hne : ¬ rid (verts1D p) i j k = rid (verts1D p) i' j' k' := fun e => t (rid_inj hi hj hi' hj' e)
    rw [if_neg hne]
    by_cases a : i = i' <;> by_cases b : j = j' <;> by_cases c : k = k' <;> simp_all

/-- Non-vacuity: order 2 has 27 vertices and 125 nodes. -/
example : (2 : ℕ) ≤ 9 ∧ verts1D 2 ^ 3 = 27 ∧ nodes1D 2 ^ 3 = 125 := by decide

end Verif.RefElem
