import Verif.Geometry.CheckModel
import Verif.Geometry.SurfaceSum
import Verif.Geometry.CurvedExamples

/-!
# C74: the geometry checks of the Average example
-/

namespace Verif.Geometry
open Finset
open Verif.DetJac (polyAt partialAt jacDet)
open Verif.Swage.HighOrder (polyMap pt)

/-! ### The loops -/

/-- Sign of a side: the odd sides are on the upper planes. -/
def sideSign (s : ℕ) : ℝ := if s % 2 = 0 then -1 else 1

theorem areaNormal_spec (s : Jac) {side gid : ℕ} (hs : side < 6) (h1 : gid < s.inv.size) (h2 : gid < s.det.size) (w : ℝ) (i : ℕ) :
    areaNormal s side gid w i = some (sideSign side * (s.inv.val gid (side / 2) i * s.det.val gid) * w) := by
  unfold areaNormal
  have : side = 0 ∨ side = 1 ∨ side = 2 ∨ side = 3 ∨ side = 4 ∨ side = 5 := by omega
  simp only [loopM, Arr.get_lt h1, Arr.get_lt h2]
  rcases this with rfl | rfl | rfl | rfl | rfl | rfl <;> simp [sideNormal, sideNormalTable, sideSign]

theorem sideTally_spec {m : Mesh} {r : RefElem.Ref} {s : Jac} {e cell side rid : ℕ} {w : ℝ} (hs : side < 6)
    (hid : r.patchesInCell cell side = some (rid : ℤ)) (hw : r.pat.weights.get rid = some w)
    (h1 : e * m.patchesInElem + rid < s.inv.size) (h2 : e * m.patchesInElem + rid < s.det.size) (t : ℕ → ℝ) :
    ∃ t', sideTally m r s e cell side t = some t' ∧ ∀ i < 3, t' i = t i + sideSign side *
      (s.inv.val (e * m.patchesInElem + rid) (side / 2) i * s.det.val (e * m.patchesInElem + rid)) * w := by
  obtain ⟨t', e1, e2⟩ := loopM_spec (n := 3) (body := fun i (t : ℕ → ℝ) => do
      let a ← areaNormal s side (e * m.patchesInElem + rid) w i
      pure (store t i (t i + a))) (s := t)
    (fun c t' => (∀ i < c, t' i = t i + sideSign side *
      (s.inv.val (e * m.patchesInElem + rid) (side / 2) i * s.det.val (e * m.patchesInElem + rid)) * w) ∧ ∀ i, c ≤ i → t' i = t i)
    ⟨by intro i h; omega, fun _ _ => rfl⟩
    (by
      rintro c t1 hc ⟨I1, I2⟩
      refine ⟨_, by simp only [areaNormal_spec s hs h1 h2 w c]; rfl, ?_, ?_⟩
      · intro i hi
        by_cases h : i = c
        · subst h; rw [store_same, I2 i le_rfl]
        · rw [store_ne _ _ h]; exact I1 i (by omega)
      · intro i hi
        rw [store_ne _ _ (show i ≠ c by omega)]; exact I2 i (by omega))
  refine ⟨t', ?_, e2.1⟩
  unfold sideTally
  show (r.patchesInCell cell side).bind _ = _
  rw [hid, Option.bind_some]
  show (asIndex (rid : ℤ)).bind _ = _
  rw [show asIndex (rid : ℤ) = some rid by unfold asIndex; rw [if_pos (by omega)]; simp, Option.bind_some]
  show (r.pat.weights.get rid).bind _ = _
  rw [hw, Option.bind_some]
  exact e1

/-- The tally is the sum of the area-weighted normals over all sides of all cells. -/
theorem surfTally_spec {m : Mesh} {r : RefElem.Ref} {s : Jac} {e C : ℕ} (hC : m.cellsPerElem = C) {rid : ℕ → ℕ → ℕ} {w : ℕ → ℕ → ℝ}
    (h : ∀ c < C, ∀ side < 6, r.patchesInCell c side = some (rid c side : ℤ) ∧ r.pat.weights.get (rid c side) = some (w c side) ∧
      e * m.patchesInElem + rid c side < s.inv.size ∧ e * m.patchesInElem + rid c side < s.det.size) :
    ∃ t, surfTally m r s e = some t ∧ ∀ i < 3, t i = ∑ c ∈ range C, ∑ side ∈ range 6, sideSign side *
      (s.inv.val (e * m.patchesInElem + rid c side) (side / 2) i * s.det.val (e * m.patchesInElem + rid c side)) * w c side := by
  unfold surfTally
  rw [hC]
  refine loopM_spec (fun n (t : ℕ → ℝ) => ∀ i < 3, t i = ∑ c ∈ range n, ∑ side ∈ range 6, sideSign side *
      (s.inv.val (e * m.patchesInElem + rid c side) (side / 2) i * s.det.val (e * m.patchesInElem + rid c side)) * w c side)
    (by intro i _; simp) ?_
  intro c t hc hI
  obtain ⟨t', e1, e2⟩ := loopM_spec (n := 6) (body := fun side => sideTally m r s e c side) (s := t)
    (fun n (t' : ℕ → ℝ) => ∀ i < 3, t' i = t i + ∑ side ∈ range n, sideSign side *
      (s.inv.val (e * m.patchesInElem + rid c side) (side / 2) i * s.det.val (e * m.patchesInElem + rid c side)) * w c side)
    (by intro i _; simp)
    (by
      intro side t1 hs I1
      obtain ⟨a1, a2, a3, a4⟩ := h c hc side hs
      obtain ⟨t2, b1, b2⟩ := sideTally_spec hs a1 a2 a3 a4 t1
      refine ⟨t2, b1, ?_⟩
      intro i hi
      rw [b2 i hi, I1 i hi, sum_range_succ, add_assoc])
  refine ⟨t', e1, ?_⟩
  intro i hi
  rw [e2 i hi, hI i hi]
  exact (sum_range_succ _ c).symm

theorem checkVolume_spec {m : Mesh} {r : RefElem.Ref} {det : Arr ℝ} {e C : ℕ} (hC : m.cellsPerElem = C) {cid : ℕ → ℕ} {w : ℕ → ℝ}
    (h : ∀ l < C, m.cellsInElem.get (e * C + l) = some (cid l) ∧ r.pat.cellWeights.get l = some (w l) ∧ cid l < det.size) :
    checkVolume m r det e = some (∑ l ∈ range C, det.val (cid l) * w l) := by
  unfold checkVolume
  rw [hC]
  obtain ⟨v, e1, e2⟩ := loopM_spec (n := C) (body := fun lid (v : ℝ) => do
      let gid ← m.cellsInElem.get (e * C + lid)
      let w ← r.pat.cellWeights.get lid
      let d ← det.get gid
      pure (v + d * w)) (s := (0:ℝ)) (fun n v => v = ∑ l ∈ range n, det.val (cid l) * w l) (by simp)
    (by
      rintro l v hl rfl
      obtain ⟨a1, a2, a3⟩ := h l hl
      refine ⟨_, by rw [a1]; show (r.pat.cellWeights.get l).bind _ = _; rw [a2, Option.bind_some]; show (det.get _).bind _ = _
                    rw [Arr.get_lt a3, Option.bind_some]; rfl, ?_⟩
      rw [sum_range_succ])
  rw [e1, e2]

/-! ### From the inverse to the cross product of the gradients -/

/-- The rows of `det J · J⁻¹` are the cross products of the gradients. -/
theorem inv_det {J I : ℕ → ℕ → ℝ} {d : ℝ} (hd : d = (Jacobian.mat 3 J).det) (hI : Jacobian.mat 3 J * Jacobian.mat 3 I = 1) {a i : ℕ}
    (ha : a < 3) (hi : i < 3) : I a i * d =
      J ((i + 1) % 3) ((a + 1) % 3) * J ((i + 2) % 3) ((a + 2) % 3) - J ((i + 1) % 3) ((a + 2) % 3) * J ((i + 2) % 3) ((a + 1) % 3) := by
  have h : (Jacobian.mat 3 J).adjugate = d • Jacobian.mat 3 I := by
    calc (Jacobian.mat 3 J).adjugate = (Jacobian.mat 3 J).adjugate * (Jacobian.mat 3 J * Jacobian.mat 3 I) := by rw [hI, mul_one]
      _ = d • Jacobian.mat 3 I := by rw [← mul_assoc, Matrix.adjugate_mul, ← hd, Matrix.smul_mul, one_mul]
  have h2 := congrFun (congrFun h ⟨a, ha⟩) ⟨i, hi⟩
  rw [Matrix.smul_apply, smul_eq_mul, mul_comm] at h2
  rw [show I a i * d = Jacobian.mat 3 I ⟨a, ha⟩ ⟨i, hi⟩ * d from rfl, ← h2, Matrix.adjugate_fin_three]
  interval_cases a <;> interval_cases i <;> simp [Jacobian.mat] <;> ring

/-! ### The sum over the cells telescopes -/

/-- Cell `(i, j, k)`. -/
theorem sum_cells (C : ℕ) (f : ℕ → ℝ) : ∑ c ∈ range (C ^ 3), f c =
    ∑ k ∈ range C, ∑ j ∈ range C, ∑ i ∈ range C, f (i + j * C + k * C ^ 2) := by
  rw [show C ^ 3 = C * C * C by ring, sum_range_cube]
  refine sum_congr rfl fun k _ => sum_congr rfl fun j _ => sum_congr rfl fun i _ => ?_
  congr 1; ring

theorem telescope (C : ℕ) (lob leg w : ℕ → ℝ) (G : ℕ → (ℕ → ℝ) → ℝ) (h0 : lob 0 = -1) (h1 : lob C = 1) :
    ∑ k ∈ range C, ∑ j ∈ range C, ∑ i ∈ range C, (
      (G 0 (pt (lob (i + 1)) (leg j) (leg k)) - G 0 (pt (lob i) (leg j) (leg k))) * (w j * w k) +
      (G 1 (pt (leg i) (lob (j + 1)) (leg k)) - G 1 (pt (leg i) (lob j) (leg k))) * (w i * w k) +
      (G 2 (pt (leg i) (leg j) (lob (k + 1))) - G 2 (pt (leg i) (leg j) (lob k))) * (w i * w j)) =
    surfaceQuad C leg w G := by
  simp only [sum_add_distrib]
  unfold surfaceQuad
  congr 1
  congr 1
  · refine sum_congr rfl fun k _ => sum_congr rfl fun j _ => ?_
    rw [← sum_mul, sum_range_sub (fun i => G 0 (pt (lob i) (leg j) (leg k))), h0, h1]; ring
  · refine sum_congr rfl fun k _ => ?_
    rw [sum_comm]
    refine sum_congr rfl fun i _ => ?_
    rw [← sum_mul, sum_range_sub (fun j => G 1 (pt (leg i) (lob j) (leg k))), h0, h1]; ring
  · rw [sum_comm]
    refine sum_congr rfl fun j _ => ?_
    rw [sum_comm]
    refine sum_congr rfl fun i _ => ?_
    rw [← sum_mul, sum_range_sub (fun k => G 2 (pt (leg i) (leg j) (lob k))), h0, h1]; ring

theorem patch_run' {p : ℕ} {q : RefElem.Junk} {r : RefElem.Ref} (hr : RefElem.InitSpec p q r) (m0 : ℕ → ℕ) {m : Mesh} (hm : MeshOK p m)
    {s : Jac} (hs : s.Sized (m.elems * (3 * RefElem.cells1D p ^ 2 * (RefElem.cells1D p + 1)))) :
    ∃ s', patchJacobian m (RefElem.verts1D p ^ 3) (HexN.vertNodeMap p m0) r s = some s' ∧
      s'.Sized (m.elems * (3 * RefElem.cells1D p ^ 2 * (RefElem.cells1D p + 1))) := by
  unfold patchJacobian
  obtain ⟨s', h1, h2, -⟩ := jacLoop_spec m (RefElem.verts1D p ^ 3) (HexN.vertNodeMap p m0) r.patchGrad
    (3 * RefElem.cells1D p ^ 2 * (RefElem.cells1D p + 1)) _
    (fun e l => e * (3 * RefElem.cells1D p ^ 2 * (RefElem.cells1D p + 1)) + l) (fun e l he hl => row_lt he hl)
    (fun e l e' l' _ hl _ hl' h => row_inj hl hl' h)
    (fun e he v hv => by rw [hm.gauss, hm.size]; exact row_lt he (vm_lt p m0 hv))
    (fun e he v hv => by rw [hm.gauss]; exact hm.nodes _ (row_lt he (vm_lt p m0 hv)))
    (le_of_eq (by rw [hr.pgSize]; ring)) s hs
  rw [hm.patches]
  exact ⟨s', h1, h2⟩

theorem lob_ends {p : ℕ} (hp : p ≤ 9) {q : RefElem.Junk} {r : RefElem.Ref} (h : RefElem.InitSpec p q r) :
    r.lob.val 0 = -1 ∧ r.lob.val (RefElem.cells1D p) = 1 := by
  have h2 := RefElem.two_le_nodes p
  have h20 : RefElem.nodes1D p ≤ 20 := by unfold RefElem.nodes1D; split <;> omega
  obtain ⟨x, w, e1, -, -, e3, e4⟩ := Quad.C30_lobatto (RefElem.nodes1D p) h2 h20 q.lob q.lobw
  obtain rfl : x = r.lob := Option.some.inj (e1.symm.trans h.lob)
  exact ⟨e3, e4⟩

theorem leg_rule {p : ℕ} (hp : p ≤ 9) {q : RefElem.Junk} {r : RefElem.Ref} (h : RefElem.InitSpec p q r) :
    Quad.GoodRule (RefElem.cells1D p) (2 * RefElem.cells1D p) (1 / 10 ^ 29) r.leg.val r.legw.val := by
  have h2 := RefElem.cells_pos p
  have h20 : RefElem.cells1D p ≤ 19 := by unfold RefElem.cells1D RefElem.nodes1D; split <;> omega
  obtain ⟨x, w, e1, e2, g⟩ := Quad.C30_legendre (RefElem.cells1D p) h2 h20 q.leg q.legw
  obtain rfl : x = r.leg := Option.some.inj (e1.symm.trans h.leg)
  obtain rfl : w = r.legw := Option.some.inj (e2.symm.trans h.legw)
  exact g

theorem get_lt_size {α : Type} {a : Arr α} {i : ℕ} {x : α} (h : a.get i = some x) : i < a.size ∧ a.val i = x := by
  unfold Arr.get at h
  split at h
  · exact ⟨by assumption, Option.some.inj h⟩
  · exact absurd h (by simp)

/-- If at every patch point `det J · J⁻¹` has the entries `G i a`, the tally is the flux of `G` through the surface of the
reference cube by Gauss-Legendre quadrature. -/
theorem tally_flux {p : ℕ} (hp : p ≤ 9) {q : RefElem.Junk} {r : RefElem.Ref} (hr : RefElem.init p q = some r) (R : RefElem.InitSpec p q r)
    {m : Mesh} (hm : MeshOK p m) {s : Jac} (hs : s.Sized (m.elems * (3 * RefElem.cells1D p ^ 2 * (RefElem.cells1D p + 1))))
    {e : ℕ} (he : e < m.elems) (G : ℕ → ℕ → (ℕ → ℝ) → ℝ) (hG : ∀ i < 3, ∀ a, ∀ X Y : ℕ → ℝ, (∀ d < 3, X d = Y d) → G i a X = G i a Y)
    (h : ∀ l < 3 * RefElem.cells1D p ^ 2 * (RefElem.cells1D p + 1), ∀ gid,
      gid = e * (3 * RefElem.cells1D p ^ 2 * (RefElem.cells1D p + 1)) + l → ∀ a < 3, ∀ i < 3,
      s.inv.val gid a i * s.det.val gid = G i a (r.pat.pos.val l)) :
    ∃ t, surfTally m r s e = some t ∧ ∀ i < 3, t i = surfaceQuad (RefElem.cells1D p) r.leg.val r.legw.val (G i) := by
  obtain ⟨r', hr', P⟩ := RefElem.C63_patch_points p q
  obtain rfl : r' = r := Option.some.inj (hr'.symm.trans hr)
  set C := RefElem.cells1D p with hC
  have hC0 : 0 < C := RefElem.cells_pos p
  have dig : ∀ c < C ^ 3, c % C < C ∧ c / C % C < C ∧ c / C / C < C ∧ c % C + c / C % C * C + c / C / C * C ^ 2 = c := by
    intro c hc
    refine ⟨Nat.mod_lt _ hC0, Nat.mod_lt _ hC0, ?_, ?_⟩
    · rw [Nat.div_div_eq_div_mul]; exact Nat.div_lt_of_lt_mul (lt_of_lt_of_eq hc (by ring))
    · have e1 := Nat.mod_add_div c C
      have e2 := Nat.mod_add_div (c / C) C
      calc c % C + c / C % C * C + c / C / C * C ^ 2 = c % C + C * (c / C % C + C * (c / C / C)) := by ring
        _ = c := by rw [e2, e1]
  have ex : ∀ c side : ℕ, ∃ (id : ℕ), c < C ^ 3 → side < 6 → ∃ (x : ℕ → ℝ) (w : ℝ),
      r'.patchesInCell c side = some (id : ℤ) ∧ r'.pat.pos.get id = some x ∧ r'.pat.weights.get id = some w ∧
      (∀ d < 3, x d = if d = side / 2 then r'.lob.val (RefElem.co (c % C) (c / C % C) (c / C / C) d + side % 2)
        else r'.leg.val (RefElem.co (c % C) (c / C % C) (c / C / C) d)) ∧
      w = ∏ d ∈ (Finset.range 3).erase (side / 2), r'.legw.val (RefElem.co (c % C) (c / C % C) (c / C / C) d) := by
    intro c side
    by_cases hh : c < C ^ 3 ∧ side < 6
    · obtain ⟨d1, d2, d3, d4⟩ := dig c hh.1
      obtain ⟨id, x, w, P1, P2, P3, P4, P5⟩ := P _ _ _ side d1 d2 d3 hh.2
      rw [d4] at P1
      exact ⟨id, fun _ _ => ⟨x, w, P1, P2, P3, P4, P5⟩⟩
    · exact ⟨0, fun a b => absurd ⟨a, b⟩ hh⟩
  choose rid hrid using ex
  set w : ℕ → ℕ → ℝ := fun c side => r'.pat.weights.val (rid c side) with hw
  have sz : r'.pat.weights.size = 3 * C ^ 2 * (C + 1) := by rw [R.pat.wsize]; ring
  have inb : ∀ c < C ^ 3, ∀ side < 6, rid c side < 3 * C ^ 2 * (C + 1) := by
    intro c hc side hs
    obtain ⟨x, w, -, -, Q3, -⟩ := hrid c side hc hs
    rw [← sz]; exact (get_lt_size Q3).1
  obtain ⟨t, t1, t2⟩ := surfTally_spec (m := m) (r := r') (s := s) (e := e) hm.cells (rid := rid) (w := w)
    (by
      intro c hc side hsd
      obtain ⟨x, w', Q1, Q2, Q3, -⟩ := hrid c side hc hsd
      have hb := row_lt he (inb c hc side hsd)
      refine ⟨Q1, ?_, ?_, ?_⟩
      · rw [Q3, hw]; exact congrArg some (get_lt_size Q3).2.symm
      · rw [hm.patches, hs.2.1]; exact hb
      · rw [hm.patches, hs.2.2]; exact hb)
  refine ⟨t, t1, ?_⟩
  intro i hi
  obtain ⟨l0, l1⟩ := lob_ends hp R
  rw [t2 i hi, sum_cells, ← telescope C r'.lob.val r'.leg.val r'.legw.val (G i) l0 l1]
  refine sum_congr rfl fun k hk => sum_congr rfl fun j hj => sum_congr rfl fun a ha => ?_
  have ha := mem_range.1 ha
  have hj := mem_range.1 hj
  have hk := mem_range.1 hk
  have hc : a + j * C + k * C ^ 2 < C ^ 3 := by
    have e1 : a + j * C + k * C ^ 2 = RefElem.rid C a j k := by unfold RefElem.rid; ring
    rw [e1]; exact lt_of_lt_of_eq (RefElem.rid_lt ha hj hk) (by ring)
  have e1 : a + j * C + k * C ^ 2 = a + j * C + k * C * C := by ring
  have term : ∀ side < 6, sideSign side * (s.inv.val (e * m.patchesInElem + rid (a + j * C + k * C ^ 2) side) (side / 2) i *
      s.det.val (e * m.patchesInElem + rid (a + j * C + k * C ^ 2) side)) * w (a + j * C + k * C ^ 2) side =
      sideSign side * G i (side / 2) (fun d => if d = side / 2 then r'.lob.val (RefElem.co a j k d + side % 2)
        else r'.leg.val (RefElem.co a j k d)) * ∏ d ∈ (Finset.range 3).erase (side / 2), r'.legw.val (RefElem.co a j k d) := by
    intro side hsd
    obtain ⟨x, w', Q1, Q2, Q3, Q4, Q5⟩ := hrid (a + j * C + k * C ^ 2) side hc hsd
    rw [e1, digit0 ha, digit1 ha hj, digit2 ha hj] at Q4 Q5
    rw [hm.patches, h _ (inb _ hc side hsd) _ rfl (side / 2) (by omega) i hi, hG i hi (side / 2) _ _ (fun d hd => by rw [(get_lt_size Q2).2, Q4 d hd]), hw]
    show _ * r'.pat.weights.val _ = _
    rw [(get_lt_size Q3).2, Q5]
  rw [sum_congr rfl fun side hsd => term side (mem_range.1 hsd)]
  have g : ∀ (a' : ℕ) (X : ℕ → ℝ) (u v z : ℝ), X 0 = u → X 1 = v → X 2 = z → G i a' X = G i a' (pt u v z) := by
    intro a' X u v z h0 h1 h2
    refine hG i hi a' _ _ ?_
    intro d hd
    interval_cases d <;> simp [pt, h0, h1, h2]
  have f0 : (Finset.range 3).erase 0 = {1, 2} := by decide
  have f1 : (Finset.range 3).erase 1 = {0, 2} := by decide
  have f2 : (Finset.range 3).erase 2 = {0, 1} := by decide
  simp only [sum_range_succ, sum_range_zero]
  have v0 : sideSign 0 * G i (0 / 2) (fun d => if d = 0 / 2 then r'.lob.val (RefElem.co a j k d + 0 % 2)
        else r'.leg.val (RefElem.co a j k d)) * ∏ d ∈ (Finset.range 3).erase (0 / 2), r'.legw.val (RefElem.co a j k d) =
      (-1) * G i 0 (pt (r'.lob.val a) (r'.leg.val j) (r'.leg.val k)) * (r'.legw.val j * r'.legw.val k) := by
    rw [g (0 / 2) _ (r'.lob.val a) (r'.leg.val j) (r'.leg.val k) (by simp [RefElem.co]) (by simp [RefElem.co]) (by simp [RefElem.co])]
    norm_num only [Nat.reduceDiv]
    rw [f0, prod_pair (by norm_num)]
    simp [RefElem.co, sideSign]
  have v1 : sideSign 1 * G i (1 / 2) (fun d => if d = 1 / 2 then r'.lob.val (RefElem.co a j k d + 1 % 2)
        else r'.leg.val (RefElem.co a j k d)) * ∏ d ∈ (Finset.range 3).erase (1 / 2), r'.legw.val (RefElem.co a j k d) =
      (1) * G i 0 (pt (r'.lob.val (a + 1)) (r'.leg.val j) (r'.leg.val k)) * (r'.legw.val j * r'.legw.val k) := by
    rw [g (1 / 2) _ (r'.lob.val (a + 1)) (r'.leg.val j) (r'.leg.val k) (by simp [RefElem.co]) (by simp [RefElem.co]) (by simp [RefElem.co])]
    norm_num only [Nat.reduceDiv]
    rw [f0, prod_pair (by norm_num)]
    simp [RefElem.co, sideSign]
  have v2 : sideSign 2 * G i (2 / 2) (fun d => if d = 2 / 2 then r'.lob.val (RefElem.co a j k d + 2 % 2)
        else r'.leg.val (RefElem.co a j k d)) * ∏ d ∈ (Finset.range 3).erase (2 / 2), r'.legw.val (RefElem.co a j k d) =
      (-1) * G i 1 (pt (r'.leg.val a) (r'.lob.val j) (r'.leg.val k)) * (r'.legw.val a * r'.legw.val k) := by
    rw [g (2 / 2) _ (r'.leg.val a) (r'.lob.val j) (r'.leg.val k) (by simp [RefElem.co]) (by simp [RefElem.co]) (by simp [RefElem.co])]
    norm_num only [Nat.reduceDiv]
    rw [f1, prod_pair (by norm_num)]
    simp [RefElem.co, sideSign]
  have v3 : sideSign 3 * G i (3 / 2) (fun d => if d = 3 / 2 then r'.lob.val (RefElem.co a j k d + 3 % 2)
        else r'.leg.val (RefElem.co a j k d)) * ∏ d ∈ (Finset.range 3).erase (3 / 2), r'.legw.val (RefElem.co a j k d) =
      (1) * G i 1 (pt (r'.leg.val a) (r'.lob.val (j + 1)) (r'.leg.val k)) * (r'.legw.val a * r'.legw.val k) := by
    rw [g (3 / 2) _ (r'.leg.val a) (r'.lob.val (j + 1)) (r'.leg.val k) (by simp [RefElem.co]) (by simp [RefElem.co]) (by simp [RefElem.co])]
    norm_num only [Nat.reduceDiv]
    rw [f1, prod_pair (by norm_num)]
    simp [RefElem.co, sideSign]
  have v4 : sideSign 4 * G i (4 / 2) (fun d => if d = 4 / 2 then r'.lob.val (RefElem.co a j k d + 4 % 2)
        else r'.leg.val (RefElem.co a j k d)) * ∏ d ∈ (Finset.range 3).erase (4 / 2), r'.legw.val (RefElem.co a j k d) =
      (-1) * G i 2 (pt (r'.leg.val a) (r'.leg.val j) (r'.lob.val k)) * (r'.legw.val a * r'.legw.val j) := by
    rw [g (4 / 2) _ (r'.leg.val a) (r'.leg.val j) (r'.lob.val k) (by simp [RefElem.co]) (by simp [RefElem.co]) (by simp [RefElem.co])]
    norm_num only [Nat.reduceDiv]
    rw [f2, prod_pair (by norm_num)]
    simp [RefElem.co, sideSign]
  have v5 : sideSign 5 * G i (5 / 2) (fun d => if d = 5 / 2 then r'.lob.val (RefElem.co a j k d + 5 % 2)
        else r'.leg.val (RefElem.co a j k d)) * ∏ d ∈ (Finset.range 3).erase (5 / 2), r'.legw.val (RefElem.co a j k d) =
      (1) * G i 2 (pt (r'.leg.val a) (r'.leg.val j) (r'.lob.val (k + 1))) * (r'.legw.val a * r'.legw.val j) := by
    rw [g (5 / 2) _ (r'.leg.val a) (r'.leg.val j) (r'.lob.val (k + 1)) (by simp [RefElem.co]) (by simp [RefElem.co]) (by simp [RefElem.co])]
    norm_num only [Nat.reduceDiv]
    rw [f2, prod_pair (by norm_num)]
    simp [RefElem.co, sideSign]
  rw [v0, v1, v2, v3, v4, v5]
  ring

theorem gradCross_congr (P : ℕ) (c c' : ℕ → ℕ → ℕ → ℝ) (a : ℕ) {X Y : ℕ → ℝ} (h : ∀ d < 3, X d = Y d) :
    gradCross (polyAt P c) (polyAt P c') a X = gradCross (polyAt P c) (polyAt P c') a Y := by
  have g : ∀ c : ℕ → ℕ → ℕ → ℝ, ∀ d < 3, partialAt (polyAt P c) d X = partialAt (polyAt P c) d Y := by
    intro c d hd
    rw [polyAt_partial P c X hd, polyAt_partial P c Y hd]
    refine sum_congr rfl fun s _ => ?_
    unfold dmon
    rw [h 0 (by omega), h 1 (by omega), h 2 (by omega)]
  have h1 : (a + 1) % 3 < 3 := Nat.mod_lt _ (by omega)
  have h2 : (a + 2) % 3 < 3 := Nat.mod_lt _ (by omega)
  unfold gradCross
  rw [g c _ h1, g c _ h2, g c' _ h1, g c' _ h2]

/-! ### C74 -/

/-- **C74 (closed surface, curved elements).**  After `get_gauss_patch_pt_jacobian`, orders 0 to 9: if the element is the
image of the reference cube under a polynomial map whose Jacobian determinant is not zero at the patch points, then the
three sums of area-weighted normals that the Average example prints are zero up to the accuracy of the tabulated points. -/
theorem C74_closed (p : ℕ) (hp : p ≤ 9) (q : RefElem.Junk) (m0 : ℕ → ℕ) (m : Mesh) (hm : MeshOK p m) (s : Jac)
    (hs : s.Sized (m.elems * (3 * RefElem.cells1D p ^ 2 * (RefElem.cells1D p + 1)))) :
    ∃ r s', RefElem.init p q = some r ∧ patchJacobian m (RefElem.verts1D p ^ 3) (HexN.vertNodeMap p m0) r s = some s' ∧
      ∀ e < m.elems, ∀ co, CurvedBy p m0 r m e co →
        (∀ l < 3 * RefElem.cells1D p ^ 2 * (RefElem.cells1D p + 1),
          jacDet (fun a => polyAt (degree p) (co a)) (r.pat.pos.val l) ≠ 0) →
        ∃ t, surfTally m r s' e = some t ∧ ∀ i < 3, |t i| ≤
          30 / 10 ^ 29 * degree p ^ 2 * (coefSum (degree p) (co ((i + 1) % 3)) * coefSum (degree p) (co ((i + 2) % 3))) := by
  obtain ⟨r, hr, R⟩ := RefElem.init_run p q
  obtain ⟨r1, s', h1', g1, g2⟩ := C48_patch p hp q m0 m hm s hs
  have E1 : r1 = r := Option.some.inj (h1'.symm.trans hr)
  subst E1
  obtain ⟨u, t1, t2⟩ := patch_run' R m0 hm hs
  have E2 : u = s' := Option.some.inj (t1.symm.trans g1)
  subst E2
  refine ⟨r1, u, hr, g1, ?_⟩
  intro e he co hco hdet
  obtain ⟨t, T1, T2⟩ := tally_flux hp hr R hm t2 he
    (fun i => gradCross (polyAt (degree p) (co ((i + 1) % 3))) (polyAt (degree p) (co ((i + 2) % 3))))
    (fun i _ a X Y h => gradCross_congr _ _ _ a h)
    (by
      rintro l hl gid rfl a ha i hi
      have J := (g2 e he l hl _ rfl).1
      obtain ⟨J1, J2⟩ := curved_point hp R m0 hco J
      have hd := hdet l hl
      rw [← J2] at hd
      have b : ∀ x, x % 3 < 3 := fun x => Nat.mod_lt _ (by omega)
      rw [inv_det J.det (J.inv hd).1 ha hi, J1 _ (b _) _ (b _), J1 _ (b _) _ (b _), J1 _ (b _) _ (b _), J1 _ (b _) _ (b _)]
      rfl)
  refine ⟨t, T1, ?_⟩
  intro i hi
  rw [T2 i hi]
  have hD : 2 * degree p ≤ 2 * RefElem.cells1D p := by
    unfold degree RefElem.cells1D RefElem.verts1D RefElem.nodes1D; split <;> omega
  refine (surface_closed (degree p) _ _ (degree_pos p) (leg_rule hp R) (by norm_num) hD).trans (le_of_eq ?_)
  ring

/-- **C74 (closed surface, affine elements).**  If the vertices of the element are the image of the reference vertices under
an invertible affine map, the three sums are exactly zero. -/
theorem C74_affine (p : ℕ) (hp : p ≤ 9) (q : RefElem.Junk) (m0 : ℕ → ℕ) (m : Mesh) (hm : MeshOK p m) (s : Jac)
    (hs : s.Sized (m.elems * (3 * RefElem.cells1D p ^ 2 * (RefElem.cells1D p + 1)))) :
    ∃ r s', RefElem.init p q = some r ∧ patchJacobian m (RefElem.verts1D p ^ 3) (HexN.vertNodeMap p m0) r s = some s' ∧
      ∀ e < m.elems, ∀ (A : ℕ → ℕ → ℝ) (b : ℕ → ℝ), (Jacobian.mat 3 A).det ≠ 0 →
        (∀ v < RefElem.verts1D p ^ 3, ∀ i < 3,
          m.coords.val (m.nodesInElem.val (e * m.gaussInElem + HexN.vertNodeMap p m0 v)) i =
            A i 0 * r.nodePos.val (HexN.vertNodeMap p m0 v) 0 + A i 1 * r.nodePos.val (HexN.vertNodeMap p m0 v) 1 +
            A i 2 * r.nodePos.val (HexN.vertNodeMap p m0 v) 2 + b i) →
        ∃ t, surfTally m r s' e = some t ∧ ∀ i < 3, t i = 0 := by
  obtain ⟨r, hr, R⟩ := RefElem.init_run p q
  obtain ⟨r1, s', h1', g1, g2⟩ := C48_patch p hp q m0 m hm s hs
  have E1 : r1 = r := Option.some.inj (h1'.symm.trans hr)
  subst E1
  obtain ⟨u, t1, t2⟩ := patch_run' R m0 hm hs
  have E2 : u = s' := Option.some.inj (t1.symm.trans g1)
  subst E2
  refine ⟨r1, u, hr, g1, ?_⟩
  intro e he A b hA hv
  obtain ⟨t, T1, T2⟩ := tally_flux hp hr R hm t2 he
    (fun i a _ => A ((i + 1) % 3) ((a + 1) % 3) * A ((i + 2) % 3) ((a + 2) % 3) - A ((i + 1) % 3) ((a + 2) % 3) * A ((i + 2) % 3) ((a + 1) % 3))
    (fun i _ a X Y h => rfl)
    (by
      rintro l hl gid rfl a ha i hi
      obtain ⟨J, aff⟩ := g2 e he l hl _ rfl
      obtain ⟨J1, J2⟩ := aff A b hv
      have x : ∀ x, x % 3 < 3 := fun x => Nat.mod_lt _ (by omega)
      rw [inv_det J.det (J.inv (by rw [J2]; exact hA)).1 ha hi, J1 _ (x _) _ (x _), J1 _ (x _) _ (x _), J1 _ (x _) _ (x _), J1 _ (x _) _ (x _)])
  refine ⟨t, T1, ?_⟩
  intro i hi
  rw [T2 i hi]
  simp [surfaceQuad]

/-- **C74 (volume).**  After `get_gauss_cell_pt_jacobian`, orders 1 to 9: the element volume that the Average example computes
from the cell points is the integral of the Jacobian determinant of the polynomial map of the element, up to the accuracy of
the tabulated weights; `cid e l` is the number of cell `l` of element `e`, and different cells have different numbers. -/
theorem C74_volume (p : ℕ) (h1 : 1 ≤ p) (hp : p ≤ 9) (q : RefElem.Junk) (m0 : ℕ → ℕ) (m : Mesh) (hm : MeshOK p m) (cid : ℕ → ℕ → ℕ)
    (hc : ∀ e < m.elems, ∀ l < RefElem.cells1D p ^ 3, m.cellsInElem.get (e * RefElem.cells1D p ^ 3 + l) = some (cid e l) ∧
      cid e l < m.cells)
    (hinj : ∀ e l e' l', e < m.elems → l < RefElem.cells1D p ^ 3 → e' < m.elems → l' < RefElem.cells1D p ^ 3 →
      cid e l = cid e' l' → e = e' ∧ l = l')
    (s : Jac) (hs : s.Sized m.cells) : ∃ r s', RefElem.init p q = some r ∧
    cellJacobian m (RefElem.verts1D p ^ 3) (HexN.vertNodeMap p m0) r s = some s' ∧
    ∀ e < m.elems, ∀ co, CurvedBy p m0 r m e co → ∃ V, checkVolume m r s'.det e = some V ∧
      |V - imageVolume (fun a => polyAt p (co a))| ≤
        114 / 10 ^ 29 * p ^ 3 * (coefSum p (co 0) * coefSum p (co 1) * coefSum p (co 2)) := by
  obtain ⟨r, hr, R⟩ := RefElem.init_run p q
  obtain ⟨r1, s', h1', g1, g2⟩ := C48_cell p hp q m0 m hm cid hc hinj s hs
  have E1 : r1 = r := Option.some.inj (h1'.symm.trans hr)
  subst E1
  obtain ⟨r2, h2', CP⟩ := RefElem.C63_cell_points p q
  have E2 : r2 = r1 := Option.some.inj (h2'.symm.trans hr)
  subst E2
  have hsz : s'.Sized m.cells := by
    have := jacLoop_spec m (RefElem.verts1D p ^ 3) (HexN.vertNodeMap p m0) r2.cellGrad
      (RefElem.cells1D p ^ 3) _ cid (fun e l he hl => (hc e he l hl).2) hinj
      (fun e he v hv => by rw [hm.gauss, hm.size]; exact row_lt he (vm_lt p m0 hv))
      (fun e he v hv => by rw [hm.gauss]; exact hm.nodes _ (row_lt he (vm_lt p m0 hv)))
      (le_of_eq (by rw [R.cgSize]; unfold RefElem.cells1D; ring)) s hs
    obtain ⟨u, u1, u2, -⟩ := this
    have : some u = some s' := by
      rw [← u1, ← g1]
      unfold cellJacobian
      rw [hm.cells]
      refine loopM_congr fun e s he => loopM_congr fun l s hl => ?_
      simp only [Option.bind_eq_bind]
      rw [(hc e he l hl).1, Option.bind_some]
    rw [← Option.some.inj this]; exact u2
  refine ⟨r2, s', hr, g1, ?_⟩
  intro e he co hco
  have pw : ∀ i j k, i < RefElem.cells1D p → j < RefElem.cells1D p → k < RefElem.cells1D p →
      i + j * RefElem.cells1D p + k * RefElem.cells1D p ^ 2 < RefElem.cells1D p ^ 3 := by
    intro i j k hi hj hk
    have e1 : i + j * RefElem.cells1D p + k * RefElem.cells1D p ^ 2 = RefElem.rid (RefElem.cells1D p) i j k := by unfold RefElem.rid; ring
    rw [e1]; exact lt_of_lt_of_eq (RefElem.rid_lt hi hj hk) (by ring)
  have wsz : r2.pat.cellWeights.size = RefElem.cells1D p ^ 3 := by rw [R.cwtSize]; ring
  refine ⟨_, checkVolume_spec hm.cells (cid := cid e) (w := fun l => r2.pat.cellWeights.val l)
    (fun l hl => ⟨(hc e he l hl).1, Arr.get_lt (by rw [wsz]; exact hl), by rw [hsz.2.2]; exact (hc e he l hl).2⟩), ?_⟩
  have tq : ∑ l ∈ range (RefElem.cells1D p ^ 3), s'.det.val (cid e l) * r2.pat.cellWeights.val l =
      tensorQuad (RefElem.cells1D p) r2.leg.val r2.legw.val (jacDet fun a => polyAt (degree p) (co a)) := by
    rw [sum_cells]
    unfold tensorQuad
    refine sum_congr rfl fun k hk => sum_congr rfl fun j hj => sum_congr rfl fun i hi => ?_
    have hi := mem_range.1 hi
    have hj := mem_range.1 hj
    have hk := mem_range.1 hk
    have hlt := pw i j k hi hj hk
    obtain ⟨x, x1, x2, x3⟩ := CP i j k hi hj hk
    have := (curved_point hp R m0 hco (g2 e he _ hlt _ rfl).1).2
    rw [this, (get_lt_size x2).2, (get_lt_size x1).2, mul_comm]
    congr 1
    refine jacDet_congr3 _ _ ?_
    intro d hd
    rw [x3 d hd]
    interval_cases d <;> simp [RefElem.co, pt]
  rw [tq]
  have hd : degree p = p := by unfold degree RefElem.verts1D; rw [if_neg (by omega)]; omega
  have hcl : RefElem.cells1D p = 2 * p := by unfold RefElem.cells1D RefElem.nodes1D; rw [if_neg (by omega)]; omega
  have key := quad_jacDet (degree p) co (degree_pos p) (leg_rule hp R) (by norm_num) (show 3 * degree p ≤ 2 * RefElem.cells1D p by omega)
  rw [hd] at key ⊢
  refine key.trans (le_of_eq (by ring))

end Verif.Geometry
