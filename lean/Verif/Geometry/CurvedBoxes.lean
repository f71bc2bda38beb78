import Verif.Geometry.CurvedMesh
import Verif.Swage.HighOrderLattice

/-!
# C116 on the meshes that `refine_high_order_mesh` makes of box meshes
-/

namespace Verif.Geometry
open Verif.Swage Verif.Swage.Refine Verif.Swage.HighOrder LagrangeElement LagrangeElement.Spec

theorem boxes_rows {E N p : ℕ} (hp : 1 ≤ p) {nodes : ℕ → ℕ → ℕ} {x : ℕ → ℕ → ℝ} {o w : ℕ → ℝ} {pos : ℕ → ℕ → ℤ}
    (hB : Boxes E N p nodes x o w pos) : FirstRows E p nodes x := by
  intro e he j i hji hip
  have h : ∀ i ≤ p, x (nodes e i) 0 = o 0 + w 0 * ((pos e 0 : ℝ) + (i : ℝ) / p) := by
    intro i hi
    have := hB.coords e he i hi 0 (by omega) 0 (by omega) 0 (by omega)
    simpa [dig] using this
  refine ⟨0, by omega, ?_⟩
  rw [h j (by omega), h i hip]
  intro hh
  have hp0 : (0 : ℝ) < p := by exact_mod_cast hp
  have hw0 := hB.wpos 0 (by omega)
  have h1 : w 0 * ((j : ℝ) / p) = w 0 * ((i : ℝ) / p) := by linarith
  have h2 := mul_left_cancel₀ hw0.ne' h1
  have h3 : (j : ℝ) = i := by field_simp at h2; linarith
  have : j = i := by exact_mod_cast h3
  omega

/-- The vertices of an element of a refined box mesh. -/
theorem boxes_vertex {E N p : ℕ} (hp : 1 ≤ p) (hp9 : p ≤ 9) {nodes : ℕ → ℕ → ℕ} {x : ℕ → ℕ → ℝ} {o w : ℕ → ℝ} {pos : ℕ → ℕ → ℤ}
    (hB : Boxes E N p nodes x o w pos) (q : HighOrder.Junk) : ∃ r, ∃ lob : ℕ → ℝ, refineHighOrder E N p nodes x q = some r ∧ lob 0 = -1 ∧ lob p = 1 ∧
      ∀ e < E, ∀ k < p + 1, ∀ j < p + 1, ∀ i < p + 1, ∀ d < 3,
        r.gauss.val (e * (2 * p + 1) ^ 3 + (2 * i + 2 * j * (2 * p + 1) + 2 * k * (2 * p + 1) ^ 2)) d =
          o d + w d * ((pos e d : ℝ) + (1 + lob (dig i j k d)) / 2) := by
  obtain ⟨r, lob, hr, hl, h⟩ := C69_gauss E N p hp hp9 nodes x q (boxes_rows hp hB)
  obtain ⟨l0, l1, -⟩ := lob_facts hp hp9 hl
  refine ⟨r, fun i => lob.val (2 * i), hr, l0, l1, ?_⟩
  intro e he k hk j hj i hi d hd
  obtain ⟨y, hy, hyd⟩ := h e he (2 * k) (by omega) (2 * j) (by omega) (2 * i) (by omega)
  have hv : r.gauss.val (e * (2 * p + 1) ^ 3 + (2 * i + 2 * j * (2 * p + 1) + 2 * k * (2 * p + 1) ^ 2)) = y := by
    unfold Arr.get gaussInElem at hy
    split at hy
    · exact Option.some.inj hy
    · cases hy
  rw [hv, hyd d hd]
  have h1 := isoMap_line hp (fun I => x (nodes e I) d) (fun u => (o d + w d * (pos e d : ℝ)) + w d * ((u : ℝ) / p)) d hd
    (fun i hi j hj k hk => by rw [hB.coords e he i hi j hj k hk d hd]; ring)
    (fun m => lob.val (dig (2 * i) (2 * j) (2 * k) m))
  rw [edgeMap_affine hp] at h1
  simp only [dig, if_true, one_ne_zero, if_false, OfNat.ofNat_ne_zero, OfNat.ofNat_ne_one] at h1
  rw [h1]
  have e : 2 * dig i j k d = dig (2 * i) (2 * j) (2 * k) d := by unfold dig; split <;> [rfl; split <;> rfl]
  show o d + w d * (pos _ d : ℝ) + w d * ((1 + lob.val (dig (2 * i) (2 * j) (2 * k) d)) / 2) =
    o d + w d * ((pos _ d : ℝ) + (1 + lob.val (2 * dig i j k d)) / 2)
  rw [e]
  ring

/-- **C116 (box meshes).**  Let `refine_high_order_mesh` build a mesh from a box mesh as in `C69_lattice_partial`, no two boxes at
the same place, and let `nb e d` be the box next to `e` in direction `d`, if there is one.  The elements of the refined mesh are glued
together in this way, so `C116_volume` and `C116_computed` hold: its outer sides are the sides with no box next to them. -/
theorem C116_boxes_partial (E N p : ℕ) (hp : 1 ≤ p) (hp9 : p ≤ 9) (nodes : ℕ → ℕ → ℕ) (x : ℕ → ℕ → ℝ) (o w : ℕ → ℝ)
    (pos : ℕ → ℕ → ℤ) (hB : Boxes E N p nodes x o w pos) (hw : w 0 ≤ 7 * ((p : ℝ) * p)) (hw3 : ∀ d < 3, w 0 ≤ 3 * w d)
    (hfirst : ∀ e < E, 0 < e → ∃ d < 3, pos e d ≠ pos 0 d ∧ pos e d ≠ pos 0 d - 1)
    (hpos : ∀ e < E, ∀ e' < E, (∀ d < 3, pos e d = pos e' d) → e = e') (nb : ℕ → ℕ → Option ℕ)
    (hnb : ∀ e < E, ∀ d < 3, ∀ e', nb e d = some e' ↔ e' < E ∧ ∀ c < 3, pos e' c = pos e c + if c = d then 1 else 0)
    (q : HighOrder.Junk) (m0 : ℕ → ℕ) :
    ∃ r, refineHighOrder E N p nodes x q = some r ∧
      ∀ m : Mesh, m.elems = E → m.gaussInElem = (2 * p + 1) ^ 3 →
        (∀ g < E * (2 * p + 1) ^ 3, m.nodesInElem.val g = (r.nig.val g).toNat) → Glued p m0 m nb := by
  obtain ⟨r, hr, h1, -⟩ := C69_lattice_partial E N p hp hp9 nodes x o w pos hB hw hw3 hfirst q
  obtain ⟨r', lob, hr', l0, l1, hv⟩ := boxes_vertex hp hp9 hB q
  obtain rfl : r' = r := Option.some.inj (hr'.symm.trans hr)
  refine ⟨r', hr, ?_⟩
  intro m hE hG hn
  have hN : RefElem.verts1D p = p + 1 := by unfold RefElem.verts1D; rw [if_neg (by omega)]
  have vm : ∀ i < p + 1, ∀ j < p + 1, ∀ k < p + 1, HexN.vertNodeMap p m0 (i + j * (p + 1) + k * (p + 1) * (p + 1)) =
      2 * i + 2 * j * (2 * p + 1) + 2 * k * (2 * p + 1) ^ 2 ∧
      2 * i + 2 * j * (2 * p + 1) + 2 * k * (2 * p + 1) ^ 2 < (2 * p + 1) ^ 3 := by
    intro i hi j hj k hk
    have a1 : HexN.numVerts1d p = p + 1 := by unfold HexN.numVerts1d; rw [if_neg (by omega)]
    have a2 : HexN.numNodes1d p = 2 * p + 1 := by unfold HexN.numNodes1d; rw [if_neg (by omega)]
    have := HexN.C60_setup (K := ℝ) p (fun _ => 0) (fun _ => 0) m0 (fun _ _ => 0) i j k (by rw [a1]; exact hi) (by rw [a1]; exact hj)
      (by rw [a1]; exact hk)
    simp only [a1, a2, if_neg (show ¬ p = 0 by omega)] at this
    refine ⟨?_, ?_⟩
    · rw [this.1]; ring
    · have h2 := this.2.1
      rw [this.1] at h2
      calc _ = 2 * i + 2 * j * (2 * p + 1) + 2 * k * (2 * p + 1) * (2 * p + 1) := by ring
        _ < _ := h2
        _ = _ := by ring
  refine ⟨fun e he d hd e' h => ?_, fun a ha b hb d hd e' h h' => ?_, fun e he d hd e' h a ha b hb => ?_⟩
  · rw [hE] at he ⊢
    exact ((hnb e he d hd e').1 h).1
  · rw [hE] at ha hb
    have A := ((hnb a ha d hd e').1 h).2
    have B := ((hnb b hb d hd e').1 h').2
    exact hpos a ha b hb fun c hc => by have := A c hc; have := B c hc; omega
  · rw [hE] at he
    rw [hN] at ha hb ⊢
    obtain ⟨he', hp'⟩ := (hnb e he d hd e').1 h
    -- two vertices at the same place are the same node
    have key : ∀ i < p + 1, ∀ j < p + 1, ∀ k < p + 1, ∀ i' < p + 1, ∀ j' < p + 1, ∀ k' < p + 1,
        (∀ c < 3, (pos e c : ℝ) + (1 + lob (dig i j k c)) / 2 = (pos e' c : ℝ) + (1 + lob (dig i' j' k' c)) / 2) →
        vertNode p m0 m e (i + j * (p + 1) + k * (p + 1) * (p + 1)) = vertNode p m0 m e' (i' + j' * (p + 1) + k' * (p + 1) * (p + 1)) := by
      intro i hi j hj k hk i' hi' j' hj' k' hk' hc
      unfold vertNode
      obtain ⟨v1, v2⟩ := vm i hi j hj k hk
      obtain ⟨v1', v2'⟩ := vm i' hi' j' hj' k' hk'
      have lt : ∀ e < E, ∀ l < (2 * p + 1) ^ 3, e * (2 * p + 1) ^ 3 + l < E * (2 * p + 1) ^ 3 := by
        intro e he l hl
        calc _ < e * (2 * p + 1) ^ 3 + (2 * p + 1) ^ 3 := by omega
          _ = (e + 1) * (2 * p + 1) ^ 3 := by ring
          _ ≤ _ := Nat.mul_le_mul_right _ he
      rw [v1, v1', hG, hn _ (lt e he _ v2), hn _ (lt e' he' _ v2'), (h1 _ (lt e he _ v2) _ (lt e' he' _ v2')).2]
      intro c hc3
      rw [hv e he k hk j hj i hi c hc3, hv e' he' k' hk' j' hj' i' hi' c hc3, hc c hc3]
    have q0 := hp' 0 (by omega); have q1 := hp' 1 (by omega); have q2 := hp' 2 (by omega)
    have c0 : ((pos e' 0 : ℤ) : ℝ) = ((pos e 0 + if (0 : ℕ) = d then 1 else 0 : ℤ) : ℝ) := congrArg Int.cast q0
    have c1 : ((pos e' 1 : ℤ) : ℝ) = ((pos e 1 + if (1 : ℕ) = d then 1 else 0 : ℤ) : ℝ) := congrArg Int.cast q1
    have c2 : ((pos e' 2 : ℤ) : ℝ) = ((pos e 2 + if (2 : ℕ) = d then 1 else 0 : ℤ) : ℝ) := congrArg Int.cast q2
    clear q0 q1 q2 hp' h1 hv hn hB hr hr' hw hw3 hfirst hpos hnb vm h
    have hp1 : p + 1 - 1 = p := by omega
    interval_cases d
    · norm_num at c0 c1 c2
      show vertNode p m0 m e (p + 1 - 1 + a * (p + 1) + b * (p + 1) * (p + 1)) = vertNode p m0 m e' (0 + a * (p + 1) + b * (p + 1) * (p + 1))
      rw [hp1]
      refine key p (by omega) a ha b hb 0 (by omega) a ha b hb fun c hc => ?_
      interval_cases c
      · show (pos e 0 : ℝ) + (1 + lob p) / 2 = (pos e' 0 : ℝ) + (1 + lob 0) / 2
        rw [l0, l1, c0]; ring
      · show (pos e 1 : ℝ) + (1 + lob a) / 2 = (pos e' 1 : ℝ) + (1 + lob a) / 2
        rw [c1]
      · show (pos e 2 : ℝ) + (1 + lob b) / 2 = (pos e' 2 : ℝ) + (1 + lob b) / 2
        rw [c2]
    · norm_num at c0 c1 c2
      show vertNode p m0 m e (b + (p + 1 - 1) * (p + 1) + a * (p + 1) * (p + 1)) = vertNode p m0 m e' (b + 0 * (p + 1) + a * (p + 1) * (p + 1))
      rw [hp1]
      refine key b hb p (by omega) a ha b hb 0 (by omega) a ha fun c hc => ?_
      interval_cases c
      · show (pos e 0 : ℝ) + (1 + lob b) / 2 = (pos e' 0 : ℝ) + (1 + lob b) / 2
        rw [c0]
      · show (pos e 1 : ℝ) + (1 + lob p) / 2 = (pos e' 1 : ℝ) + (1 + lob 0) / 2
        rw [l0, l1, c1]; ring
      · show (pos e 2 : ℝ) + (1 + lob a) / 2 = (pos e' 2 : ℝ) + (1 + lob a) / 2
        rw [c2]
    · norm_num at c0 c1 c2
      show vertNode p m0 m e (a + b * (p + 1) + (p + 1 - 1) * (p + 1) * (p + 1)) = vertNode p m0 m e' (a + b * (p + 1) + 0 * (p + 1) * (p + 1))
      rw [hp1]
      refine key a ha b hb p (by omega) a ha b hb 0 (by omega) fun c hc => ?_
      interval_cases c
      · show (pos e 0 : ℝ) + (1 + lob a) / 2 = (pos e' 0 : ℝ) + (1 + lob a) / 2
        rw [c0]
      · show (pos e 1 : ℝ) + (1 + lob b) / 2 = (pos e' 1 : ℝ) + (1 + lob b) / 2
        rw [c1]
      · show (pos e 2 : ℝ) + (1 + lob p) / 2 = (pos e' 2 : ℝ) + (1 + lob 0) / 2
        rw [l0, l1, c2]; ring

/-- Non-vacuity of `C116_boxes_partial`: two boxes of order 2 side by side, glued as `rowGlue` says. -/
example (q : HighOrder.Junk) (m0 : ℕ → ℕ) : ∃ r, refineHighOrder 2 45 2 twoNodes twoPos q = some r ∧
    ∀ m : Mesh, m.elems = 2 → m.gaussInElem = 125 → (∀ g < 250, m.nodesInElem.val g = (r.nig.val g).toNat) →
      Glued 2 m0 m rowGlue := by
  refine C116_boxes_partial 2 45 2 (by omega) (by omega) _ _ _ _ _ two_boxes (by norm_num) (by intro d _; norm_num) ?_ ?_
    rowGlue ?_ q m0
  · intro e he h0
    obtain rfl : e = 1 := by omega
    exact ⟨0, by omega, by norm_num, by norm_num⟩
  · intro e _ e' _ h
    have := h 0 (by omega)
    simpa using this
  · intro e he d hd e'
    unfold rowGlue
    constructor
    · intro h
      split at h
      · next hh =>
        cases h
        obtain ⟨rfl, rfl⟩ := hh
        refine ⟨by omega, fun c hc => ?_⟩
        by_cases h0 : c = 0 <;> simp [h0]
      · cases h
    · rintro ⟨he', h⟩
      have h0 := h 0 (by omega)
      have h1 := h d hd
      by_cases hd0 : d = 0
      · subst hd0
        simp at h0
        rw [if_pos ⟨by omega, rfl⟩]
        exact congrArg some (by omega)
      · simp [hd0] at h1

end Verif.Geometry
