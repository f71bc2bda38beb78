import Verif.Geometry.BoundaryFlux
import Verif.Swage.PatchGrid

/-!
# C112: the total volume of a mesh is fixed by its boundary patches
-/

namespace Verif.Geometry
open Finset
open Verif.Swage

/-- The two sides have the same nodes. -/
def SameNodes (nodes : ℕ → ℕ → ℕ) (c p c' p' : ℕ) : Prop :=
  ∀ n, (∃ q < 4, nodeInPatchInCell nodes c p q = n) ↔ ∃ q < 4, nodeInPatchInCell nodes c' p' q = n

/-- No other side has the same nodes. -/
def Outer (C : ℕ) (nodes : ℕ → ℕ → ℕ) (c p : ℕ) : Prop :=
  ∀ c' < C, ∀ p' < 6, SameNodes nodes c p c' p' → c' = c ∧ p' = p

/-- The nodes of a side, counterclockwise for someone outside the cell (of a cell with positive volume): the table of swage lists
the nodes of the lower sides 0, 2, 4 clockwise. -/
def outward (nodes : ℕ → ℕ → ℕ) (c p q : ℕ) : ℕ := nodeInPatchInCell nodes c p (if p % 2 = 1 then q else 3 - q)

/-- The cells are numbered consistently: whenever two different sides have the same nodes, the nodes of one are those of the other
in the opposite order (starting anywhere). -/
def Oriented (C : ℕ) (nodes : ℕ → ℕ → ℕ) : Prop :=
  ∀ c < C, ∀ p < 6, ∀ c' < C, ∀ p' < 6, (c, p) ≠ (c', p') → SameNodes nodes c p c' p' →
    ∃ r < 4, ∀ q < 4, outward nodes c' p' q = outward nodes c p ((r + 3 - q) % 4)

/-- Flux out of a cell through one of its sides. -/
noncomputable def sideFlux (x : ℕ → ℕ → ℝ) (nodes : ℕ → ℕ → ℕ) (e : ℕ) : ℝ :=
  sgn (e % 6) * flux fun q => x (nodeInPatchInCell nodes (e / 6) (e % 6) q)

theorem sideFlux_outward (x : ℕ → ℕ → ℝ) (nodes : ℕ → ℕ → ℕ) (e : ℕ) :
    sideFlux x nodes e = flux fun q => x (outward nodes (e / 6) (e % 6) q) := by
  unfold sideFlux sgn outward
  by_cases h : e % 6 % 2 = 1
  · simp only [if_pos h, one_mul]
  · simp only [if_neg h]
    rw [flux_reverse (fun q => x (nodeInPatchInCell nodes (e / 6) (e % 6) (3 - q)))
      (fun q => x (nodeInPatchInCell nodes (e / 6) (e % 6) q)) 0 (by omega)
      (fun q hq d _ => by rw [show 3 - (0 + 3 - q) % 4 = q by omega])]
    ring

theorem Oriented.anti {C : ℕ} {nodes : ℕ → ℕ → ℕ} (h : Oriented C nodes) (x : ℕ → ℕ → ℝ) {e e' : ℕ} (he : e < 6 * C)
    (he' : e' < 6 * C) (hne : e ≠ e') (hs : SameNodes nodes (e / 6) (e % 6) (e' / 6) (e' % 6)) :
    sideFlux x nodes e = - sideFlux x nodes e' := by
  obtain ⟨r, hr, hq⟩ := h (e / 6) (by omega) (e % 6) (by omega) (e' / 6) (by omega) (e' % 6) (by omega)
    (fun hh => hne (by simp only [Prod.mk.injEq] at hh; omega)) hs
  rw [sideFlux_outward, sideFlux_outward, flux_reverse (fun q => x (outward nodes (e / 6) (e % 6) q))
    (fun q => x (outward nodes (e' / 6) (e' % 6) q)) r hr
    (fun q hq' d _ => by rw [hq q hq'])]
  ring

theorem sum_sides (C : ℕ) (f : ℕ → ℝ) : ∑ c ∈ range C, ∑ p ∈ range 6, f (6 * c + p) = ∑ e ∈ range (6 * C), f e := by
  induction C with
  | zero => rfl
  | succ C ih =>
    rw [sum_range_succ, ih, show 6 * (C + 1) = 6 * C + 6 by ring, sum_range_add]

theorem sum_anti (F : ℕ → ℝ) (L : List ℕ) (h : L.Pairwise fun a b => F a = - F b) (h2 : 2 ≤ L.length) : (L.map F).sum = 0 := by
  match L with
  | [] => simp at h2
  | [a] => simp at h2
  | [a, b] =>
    simp only [List.pairwise_cons] at h
    have := h.1 b (by simp)
    simp [this]
  | a :: b :: c :: r =>
    simp only [List.pairwise_cons] at h
    have ab := h.1 b (by simp)
    have ac := h.1 c (by simp)
    have bc := h.2.1 c (by simp)
    have a0 : F a = 0 := by linarith
    refine List.sum_eq_zero fun y hy => ?_
    obtain ⟨d, hd, rfl⟩ := List.mem_map.1 hy
    rcases List.mem_cons.1 hd with e | hd
    · rw [e, a0]
    · have := h.1 d hd
      linarith

/-- The sum over all sides is the sum over the sides of the patches that have only one. -/
theorem sum_boundary {C : ℕ} {nodes : ℕ → ℕ → ℕ} (ho : Oriented C nodes) (x : ℕ → ℕ → ℝ) (k : Patches)
    (hid : ∀ c < C, ∀ p < 6, 0 ≤ k.inCell c p ∧ k.inCell c p < k.num)
    (hsame : ∀ c < C, ∀ p < 6, ∀ c' < C, ∀ p' < 6, k.inCell c p = k.inCell c' p' → SameNodes nodes c p c' p') :
    ∑ e ∈ range (6 * C), sideFlux x nodes e =
      (((List.range k.num).filter fun g => decide ((sidesOf k C g).length = 1)).map
        fun g => sideFlux x nodes ((sidesOf k C g).headD 0)).sum := by
  have hmem : ∀ g e, e ∈ sidesOf k C g ↔ e < 6 * C ∧ k.inCell (e / 6) (e % 6) = (g : ℤ) := by
    intro g e
    unfold sidesOf
    simp
  have hnd : ∀ g, (sidesOf k C g).Nodup := fun g => List.Nodup.filter _ List.nodup_range
  rw [← sum_fiberwise_of_maps_to (s := range (6 * C)) (t := range k.num) (g := fun e => (k.inCell (e / 6) (e % 6)).toNat)
    (fun e he => by
      have he := mem_range.1 he
      have := hid (e / 6) (by omega) (e % 6) (by omega)
      exact mem_range.2 (by omega))]
  have key : ∀ g ∈ range k.num, ∑ e ∈ range (6 * C) with (k.inCell (e / 6) (e % 6)).toNat = g, sideFlux x nodes e =
      if (sidesOf k C g).length = 1 then sideFlux x nodes ((sidesOf k C g).headD 0) else 0 := by
    intro g _
    have hset : (range (6 * C)).filter (fun e => (k.inCell (e / 6) (e % 6)).toNat = g) = (sidesOf k C g).toFinset := by
      ext e
      rw [mem_filter, mem_range, List.mem_toFinset, hmem]
      refine and_congr_right fun he => ?_
      have := hid (e / 6) (by omega) (e % 6) (by omega)
      omega
    rw [hset, List.sum_toFinset _ (hnd g)]
    by_cases h1 : (sidesOf k C g).length = 1
    · rw [if_pos h1]
      obtain ⟨a, ha⟩ := List.length_eq_one_iff.1 h1
      rw [ha]; simp
    · rw [if_neg h1]
      by_cases h0 : (sidesOf k C g).length = 0
      · rw [List.length_eq_zero_iff.1 h0]; rfl
      · refine sum_anti _ _ ?_ (by omega)
        refine List.Pairwise.imp_of_mem ?_ (hnd g)
        intro a b ha hb hab
        rw [hmem] at ha hb
        exact ho.anti x ha.1 hb.1 hab (hsame _ (by omega) _ (by omega) _ (by omega) _ (by omega) (ha.2.trans hb.2.symm))
  rw [sum_congr rfl key, ← sum_filter]
  have : (range k.num).filter (fun g => (sidesOf k C g).length = 1) =
      ((List.range k.num).filter fun g => decide ((sidesOf k C g).length = 1)).toFinset := by
    ext g; simp
  rw [this, List.sum_toFinset _ (List.Nodup.filter _ List.nodup_range)]

/-- `nodes_in_cell`. -/
def cellNodes (m : Mesh) (c l : ℕ) : ℕ := m.nodesInCell.val (c * 8 + l)

/-- **C112 (cells).**  After `get_vol_hex`, on any mesh, the volume of every cell is the flux of a third of the position out of the
bilinear surfaces through the nodes `node_in_patch_in_cell(c, p, ·)` of its six sides, taken with the sign of
`cell_side_unit_normals`. -/
theorem C112_cell (m : Mesh) (h : CellsOK m) (verts0 : ℕ → ℕ → ℝ) (s : Vol) (h1 : s.cell.size = m.cells)
    (h2 : s.coords.size = m.cells) :
    ∃ s', volHex m verts0 s = some s' ∧ ∀ c < m.cells, s'.cell.get c =
      some (∑ p ∈ range 6, sgn p * flux fun q => m.coords.val (nodeInPatchInCell (cellNodes m) c p q)) := by
  obtain ⟨s', e, e2⟩ := C46_volume m h verts0 s h1 h2
  refine ⟨s', e, fun c hc => (e2 c hc).trans (congrArg some ?_)⟩
  rw [volume_flux]
  rfl

theorem volHex_total (m : Mesh) (h : CellsOK m) (verts0 : ℕ → ℕ → ℝ) (s : Vol) (h1 : s.cell.size = m.cells)
    (h2 : s.coords.size = m.cells) :
    ∃ (s' : Vol) (v : ℕ → ℝ), volHex m verts0 s = some s' ∧ (∀ c < m.cells, s'.cell.get c = some (v c)) ∧
      ∑ c ∈ range m.cells, v c = ∑ e ∈ range (6 * m.cells), sideFlux m.coords.val (cellNodes m) e := by
  obtain ⟨s', e, e2⟩ := C112_cell m h verts0 s h1 h2
  refine ⟨s', _, e, e2, ?_⟩
  rw [← sum_sides]
  refine sum_congr rfl fun c hc => sum_congr rfl fun p hp => ?_
  have hp := mem_range.1 hp
  unfold sideFlux
  rw [show (6 * c + p) % 6 = p by omega, show (6 * c + p) / 6 = c by omega]

theorem sum_getD (L : List ℕ) (f : ℕ → ℝ) : (L.map f).sum = ∑ i ∈ range L.length, f (L.getD i 0) := by
  induction L with
  | nil => rfl
  | cons a L ih =>
    rw [List.map_cons, List.sum_cons, ih, List.length_cons, sum_range_succ']
    simp [add_comm]

/-- **C112.**  Let the cells of a mesh be numbered consistently, and let the keys of `build_patch_connectivity` tell two sides apart
exactly when their nodes differ.  Then, wherever the nodes are (cells may be inverted), the volumes `get_vol_hex` gives to the cells
add up to the flux of a third of the position out of the boundary patches `bdy_patches(i)`, computed from `node_in_patch` and the
direction of the side `sides_in_patch(·, 0)`, a side that shares its nodes with no other side. -/
theorem C112_boundary (m : Mesh) (h : CellsOK m) (verts0 : ℕ → ℕ → ℝ) (s : Vol) (h1 : s.cell.size = m.cells)
    (h2 : s.coords.size = m.cells) (ho : Oriented m.cells (cellNodes m)) (keys : ℕ → ℕ)
    (hk : ∀ c < m.cells, ∀ p < 6, ∀ c' < m.cells, ∀ p' < 6,
      keys (6 * c + p) = keys (6 * c' + p') ↔ SameNodes (cellNodes m) c p c' p')
    (jt jc js jn : ℕ → ℤ) (ji : ℕ → ℕ → ℤ) (jk : ℕ → ℕ → ℕ) (j0 : ℕ → ℕ) :
    ∃ (s' : Vol) (v : ℕ → ℝ) (k : Patches) (b : Arr ℕ), volHex m verts0 s = some s' ∧ (∀ c < m.cells, s'.cell.get c = some (v c)) ∧ buildPatches m.cells (cellNodes m) keys jt jc js jn ji jk = some k ∧
      buildBdy k j0 = some b ∧ ∃ (g a : ℕ → ℕ) (n : ℕ → ℕ → ℕ),
      (∀ i < b.size, b.get i = some (g i) ∧ k.sidesInPatch (g i) 0 = some (a i : ℤ) ∧
        (∀ q < 4, k.nodeInPatch (g i) q = some (n i q : ℤ)) ∧ a i < 6 * m.cells ∧
        (∀ q < 4, n i q = nodeInPatchInCell (cellNodes m) (a i / 6) (a i % 6) q) ∧ Outer m.cells (cellNodes m) (a i / 6) (a i % 6)) ∧
      ∑ c ∈ range m.cells, v c = ∑ i ∈ range b.size, sgn (a i % 6) * flux fun q => m.coords.val (n i q) := by
  obtain ⟨s', v, e, e1, e2⟩ := volHex_total m h verts0 s h1 h2
  obtain ⟨k, b, p1, p2, p3, p4, -⟩ := C40_bdy m.cells (cellNodes m) keys jt jc js jn ji jk j0
  obtain ⟨k', q1, q2, q3, -, -, q6⟩ := C38_patches_partial m.cells (cellNodes m) keys jt jc js jn ji jk
  obtain rfl : k' = k := by rw [q1] at p1; exact Option.some.inj p1
  set L := (List.range k'.num).filter fun g => decide ((sidesOf k' m.cells g).length = 1) with hL
  refine ⟨s', v, k', b, e, e1, q1, p2, fun i => L.getD i 0, fun i => (sidesOf k' m.cells (L.getD i 0)).headD 0,
    fun i q => nodeInPatchInCell (cellNodes m) ((sidesOf k' m.cells (L.getD i 0)).headD 0 / 6)
      ((sidesOf k' m.cells (L.getD i 0)).headD 0 % 6) q, ?_, ?_⟩
  · intro i hi
    rw [p3] at hi
    have hg : L.getD i 0 = L[i] := by rw [List.getD_eq_getElem _ _ hi]
    have hm : L[i] < k'.num := List.mem_range.1 (List.mem_filter.1 (List.getElem_mem hi)).1
    obtain ⟨a, L', r1, -, r2, r3, -, -⟩ := q6 _ hm
    beta_reduce
    rw [hg, r1]
    simp only [List.headD_cons]
    have hme : a ∈ sidesOf k' m.cells L[i] := by rw [r1]; simp
    unfold sidesOf at hme
    simp only [List.mem_filter, List.mem_range, decide_eq_true_eq] at hme
    have hlt := hme.1
    refine ⟨p4 i hi, r2, r3, hlt, fun q _ => trivial, fun c' hc' p' hp' hs => ?_⟩
    have hlen : (sidesOf k' m.cells L[i]).length = 1 := of_decide_eq_true (List.mem_filter.1 (List.getElem_mem hi)).2
    have hme' : 6 * c' + p' ∈ sidesOf k' m.cells L[i] := by
      unfold sidesOf
      simp only [List.mem_filter, List.mem_range, decide_eq_true_eq]
      refine ⟨by omega, ?_⟩
      rw [show (6 * c' + p') / 6 = c' by omega, show (6 * c' + p') % 6 = p' by omega, ← hme.2]
      exact (q2 c' hc' p' hp' _ (by omega) _ (by omega)).2 ((hk c' hc' p' hp' _ (by omega) _ (by omega)).2
        fun n => (hs n).symm)
    rw [r1] at hlen hme'
    simp only [List.length_cons, Nat.add_eq_right, List.length_eq_zero_iff] at hlen
    rw [hlen, List.mem_singleton] at hme'
    omega
  · rw [e2, sum_boundary ho m.coords.val k' q3 (fun c hc p hp c' hc' p' hp' he =>
      (hk c hc p hp c' hc' p' hp').1 ((q2 c hc p hp c' hc' p' hp').1 he)), p3, ← hL]
    rw [sum_getD]
    rfl

/-- **C112 (moving nodes).**  On the meshes of `C112_boundary`, moving nodes that are on no boundary patch (to any place whatsoever,
as long as the nodes of the boundary patches stay) does not change the sum of the volumes computed by `get_vol_hex`. -/
theorem C112_moved (m : Mesh) (h : CellsOK m) (verts0 verts1 : ℕ → ℕ → ℝ) (s t : Vol) (h1 : s.cell.size = m.cells)
    (h2 : s.coords.size = m.cells) (h3 : t.cell.size = m.cells) (h4 : t.coords.size = m.cells)
    (ho : Oriented m.cells (cellNodes m)) (keys : ℕ → ℕ)
    (hk : ∀ c < m.cells, ∀ p < 6, ∀ c' < m.cells, ∀ p' < 6,
      keys (6 * c + p) = keys (6 * c' + p') ↔ SameNodes (cellNodes m) c p c' p')
    (jt jc js jn : ℕ → ℤ) (ji : ℕ → ℕ → ℤ) (jk : ℕ → ℕ → ℕ) (j0 : ℕ → ℕ) :
    ∃ k b, buildPatches m.cells (cellNodes m) keys jt jc js jn ji jk = some k ∧ buildBdy k j0 = some b ∧
      ∀ y : ℕ → ℕ → ℝ, (∀ i < b.size, ∀ g, b.get i = some g → ∀ q < 4, ∀ n : ℕ, k.nodeInPatch g q = some (n : ℤ) →
        ∀ d < 3, y n d = m.coords.val n d) →
      ∃ (s' t' : Vol) (v w : ℕ → ℝ), volHex m verts0 s = some s' ∧
        volHex { m with coords := ⟨m.coords.size, y⟩ } verts1 t = some t' ∧
        (∀ c < m.cells, s'.cell.get c = some (v c) ∧ t'.cell.get c = some (w c)) ∧
        ∑ c ∈ range m.cells, w c = ∑ c ∈ range m.cells, v c := by
  obtain ⟨s', v, k, b, e, ev, e1, e2, g, a, n, f, hv⟩ := C112_boundary m h verts0 s h1 h2 ho keys hk jt jc js jn ji jk j0
  refine ⟨k, b, e1, e2, fun y hy => ?_⟩
  obtain ⟨t', w, k', b', e', ew, e1', e2', g', a', n', f', hw⟩ := C112_boundary { m with coords := ⟨m.coords.size, y⟩ }
    ⟨h.size, h.nodes⟩ verts1 t h3 h4 ho keys hk jt jc js jn ji jk j0
  obtain rfl : k = k' := Option.some.inj (e1.symm.trans e1')
  obtain rfl : b = b' := Option.some.inj (e2.symm.trans e2')
  refine ⟨s', t', v, w, e, e', fun c hc => ⟨ev c hc, ew c hc⟩, ?_⟩
  rw [hv]
  refine hw.trans (sum_congr rfl fun i hi => ?_)
  have hi := mem_range.1 hi
  obtain ⟨f1, f2, f3, -⟩ := f i hi
  obtain ⟨f1', f2', f3', -⟩ := f' i hi
  have hg : g' i = g i := Option.some.inj (f1'.symm.trans f1)
  rw [hg] at f2' f3'
  have ha : a' i = a i := by have := Option.some.inj (f2'.symm.trans f2); exact_mod_cast this
  rw [ha]
  congr 1
  refine flux_congr _ _ fun q hq d hd => ?_
  have hn : n' i q = n i q := by have := Option.some.inj ((f3' q hq).symm.trans (f3 q hq)); exact_mod_cast this
  simp only [hn]
  exact hy i hi _ f1 q hq _ (f3 q hq) d hd

/-! ### Grids -/

theorem outward_opposite : ∀ p < 6, ∀ q < 4, (if p % 2 = 1 then 3 - q else q) = 3 - (if p % 2 = 1 then q else 3 - q) := by decide

theorem Grid.oriented {C N : ℕ} {nodes : ℕ → ℕ → ℕ} {x : ℕ → ℕ → ℝ} {X : ℕ → ℤ → ℝ} {pos : ℕ → ℕ → ℤ}
    (hL : Key.Grid C N nodes x X pos) : Oriented C nodes := by
  intro c hc p hp c' hc' p' hp' hne hs
  have hm := hL.mid_of_nodes hc hp hc' hp' hs
  have hn := (hL.nodes_of_mid hc hp hc' hp' hm).2
  have hpar : p % 2 ≠ p' % 2 := fun he => by
    obtain ⟨rfl, rfl⟩ := hL.owner hc hp hc' hp' hm he
    exact hne rfl
  refine ⟨0, by omega, fun q hq => ?_⟩
  unfold outward
  rw [show (0 + 3 - q) % 4 = 3 - q by omega]
  by_cases h1 : p' % 2 = 1
  · rw [if_pos h1, if_neg (by omega), show 3 - (3 - q) = q by omega, hn q hq]
  · rw [if_neg h1, if_pos (by omega), hn (3 - q) (by omega)]

theorem Grid.sameNodes {C N : ℕ} {nodes : ℕ → ℕ → ℕ} {x : ℕ → ℕ → ℝ} {X : ℕ → ℤ → ℝ} {pos : ℕ → ℕ → ℤ}
    (hL : Key.Grid C N nodes x X pos) (junk : ℕ → ℝ) (j : ℝ) : ∀ c < C, ∀ p < 6, ∀ c' < C, ∀ p' < 6,
    Key.key C N nodes x junk j (6 * c + p) = Key.key C N nodes x junk j (6 * c' + p') ↔ SameNodes nodes c p c' p' := by
  intro c hc p hp c' hc' p' hp'
  rw [hL.key_iff junk j hc hp hc' hp']
  refine ⟨fun hm n => ?_, hL.mid_of_nodes hc hp hc' hp'⟩
  have hn := (hL.nodes_of_mid hc hp hc' hp' hm).2
  exact exists_congr fun q => and_congr_right fun hq => by rw [hn q hq]

theorem Grid.cellVolume {C N : ℕ} {nodes : ℕ → ℕ → ℕ} {x : ℕ → ℕ → ℝ} {X : ℕ → ℤ → ℝ} {pos : ℕ → ℕ → ℤ}
    (hL : Key.Grid C N nodes x X pos) {c : ℕ} (hc : c < C) :
    volume (fun l d => x (nodes c l) d) = ∏ d ∈ range 3, (X d (pos c d + 1) - X d (pos c d)) := by
  rw [volume_affine (Matrix.diagonal fun d : Fin 3 => X d (pos c d + 1) - X d (pos c d)) (fun d => X d (pos c d))]
  · rw [Matrix.det_diagonal, Fin.prod_univ_three]
    simp [prod_range_succ]
  · intro l hl d
    rw [hL.coords c hc l hl d d.2, Key.X_bit X d _ (Key.bit_le l hl d d.2)]
    have h4 : l / 4 % 2 = l / 4 := by omega
    fin_cases d <;> simp [Matrix.diagonal, Key.bit, h4] <;> ring

/-- **C112 (grids, with the patches of the code).**  Let the connectivity of a mesh be built while its nodes are at the points of a rectilinear grid (box meshes, and
their refinements), and then let nodes that are on no boundary patch be moved in any way.  The volumes `get_vol_hex` computes afterwards add
up to the volume of the grid cells. -/
theorem C112_grid_patches (m : Mesh) (h : CellsOK m) (x : ℕ → ℕ → ℝ) (X : ℕ → ℤ → ℝ) (pos : ℕ → ℕ → ℤ)
    (hL : Key.Grid m.cells m.coords.size (cellNodes m) x X pos) (verts0 : ℕ → ℕ → ℝ) (s : Vol) (h1 : s.cell.size = m.cells)
    (h2 : s.coords.size = m.cells) (junk : ℕ → ℝ) (j : ℝ) (jt jc js jn : ℕ → ℤ) (ji : ℕ → ℕ → ℤ) (jk : ℕ → ℕ → ℕ) (j0 : ℕ → ℕ) :
    ∃ k b, buildPatches m.cells (cellNodes m) (Key.key m.cells m.coords.size (cellNodes m) x junk j) jt jc js jn ji jk = some k ∧
      buildBdy k j0 = some b ∧
      ((∀ i < b.size, ∀ g, b.get i = some g → ∀ q < 4, ∀ n : ℕ, k.nodeInPatch g q = some (n : ℤ) →
        ∀ d < 3, m.coords.val n d = x n d) →
      ∃ (s' : Vol) (v : ℕ → ℝ), volHex m verts0 s = some s' ∧ (∀ c < m.cells, s'.cell.get c = some (v c)) ∧
        ∑ c ∈ range m.cells, v c = ∑ c ∈ range m.cells, ∏ d ∈ range 3, (X d (pos c d + 1) - X d (pos c d))) := by
  obtain ⟨k, b, e1, e2, hmv⟩ := C112_moved { m with coords := ⟨m.coords.size, x⟩ } ⟨h.size, h.nodes⟩ verts0 verts0 s s h1 h2 h1 h2
    (Grid.oriented hL) _ (Grid.sameNodes hL junk j) jt jc js jn ji jk j0
  refine ⟨k, b, e1, e2, fun hb => ?_⟩
  obtain ⟨t', s', w, v, q1, q2, q3, q4⟩ := hmv m.coords.val hb
  refine ⟨s', v, q2, fun c hc => (q3 c hc).2, q4.trans (sum_congr rfl fun c hc => ?_)⟩
  have hc := mem_range.1 hc
  obtain ⟨t'', r1, r2⟩ := C46_volume { m with coords := ⟨m.coords.size, x⟩ } ⟨h.size, h.nodes⟩ verts0 s h1 h2
  obtain rfl := Option.some.inj (q1.symm.trans r1)
  rw [Option.some.inj ((q3 c hc).1.symm.trans (r2 c hc))]
  exact Grid.cellVolume hL hc

/-- **C112 (grids).**  Take any mesh whose cells are connected like the cells of a rectilinear grid.  If the nodes of the outer sides (those
that share their nodes with no other side) are at their grid points, then, wherever the other nodes are, the volumes `get_vol_hex`
computes add up to the volume of the grid cells. -/
theorem C112_grid (m : Mesh) (h : CellsOK m) (x : ℕ → ℕ → ℝ) (X : ℕ → ℤ → ℝ) (pos : ℕ → ℕ → ℤ)
    (hL : Key.Grid m.cells m.coords.size (cellNodes m) x X pos)
    (hout : ∀ c < m.cells, ∀ p < 6, Outer m.cells (cellNodes m) c p → ∀ q < 4, ∀ d < 3,
      m.coords.val (nodeInPatchInCell (cellNodes m) c p q) d = x (nodeInPatchInCell (cellNodes m) c p q) d)
    (verts0 : ℕ → ℕ → ℝ) (s : Vol) (h1 : s.cell.size = m.cells) (h2 : s.coords.size = m.cells) :
    ∃ (s' : Vol) (v : ℕ → ℝ), volHex m verts0 s = some s' ∧ (∀ c < m.cells, s'.cell.get c = some (v c)) ∧
      ∑ c ∈ range m.cells, v c = ∑ c ∈ range m.cells, ∏ d ∈ range 3, (X d (pos c d + 1) - X d (pos c d)) := by
  obtain ⟨k, b, e1, e2, hh⟩ := C112_grid_patches m h x X pos hL verts0 s h1 h2 (fun _ => 0) 0 (fun _ => 0) (fun _ => 0) (fun _ => 0)
    (fun _ => 0) (fun _ _ => 0) (fun _ _ => 0) (fun _ => 0)
  refine hh fun i hi g hg q hq n hn d hd => ?_
  obtain ⟨-, -, k', b', -, -, e1', e2', g', a', n', f, -⟩ := C112_boundary m h verts0 s h1 h2 (Grid.oriented hL) _
    (Grid.sameNodes hL (fun _ => 0) 0) (fun _ => 0) (fun _ => 0) (fun _ => 0) (fun _ => 0) (fun _ _ => 0) (fun _ _ => 0) (fun _ => 0)
  obtain rfl : k = k' := Option.some.inj (e1.symm.trans e1')
  obtain rfl : b = b' := Option.some.inj (e2.symm.trans e2')
  obtain ⟨f1, -, f3, f4, f5, f6⟩ := f i hi
  obtain rfl : g' i = g := Option.some.inj (f1.symm.trans hg)
  have hn' : n' i q = n := by have := Option.some.inj ((f3 q hq).symm.trans hn); exact_mod_cast this
  rw [← hn', f5 q hq]
  exact hout _ (by omega) _ (by omega) f6 q hq d hd

end Verif.Geometry
