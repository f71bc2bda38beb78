import Verif.Average.Profile
import Verif.Average.MainTheorems
import Verif.Average.FromFile

/-!
# C86, C87: the results of the Average example on its own meshes
-/

namespace Verif.Average
open Finset Verif.Swage Verif.Swage.Refine

theorem err_nonpos {m : Mesh} (h : m.Ok) {d : ℕ → ℝ} (hd : ∀ n < m.nodes, d n ≤ 0) (n : ℕ) : m.err d n ≤ 0 := by
  unfold Mesh.err
  split_ifs
  · exact le_rfl
  · unfold Mesh.nodeMean
    refine div_nonpos_of_nonpos_of_nonneg ((List.sum_le_card_nsmul _ 0 ?_).trans (by simp)) (Nat.cast_nonneg _)
    intro y hy
    obtain ⟨c, hc, rfl⟩ := List.mem_map.1 hy
    unfold Mesh.cellMean
    refine div_nonpos_of_nonpos_of_nonneg (sum_nonpos fun l hl => hd _ (h.lt _ ?_)) (by norm_num)
    have := (mem_cellsOf.1 hc).1
    have := mem_range.1 hl
    omega

theorem err_iter_nonpos {m : Mesh} (h : m.Ok) {d : ℕ → ℝ} (hd : ∀ n < m.nodes, d n ≤ 0) (k : ℕ) : ∀ n < m.nodes, (m.err^[k] d) n ≤ 0 := by
  induction k with
  | zero => exact hd
  | succ k ih => intro n _; rw [Function.iterate_succ_apply']; exact err_nonpos h ih n

/-- Comparison: a run that starts below a steady field stays below it. -/
theorem cycles_below (m : Mesh) (h : m.Ok) (he : m.ElemOk) (hcov : m.Covered) (h0 : m.SetOk 0) (h3 : m.SetOk 3) {u : ℕ → ℝ} (hu : m.Steady u)
    (s : State) (h1 : s.node.size = m.nodes) (h2 : s.cell.size = m.cells) (hs : ∀ n < m.nodes, s.node.val n ≤ u n) (k : ℕ) :
    ∃ s', cycles m k s = some s' ∧ ∀ n < m.nodes, s'.node.val n ≤ u n := by
  obtain ⟨s', e, -, -, v, -⟩ := cycles_diff m h he hcov h0 h3 hu s h1 h2 k
  refine ⟨s', e, fun n hn => ?_⟩
  have := err_iter_nonpos h (d := fun n => s.node.val n - u n) (fun n hn => by have := hs n hn; linarith) k n hn
  rw [← v n hn] at this
  linarith

/-- What a run of the program consists of. -/
theorem program_run {E N : ℕ} {nodes : ℕ → ℕ → ℕ} {x : ℕ → ℕ → ℝ} {q : SetupJunk} {u : ℕ → Fill} {j1 j2 : ℕ → ℕ → ℝ} {jt : ℕ → ℝ}
    {m : Mesh} {r : Run} (hp : program E N nodes x q u j1 j2 jt = some (m, r)) (hm : m.Ready) (s0 : m.SetOk 0) (s3 : m.SetOk 3)
    (hcells : m.cells = m.elems * numSub 3 ^ 3) :
    ∃ s : State, s.node.size = m.nodes ∧ s.cell.size = m.cells ∧ (∀ n, (m.OnSet 0 n → s.node.val n = 10) ∧ (¬ m.OnSet 0 n → s.node.val n = 0)) ∧
      (∀ c < m.cells, s.cell.val c = 0) ∧ cycles m 500 s = some r.state := by
  unfold program at hp
  obtain ⟨m', a1, hp⟩ := Option.bind_eq_some_iff.1 hp
  obtain ⟨p, a2, hp⟩ := Option.bind_eq_some_iff.1 hp
  obtain ⟨s, a3, hp⟩ := Option.bind_eq_some_iff.1 hp
  obtain ⟨r', a4, hp⟩ := Option.bind_eq_some_iff.1 hp
  have hp := Option.some.inj hp
  obtain ⟨rfl, rfl⟩ : m' = m ∧ r' = r := ⟨congrArg Prod.fst hp, congrArg Prod.snd hp⟩
  have hok : m'.CellsOk := ⟨hm.ok.size, fun i hi => by rw [hm.coordsSize]; exact hm.ok.lt i hi⟩
  obtain ⟨mp, e2, f1, f2⟩ := initialize_zero m' hok u
  rw [e2] at a2
  obtain rfl := Option.some.inj a2
  obtain ⟨t, e3, t1, t2, t3⟩ := C54_boundary m' s0 s3 ⟨⟨m'.nodes, fun _ => 0⟩, mp.field⟩ rfl
  rw [e3] at a3
  obtain rfl := Option.some.inj a3
  have t2' : t.cell.size = m'.cells := by rw [t2]; exact f1
  have hceil : ⌈(1000 * (1 / 2) : ℝ)⌉₊ = 500 := by
    rw [show (1000 * (1 / 2) : ℝ) = (500 : ℕ) by norm_num, Nat.ceil_natCast]
  have hD : shippedSettings.loopDumps = 49 := by
    simp only [shippedSettings, Settings.loopDumps, Settings.inside, hceil]; rfl
  have hK : shippedSettings.cycles = 500 := by
    simp only [shippedSettings, Settings.cycles, hceil]; rfl
  obtain ⟨r, e4, -, r2, -⟩ := C75_driver_partial m' hm.ok hm.elemOk s0 s3 hm.coordsSize shippedSettings hcells (by norm_num [shippedSettings])
    (by norm_num [shippedSettings]) (by norm_num [shippedSettings]) (by rw [hD]; norm_num) j1 j2 jt t t1 t2'
  rw [e4] at a4
  obtain rfl := Option.some.inj a4
  rw [hK] at r2
  refine ⟨t, t1, t2', fun n => ⟨(t3 n).1, fun h0 => ?_⟩, by rw [t2]; exact f2, r2.symm⟩
  by_cases h3 : m'.OnSet 3 n
  · exact (t3 n).2.1 h3 h0
  · exact (t3 n).2.2 h3 h0

section
variable {E N : ℕ} {nodes : ℕ → ℕ → ℕ} {x : ℕ → ℕ → ℝ} {X : ℕ → ℤ → ℝ} {pos : ℕ → ℕ → ℤ}

/-- The mesh of a run of the program, as a grid. -/
theorem program_grid (hL : Key.Grid E N nodes x X pos) (hsmall : ∃ d < 3, X d (pos (E - 1) d + 1) - X d (pos (E - 1) d) ≤ 7)
    (hfirst : ∀ c < E, ∀ l < 8, nodes c l = nodes 0 0 → c = 0 ∧ l = 0)
    (hshare : ∃ c < E, ∃ c' < E, c' ≠ c ∧ Share 8 nodes c c')
    (hs : 1 / 10 ^ 6 ≤ X 0 (pos (E - 1) 0 + 1) - X 0 (pos (E - 1) 0))
    (q : SetupJunk) (u : ℕ → Fill) (j1 j2 : ℕ → ℕ → ℝ) (jt : ℕ → ℝ) :
    ∃ m r, program E N nodes x q u j1 j2 jt = some (m, r) ∧ m.Ready ∧ m.SetOk 0 ∧ m.SetOk 3 ∧ m.cells = E * 6 ^ 3 ∧
      m.cells = m.elems * numSub 3 ^ 3 ∧
      (∀ z : ℤ, Key.Bounds E pos 0 z → X 0 z = 0 → ∀ n, m.OnSet 0 n ↔ n < m.nodes ∧ m.coords.val n 0 = 0) ∧
      (∀ z : ℤ, Key.Bounds E pos 0 z → X 0 z = 2 → ∀ n, m.OnSet 3 n ↔ n < m.nodes ∧ m.coords.val n 0 = 2) ∧
      Within 0 10 r.state.node ∧ r.state.node.size = m.nodes ∧ ∃ t : ℕ → ℝ, (∀ i < 7, t i = (1 + (Quad.lobNodes 7).getD i 0) / 2) ∧ t 0 = 0 ∧ t 6 = 1 ∧
        Key.Grid m.cells m.nodes m.node m.coords.val (fineX 6 X t) (finePos 6 pos) := by
  obtain ⟨m, r, p1, p2, p3, p4, -, -, p7, -⟩ := C78_program_partial E N nodes x X pos hL hsmall hfirst hshare hs q u j1 j2 jt
  obtain ⟨m', e1, -, h3, h4, h5, t, tv, t0, t1, -, hG⟩ := setup_spec E N 3 (by omega) nodes x X pos hL hsmall hfirst hshare shippedBoundary q
  obtain ⟨m'', e2, -, -, -, -, h6⟩ := C77_setup_partial E N 3 (by omega) nodes x X pos hL hsmall hfirst hshare shippedBoundary q
  rw [e1] at e2
  obtain rfl := Option.some.inj e2
  have p1' := p1
  unfold program at p1'
  obtain ⟨m'', a1, p1'⟩ := Option.bind_eq_some_iff.1 p1'
  obtain ⟨_, -, p1'⟩ := Option.bind_eq_some_iff.1 p1'
  obtain ⟨_, -, p1'⟩ := Option.bind_eq_some_iff.1 p1'
  obtain ⟨_, -, p1'⟩ := Option.bind_eq_some_iff.1 p1'
  have hh : m'' = m := congrArg Prod.fst (Option.some.inj p1')
  subst hh
  have e1' : setup E N shippedSettings.order nodes x shippedBoundary q = some m' := e1
  rw [e1'] at a1
  obtain rfl := Option.some.inj a1
  refine ⟨m', r, p1, p2, (h5 0 (by decide)).1, (h5 3 (by decide)).1, p3, by rw [h4, h3], fun z hz h0 => ?_, fun z hz h2 => ?_, p7, p4, t, tv, t0, t1, hG⟩
  · exact h6 0 (by decide) 0 (by omega) rfl hs z hz h0.symm
  · exact h6 3 (by decide) 0 (by omega) rfl hs z hz h2.symm

theorem RowsFrom.bounds {C : ℕ} {pos : ℕ → ℕ → ℤ} {a : ℤ} (h : RowsFrom C pos a) : Key.Bounds C pos 0 a := Or.inl fun c hc => (h c hc).1
theorem RowsTo.bounds {C : ℕ} {pos : ℕ → ℕ → ℤ} {b : ℤ} (h : RowsTo C pos b) : Key.Bounds C pos 0 b := Or.inr fun c hc => (h c hc).1

theorem fineX_plane {X : ℕ → ℤ → ℝ} {t : ℕ → ℝ} (t0 : t 0 = 0) (t1 : t 6 = 1) (a : ℤ) : fineX 6 X t 0 (a * (6 : ℕ)) = X 0 a := by
  have := fineX_eq (S := 6) (X := X) (by omega) t0 t1 0 a (i := 0) (by omega)
  rw [t0] at this
  simpa using this

/-- **C86 (the example program).**  On the meshes of C78, if every row of cells in `x` begins at the plane `x = 0`, the mesh the
program works on is such that the cycle loop has exactly one steady field, with values in `[0, 10]`, and approaches it geometrically
from every starting state.  (Partial: grids only, as in C78.) -/
theorem C86_program_partial (hL : Key.Grid E N nodes x X pos) (hsmall : ∃ d < 3, X d (pos (E - 1) d + 1) - X d (pos (E - 1) d) ≤ 7)
    (hfirst : ∀ c < E, ∀ l < 8, nodes c l = nodes 0 0 → c = 0 ∧ l = 0)
    (hshare : ∃ c < E, ∃ c' < E, c' ≠ c ∧ Share 8 nodes c c')
    (hs : 1 / 10 ^ 6 ≤ X 0 (pos (E - 1) 0 + 1) - X 0 (pos (E - 1) 0)) {a : ℤ} (ha : RowsFrom E pos a) (h0 : X 0 a = 0)
    (q : SetupJunk) (u : ℕ → Fill) (j1 j2 : ℕ → ℕ → ℝ) (jt : ℕ → ℝ) :
    ∃ m r, program E N nodes x q u j1 j2 jt = some (m, r) ∧ ∃ v : ℕ → ℝ, m.Steady v ∧ (∀ v', m.Steady v' → ∀ n < m.nodes, v' n = v n) ∧
      (∀ n < m.nodes, 0 ≤ v n ∧ v n ≤ 10) ∧ m.Converges v := by
  obtain ⟨m, r, e, hm, s0, s3, hc, -, o0, -, -, -, t, -, t0, t1, hG⟩ := program_grid hL hsmall hfirst hshare hs q u j1 j2 jt
  have hrow := rowsFrom_fine (S := 6) ha
  rw [← hc] at hrow
  refine ⟨m, r, e, C86_converge m hm.ok hm.elemOk hm.covered s0 s3 (grid_anchored hm hG hrow fun n hn hx => Or.inl ?_)⟩
  rw [fineX_plane t0 t1, h0] at hx
  exact (o0 a ha.bounds h0 n).2 ⟨hn, hx⟩

/-- **C87 (the example program on a slab).**  On the meshes of C78, if every row of cells in `x` begins at the plane `x = 0` and ends at
the plane `x = 2`, and there are `K` cells from plane to plane: the nodes of the mesh the program works on lie on `6 K + 1` planes; the
only steady field is 10 times one minus the number of the plane divided by `6 K`; the cycle loop approaches it from every starting
state; and the result of the program lies between zero and this field. -/
theorem C87_program_partial (hL : Key.Grid E N nodes x X pos) (hsmall : ∃ d < 3, X d (pos (E - 1) d + 1) - X d (pos (E - 1) d) ≤ 7)
    (hfirst : ∀ c < E, ∀ l < 8, nodes c l = nodes 0 0 → c = 0 ∧ l = 0)
    (hshare : ∃ c < E, ∃ c' < E, c' ≠ c ∧ Share 8 nodes c c')
    (hs : 1 / 10 ^ 6 ≤ X 0 (pos (E - 1) 0 + 1) - X 0 (pos (E - 1) 0)) {a : ℤ} {K : ℕ} (ha : RowsFrom E pos a) (h0 : X 0 a = 0)
    (hb : RowsTo E pos (a + K)) (h2 : X 0 (a + K) = 2) (q : SetupJunk) (u : ℕ → Fill) (j1 j2 : ℕ → ℕ → ℝ) (jt : ℕ → ℝ) :
    ∃ m r, program E N nodes x q u j1 j2 jt = some (m, r) ∧ m.xs.card = 6 * K + 1 ∧ m.Steady m.profile ∧
      (∀ v, m.Steady v → ∀ n < m.nodes, v n = m.profile n) ∧ m.Converges m.profile ∧
      ∀ n < m.nodes, 0 ≤ r.state.node.val n ∧ r.state.node.val n ≤ m.profile n := by
  obtain ⟨m, r, e, hm, s0, s3, hc, hc', o0, o3, hw, hsz, t, -, t0, t1, hG⟩ := program_grid hL hsmall hfirst hshare hs q u j1 j2 jt
  have hrow := rowsFrom_fine (S := 6) ha
  have hrow' := rowsTo_fine (S := 6) hb
  rw [← hc] at hrow hrow'
  have xa := fineX_plane t0 t1 a (X := X)
  have xb := fineX_plane t0 t1 (a + K) (X := X)
  rw [h0] at xa
  rw [h2] at xb
  have f0 := o0 a ha.bounds h0
  have f3 := o3 _ hb.bounds h2
  have hst : m.Steady m.profile := profile_steady hm hG hrow hrow' (by rw [xa]; exact f0) (by rw [xb]; exact f3)
  obtain ⟨v, v1, v2, v3, v4⟩ := C86_converge m hm.ok hm.elemOk hm.covered s0 s3 (grid_anchored hm hG hrow fun n hn hx => Or.inl (by
    rw [xa] at hx
    exact (f0 n).2 ⟨hn, hx⟩))
  have hv := v2 _ hst
  have hconv : m.Converges m.profile := by
    obtain ⟨Q, R, w1, w2, w3, w4⟩ := v4
    refine ⟨Q, R, w1, w2, w3, fun s q1 q2 M hM k => ?_⟩
    obtain ⟨s', g1, g2, g3⟩ := w4 s q1 q2 M (fun n hn => by rw [← hv n hn]; exact hM n hn) k
    refine ⟨s', g1, fun n hn => by rw [hv n hn]; exact g2 n hn, fun hk c hcc => ?_⟩
    rw [cellMean_congr hm.ok hv hcc]
    exact g3 hk c hcc
  refine ⟨m, r, e, ?_, hst, fun w hwst n hn => (v2 w hwst n hn).trans (hv n hn).symm, hconv, fun n hn => ⟨(hw n (by omega)).1, ?_⟩⟩
  · have := xs_card hm hG hrow hrow'
    push_cast at this
    omega
  · obtain ⟨s, z1, z2, z3, -, z4⟩ := program_run e hm s0 s3 hc'
    obtain ⟨s', z5, z6⟩ := cycles_below m hm.ok hm.elemOk hm.covered s0 s3 hst s z1 z2 (fun n hn => by
      by_cases hon : m.OnSet 0 n
      · rw [(z3 n).1 hon, (hst n hn).1 hon]
      · rw [(z3 n).2 hon, hv n hn]; exact (v3 n hn).1) 500
    rw [z4] at z5
    obtain rfl := Option.some.inj z5
    exact z6 n hn

/-- **C87 (the steady field is not linear in `x`).**  If moreover the cells at the plane `x = 0` have the width `2 / K` (as in a slab of
`K` equal cells), then at some node the steady field is smaller than the linear field `10 (1 - x / 2)` by more than `0.8 / K`: the
averages do not take the distances of the nodes into account, and the nodes of the refined mesh are not equally spaced. -/
theorem C87_linear_negation (hL : Key.Grid E N nodes x X pos) (hsmall : ∃ d < 3, X d (pos (E - 1) d + 1) - X d (pos (E - 1) d) ≤ 7)
    (hfirst : ∀ c < E, ∀ l < 8, nodes c l = nodes 0 0 → c = 0 ∧ l = 0)
    (hshare : ∃ c < E, ∃ c' < E, c' ≠ c ∧ Share 8 nodes c c')
    (hs : 1 / 10 ^ 6 ≤ X 0 (pos (E - 1) 0 + 1) - X 0 (pos (E - 1) 0)) {a : ℤ} {K : ℕ} (ha : RowsFrom E pos a) (h0 : X 0 a = 0)
    (hb : RowsTo E pos (a + K)) (h1 : X 0 (a + 1) = 2 / K)
    (q : SetupJunk) (u : ℕ → Fill) (j1 j2 : ℕ → ℕ → ℝ) (jt : ℕ → ℝ) :
    ∃ m r, program E N nodes x q u j1 j2 jt = some (m, r) ∧ ∃ n < m.nodes, m.profile n < 10 * (1 - m.coords.val n 0 / 2) - 0.8 / K := by
  obtain ⟨m, r, e, hm, s0, s3, hc, hc', o0, o3, hw, hsz, t, tv, t0, t1, hG⟩ := program_grid hL hsmall hfirst hshare hs q u j1 j2 jt
  have hrow := rowsFrom_fine (S := 6) ha
  have hrow' := rowsTo_fine (S := 6) hb
  rw [← hc] at hrow hrow'
  have hK : (0 : ℝ) < K := by
    have := (ha 0 hL.ne).1
    have := (hb 0 hL.ne).1
    exact_mod_cast (show 0 < K by omega)
  obtain ⟨c, hcc, hpos⟩ := row_all hG hrow hrow' (z := a * (6 : ℕ)) le_rfl (by
    have := (ha 0 hL.ne).1
    have := (hb 0 hL.ne).1
    push_cast; omega)
  obtain ⟨-, b1, -⟩ := bit_vals
  refine ⟨m, r, e, m.node c 1, hG.valid c hcc 1 (by omega), ?_⟩
  have hx := hG.coords c hcc 1 (by omega) 0 (by omega)
  rw [hpos, b1, fineX_eq (by omega) t0 t1 0 a (i := 1) (by omega), h0, h1] at hx
  have ht : t 1 = (1 + (Quad.lobNodes 7).getD 1 0) / 2 := tv 1 (by omega)
  have hd : (Quad.lobNodes 7).getD 1 0 = Quad.dec (-830223896278566929872032213967) 30 := rfl
  have hlt : t 1 < 0.085 := by
    rw [ht, hd]
    unfold Quad.dec
    norm_num
  rw [profile_eq hm hG hrow hrow' hcc (by omega), hx, hpos, b1]
  push_cast
  have e1 : ((a : ℝ) * 6 + 1 - a * 6) / ((a + K) * 6 - a * 6) = 1 / (6 * K) := by
    rw [show (a : ℝ) * 6 + 1 - a * 6 = 1 by ring, show ((a : ℝ) + K) * 6 - a * 6 = 6 * K by ring]
  rw [e1]
  have e2 : 10 * (1 - 1 / (6 * (K : ℝ))) = 10 - (10 / 6) / K := by field_simp
  have e3 : 10 * (1 - (0 + (2 / (K : ℝ) - 0) * t 1) / 2) - 0.8 / K = 10 - (10 * t 1 + 0.8) / K := by field_simp; ring
  rw [e2, e3]
  have : (10 * t 1 + 0.8) / K < (10 / 6) / (K : ℝ) := by
    apply div_lt_div_of_pos_right _ hK
    norm_num at hlt ⊢
    linarith
  linarith

/-- Hypotheses met: two unit cubes between `x = 0` and `x = 2` (`K = 2`, width 1). -/
example : ∃ X pos, Key.Grid 2 12 Key.duoNodes (Key.duoCoords 1) X pos ∧ (∃ d < 3, X d (pos (2 - 1) d + 1) - X d (pos (2 - 1) d) ≤ 7) ∧
    (∀ c < 2, ∀ l < 8, Key.duoNodes c l = Key.duoNodes 0 0 → c = 0 ∧ l = 0) ∧
    (∃ c < 2, ∃ c' < 2, c' ≠ c ∧ Share 8 Key.duoNodes c c') ∧ 1 / 10 ^ 6 ≤ X 0 (pos (2 - 1) 0 + 1) - X 0 (pos (2 - 1) 0) ∧
    RowsFrom 2 pos 0 ∧ X 0 0 = 0 ∧ RowsTo 2 pos (0 + (2 : ℕ)) ∧ X 0 (0 + (2 : ℕ)) = 2 ∧ X 0 (0 + 1) = 2 / (2 : ℕ) :=
  ⟨_, _, Key.duo_lattice.grid, ⟨0, by omega, by norm_num⟩, by decide,
    ⟨0, by omega, 1, by omega, by omega, 1, by omega, 0, by omega, by decide⟩, by norm_num, by unfold RowsFrom; decide, by norm_num,
    by unfold RowsTo; decide, by norm_num, by norm_num⟩

end

theorem boxPos_rows (b : MeshBox.Box) : RowsFrom b.cells (boxPos b) 0 ∧ RowsTo b.cells (boxPos b) (0 + (b.ci : ℕ)) := by
  have key : ∀ c < b.cells, ∀ i < b.ci, ∃ c' < b.cells, boxPos b c' 0 = i ∧ boxPos b c' 1 = boxPos b c 1 ∧ boxPos b c' 2 = boxPos b c 2 := by
    intro c hc i hi
    have hci : 0 < b.ci := by omega
    have hc2 : c / b.ci < b.cj * b.ck := by
      rw [Nat.div_lt_iff_lt_mul hci]
      calc c < b.ci * b.cj * b.ck := hc
        _ = b.cj * b.ck * b.ci := by ring
    have hdiv : (i + b.ci * (c / b.ci)) / b.ci = c / b.ci := by rw [Nat.add_mul_div_left _ _ hci, Nat.div_eq_of_lt hi, zero_add]
    have hmod : (i + b.ci * (c / b.ci)) % b.ci = i := by rw [Nat.add_mul_mod_self_left, Nat.mod_eq_of_lt hi]
    refine ⟨i + b.ci * (c / b.ci), ?_, ?_, ?_, ?_⟩
    · show _ < b.ci * b.cj * b.ck
      calc i + b.ci * (c / b.ci) < b.ci + b.ci * (c / b.ci) := by omega
        _ = b.ci * (c / b.ci + 1) := by ring
        _ ≤ b.ci * (b.cj * b.ck) := Nat.mul_le_mul_left _ hc2
        _ = b.ci * b.cj * b.ck := by ring
    all_goals simp [boxPos, hdiv, hmod]
  have e0 : ∀ c, boxPos b c 0 = ((c % b.ci : ℕ) : ℤ) := fun c => by simp [boxPos]
  have hlt : ∀ c < b.cells, c % b.ci < b.ci := fun c hc => (lex3_surj (show c < b.ci * b.cj * b.ck from hc)).1
  constructor
  · intro c hc
    have := hlt c hc
    refine ⟨by rw [e0]; omega, fun h => ?_⟩
    obtain ⟨c', h1, h2, h3⟩ := key c hc (c % b.ci - 1) (by omega)
    rw [e0] at h ⊢
    exact ⟨c', h1, by rw [h2]; omega, h3⟩
  · intro c hc
    have := hlt c hc
    refine ⟨by rw [e0]; omega, fun h => ?_⟩
    rw [e0] at h
    obtain ⟨c', h1, h2, h3⟩ := key c hc (c % b.ci + 1) (by omega)
    rw [e0]
    exact ⟨c', h1, by rw [h2]; push_cast; rfl, h3⟩

/-- **C86, C87 (from the generator to the results).**  For every box as in C79 that begins at `x = 0`: the mesh file the generator writes
is read, and on the mesh the program then works on the cycle loop approaches its only steady field from every starting state.  If the
box ends at `x = 2` and has `ci` cells in `x`, the nodes lie on `6 ci + 1` planes, the steady field is 10 times one minus the number of
the plane divided by `6 ci`, and the result of the program lies between zero and this field. -/
theorem C87_box_to_steady (b : MeshBox.Box) (hb : b.Ok) (hn : b.points < 10 ^ 9) (h2 : 2 ≤ b.cells) (hf : Fine b)
    (hsmall : ∃ d < 3, b.step d ≤ 6.9) (hs : 1 / 10 ^ 5 ≤ b.step 0) (h0 : b.shift 0 = 0) {rnd : ℝ → ℕ} (h : MeshFile.Nearest rnd) (qb : MeshBox.Junk)
    (q' : MeshFile.Junk) (q : SetupJunk) (u : ℕ → Fill) (j1 j2 : ℕ → ℕ → ℝ) (jt : ℕ → ℝ) :
    ∃ r t, MeshBox.build b qb = some r ∧ MeshFile.writeBox rnd r.coords r.cellPoints b.points b.cells = some t ∧
    ∃ m run, programFile q' q u j1 j2 jt t = some (m, run) ∧
      (∃ v : ℕ → ℝ, m.Steady v ∧ (∀ v', m.Steady v' → ∀ n < m.nodes, v' n = v n) ∧ (∀ n < m.nodes, 0 ≤ v n ∧ v n ≤ 10) ∧ m.Converges v) ∧
      (b.len 0 = 2 → m.xs.card = 6 * b.ci + 1 ∧ m.Steady m.profile ∧ m.Converges m.profile ∧
        ∀ n < m.nodes, 0 ≤ run.state.node.val n ∧ run.state.node.val n ≤ m.profile n) := by
  obtain ⟨r, t, mi, e1, e2, e3, m1, m2, m3, m4⟩ := MeshFile.box_spec b hb hn qb h q'
  have R : Read rnd b mi := ⟨m1, m2, m3, m4⟩
  have hG := R.grid h hb hf
  have hsm : ∃ d < 3, boxX rnd b d (boxPos b (b.cells - 1) d + 1) - boxX rnd b d (boxPos b (b.cells - 1) d) ≤ 7 := by
    obtain ⟨d, hd, hle⟩ := hsmall
    have := (width h hb hf hd (boxPos b (b.cells - 1) d)).2
    refine ⟨d, hd, this.trans ?_⟩
    norm_num at hle ⊢
    linarith
  have hs' : 1 / 10 ^ 6 ≤ boxX rnd b 0 (boxPos b (b.cells - 1) 0 + 1) - boxX rnd b 0 (boxPos b (b.cells - 1) 0) := by
    have := (width h hb hf (show 0 < 3 by omega) (boxPos b (b.cells - 1) 0)).1
    refine le_trans ?_ this
    norm_num at hs ⊢
    linarith
  have x0 : boxX rnd b 0 0 = 0 := by
    have := boxX_plane (rnd := rnd) (b := b) (d := 0) (i := 0) (Nat.zero_le _)
    rw [Nat.cast_zero] at this
    rw [this]
    unfold plane
    rw [h0]
    simp [toSci_zero]
  obtain ⟨rows1, rows2⟩ := boxPos_rows b
  obtain ⟨m, run, p1, p2⟩ := C86_program_partial hG hsm (R.first hb) (R.share hb h2) hs' rows1 x0 q u j1 j2 jt
  refine ⟨r, t, e1, e2, m, run, ?_, p2, fun hl => ?_⟩
  · unfold programFile
    rw [e3]
    show program (mi.cells.size / 8) mi.coords.size (readNode mi) mi.coords.val q u j1 j2 jt = _
    rw [m1, m2, Nat.mul_div_cancel _ (by omega)]
    exact p1
  · have x2 : boxX rnd b 0 (0 + (b.ci : ℕ)) = 2 := by
      have h3 := step_cnt hb (show 0 < 3 by omega)
      have h4 : cnt b 0 = b.ci := rfl
      rw [zero_add, boxX_plane (show b.ci ≤ cnt b 0 from le_rfl)]
      unfold plane
      rw [h0, zero_add, mul_comm, ← h4, h3, hl, toSci_two h]
    obtain ⟨m', run', w1, w2, w3, -, w4, w5⟩ := C87_program_partial hG hsm (R.first hb) (R.share hb h2) hs' rows1 x0 rows2 x2 q u j1 j2 jt
    rw [p1] at w1
    have w1 := Option.some.inj w1
    obtain ⟨rfl, rfl⟩ : m = m' ∧ run = run' := ⟨congrArg Prod.fst w1, congrArg Prod.snd w1⟩
    exact ⟨w2, w3, w4, w5⟩

/-- Hypotheses met: `1000 × 2 × 2` cells of the cube `[0, 2]³`. -/
example : ∃ b : MeshBox.Box, b.ci = 1000 ∧ b.Ok ∧ b.points < 10 ^ 9 ∧ 2 ≤ b.cells ∧ Fine b ∧ (∃ d < 3, b.step d ≤ 6.9) ∧ 1 / 10 ^ 5 ≤ b.step 0 ∧
    b.shift 0 = 0 ∧ b.len 0 = 2 ∧ ∃ rnd, MeshFile.Nearest rnd := by
  refine ⟨⟨1000, 2, 2, fun _ => 2, fun _ => 0⟩, rfl, ⟨by decide, by decide, by decide⟩, by decide, by decide, ?_,
    ⟨0, by omega, by norm_num [MeshBox.Box.step, MeshBox.Box.pi]⟩, by norm_num [MeshBox.Box.step, MeshBox.Box.pi], rfl, rfl, MeshFile.nearest_exists⟩
  intro d hd
  interval_cases d <;> norm_num [MeshBox.Box.step, MeshBox.Box.pi, MeshBox.Box.pj, MeshBox.Box.pk]

end Verif.Average
