import Verif.Average.Main
import Verif.Average.SetupTheorems
import Verif.Average.DriverTheorems
import Verif.Average.Fill

/-!
# C78: the whole Average example
-/

namespace Verif.Average
open Verif.Swage

/-- Fills with the value zero leave zero. -/
theorem lastFill_zero {P : Fill → (ℕ → ℝ) → Prop} {fills : ℕ → Fill} {x : ℕ → ℝ} (k : ℕ) (h : ∀ i < k, (fills i).field2 = 0) :
    lastFill P fills x 0 k = 0 := by
  induction k with
  | zero => rfl
  | succ k ih =>
    rw [lastFill]
    split
    · exact h k (by omega)
    · exact ih fun i hi => h i (by omega)

/-- The initial cell field is zero, whatever the unset members of the fill instructions are. -/
theorem initialize_zero (m : Mesh) (h : m.CellsOk) (u : ℕ → Fill) :
    ∃ s, initializeState m (shippedFills u) 0 ⟨⟨2 * m.cells * 3, fun _ => 0⟩, ⟨m.cells, fun _ => 0⟩⟩ = some s ∧ s.field.size = m.cells ∧
      ∀ c < m.cells, s.field.val c = 0 := by
  obtain ⟨s, e, -, z, -, v⟩ := initializeState_spec m h (shippedFills u) 0 2 (by omega) ⟨⟨2 * m.cells * 3, fun _ => 0⟩, ⟨m.cells, fun _ => 0⟩⟩
    rfl rfl
  refine ⟨s, e, z, fun c hc => ?_⟩
  rw [v c hc]
  refine lastFill_zero _ fun i hi => ?_
  unfold shippedFills
  simp only
  split <;> rfl

/-- **C78 (the example program).**  For every mesh that is a conforming set of cells of a rectilinear grid, the last cell being at
most 3% thicker than any other in each direction, with at least two cells sharing a node, and whatever the allocated memory and the
unset fill radii contain: the program with the settings of `input` runs to the end without undefined behaviour and writes 51 dumps.
At the end all nodal and cell values, and all cell values in all dumps, lie in `[0, 10]`.  If the plane `x = 0` bounds the domain, the
nodal field is 10 at all nodes on it, and if `x = 2` bounds it too, the nodal field is 0 at all nodes on that plane.  (Partial: such
grids only, because of C38 and C42.) -/
theorem C78_program_partial (E N : ℕ) (nodes : ℕ → ℕ → ℕ) (x : ℕ → ℕ → ℝ) (X : ℕ → ℤ → ℝ)
    (pos : ℕ → ℕ → ℤ) (hL : Key.Grid E N nodes x X pos) (hsmall : ∃ d < 3, X d (pos (E - 1) d + 1) - X d (pos (E - 1) d) ≤ 7)
    (hfirst : ∀ c < E, ∀ l < 8, nodes c l = nodes 0 0 → c = 0 ∧ l = 0)
    (hshare : ∃ c < E, ∃ c' < E, c' ≠ c ∧ Share 8 nodes c c')
    (hs : 1 / 10 ^ 6 ≤ X 0 (pos (E - 1) 0 + 1) - X 0 (pos (E - 1) 0))
    (q : SetupJunk) (u : ℕ → Fill) (j1 j2 : ℕ → ℕ → ℝ) (jt : ℕ → ℝ) :
    ∃ m r, program E N nodes x q u j1 j2 jt = some (m, r) ∧ m.Ready ∧ m.cells = E * 216 ∧
      r.state.node.size = m.nodes ∧ r.state.cell.size = m.cells ∧
      (∀ a : ℤ, Key.Bounds E pos 0 a → X 0 a = 0 → (∀ n < m.nodes, m.coords.val n 0 = 0 → r.state.node.val n = 10) ∧
        ∀ b : ℤ, Key.Bounds E pos 0 b → X 0 b = 2 → ∀ n < m.nodes, m.coords.val n 0 = 2 → r.state.node.val n = 0) ∧
      Within 0 10 r.state.node ∧ Within 0 10 r.state.cell ∧
      r.dumps.length = 51 ∧ ∀ j < 51, ∃ d, r.dumps[j]? = some d ∧ d.id = j ∧ d.fields.size = m.cells ∧
        (∀ c < m.cells, 0 ≤ d.fields.val c 0 ∧ d.fields.val c 0 ≤ 10) ∧ d.times = (List.range (j + 1)).map fun i : ℕ => (i : ℝ) / 100 := by
  obtain ⟨m, e1, hm, m1, m2, m3, m4⟩ := C77_setup_partial E N 3 (by omega) nodes x X pos hL hsmall hfirst hshare shippedBoundary q
  have s0 := (m3 0 (by decide)).1
  have s3 := (m3 3 (by decide)).1
  have p0 : ∀ a : ℤ, Key.Bounds E pos 0 a → X 0 a = 0 → ∀ n, m.OnSet 0 n ↔ n < m.nodes ∧ m.coords.val n 0 = 0 :=
    fun a ha h0 => m4 0 (by decide) 0 (by omega) rfl hs a ha h0.symm
  have p3 : ∀ b : ℤ, Key.Bounds E pos 0 b → X 0 b = 2 → ∀ n, m.OnSet 3 n ↔ n < m.nodes ∧ m.coords.val n 0 = 2 :=
    fun b hb h2 => m4 3 (by decide) 0 (by omega) rfl hs b hb h2.symm
  have hok : m.CellsOk := ⟨hm.ok.size, fun i hi => by rw [hm.coordsSize]; exact hm.ok.lt i hi⟩
  obtain ⟨mp, e2, f1, f2⟩ := initialize_zero m hok u
  obtain ⟨t, e3, t1, t2, t3⟩ := C54_boundary m s0 s3 ⟨⟨m.nodes, fun _ => 0⟩, mp.field⟩ rfl
  have t2' : t.cell.size = m.cells := by rw [t2]; exact f1
  have w1 : Within 0 10 t.node := by
    intro n hn
    by_cases o0 : m.OnSet 0 n
    · rw [(t3 n).1 o0]; norm_num
    · by_cases o3 : m.OnSet 3 n
      · rw [(t3 n).2.1 o3 o0]; norm_num
      · rw [(t3 n).2.2 o3 o0]; norm_num
  have w2 : Within 0 10 t.cell := by
    rw [t2]
    intro c hc
    have hc : c < mp.field.size := hc
    show 0 ≤ mp.field.val c ∧ mp.field.val c ≤ 10
    rw [f2 c (by omega)]; norm_num
  have hceil : ⌈(1000 * (1 / 2) : ℝ)⌉₊ = 500 := by
    rw [show (1000 * (1 / 2) : ℝ) = (500 : ℕ) by norm_num, Nat.ceil_natCast]
  have hD : shippedSettings.loopDumps = 49 := by
    simp only [shippedSettings, Settings.loopDumps, Settings.inside, hceil]; rfl
  have hK : shippedSettings.cycles = 500 := by
    simp only [shippedSettings, Settings.cycles, hceil]; rfl
  have hcells : m.cells = m.elems * numSub shippedSettings.order ^ 3 := by rw [m1]; exact m2
  obtain ⟨r, e4, r1, r2, -, r4⟩ := C75_driver_partial m hm.ok hm.elemOk s0 s3 hm.coordsSize shippedSettings hcells (by norm_num [shippedSettings])
    (by norm_num [shippedSettings]) (by norm_num [shippedSettings]) (by rw [hD]; norm_num) j1 j2 jt t t1 t2'
  rw [hK] at r2
  have hcyc := C54_cycles m hm.ok hm.elemOk hm.noIsolated s0 s3 0 10 le_rfl le_rfl t t1 t2' w1 w2
  obtain ⟨t', e5, z1, z2, z3, z4, z5⟩ := hcyc 500
  rw [e5] at r2
  obtain rfl : r.state = t' := Option.some.inj r2
  refine ⟨m, r, ?_, hm, m2, z1, z2, fun a ha h0 => ⟨fun n hn hx => ?_, fun b hb h2 n hn hx => ?_⟩, z3, z4, by rw [r1, hD], fun j hj => ?_⟩
  · unfold program
    show (setup E N 3 nodes x shippedBoundary q).bind _ = _
    rw [e1, Option.bind_some]
    show (initializeState m _ 0 _).bind _ = _
    rw [e2, Option.bind_some]
    show (applyBoundary m _).bind _ = _
    rw [e3, Option.bind_some]
    show (driver m _ _ _ _ _).bind _ = _
    rw [e4]; rfl
  · exact (z5 (by norm_num) n).1 ((p0 a ha h0 n).2 ⟨hn, hx⟩)
  · refine (z5 (by norm_num) n).2 ((p3 b hb h2 n).2 ⟨hn, hx⟩) fun h => ?_
    have := ((p0 a ha h0 n).1 h).2
    rw [hx] at this
    norm_num at this
  · obtain ⟨d, sj, d1, d2, d3, d4, d5⟩ := r4 j (by rw [hD]; omega)
    obtain ⟨sj', e6, -, y2, -, y4, -⟩ := hcyc (shippedSettings.dumpCycle j)
    obtain rfl : sj = sj' := Option.some.inj (d2.symm.trans e6)
    refine ⟨d, d1, d3, d4.fields.1, fun c hc => ?_, d5.trans ?_⟩
    · rw [(d4.fields.2 c hc).1]; exact y4 c (by omega)
    · refine List.map_congr_left fun i hi => ?_
      have := List.mem_range.1 hi
      unfold Settings.dumpCycle
      rw [hD, hK]
      split
      · simp only [shippedSettings]; push_cast; ring
      · have : i = 50 := by omega
        subst this; norm_num

/-- The hypotheses of `C78_program_partial` hold for two unit cubes between `x = 0` and `x = 2`, and both planes bound the mesh. -/
example : ∃ X pos, Key.Grid 2 12 Key.duoNodes (Key.duoCoords 1) X pos ∧ (∃ d < 3, X d (pos (2 - 1) d + 1) - X d (pos (2 - 1) d) ≤ 7) ∧
    (∀ c < 2, ∀ l < 8, Key.duoNodes c l = Key.duoNodes 0 0 → c = 0 ∧ l = 0) ∧
    (∃ c < 2, ∃ c' < 2, c' ≠ c ∧ Share 8 Key.duoNodes c c') ∧ 1 / 10 ^ 6 ≤ X 0 (pos (2 - 1) 0 + 1) - X 0 (pos (2 - 1) 0) ∧
    Key.Bounds 2 pos 0 0 ∧ X 0 0 = 0 ∧ Key.Bounds 2 pos 0 2 ∧ X 0 2 = 2 :=
  ⟨_, _, Key.duo_lattice.grid, ⟨0, by omega, by norm_num⟩, by decide,
    ⟨0, by omega, 1, by omega, by omega, 1, by omega, 0, by omega, by decide⟩, by norm_num, Or.inl (by decide), by norm_num,
    Or.inr (by decide), by norm_num⟩

end Verif.Average
