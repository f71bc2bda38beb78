import Verif.Average.DriverLemmas
import Verif.Average.Example

/-!
# C75: the run of the Average example and its graphics dumps
-/

namespace Verif.Average

/-- The number of cycles of a run: the first positive number of steps of 1/1000 that reaches `TFINAL`, at most `cycle_stop`. -/
noncomputable def Settings.cycles (cfg : Settings) : ℕ := min cfg.cycleStop (max 1 ⌈1000 * cfg.tfinal⌉₊)

/-- The last cycle that ends before `TFINAL`. -/
noncomputable def Settings.inside (cfg : Settings) : ℕ := min cfg.cycleStop (⌈1000 * cfg.tfinal⌉₊ - 1)

/-- The number of dumps in the cycle loop: the multiples of the interval among the cycles that end before `TFINAL`. -/
noncomputable def Settings.loopDumps (cfg : Settings) : ℕ := cfg.inside / cfg.cycIval

/-- The cycle shown in dump `j`: every `graphics_cyc_ival`-th cycle, and the last one. -/
noncomputable def Settings.dumpCycle (cfg : Settings) (j : ℕ) : ℕ := if j ≤ cfg.loopDumps then j * cfg.cycIval else cfg.cycles

theorem not_reached (cfg : Settings) (k : ℕ) : (k + 1 : ℝ) / 1000 < cfg.tfinal ↔ k + 1 ≤ ⌈1000 * cfg.tfinal⌉₊ - 1 := by
  have h1 : k + 1 ≤ ⌈1000 * cfg.tfinal⌉₊ - 1 ↔ k + 1 < ⌈1000 * cfg.tfinal⌉₊ := by omega
  rw [h1, Nat.lt_ceil]
  push_cast
  constructor <;> intro h <;> linarith

/-- The dumps `0, …, n - 1` are in order. -/
def Good (m : Mesh) (cfg : Settings) (S : ℕ → State) (at_ : ℕ → ℕ) (n : ℕ) (dumps : List Dump) : Prop :=
  dumps.length = n ∧ ∀ j < n, ∃ d, dumps[j]? = some d ∧ d.id = j ∧ d.Shows m cfg.order (S (at_ j)) ∧
    d.times = (List.range (j + 1)).map fun i => (at_ i : ℝ) / 1000

theorem Good.snoc {m : Mesh} {cfg : Settings} {S : ℕ → State} {at_ : ℕ → ℕ} {n : ℕ} {dumps : List Dump} (h : Good m cfg S at_ n dumps)
    {d : Dump} (h1 : d.id = n) (h2 : d.Shows m cfg.order (S (at_ n))) (h3 : d.times = (List.range (n + 1)).map fun i => (at_ i : ℝ) / 1000) :
    Good m cfg S at_ (n + 1) (dumps ++ [d]) := by
  refine ⟨by simp [h.1], fun j hj => ?_⟩
  by_cases hjn : j < n
  · obtain ⟨d', e, q⟩ := h.2 j hjn
    exact ⟨d', by rw [List.getElem?_append_left (by rw [h.1]; exact hjn)]; exact e, q⟩
  · have : j = n := by omega
    subst this
    exact ⟨d, by rw [List.getElem?_append_right (by rw [h.1])]; simp [h.1], h1, h2, h3⟩

theorem Good.congr {m : Mesh} {cfg : Settings} {S : ℕ → State} {f g : ℕ → ℕ} {n : ℕ} {dumps : List Dump} (h : Good m cfg S f n dumps)
    (hfg : ∀ j < n, f j = g j) : Good m cfg S g n dumps := by
  refine ⟨h.1, fun j hj => ?_⟩
  obtain ⟨d, e, q1, q2, q3⟩ := h.2 j hj
  refine ⟨d, e, q1, by rw [← hfg j hj]; exact q2, q3.trans ?_⟩
  refine List.map_congr_left fun i hi => ?_
  rw [hfg i (by have := List.mem_range.1 hi; omega)]

/-- The state of the driver after `k` cycles that did not end the run. -/
structure Inv (m : Mesh) (cfg : Settings) (S : ℕ → State) (k : ℕ) (r : Run) : Prop where
  time : r.time = (k : ℝ) / 1000
  gtime : 10 ^ 8 ≤ r.gtime
  state : r.state = S k
  id : r.id = k / cfg.cycIval + 1
  size : r.times.size = 250
  times : ∀ j ≤ k / cfg.cycIval, r.times.val j = ((j * cfg.cycIval : ℕ) : ℝ) / 1000
  dumps : Good m cfg S (fun j => j * cfg.cycIval) (k / cfg.cycIval + 1) r.dumps

/-- The state after the cycle loop. -/
structure Fin (m : Mesh) (cfg : Settings) (S : ℕ → State) (r : Run) : Prop where
  time : r.time = (cfg.cycles : ℝ) / 1000
  state : r.state = S cfg.cycles
  id : r.id = cfg.loopDumps + 1
  size : r.times.size = 250
  times : ∀ j ≤ cfg.loopDumps, r.times.val j = ((j * cfg.cycIval : ℕ) : ℝ) / 1000
  dumps : Good m cfg S (fun j => j * cfg.cycIval) (cfg.loopDumps + 1) r.dumps

theorem cycleLoop_spec (m : Mesh) (cfg : Settings) (hc : m.cells = m.elems * numSub cfg.order ^ 3) (hx : m.coords.size = m.nodes)
    (hi : 1 ≤ cfg.cycIval) (ht : cfg.tfinal ≤ 10 ^ 8) (hd : 0 ≤ cfg.dtIval) (j1 j2 : ℕ → ℕ → ℝ) (s : State) (S : ℕ → State)
    (hS : ∀ k, cycles m k s = some (S k) ∧ (S k).cell.size = m.cells) :
    ∀ n k r, n + k = cfg.cycleStop → k ≤ cfg.inside → Inv m cfg S k r → k / cfg.cycIval < 250 →
      (cfg.loopDumps < 250 → ∃ r', cycleLoop m cfg j1 j2 n (k + 1) r = some r' ∧ Fin m cfg S r') ∧
      (250 ≤ cfg.loopDumps → cycleLoop m cfg j1 j2 n (k + 1) r = none) := by
  intro n
  induction n with
  | zero =>
    intro k r hn hk I hlt
    have hB : cfg.inside = k := by have : cfg.inside ≤ cfg.cycleStop := min_le_left _ _; omega
    have hK : cfg.cycles = k := by
      unfold Settings.inside at hB; unfold Settings.cycles; omega
    have hD : cfg.loopDumps = k / cfg.cycIval := by rw [Settings.loopDumps, hB]
    refine ⟨fun _ => ⟨r, rfl, ?_⟩, fun h => by omega⟩
    exact ⟨by rw [hK]; exact I.time, by rw [hK]; exact I.state, by rw [hD]; exact I.id, I.size, by rw [hD]; exact I.times,
      by rw [hD]; exact I.dumps⟩
  | succ n ih =>
    intro k r hn hk I hlt
    obtain ⟨time, gtime, id, times, st, dumps⟩ := r
    obtain ⟨i1, i2, i3, i4, i5, i6, i7⟩ := I
    simp only [] at i1 i2 i3 i4 i5 i6 i7
    subst i3
    have e0 := (hS (k + 1)).1
    rw [cycles_succ, (hS k).1, Option.bind_some] at e0
    obtain ⟨t, e1, e2⟩ := Option.bind_eq_some_iff.1 e0
    have htime : time + 1 / 1000 = ((k + 1 : ℕ) : ℝ) / 1000 := by rw [i1]; push_cast; ring
    have step : cycleLoop m cfg j1 j2 (n + 1) (k + 1) ⟨time, gtime, id, times, S k, dumps⟩ =
        (if time + 1 / 1000 ≥ cfg.tfinal then some ⟨time + 1 / 1000, gtime, id, times, S (k + 1), dumps⟩
        else if cfg.cycIval = 0 then none
        else if (k + 1) % cfg.cycIval = 0 ∨ time + 1 / 1000 - gtime ≥ 0 then
          (ensight m cfg j1 j2 ⟨time + 1 / 1000, gtime, id, times, S (k + 1), dumps⟩).bind fun r =>
            cycleLoop m cfg j1 j2 n (k + 1 + 1) { r with gtime := r.gtime + cfg.dtIval }
        else cycleLoop m cfg j1 j2 n (k + 1 + 1) ⟨time + 1 / 1000, gtime, id, times, S (k + 1), dumps⟩) := by
      show (smoothElement m (S k)).bind _ = _
      rw [e1, Option.bind_some]
      show (applyBoundary m t).bind _ = _
      rw [e2, Option.bind_some]
      rfl
    rw [step]
    by_cases hend : time + 1 / 1000 ≥ cfg.tfinal
    · rw [if_pos hend]
      have hnot : ¬ k + 1 ≤ ⌈1000 * cfg.tfinal⌉₊ - 1 := by
        rw [← not_reached]; rw [htime] at hend; push_cast at hend; linarith
      have hB : cfg.inside = k := by unfold Settings.inside at hk ⊢; omega
      have hK : cfg.cycles = k + 1 := by
        unfold Settings.inside at hB; unfold Settings.cycles; omega
      have hD : cfg.loopDumps = k / cfg.cycIval := by rw [Settings.loopDumps, hB]
      refine ⟨fun _ => ⟨_, rfl, ?_⟩, fun h => by omega⟩
      exact ⟨by rw [hK]; exact htime, by rw [hK], by rw [hD]; exact i4, i5, by rw [hD]; exact i6, by rw [hD]; exact i7⟩
    · rw [if_neg hend, if_neg (by omega)]
      have hin : k + 1 ≤ ⌈1000 * cfg.tfinal⌉₊ - 1 := by
        rw [← not_reached]; rw [htime] at hend; push_cast at hend; linarith
      have hk' : k + 1 ≤ cfg.inside := by unfold Settings.inside; omega
      have hg : ¬ time + 1 / 1000 - gtime ≥ 0 := by push Not at hend ⊢; linarith
      by_cases hm : (k + 1) % cfg.cycIval = 0
      · rw [if_pos (Or.inl hm)]
        have hq : (k + 1) / cfg.cycIval = k / cfg.cycIval + 1 := by
          rw [Nat.succ_div, if_pos (Nat.dvd_of_mod_eq_zero hm)]
        have hmul : (k / cfg.cycIval + 1) * cfg.cycIval = k + 1 := by
          rw [← hq]; exact Nat.div_mul_cancel (Nat.dvd_of_mod_eq_zero hm)
        by_cases hov : k / cfg.cycIval + 1 < 250
        · obtain ⟨d, ed, d1, d2, d3⟩ := ensight_spec m cfg hc hx j1 j2 ⟨time + 1 / 1000, gtime, id, times, S (k + 1), dumps⟩
            (hS (k + 1)).2 (show id < times.size by omega)
          rw [ed, Option.bind_some]
          have hst : ∀ i ≤ k / cfg.cycIval + 1, store times.val id (time + 1 / 1000) i = ((i * cfg.cycIval : ℕ) : ℝ) / 1000 := by
            intro i hi
            by_cases hid : i = id
            · subst hid; rw [store_same, htime, i4, hmul]
            · rw [store_ne _ _ hid]; exact i6 i (by omega)
          refine ih (k + 1) _ (by omega) hk' ⟨htime, ?_, rfl, ?_, i5, ?_, ?_⟩ (by omega)
          · show 10 ^ 8 ≤ gtime + cfg.dtIval
            linarith
          · show id + 1 = _
            rw [hq, i4]
          · intro j hj
            rw [hq] at hj
            exact hst j hj
          · rw [hq]
            refine i7.snoc (d1.trans i4) ?_ ?_
            · show d.Shows m cfg.order (S ((k / cfg.cycIval + 1) * cfg.cycIval))
              rw [hmul]; exact d2
            · rw [d3]
              show (List.range (id + 1)).map (store times.val id (time + 1 / 1000)) = _
              rw [i4]
              refine List.map_congr_left fun i hi => ?_
              have := List.mem_range.1 hi
              rw [← i4]
              exact hst i (by omega)
        · rw [ensight_none m cfg j1 j2 _ (show times.size ≤ id by omega)]
          refine ⟨fun h => ?_, fun _ => rfl⟩
          have : (k + 1) / cfg.cycIval ≤ cfg.inside / cfg.cycIval := Nat.div_le_div_right hk'
          unfold Settings.loopDumps at h
          omega
      · rw [if_neg (by rintro (h | h); exact hm h; exact hg h)]
        have hq : (k + 1) / cfg.cycIval = k / cfg.cycIval := by
          rw [Nat.succ_div, if_neg (fun h => hm (Nat.mod_eq_zero_of_dvd h))]; rfl
        exact ih (k + 1) _ (by omega) hk' ⟨htime, i2, rfl, by rw [hq]; exact i4, i5, by rw [hq]; exact i6, by rw [hq]; exact i7⟩ (by omega)

theorem driver_first (m : Mesh) (cfg : Settings) (hc : m.cells = m.elems * numSub cfg.order ^ 3) (hx : m.coords.size = m.nodes)
    (j1 j2 : ℕ → ℕ → ℝ) (jt : ℕ → ℝ) (s : State) (S : ℕ → State)
    (hS : ∀ k, Average.cycles m k s = some (S k) ∧ (S k).cell.size = m.cells) :
    ∃ r, ensight m cfg j1 j2 ⟨0, 10 ^ 8, 0, ⟨250, jt⟩, s, []⟩ = some r ∧ Inv m cfg S 0 r := by
  have hs : S 0 = s := (Option.some.inj (hS 0).1).symm
  subst hs
  obtain ⟨d, ed, d1, d2, d3⟩ := ensight_spec m cfg hc hx j1 j2 ⟨0, 10 ^ 8, 0, ⟨250, jt⟩, S 0, []⟩ (hS 0).2 (show 0 < 250 by omega)
  refine ⟨_, ed, by simp, le_rfl, rfl, by simp, rfl, ?_, ?_⟩
  · intro j hj
    have : j = 0 := by simpa using hj
    subst this
    show store jt 0 0 0 = _
    simp
  · rw [Nat.zero_div]
    refine Good.snoc (n := 0) ⟨rfl, fun j hj => absurd hj (by omega)⟩ d1 (by rw [Nat.zero_mul]; exact d2) (d3.trans ?_)
    show [store jt 0 0 0] = [_]
    simp

/-- **C75 (the run).**  On a valid mesh, for a positive `graphics_cyc_ival` and `TFINAL ≤ 1e8`, with room for all the times (at most
250 dumps): the run finishes, and it has written exactly the dumps of the initial state, of every `graphics_cyc_ival`-th cycle that
ends before `TFINAL`, and of the last cycle, numbered from 0 in this order.  Each shows the cell field at that cycle, the number and
the colour `±1` of the element of each cell and the node positions, and its case file lists the times of the dumps so far.
(Missing from the full claim, because it is false: `C75_interval_negation` and `C75_overflow_negation`.) -/
theorem C75_driver_partial (m : Mesh) (h : m.Ok) (he : m.ElemOk) (h0 : m.SetOk 0) (h3 : m.SetOk 3) (hx : m.coords.size = m.nodes)
    (cfg : Settings) (hc : m.cells = m.elems * numSub cfg.order ^ 3) (hi : 1 ≤ cfg.cycIval) (ht : cfg.tfinal ≤ 10 ^ 8) (hd : 0 ≤ cfg.dtIval)
    (hroom : cfg.loopDumps + 2 ≤ 250)
    (j1 j2 : ℕ → ℕ → ℝ) (jt : ℕ → ℝ) (s : State) (h1 : s.node.size = m.nodes) (h2 : s.cell.size = m.cells) :
    ∃ r, driver m cfg j1 j2 jt s = some r ∧ r.dumps.length = cfg.loopDumps + 2 ∧ some r.state = cycles m cfg.cycles s ∧
      r.time = (cfg.cycles : ℝ) / 1000 ∧
      ∀ j < cfg.loopDumps + 2, ∃ d sj, r.dumps[j]? = some d ∧ cycles m (cfg.dumpCycle j) s = some sj ∧ d.id = j ∧ d.Shows m cfg.order sj ∧
        d.times = (List.range (j + 1)).map fun i => (cfg.dumpCycle i : ℝ) / 1000 := by
  obtain ⟨S, hS⟩ := cycles_run m h he h0 h3 s h1 h2
  obtain ⟨r1, e1, I⟩ := driver_first m cfg hc hx j1 j2 jt s S hS
  obtain ⟨r2, e2, F⟩ := (cycleLoop_spec m cfg hc hx hi ht hd j1 j2 s S hS cfg.cycleStop 0 r1 rfl (Nat.zero_le _) I (by simp)).1 (by omega)
  obtain ⟨d, ed, d1, d2, d3⟩ := ensight_spec m cfg hc hx j1 j2 r2 (by rw [F.state]; exact (hS _).2) (by rw [F.size, F.id]; omega)
  have hlast : cfg.dumpCycle (cfg.loopDumps + 1) = cfg.cycles := if_neg (by omega)
  have hin : ∀ i ≤ cfg.loopDumps, cfg.dumpCycle i = i * cfg.cycIval := fun i hi => if_pos hi
  have hst : ∀ i ≤ cfg.loopDumps + 1, store r2.times.val r2.id r2.time i = (cfg.dumpCycle i : ℝ) / 1000 := by
    intro i hi
    by_cases hid : i = r2.id
    · rw [hid, store_same, F.time, F.id, hlast]
    · rw [store_ne _ _ hid, hin i (by have := F.id; omega)]
      exact F.times i (by have := F.id; omega)
  have G : Good m cfg S cfg.dumpCycle (cfg.loopDumps + 1 + 1) (r2.dumps ++ [d]) := by
    refine (F.dumps.congr fun j hj => (hin j (by omega)).symm).snoc (d1.trans F.id) ?_ ?_
    · rw [hlast, ← F.state]; exact d2
    · rw [d3, F.id]
      refine List.map_congr_left fun i hi => ?_
      rw [← F.id]
      exact hst i (by have := List.mem_range.1 hi; omega)
  refine ⟨{ r2 with times := ⟨r2.times.size, store r2.times.val r2.id r2.time⟩, id := r2.id + 1, dumps := r2.dumps ++ [d] }, ?_, G.1, ?_,
    F.time, fun j hj => ?_⟩
  · unfold driver
    show (ensight m cfg j1 j2 ⟨0, 10 ^ 8, 0, ⟨250, jt⟩, s, []⟩).bind _ = _
    rw [e1, Option.bind_some]
    show (cycleLoop m cfg j1 j2 cfg.cycleStop 1 r1).bind _ = _
    rw [e2, Option.bind_some]
    exact ed
  · show some r2.state = _
    rw [F.state, (hS _).1]
  · obtain ⟨d', q1, q2, q3, q4⟩ := G.2 j hj
    exact ⟨d', S (cfg.dumpCycle j), q1, (hS _).1, q2, q3, q4⟩

/-- Hypotheses met: the mesh of two cells, the settings that ship with the example (order 0 for this mesh). -/
example : ∃ (m : Mesh) (cfg : Settings), m.Ok ∧ m.ElemOk ∧ m.SetOk 0 ∧ m.SetOk 3 ∧ m.coords.size = m.nodes ∧
    m.cells = m.elems * numSub cfg.order ^ 3 ∧ 1 ≤ cfg.cycIval ∧ cfg.tfinal ≤ 10 ^ 8 ∧ 0 ≤ cfg.dtIval ∧ cfg.loopDumps + 2 ≤ 250 ∧
    2 < cfg.loopDumps := by
  obtain ⟨m, g1, g2, g3, -, g4, g5, -, -, g6, g7, -⟩ := example_mesh_full
  have hD : (⟨1 / 2, 10 ^ 8, 10, 1 / 10, 0⟩ : Settings).loopDumps = 49 := by
    have : ⌈(1000 * (1 / 2) : ℝ)⌉₊ = 500 := by
      rw [show (1000 * (1 / 2) : ℝ) = (500 : ℕ) by norm_num, Nat.ceil_natCast]
    simp only [Settings.loopDumps, Settings.inside, this]
    rfl
  refine ⟨m, ⟨1 / 2, 10 ^ 8, 10, 1 / 10, 0⟩, g4, g5, g6, g7, g2, ?_, by norm_num, by norm_num, by norm_num, by rw [hD]; norm_num, by rw [hD]; norm_num⟩
  rw [g3, g1]; rfl

/-- **C75 (the settings that ship with the example).**  `TFINAL` 0.5, `graphics_cyc_ival` 10: 500 cycles and 51 dumps, at the times 0,
0.01, …, 0.49 and 0.5. -/
theorem C75_shipped (m : Mesh) (h : m.Ok) (he : m.ElemOk) (h0 : m.SetOk 0) (h3 : m.SetOk 3) (hx : m.coords.size = m.nodes) (order : ℕ)
    (hc : m.cells = m.elems * numSub order ^ 3) (j1 j2 : ℕ → ℕ → ℝ) (jt : ℕ → ℝ) (s : State) (h1 : s.node.size = m.nodes)
    (h2 : s.cell.size = m.cells) :
    ∃ r d, driver m ⟨1 / 2, 10 ^ 8, 10, 1 / 10, order⟩ j1 j2 jt s = some r ∧ some r.state = cycles m 500 s ∧ r.dumps.length = 51 ∧
      r.dumps[50]? = some d ∧ d.times = (List.range 51).map fun i : ℕ => (i : ℝ) / 100 := by
  have hceil : ⌈(1000 * (1 / 2) : ℝ)⌉₊ = 500 := by
    rw [show (1000 * (1 / 2) : ℝ) = (500 : ℕ) by norm_num, Nat.ceil_natCast]
  have hD : (⟨1 / 2, 10 ^ 8, 10, 1 / 10, order⟩ : Settings).loopDumps = 49 := by
    simp only [Settings.loopDumps, Settings.inside, hceil]; rfl
  have hK : (⟨1 / 2, 10 ^ 8, 10, 1 / 10, order⟩ : Settings).cycles = 500 := by
    simp only [Settings.cycles, hceil]; rfl
  obtain ⟨r, e, q1, q2, -, q4⟩ := C75_driver_partial m h he h0 h3 hx ⟨1 / 2, 10 ^ 8, 10, 1 / 10, order⟩ hc (by norm_num) (by norm_num)
    (by norm_num) (by rw [hD]; norm_num) j1 j2 jt s h1 h2
  obtain ⟨d, sj, w1, -, -, -, w5⟩ := q4 50 (by rw [hD]; norm_num)
  refine ⟨r, d, e, by rw [← hK]; exact q2, by rw [q1, hD], w1, w5.trans ?_⟩
  refine List.map_congr_left fun i hi => ?_
  have := List.mem_range.1 hi
  unfold Settings.dumpCycle
  rw [hD, hK]
  split
  · push_cast; ring
  · have : i = 50 := by omega
    subst this; norm_num

/-- **C75 (too many dumps).**  With more than 250 dumps in a run, `graphics_times` overruns: the behaviour is undefined. -/
theorem C75_overflow_negation (m : Mesh) (h : m.Ok) (he : m.ElemOk) (h0 : m.SetOk 0) (h3 : m.SetOk 3) (hx : m.coords.size = m.nodes)
    (cfg : Settings) (hc : m.cells = m.elems * numSub cfg.order ^ 3) (hi : 1 ≤ cfg.cycIval) (ht : cfg.tfinal ≤ 10 ^ 8) (hd : 0 ≤ cfg.dtIval)
    (hroom : 250 < cfg.loopDumps + 2) (j1 j2 : ℕ → ℕ → ℝ) (jt : ℕ → ℝ) (s : State) (h1 : s.node.size = m.nodes) (h2 : s.cell.size = m.cells) :
    driver m cfg j1 j2 jt s = none := by
  obtain ⟨S, hS⟩ := cycles_run m h he h0 h3 s h1 h2
  obtain ⟨r1, e1, I⟩ := driver_first m cfg hc hx j1 j2 jt s S hS
  have L := cycleLoop_spec m cfg hc hx hi ht hd j1 j2 s S hS cfg.cycleStop 0 r1 rfl (Nat.zero_le _) I (by simp)
  unfold driver
  show (ensight m cfg j1 j2 ⟨0, 10 ^ 8, 0, ⟨250, jt⟩, s, []⟩).bind _ = _
  rw [e1, Option.bind_some]
  show (cycleLoop m cfg j1 j2 cfg.cycleStop 1 r1).bind _ = _
  by_cases hD : cfg.loopDumps < 250
  · obtain ⟨r2, e2, F⟩ := L.1 hD
    rw [e2, Option.bind_some]
    exact ensight_none m cfg j1 j2 r2 (by rw [F.size, F.id]; omega)
  · have e2 : cycleLoop m cfg j1 j2 cfg.cycleStop 1 r1 = none := L.2 (by omega)
    rw [e2]; rfl

/-- Hypotheses met: a dump every cycle until `TFINAL` 0.5. -/
example : 250 < (⟨1 / 2, 10 ^ 8, 1, 1 / 10, 0⟩ : Settings).loopDumps + 2 := by
  have : ⌈(1000 * (1 / 2) : ℝ)⌉₊ = 500 := by
    rw [show (1000 * (1 / 2) : ℝ) = (500 : ℕ) by norm_num, Nat.ceil_natCast]
  simp only [Settings.loopDumps, Settings.inside, this]
  decide

/-- **C75 (the time interval is not used).**  Whatever the dump interval `graphics_dt_ival`, a run in which `graphics_cyc_ival` is not
reached before `TFINAL` writes only the first and the last dump: `graphics_time` starts at `1e8` and not at the interval. -/
theorem C75_interval_negation (m : Mesh) (h : m.Ok) (he : m.ElemOk) (h0 : m.SetOk 0) (h3 : m.SetOk 3) (hx : m.coords.size = m.nodes)
    (cfg : Settings) (hc : m.cells = m.elems * numSub cfg.order ^ 3) (ht : cfg.tfinal ≤ 10 ^ 8) (hd : 0 ≤ cfg.dtIval)
    (hbig : 1000 * cfg.tfinal ≤ cfg.cycIval) (hi : 1 ≤ cfg.cycIval) (j1 j2 : ℕ → ℕ → ℝ) (jt : ℕ → ℝ) (s : State)
    (h1 : s.node.size = m.nodes) (h2 : s.cell.size = m.cells) : ∃ r, driver m cfg j1 j2 jt s = some r ∧ r.dumps.length = 2 := by
  have hD : cfg.loopDumps = 0 := by
    have : ⌈1000 * cfg.tfinal⌉₊ ≤ cfg.cycIval := Nat.ceil_le.2 hbig
    unfold Settings.loopDumps Settings.inside
    exact Nat.div_eq_of_lt (by omega)
  obtain ⟨r, e, q, -⟩ := C75_driver_partial m h he h0 h3 hx cfg hc hi ht hd (by omega) j1 j2 jt s h1 h2
  exact ⟨r, e, by rw [q, hD]⟩

/-- Hypotheses met: an interval of 0.1, `TFINAL` 0.5, `graphics_cyc_ival` 1000: no dump at 0.1, 0.2, 0.3 and 0.4. -/
example : (1000 * (1 / 2) : ℝ) ≤ ((1000 : ℕ) : ℝ) ∧ (0 : ℝ) ≤ 1 / 10 ∧ (1 / 2 : ℝ) ≤ 10 ^ 8 := by norm_num

/-- **C75 (interval zero).**  With the initial `graphics_cyc_ival` 0 the run divides by zero as soon as a cycle ends before `TFINAL`. -/
theorem C75_zero_negation (m : Mesh) (h : m.Ok) (he : m.ElemOk) (h0 : m.SetOk 0) (h3 : m.SetOk 3) (hx : m.coords.size = m.nodes)
    (cfg : Settings) (hc : m.cells = m.elems * numSub cfg.order ^ 3) (hi : cfg.cycIval = 0) (hstop : 1 ≤ cfg.cycleStop)
    (ht : 1 / 1000 < cfg.tfinal) (j1 j2 : ℕ → ℕ → ℝ) (jt : ℕ → ℝ) (s : State) (h1 : s.node.size = m.nodes) (h2 : s.cell.size = m.cells) :
    driver m cfg j1 j2 jt s = none := by
  obtain ⟨S, hS⟩ := cycles_run m h he h0 h3 s h1 h2
  obtain ⟨r1, e1, I⟩ := driver_first m cfg hc hx j1 j2 jt s S hS
  unfold driver
  show (ensight m cfg j1 j2 ⟨0, 10 ^ 8, 0, ⟨250, jt⟩, s, []⟩).bind _ = _
  rw [e1, Option.bind_some]
  obtain ⟨n, hn⟩ := Nat.exists_eq_add_of_le' hstop
  rw [hn]
  have e0 := (hS 1).1
  rw [cycles_succ, (hS 0).1, Option.bind_some] at e0
  obtain ⟨t, e2, e3⟩ := Option.bind_eq_some_iff.1 e0
  have : cycleLoop m cfg j1 j2 (n + 1) 1 r1 = none := by
    show (smoothElement m r1.state).bind _ = _
    rw [I.state, e2, Option.bind_some]
    show (applyBoundary m t).bind _ = _
    rw [e3, Option.bind_some]
    show (if r1.time + 1 / 1000 ≥ cfg.tfinal then _ else if cfg.cycIval = 0 then none else _) = _
    rw [if_neg (by rw [I.time]; push_cast; linarith), if_pos hi]
  rw [this]; rfl

/-- Hypotheses met. -/
example : (1 / 1000 : ℝ) < 1 / 2 := by norm_num

end Verif.Average
