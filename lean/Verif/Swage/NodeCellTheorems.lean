import Verif.Swage.Ragged

/-!
# C35, C36: node-to-cell and corner connectivity
-/

namespace Verif.Swage
open Finset

/-- A mesh table is valid when every cell vertex is one of the `N` nodes. -/
def Valid (C w N : ℕ) (nodes : ℕ → ℕ → ℕ) : Prop := ∀ c < C, ∀ l < w, nodes c l < N

/-- Specification: the (cell, slot) incidences of node `n`, in increasing order. -/
def incidences (C w : ℕ) (nodes : ℕ → ℕ → ℕ) (n : ℕ) : List (ℕ × ℕ) :=
  (List.range C).flatMap fun c => ((List.range w).filter fun l => nodes c l = n).map fun l => (c, l)

theorem incidences_flat (C w : ℕ) (hw : 0 < w) (nodes : ℕ → ℕ → ℕ) (n : ℕ) :
    ((List.range (w * C)).filter (fun e => flat w nodes e = n)) =
      (incidences C w nodes n).map fun p => w * p.1 + p.2 := by
  unfold flat incidences
  rw [filter_flat w C n hw, List.map_flatMap]
  congr 1; funext c; simp [List.map_map]

theorem incidences_length (C w : ℕ) (hw : 0 < w) (nodes : ℕ → ℕ → ℕ) (n : ℕ) :
    (incidences C w nodes n).length = cnt (flat w nodes) (w * C) n := by
  have h := congrArg List.length (incidences_flat C w hw nodes n)
  rw [List.length_map] at h
  rw [← h]
  have := congrArg List.length (list_eq (key := flat w nodes) (K := w * C) (fun _ => ()) (fun _ => ())
    (fun _ _ => rfl) n)
  simpa using this.symm

theorem incidences_snd (C w : ℕ) (nodes : ℕ → ℕ → ℕ) (n : ℕ) :
    ∀ p ∈ incidences C w nodes n, p.1 < C ∧ p.2 < w ∧ nodes p.1 p.2 = n := by
  intro p hp
  unfold incidences at hp
  simp only [List.mem_flatMap, List.mem_map, List.mem_filter, List.mem_range, decide_eq_true_eq] at hp
  obtain ⟨c, hc, l, ⟨hl, h⟩, rfl⟩ := hp
  exact ⟨hc, hl, h⟩

theorem mem_incidences {C w : ℕ} {nodes : ℕ → ℕ → ℕ} {n : ℕ} {p : ℕ × ℕ} :
    p ∈ incidences C w nodes n ↔ p.1 < C ∧ p.2 < w ∧ nodes p.1 p.2 = n := by
  refine ⟨incidences_snd C w nodes n p, fun ⟨h1, h2, h3⟩ => ?_⟩
  unfold incidences
  simp only [List.mem_flatMap, List.mem_map, List.mem_filter, List.mem_range, decide_eq_true_eq]
  exact ⟨p.1, h1, p.2, ⟨h2, h3⟩, rfl⟩

/-- Everything the counting/prefix-sum/filling sequence produces. -/
theorem ragged_build (C w N : ℕ) (key : ℕ → ℕ → ℕ) (hk : Valid C w N key)
    (num start : Arr ℕ) (hn : num.size = N) (hs : start.size = N + 1) (saved0 : ℕ → ℕ) :
    ∃ s cnt' start', clear2 N num ⟨N, saved0⟩ = some s ∧ countLoop C w key s.1 = some cnt' ∧
      startLoop N cnt'.2 start = some start' ∧ s.2.size = N ∧ (∀ n < N, s.2.val n = 0) ∧
      cnt'.1 = w * C ∧ cnt'.2.size = N ∧ (∀ n < N, cnt'.2.val n = cnt (flat w key) (w * C) n) ∧
      start'.size = N + 1 ∧ (∀ n ≤ N, start'.val n = st (flat w key) (w * C) n) := by
  obtain ⟨s, h1, h2, h3, h4, h5⟩ := clear2_spec N num ⟨N, saved0⟩ (by omega) (le_refl N)
  obtain ⟨c, k1, k2, k3, k4⟩ := countLoop_spec C w N key s.1 (by omega) h4 hk
  obtain ⟨t, t1, t2, t3⟩ := startLoop_spec N c.2 start hs k3
  refine ⟨s, c, t, h1, k1, t1, h3, h5, k2, k3, k4, t2, fun n hn => ?_⟩
  rw [t3 n hn]
  exact sum_congr rfl fun i hi => k4 i (by have := mem_range.1 hi; omega)

/-- C35: for every mesh (any number of cells and nodes, any valid `nodes_in_cell`), whatever the members
and the fresh memory contained, `build_node_cell_connectivity` performs no out-of-bounds access, and
afterwards for every node `n` the list `cells_in_node(n, 0), …, cells_in_node(n, num_cells_in_node(n)-1)`
consists of the cells of the (cell, slot) incidences of `n` in increasing order. -/
theorem C35_node_cells (C N : ℕ) (nodes : ℕ → ℕ → ℕ) (hv : ∀ c < C, ∀ l < 8, nodes c l < N)
    (m : NodeCell) (hn : m.num.size = N) (hs : m.start.size = N + 1) (saved0 list0 : ℕ → ℕ) :
    ∃ r, buildNodeCell C N nodes m saved0 list0 = some r ∧
      ∀ n < N, r.numCellsInNode n = some (incidences C 8 nodes n).length ∧
        (List.range (incidences C 8 nodes n).length).map (fun l => r.cellsInNode n l) =
          (incidences C 8 nodes n).map (fun p => some p.1) := by
  obtain ⟨s, c, t, h1, h2, h3, h4, h5, h6, h7, h8, h9, h10⟩ :=
    ragged_build C 8 N nodes hv m.num m.start hn hs saved0
  obtain ⟨r, p1, p2, p3, p4⟩ := placeLoop_spec C 8 N nodes t ⟨c.1, list0⟩ s.2 hv (by omega)
    (fun n hn => h10 n (by omega)) (by simp only [h6]; omega) (by omega) h5
  refine ⟨⟨c.2, t, r.1⟩, ?_, ?_⟩
  · unfold buildNodeCell
    simp only [Option.bind_eq_bind]
    rw [h1, Option.bind_some, h2, Option.bind_some, h3, Option.bind_some, p1]; rfl
  · intro n hn'
    rw [incidences_length C 8 (by omega)]
    refine ⟨?_, ?_⟩
    · unfold NodeCell.numCellsInNode
      rw [Arr.get_lt (by simp only [h7]; omega), h8 n hn']
    · have key := list_eq (key := flat 8 nodes) (K := 8 * C) (fun p => some (r.1.val p))
        (fun e => some (e / 8)) (fun e he => by rw [p3 e he]) n
      rw [incidences_flat C 8 (by omega), List.map_map] at key
      have e2 : (incidences C 8 nodes n).map ((fun e => some (e / 8)) ∘ fun p => 8 * p.1 + p.2) =
          (incidences C 8 nodes n).map (fun p => some p.1) := by
        refine List.map_congr_left fun p hp => ?_
        have := (incidences_snd _ _ _ _ p hp).2.1
        simp only [Function.comp_apply]
        rw [flat_div this]
      rw [← e2, ← key]
      refine List.map_congr_left fun l hl => ?_
      have hl : l < cnt (flat 8 nodes) (8 * C) n := by simpa using hl
      unfold NodeCell.cellsInNode
      simp only [Option.bind_eq_bind]
      rw [Arr.get_lt (by omega), Option.bind_some, h10 n (by omega)]
      have hlast : st (flat 8 nodes) (8 * C) n + cnt (flat 8 nodes) (8 * C) n ≤ 8 * C := by
        rw [← st_succ]
        calc st (flat 8 nodes) (8 * C) (n + 1) ≤ st (flat 8 nodes) (8 * C) N := st_mono (by omega)
          _ = 8 * C := st_total (flat_valid hv)
      rw [Arr.get_lt (by rw [p2]; simp only [h6]; omega)]

/-- C35, converse: if some cell refers to a node outside `[0, N)`, the builder reads outside its arrays
(undefined behaviour), so the validity hypothesis of `C35_node_cells` is necessary. -/
theorem C35_undefined (C N : ℕ) (nodes : ℕ → ℕ → ℕ) (c l : ℕ) (hc : c < C) (hl : l < 8)
    (hbad : N ≤ nodes c l) (m : NodeCell) (hn : m.num.size = N) (saved0 list0 : ℕ → ℕ) :
    buildNodeCell C N nodes m saved0 list0 = none := by
  obtain ⟨s, h1, h2, -, -, -⟩ := clear2_spec N m.num ⟨N, saved0⟩ (by omega) (le_refl N)
  unfold buildNodeCell
  simp only [Option.bind_eq_bind]
  rw [h1, Option.bind_some]
  have sz : ∀ c l (s s' : ℕ × Arr ℕ), (do
      let v ← s.2.get (nodes c l)
      let num ← s.2.set (nodes c l) (v + 1)
      pure (s.1 + 1, num) : Option (ℕ × Arr ℕ)) = some s' → s'.2.size = s.2.size := by
    intro c l s s' h
    simp only [Option.bind_eq_bind] at h
    obtain ⟨v, -, h⟩ := Option.bind_eq_some_iff.1 h
    obtain ⟨num, hset, h⟩ := Option.bind_eq_some_iff.1 h
    unfold Arr.set at hset
    split at hset
    · cases hset; cases h; rfl
    · cases hset
  have inner : ∀ c' (s s' : ℕ × Arr ℕ), s.2.size = N → loopM 8 (fun l s => (do
      let v ← s.2.get (nodes c' l)
      let num ← s.2.set (nodes c' l) (v + 1)
      pure (s.1 + 1, num))) s = some s' → s'.2.size = N := by
    intro c' s s' hN h
    exact loopM_inv h (fun _ s => s.2.size = N) hN (fun i s s' _ hI hb => by rw [sz _ _ _ _ hb, hI])
  have : countLoop C 8 nodes s.1 = none := by
    unfold countLoop
    refine loopM_none (fun _ s => s.2.size = N) (by simp only []; omega)
      (fun i s s' _ hI hb => inner i s s' hI hb) hc ?_
    intro s hI
    refine loopM_none (fun _ s => s.2.size = N) hI
      (fun i s s' _ hI hb => by rw [sz _ _ _ _ hb, hI]) hl ?_
    intro s hI
    simp only [Option.bind_eq_bind]
    rw [Arr.get_ge (by omega)]; rfl
  rw [this]; rfl

/-- Specification of the node start table left by the previous builder. -/
def StartOk (C N : ℕ) (nodes : ℕ → ℕ → ℕ) (start : Arr ℕ) : Prop :=
  start.size = N + 1 ∧ ∀ n ≤ N, start.val n = ∑ i ∈ range n, (incidences C 8 nodes i).length

/-- The start table needed by `C36_corners` is the one left by `build_node_cell_connectivity`. -/
theorem C36_start (C N : ℕ) (nodes : ℕ → ℕ → ℕ) (hv : ∀ c < C, ∀ l < 8, nodes c l < N)
    (m : NodeCell) (hn : m.num.size = N) (hs : m.start.size = N + 1) (saved0 list0 : ℕ → ℕ)
    (r : NodeCell) (h : buildNodeCell C N nodes m saved0 list0 = some r) : StartOk C N nodes r.start := by
  obtain ⟨s, c, t, h1, h2, h3, h4, h5, h6, h7, h8, h9, h10⟩ :=
    ragged_build C 8 N nodes hv m.num m.start hn hs saved0
  unfold buildNodeCell at h
  simp only [Option.bind_eq_bind] at h
  rw [h1, Option.bind_some, h2, Option.bind_some, h3, Option.bind_some] at h
  obtain ⟨p, -, hp⟩ := Option.bind_eq_some_iff.1 h
  cases hp
  refine ⟨h9, fun n hn => ?_⟩
  rw [h10 n hn]
  exact sum_congr rfl fun i _ => (incidences_length C 8 (by omega) nodes i).symm

theorem buildCorners_spec (C N : ℕ) (nodes : ℕ → ℕ → ℕ) (hv : ∀ c < C, ∀ l < 8, nodes c l < N)
    (start num0 : Arr ℕ) (hst : StartOk C N nodes start) (hn : num0.size = N)
    (inCell0 : ℕ → ℕ → ℕ) (saved0 list0 : ℕ → ℕ) :
    ∃ r, buildCorners C N nodes start num0 inCell0 saved0 list0 = some r ∧ r.numCorners = 8 * C ∧
      r.list.size = 8 * C ∧ r.num.size = N ∧ (∀ n < N, r.num.val n = cnt (flat 8 nodes) (8 * C) n) ∧
      (∀ e < 8 * C, r.list.val (pos (flat 8 nodes) (8 * C) e) = e) ∧
      (∀ c l, r.inCell c l = if c < C ∧ l < 8 then 8 * c + l else inCell0 c l) := by
  have hsv : ∀ n ≤ N, start.val n = st (flat 8 nodes) (8 * C) n := fun n hn => by
    rw [hst.2 n hn]; exact sum_congr rfl fun i _ => incidences_length C 8 (by omega) nodes i
  have htot : loop C (fun _ t => loop 8 (fun _ t => t + 1) t) 0 = 8 * C := by
    induction C with
    | zero => rfl
    | succ C _ =>
      have : ∀ C, loop C (fun _ t => loop 8 (fun _ t => t + 1) t) 0 = 8 * C := by
        intro C; induction C with
        | zero => rfl
        | succ C ih => rw [loop_succ, ih]; rfl
      exact this _
  obtain ⟨sv, s1, s2, s3⟩ := loopM_spec (n := N) (body := fun n (s : Arr ℕ) => s.set n 0)
    (s := ⟨N, saved0⟩) (fun m s => s.size = N ∧ ∀ n < m, s.val n = 0)
    ⟨rfl, fun i h => absurd h (Nat.not_lt_zero _)⟩
    (by
      rintro i s hi ⟨h1, h2⟩
      refine ⟨_, Arr.set_lt _ (by omega), h1, fun j hj => ?_⟩
      by_cases h : j = i
      · subst h; simp
      · simp only []; rw [store_ne _ _ h]; exact h2 j (by omega))
  obtain ⟨r, r1, r2, r3, r4, r5, r6, r7⟩ := loopM2_spec (n := C) (w := 8)
    (body := fun c l (s : (Arr ℕ × Arr ℕ) × (ℕ → ℕ → ℕ) × ℕ) => (do
      let i ← start.get (nodes c l)
      let k ← s.1.2.get (nodes c l)
      let saved ← s.1.2.set (nodes c l) (k + 1)
      let list ← s.1.1.set (i + k) s.2.2
      pure ((list, saved), store2 s.2.1 c l s.2.2, s.2.2 + 1)))
    (s := ((⟨8 * C, list0⟩, sv), inCell0, 0))
    (fun m s => s.1.1.size = 8 * C ∧ s.1.2.size = N ∧ s.2.2 = m ∧
      (∀ n < N, s.1.2.val n = cnt (flat 8 nodes) m n) ∧
      (∀ e < m, s.1.1.val (pos (flat 8 nodes) (8 * C) e) = e) ∧
      (∀ c l, s.2.1 c l = if l < 8 ∧ 8 * c + l < m then 8 * c + l else inCell0 c l))
    ⟨rfl, s2, rfl, fun n hn => by simp [s3 n hn], fun e h => absurd h (Nat.not_lt_zero _),
      fun c l => by rw [if_neg (by omega)]⟩
    (by
      rintro c l ⟨⟨⟨ls, lv⟩, ⟨ss, sv⟩⟩, ic, g⟩ hc hl' ⟨e1, e2, e3, e4, e5, e6⟩
      simp only [] at e1 e2 e3 e4 e5 e6
      have hlt := hv c hc l hl'
      have hm := flat_lt2 hc hl'
      have hp : start.val (nodes c l) + sv (nodes c l) = pos (flat 8 nodes) (8 * C) (8 * c + l) := by
        unfold pos; rw [flat_eq hl', hsv _ (by omega), e4 _ hlt]
      have hb := pos_lt (flat_valid hv) hm
      refine ⟨((⟨ls, store lv (pos (flat 8 nodes) (8 * C) (8 * c + l)) g⟩,
          ⟨ss, store sv (nodes c l) (sv (nodes c l) + 1)⟩), store2 ic c l g, g + 1), by
        rw [Arr.get_lt (by have := hst.1; omega), Arr.get_lt (by simp only []; omega)]
        simp only [Option.bind_eq_bind, Option.bind_some]
        rw [Arr.set_lt _ (by simp only []; omega)]
        simp only [Option.bind_some]
        rw [hp, Arr.set_lt _ (by simp only []; omega)]
        rfl, e1, e2, by simp only [e3], ?_, ?_, ?_⟩
      · intro n hn
        simp only []
        rw [cnt_succ, flat_eq hl']
        by_cases h : n = nodes c l
        · subst h; rw [store_same, e4 _ hn, if_pos rfl]
        · rw [store_ne _ _ h, if_neg (fun h' => h h'.symm), e4 _ hn, Nat.add_zero]
      · exact store_pos hm (val := id) e5 g e3
      · intro c' l'
        simp only []
        by_cases h : c' = c ∧ l' = l
        · obtain ⟨rfl, rfl⟩ := h
          rw [store2_eq, if_pos (by omega), e3]
        · rw [store2_ne _ _ h, e6]
          by_cases h2 : l' < 8 ∧ 8 * c' + l' < 8 * c + l
          · rw [if_pos h2, if_pos (by omega)]
          · rw [if_neg h2, if_neg (by omega)])
  obtain ⟨nm, n1, n2, n3⟩ := loopM_spec (n := N) (body := fun n (num : Arr ℕ) => (do
      let v ← r.1.2.get n
      num.set n v)) (s := num0)
    (fun m s => s.size = N ∧ ∀ n < m, s.val n = cnt (flat 8 nodes) (8 * C) n)
    ⟨hn, fun i h => absurd h (Nat.not_lt_zero _)⟩
    (by
      rintro i s hi ⟨h1, h2⟩
      refine ⟨⟨s.size, store s.val i (r.1.2.val i)⟩, by
        rw [Arr.get_lt (by omega)]
        simp only [Option.bind_eq_bind, Option.bind_some]
        rw [Arr.set_lt _ (by omega)], h1, fun j hj => ?_⟩
      by_cases h : j = i
      · subst h; simp only [store_same]; exact r5 _ hi
      · simp only []; rw [store_ne _ _ h]; exact h2 j (by omega))
  refine ⟨⟨8 * C, nm, r.1.1, r.2.1⟩, ?_, rfl, r2, n2, n3, r6, ?_⟩
  · unfold buildCorners
    simp only [Option.bind_eq_bind]
    rw [htot, s1, Option.bind_some]
    refine (congrArg (Option.bind · _) r1).trans ?_
    rw [Option.bind_some]
    refine (congrArg (Option.bind · _) n1).trans ?_
    rfl
  · intro c l
    show r.2.1 c l = _
    rw [r7]
    by_cases h : c < C ∧ l < 8
    · rw [if_pos h, if_pos ⟨h.2, flat_lt2 h.1 h.2⟩]
    · rw [if_neg h, if_neg]
      rintro ⟨h1, h2⟩
      apply h; refine ⟨?_, h1⟩
      by_contra hc
      have : 8 * C ≤ 8 * c := Nat.mul_le_mul_left _ (by omega)
      omega

/-- C36: after `build_corner_connectivity` (run after `build_node_cell_connectivity`, whose start table it
reuses) for every valid mesh: no access is out of bounds; there are `8*C` corners; corner `8*c+l` is
`corners_in_cell(c,l)`; and for every node `n`, `corners_in_node(n, ·)` lists exactly the corners
`8*c+l` with `nodes_in_cell(c,l) = n`, in increasing order. -/
theorem C36_corners (C N : ℕ) (nodes : ℕ → ℕ → ℕ) (hv : ∀ c < C, ∀ l < 8, nodes c l < N)
    (start num0 : Arr ℕ) (hst : StartOk C N nodes start) (hn : num0.size = N)
    (inCell0 : ℕ → ℕ → ℕ) (saved0 list0 : ℕ → ℕ) :
    ∃ r, buildCorners C N nodes start num0 inCell0 saved0 list0 = some r ∧ r.numCorners = 8 * C ∧
      (∀ c < C, ∀ l < 8, r.inCell c l = 8 * c + l) ∧
      ∀ n < N, r.num.get n = some (incidences C 8 nodes n).length ∧
        (List.range (incidences C 8 nodes n).length).map (fun l => r.cornersInNode start n l) =
          (incidences C 8 nodes n).map (fun p => some (8 * p.1 + p.2)) := by
  obtain ⟨r, h1, h2, h3, h4, h5, h6, h7⟩ :=
    buildCorners_spec C N nodes hv start num0 hst hn inCell0 saved0 list0
  have hsv : ∀ n ≤ N, start.val n = st (flat 8 nodes) (8 * C) n := fun n hn => by
    rw [hst.2 n hn]; exact sum_congr rfl fun i _ => incidences_length C 8 (by omega) nodes i
  refine ⟨r, h1, h2, fun c hc l hl => by rw [h7, if_pos ⟨hc, hl⟩], fun n hn' => ?_⟩
  rw [incidences_length C 8 (by omega)]
  refine ⟨by rw [Arr.get_lt (by omega), h5 n hn'], ?_⟩
  have key := list_eq (key := flat 8 nodes) (K := 8 * C) (fun p => some (r.list.val p))
    (fun e => some e) (fun e he => by rw [h6 e he]) n
  rw [incidences_flat C 8 (by omega), List.map_map] at key
  rw [show (fun p : ℕ × ℕ => some (8 * p.1 + p.2)) = some ∘ fun p => 8 * p.1 + p.2 from rfl, ← key]
  refine List.map_congr_left fun l hl => ?_
  have hl : l < cnt (flat 8 nodes) (8 * C) n := by simpa using hl
  unfold Corners.cornersInNode
  simp only [Option.bind_eq_bind]
  rw [Arr.get_lt (by have := hst.1; omega), Option.bind_some, hsv n (by omega)]
  have hlast : st (flat 8 nodes) (8 * C) n + cnt (flat 8 nodes) (8 * C) n ≤ 8 * C := by
    rw [← st_succ]
    calc st (flat 8 nodes) (8 * C) (n + 1) ≤ st (flat 8 nodes) (8 * C) N := st_mono (by omega)
      _ = 8 * C := st_total (flat_valid hv)
  rw [Arr.get_lt (by omega)]

/-- C36: every corner id occurs in exactly one node list, at exactly one position, namely in the list of
the node at its cell vertex. -/
theorem C36_unique (C N : ℕ) (nodes : ℕ → ℕ → ℕ) (hv : ∀ c < C, ∀ l < 8, nodes c l < N)
    (start num0 : Arr ℕ) (hst : StartOk C N nodes start) (hn : num0.size = N)
    (inCell0 : ℕ → ℕ → ℕ) (saved0 list0 : ℕ → ℕ) (r : Corners)
    (hr : buildCorners C N nodes start num0 inCell0 saved0 list0 = some r) (g : ℕ) (hg : g < 8 * C) :
    ∃ n < N, ∃ l, n = nodes (g / 8) (g % 8) ∧ (∃ k, r.num.get n = some k ∧ l < k) ∧
      r.cornersInNode start n l = some g ∧
      ∀ n' < N, ∀ l' k', r.num.get n' = some k' → l' < k' → r.cornersInNode start n' l' = some g →
        n' = n ∧ l' = l := by
  obtain ⟨r', h1, h2, h3, h4⟩ := C36_corners C N nodes hv start num0 hst hn inCell0 saved0 list0
  rw [hr] at h1; cases h1
  have hc : g / 8 < C := by omega
  have hl : g % 8 < 8 := by omega
  have hN := hv _ hc _ hl
  have entry : ∀ n < N, ∀ l (hl : l < (incidences C 8 nodes n).length), r.cornersInNode start n l =
      some (8 * ((incidences C 8 nodes n)[l]).1 + ((incidences C 8 nodes n)[l]).2) := by
    intro n hn l hl
    have := congrArg (fun L => L[l]?) (h4 n hn).2
    simpa [hl] using this
  have nodup : ∀ n, (incidences C 8 nodes n).Nodup := by
    intro n
    have h := incidences_flat C 8 (by omega) nodes n
    have : ((List.range (8 * C)).filter (fun e => flat 8 nodes e = n)).Nodup :=
      List.Nodup.filter _ List.nodup_range
    rw [h] at this
    exact List.Nodup.of_map _ this
  have hmem : (g / 8, g % 8) ∈ incidences C 8 nodes (nodes (g / 8) (g % 8)) :=
    mem_incidences.2 ⟨hc, hl, rfl⟩
  obtain ⟨l, hlt, hget⟩ := List.getElem_of_mem hmem
  refine ⟨_, hN, l, rfl, ⟨_, (h4 _ hN).1, hlt⟩, ?_, ?_⟩
  · rw [entry _ hN l hlt, hget]; congr 1; simp only []; omega
  · intro n' hn' l' k' hk' hl' hcr
    rw [(h4 n' hn').1] at hk'; cases hk'
    rw [entry n' hn' l' hl'] at hcr
    have hp := incidences_snd C 8 nodes n' _ (List.getElem_mem hl')
    have hcr : 8 * ((incidences C 8 nodes n')[l']).1 + ((incidences C 8 nodes n')[l']).2 = g := by
      simpa using hcr
    have e1 : ((incidences C 8 nodes n')[l']).1 = g / 8 := by omega
    have e2 : ((incidences C 8 nodes n')[l']).2 = g % 8 := by omega
    have hnn : n' = nodes (g / 8) (g % 8) := by rw [← e1, ← e2]; exact hp.2.2.symm
    subst hnn
    refine ⟨rfl, ?_⟩
    have hpair : (incidences C 8 nodes (nodes (g / 8) (g % 8)))[l'] =
        (incidences C 8 nodes (nodes (g / 8) (g % 8)))[l] := by
      rw [hget]; exact Prod.ext e1 e2
    exact (List.Nodup.getElem_inj_iff (nodup _)).1 hpair

/-- Non-vacuity: two cells sharing the four nodes 4..7 of a 12-node mesh; node 5 has the incidences
(0,5) and (1,1). -/
def twoCells : ℕ → ℕ → ℕ := fun c l => 4 * c + l
example : (∀ c < 2, ∀ l < 8, twoCells c l < 12) ∧ incidences 2 8 twoCells 5 = [(0, 5), (1, 1)] ∧
    ((buildNodeCell 2 12 twoCells ⟨⟨12, fun _ => 9⟩, ⟨13, fun _ => 9⟩, ⟨0, fun _ => 9⟩⟩ (fun _ => 9)
      (fun _ => 9)).bind fun r => r.cellsInNode 5 1) = some 1 := by
  refine ⟨by decide, by decide, by decide +kernel⟩

end Verif.Swage
