import Verif.Swage.Elem
import Verif.Swage.CellCellTheorems

/-!
# C39: element connectivity
-/

namespace Verif.Swage
open Finset

theorem incidences_congr {C w : ℕ} {a b : ℕ → ℕ → ℕ} (h : ∀ c < C, ∀ l < w, a c l = b c l) (n : ℕ) :
    incidences C w a n = incidences C w b n := by
  unfold incidences
  refine List.flatMap_congr fun c hc => ?_
  congr 1
  refine List.filter_congr fun l hl => ?_
  rw [h c (by simpa using hc) l (by simpa using hl)]

theorem elemCount_spec (E G N : ℕ) (nig num : Arr ℕ) (nie : ℕ → ℕ → ℕ)
    (hz : nig.size = E * G) (hv : ∀ x < E * G, nig.val x < N) (hs : num.size = N)
    (h0 : ∀ i < N, num.val i = 0) :
    ∃ r, elemCount E G nig num nie = some r ∧ r.1.size = N ∧
      (∀ n < N, r.1.val n = cnt (flat G fun e g => nig.val (e * G + g)) (G * E) n) ∧
      (∀ e < E, ∀ g < G, r.2 e g = nig.val (e * G + g)) := by
  obtain ⟨r, h1, h2, h3, h4⟩ := loopM2_spec (n := E) (w := G)
    (body := fun e g (s : Arr ℕ × (ℕ → ℕ → ℕ)) => (do
      let n ← nig.get (gaussInElem G e g)
      let v ← s.1.get n
      let num ← s.1.set n (v + 1)
      pure (num, store2 s.2 e g n))) (s := (num, nie))
    (fun m s => s.1.size = N ∧
      (∀ n < N, s.1.val n = cnt (flat G fun e g => nig.val (e * G + g)) m n) ∧
      (∀ e g, g < G → G * e + g < m → s.2 e g = nig.val (e * G + g)))
    ⟨hs, fun n hn => by simp [h0 n hn], fun e g _ h => absurd h (Nat.not_lt_zero _)⟩
    (by
      rintro e g ⟨⟨ss, sv⟩, ne⟩ he hg ⟨e1, e2, e3⟩
      simp only [] at e1 e2 e3
      have hlt : e * G + g < E * G := by
        have := flat_lt2 he hg; rw [Nat.mul_comm E, Nat.mul_comm e]; exact this
      have hN := hv _ hlt
      refine ⟨(⟨ss, store sv (nig.val (e * G + g)) (sv (nig.val (e * G + g)) + 1)⟩,
        store2 ne e g (nig.val (e * G + g))), by
          unfold gaussInElem
          rw [Arr.get_lt (by omega)]
          simp only [Option.bind_eq_bind, Option.bind_some]
          rw [Arr.get_lt (by simp only []; omega), Option.bind_some, Arr.set_lt _ (by simp only []; omega)]
          rfl, e1, ?_, ?_⟩
      · intro n hn
        simp only []
        rw [cnt_succ, flat_eq hg]
        by_cases h : n = nig.val (e * G + g)
        · subst h; rw [store_same, e2 _ hn, if_pos rfl]
        · rw [store_ne _ _ h, if_neg (fun h' => h h'.symm), e2 _ hn, Nat.add_zero]
      · intro e' g' hg' hlt'
        simp only []
        by_cases h : e' = e ∧ g' = g
        · obtain ⟨rfl, rfl⟩ := h; rw [store2_eq]
        · rw [store2_ne _ _ h]
          refine e3 e' g' hg' ?_
          have hne : G * e' + g' ≠ G * e + g := by
            intro heq
            apply h
            have h1 := congrArg (· / G) heq
            have h2 := congrArg (· % G) heq
            simp only [flat_div hg, flat_div hg', flat_mod hg, flat_mod hg'] at h1 h2
            exact ⟨h1, h2⟩
          omega)
  exact ⟨r, h1, h2, h3, fun e he g hg => h4 e g hg (flat_lt2 he hg)⟩

theorem elemSize_spec (N : ℕ) (num : Arr ℕ) (h : num.size = N) :
    elemSize N num = some (∑ n ∈ range N, num.val n) := by
  unfold elemSize
  obtain ⟨r, h1, h2⟩ := loopM_spec (n := N) (body := fun n (t : ℕ) => (do
      let v ← num.get n; pure (t + v) : Option ℕ)) (s := 0)
    (fun m t => t = ∑ n ∈ range m, num.val n) rfl
    (fun i s hi hI => ⟨s + num.val i, by rw [Arr.get_lt (by omega)]; rfl, by rw [hI, sum_range_succ]⟩)
  rw [h1, h2]

theorem elemPlace_eq (E G : ℕ) (nig start list hit : Arr ℕ) (hz : nig.size = E * G) :
    elemPlace E G nig start list hit =
      placeLoop E G (fun e g => nig.val (e * G + g)) start list hit := by
  unfold elemPlace placeLoop
  refine loopM_congr fun e s he => loopM_congr fun g s hg => ?_
  have hlt : e * G + g < E * G := by
    have := flat_lt2 he hg; rw [Nat.mul_comm E, Nat.mul_comm e]; exact this
  unfold gaussInElem
  rw [Arr.get_lt (by omega)]
  rfl

theorem strides_spec (E : ℕ) (start : Arr ℕ) (e0 : ℕ → ℕ) (h : start.size = E + 1) :
    ∃ r, strides E start ⟨E + 1, e0⟩ = some r ∧ r.size = E + 1 ∧
      ∀ e < E, r.val e = start.val (e + 1) - start.val e := by
  obtain ⟨a, a1, a2, a3⟩ := loopM_spec (n := E + 1) (body := fun i (a : Arr ℕ) => (do
      let v ← start.get i; a.set i v)) (s := ⟨E + 1, e0⟩)
    (fun m a => a.size = E + 1 ∧ ∀ i < m, a.val i = start.val i)
    ⟨rfl, fun i h => absurd h (Nat.not_lt_zero _)⟩
    (by
      rintro i s hi ⟨h1, h2⟩
      refine ⟨⟨s.size, store s.val i (start.val i)⟩, by
        rw [Arr.get_lt (by omega)]
        simp only [Option.bind_eq_bind, Option.bind_some]
        rw [Arr.set_lt _ (by omega)], h1, fun j hj => ?_⟩
      by_cases h : j = i
      · subst h; simp
      · simp only []; rw [store_ne _ _ h]; exact h2 j (by omega))
  obtain ⟨r, r1, r2, r3, r4⟩ := loopM_spec (n := E) (body := fun i (a : Arr ℕ) => (do
      let x ← a.get (i + 1)
      let y ← a.get i
      a.set i (x - y))) (s := a)
    (fun m b => b.size = E + 1 ∧ (∀ i < m, b.val i = start.val (i + 1) - start.val i) ∧
      ∀ i, m ≤ i → i ≤ E → b.val i = start.val i)
    ⟨a2, fun i h => absurd h (Nat.not_lt_zero _), fun i _ h => a3 i (by omega)⟩
    (by
      rintro i s hi ⟨h1, h2, h3⟩
      refine ⟨⟨s.size, store s.val i (s.val (i + 1) - s.val i)⟩, by
        rw [Arr.get_lt (by omega), Arr.get_lt (by omega)]
        simp only [Option.bind_eq_bind, Option.bind_some]
        rw [Arr.set_lt _ (by omega)], h1, fun j hj => ?_, fun j hj hj2 => ?_⟩
      · by_cases h : j = i
        · subst h; simp only [store_same]; rw [h3 _ (by omega) (by omega), h3 _ le_rfl (by omega)]
        · simp only []; rw [store_ne _ _ h]; exact h2 j (by omega)
      · simp only []; rw [store_ne _ _ (by omega)]; exact h3 j (by omega) hj2)
  refine ⟨r, ?_, r2, r3⟩
  unfold strides
  simp only [Option.bind_eq_bind] at a1 r1 ⊢
  rw [a1, Option.bind_some, r1]

theorem elemCopy_spec (E : ℕ) (R : ℕ → List ℕ) (S : ℕ → ℕ) (start temp saved stride num : Arr ℕ)
    (rag : ℕ → ℕ → ℕ) (hst : E ≤ start.size) (hS : ∀ e < E, start.val e = S e)
    (hsz : E ≤ saved.size) (hsv : ∀ e < E, saved.val e = (R e).length)
    (htz : ∀ e < E, S e + (R e).length ≤ temp.size)
    (htv : ∀ e < E, ∀ j < (R e).length, temp.val (S e + j) = (R e).getD j 0)
    (hr : E ≤ stride.size) (hrv : ∀ e < E, (R e).length ≤ stride.val e) (hn : num.size = E) :
    ∃ r, elemCopy E start temp saved stride (num, rag) = some r ∧ r.1.size = E ∧
      ∀ e < E, r.1.val e = (R e).length ∧ ∀ j < (R e).length, r.2 e j = (R e).getD j 0 := by
  unfold elemCopy
  obtain ⟨r, h1, h2, h3⟩ := loopM_spec (n := E) (body := fun e (s : Arr ℕ × (ℕ → ℕ → ℕ)) => (do
    let k ← saved.get e
    let num ← s.1.set e k
    let st ← start.get e
    let list ← loopM k (fun i list => do
      let v ← temp.get (st + i)
      let w ← stride.get e
      if i < w then pure (store2 list e i v) else none) s.2
    pure (num, list) : Option (Arr ℕ × (ℕ → ℕ → ℕ)))) (s := (num, rag))
    (fun m s => s.1.size = E ∧ ∀ e < m, s.1.val e = (R e).length ∧
      ∀ j < (R e).length, s.2 e j = (R e).getD j 0)
    ⟨hn, fun e h => absurd h (Nat.not_lt_zero _)⟩
    (by
      rintro e ⟨nm, rg⟩ he ⟨e1, e2⟩
      simp only [] at e1 e2
      obtain ⟨t, t1, t2, t3⟩ := loopM_spec (n := saved.val e) (body := fun i (list : ℕ → ℕ → ℕ) => (do
          let v ← temp.get (start.val e + i)
          let w ← stride.get e
          if i < w then pure (store2 list e i v) else none : Option (ℕ → ℕ → ℕ))) (s := rg)
        (fun m t => (∀ e' ≠ e, ∀ j, t e' j = rg e' j) ∧ ∀ j < m, t e j = (R e).getD j 0)
        ⟨fun _ _ _ => rfl, fun j h => absurd h (Nat.not_lt_zero _)⟩
        (by
          rintro j t hj ⟨g1, g2⟩
          rw [hsv e he] at hj
          have h1 := htz e he
          have h2 := hrv e he
          refine ⟨store2 t e j (temp.val (start.val e + j)), by
            rw [hS e he, Arr.get_lt (by omega), Arr.get_lt (by omega)]
            simp only [Option.bind_eq_bind, Option.bind_some]
            rw [if_pos (by omega)]; rfl, ?_, ?_⟩
          · intro e' he' j'; rw [store2_ne _ _ (by tauto)]; exact g1 e' he' j'
          · intro j' hj'
            by_cases h : j' = j
            · subst h; rw [store2_eq, hS e he, htv e he _ hj]
            · rw [store2_ne _ _ (by tauto)]; exact g2 j' (by omega))
      refine ⟨(⟨nm.size, store nm.val e (saved.val e)⟩, t), ?_, e1, ?_⟩
      · rw [Arr.get_lt (by omega)]
        simp only [Option.bind_eq_bind, Option.bind_some]
        rw [Arr.set_lt _ (by omega), Option.bind_some, Arr.get_lt (by omega), Option.bind_some]
        refine (congrArg (Option.bind · _) t1).trans ?_
        rfl
      · intro e' he'
        by_cases h : e' = e
        · subst h
          refine ⟨by simp only [store_same]; exact hsv _ he, fun j hj => t3 j (by rw [hsv _ he]; exact hj)⟩
        · refine ⟨by simp only []; rw [store_ne _ _ h]; exact (e2 e' (by omega)).1, fun j hj => ?_⟩
          simp only []; rw [t2 e' h]; exact (e2 e' (by omega)).2 j hj)
  exact ⟨r, h1, h2, h3⟩

/-- C39: for every number of elements, Gauss points per element and nodes, and every valid
`node_in_gauss` table, `build_element_connectivity` performs no out-of-bounds access (given at least as
many cells as elements, the length of a local array), and afterwards
* `nodes_in_elem(e,g)` is the node at the `g`-th Gauss point of `e`,
* `elems_in_node(n, ·)` lists the elements of the (element, Gauss point) incidences of `n` in order,
* `elems_in_elem(e, ·)` lists exactly the other elements sharing a node with `e`, each once. -/
theorem C39_elements (E G N C : ℕ) (hG : 0 < G) (hC : E ≤ C) (nig : Arr ℕ) (hz : nig.size = E * G)
    (hv : ∀ x < E * G, nig.val x < N) (k : ElemConn) (k1 : k.node.num.size = N)
    (k2 : k.node.start.size = N + 1) (k3 : k.num.size = E) (k4 : k.start.size = E + 1)
    (hit0 list0 saved0 temp0 eiels0 : ℕ → ℕ) (rag0 : ℕ → ℕ → ℕ) :
    ∃ r, buildElem E G N C nig k hit0 list0 saved0 temp0 eiels0 rag0 = some r ∧
      (∀ e < E, ∀ g < G, r.nodesInElem e g = nig.val (e * G + g)) ∧
      (∀ n < N, r.node.num.get n = some (incidences E G (fun e g => nig.val (e * G + g)) n).length ∧
        (List.range (incidences E G (fun e g => nig.val (e * G + g)) n).length).map
          (fun l => r.elemsInNode n l) =
          (incidences E G (fun e g => nig.val (e * G + g)) n).map (fun p => some p.1)) ∧
      ∀ e < E, ∃ D : List ℕ, r.num.get e = some D.length ∧
        (List.range D.length).map (fun l => r.elemsInElem e l) = D.map some ∧ D.Nodup ∧
        ∀ e', e' ∈ D ↔ e' < E ∧ e' ≠ e ∧ Share G (fun e g => nig.val (e * G + g)) e e' := by
  obtain ⟨key, hkey⟩ : ∃ key : ℕ → ℕ → ℕ, key = fun e g => nig.val (e * G + g) := ⟨_, rfl⟩
  have hvk : ∀ e < E, ∀ g < G, key e g < N := by
    intro e he g hg; rw [hkey]; refine hv _ ?_
    have := flat_lt2 he hg; rw [Nat.mul_comm E, Nat.mul_comm e]; exact this
  obtain ⟨s, a1, a2, a3, a4, a5⟩ := clear2_spec N k.node.num ⟨N, hit0⟩ (by omega) (le_refl N)
  obtain ⟨c, b1, b2, b3, b4⟩ := elemCount_spec E G N nig s.1 k.nodesInElem hz hv (by omega) a4
  rw [← hkey] at b3
  have hsum : ∑ n ∈ range N, c.1.val n = G * E := by
    rw [← st_total (flat_valid hvk)]
    exact sum_congr rfl fun i hi => b3 i (mem_range.1 hi)
  obtain ⟨t, t1, t2, t3⟩ := startLoop_spec N c.1 k.node.start k2 b2
  have t4 : ∀ n ≤ N, t.val n = st (flat G key) (G * E) n := fun n hn => by
    rw [t3 n hn]
    exact sum_congr rfl fun i hi => b3 i (by have := mem_range.1 hi; omega)
  obtain ⟨p, p1, p2, p3, -⟩ := placeLoop_spec E G N key t ⟨G * E, list0⟩ s.2 hvk (by omega)
    (fun n hn => t4 n (by omega)) le_rfl (by rw [a3]) a5
  rw [hkey, ← elemPlace_eq E G nig t _ _ hz] at p1
  rw [← hkey]
  have hnodes : ∀ n < N, c.1.get n = some (incidences E G key n).length ∧
      (List.range (incidences E G key n).length).map
        (fun l => (⟨c.1, t, p.1⟩ : NodeCell).cellsInNode n l) =
        (incidences E G key n).map (fun p => some p.1) := by
    intro n hn'
    rw [incidences_length E G hG]
    refine ⟨by rw [Arr.get_lt (by omega), b3 n hn'], ?_⟩
    have hl := list_eq (key := flat G key) (K := G * E) (fun q => some (p.1.val q))
      (fun e => some (e / G)) (fun e he => by rw [p3 e he]) n
    rw [incidences_flat E G hG, List.map_map] at hl
    have e2 : (incidences E G key n).map ((fun e => some (e / G)) ∘ fun p => G * p.1 + p.2) =
        (incidences E G key n).map (fun p => some p.1) := by
      refine List.map_congr_left fun q hq => ?_
      have := (incidences_snd _ _ _ _ q hq).2.1
      simp only [Function.comp_apply]
      rw [flat_div this]
    rw [← e2, ← hl]
    refine List.map_congr_left fun l hl => ?_
    have hl : l < cnt (flat G key) (G * E) n := by simpa using hl
    unfold NodeCell.cellsInNode
    simp only [Option.bind_eq_bind]
    rw [Arr.get_lt (by omega), Option.bind_some, t4 n (by omega)]
    have hlast : st (flat G key) (G * E) n + cnt (flat G key) (G * E) n ≤ G * E := by
      rw [← st_succ]
      calc st (flat G key) (G * E) (n + 1) ≤ st (flat G key) (G * E) N := st_mono (by omega)
        _ = G * E := st_total (flat_valid hvk)
    rw [Arr.get_lt (by rw [p2]; simp only []; omega)]
  have hlists : NodeListsOk N ⟨c.1, t, p.1⟩ (fun n => (incidences E G key n).map Prod.fst) := by
    intro n hn'
    obtain ⟨e1, e2⟩ := hnodes n hn'
    refine ⟨by rw [List.length_map]; exact e1, fun i hi => ?_⟩
    rw [List.length_map] at hi
    have := congrArg (fun L => L[i]?) e2
    simpa [hi] using this
  have hcv : Valid E G N c.2 := fun e he g hg => by rw [b4 e he g hg]; rw [hkey] at hvk; exact hvk e he g hg
  have hck : ∀ e < E, ∀ g < G, c.2 e g = key e g := fun e he g hg => by rw [hkey]; exact b4 e he g hg
  obtain ⟨s2, q, est, r, q1, q2, q3, q4, q5, q6, q7, q8, q9, q10, -, q12⟩ :=
    cellCell_prefix E G N c.2 ⟨c.1, t, p.1⟩ _ hlists hcv k.num k.start k3 k4 C hC saved0 temp0
  obtain ⟨nb, hnb⟩ : ∃ nb : ℕ → List ℕ, nb = fun n => (incidences E G key n).map Prod.fst := ⟨_, rfl⟩
  rw [← hnb] at q7 q8 q10 q12
  obtain ⟨sd, d1, d2, d3⟩ := strides_spec E est eiels0 q6
  have smono : ∀ a b, a ≤ b → ∑ i ∈ range a, others i (visits G c.2 nb i) ≤
      ∑ i ∈ range b, others i (visits G c.2 nb i) := fun a b h =>
    Finset.sum_le_sum_of_subset (range_mono h)
  have hstride : ∀ e < E, (record e (visits G c.2 nb e)).length ≤ sd.val e := by
    intro e he
    rw [d3 e he, q7 (e + 1) (by omega), q7 e (by omega), sum_range_succ, Nat.add_sub_cancel_left]
    exact record_le _ _
  obtain ⟨f, f1, f2, f3⟩ := elemCopy_spec E (fun e => record e (visits G c.2 nb e))
    (fun e => ∑ i ∈ range e, others i (visits G c.2 nb i)) est r.temp r.saved sd q.2 rag0 (by omega)
    (fun e he => q7 e (by omega)) (by omega) (fun e he => (q10 e he).1)
    (fun e he => by
      have := record_le e (visits G c.2 nb e)
      have h2 := smono (e + 1) E (by omega)
      rw [sum_range_succ] at h2; omega)
    (fun e he => (q10 e he).2) (by omega) hstride q5
  refine ⟨⟨⟨c.1, t, p.1⟩, c.2, f.1, est, sd, f.2⟩, ?_, b4, hnodes, fun e he => ?_⟩
  · unfold buildElem
    simp only [Option.bind_eq_bind]
    rw [a1, Option.bind_some, b1, Option.bind_some, elemSize_spec N c.1 b2, Option.bind_some, t1,
      Option.bind_some, hsum, p1, Option.bind_some, q1, Option.bind_some, q2, Option.bind_some, q3,
      Option.bind_some, q4, Option.bind_some, d1, Option.bind_some, f1, Option.bind_some]
    rfl
  · refine ⟨record e (visits G c.2 nb e), by rw [Arr.get_lt (by simp only [f2]; exact he)]; rw [(f3 e he).1],
      ?_, record_nodup _ _, fun e' => ?_⟩
    · refine List.ext_getElem (by simp) fun j h1 h2 => ?_
      have hj : j < (record e (visits G c.2 nb e)).length := by simpa using h2
      simp only [List.getElem_map, List.getElem_range]
      unfold ElemConn.elemsInElem
      simp only [Option.bind_eq_bind]
      have := hstride e he
      rw [Arr.get_lt (by simp only [d2]; omega), Option.bind_some, if_pos (by omega),
        (f3 e he).2 j hj, getD_lt hj]
      rfl
    · have hinc : nb = fun n => (incidences E G c.2 n).map Prod.fst := by
        rw [hnb]; funext n
        rw [incidences_congr (fun e he g hg => (hck e he g hg).symm)]
      rw [mem_record, hinc, mem_visits]
      have hsh : e' < E → (Share G c.2 e e' ↔ Share G key e e') := by
        intro he'
        unfold Share
        constructor
        · rintro ⟨l, hl, l', hl', h⟩
          exact ⟨l, hl, l', hl', by rw [← hck e he l hl, ← hck e' he' l' hl']; exact h⟩
        · rintro ⟨l, hl, l', hl', h⟩
          exact ⟨l, hl, l', hl', by rw [hck e he l hl, hck e' he' l' hl']; exact h⟩
      constructor
      · rintro ⟨⟨h1, h2⟩, h3⟩; exact ⟨h1, h3, (hsh h1).1 h2⟩
      · rintro ⟨h1, h2, h3⟩; exact ⟨⟨h1, (hsh h1).2 h3⟩, h2⟩

/-- Non-vacuity: two elements of 8 points sharing four nodes. -/
example : (∀ x < 2 * 8, (fun x => if x < 8 then x else x - 4) x < 12) ∧
    Share 8 (fun e g => (fun x => if x < 8 then x else x - 4) (e * 8 + g)) 0 1 :=
  ⟨by decide, 4, by omega, 0, by omega, by decide⟩

end Verif.Swage
