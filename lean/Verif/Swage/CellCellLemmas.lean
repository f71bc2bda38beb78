import Verif.Swage.CellCell
import Verif.Swage.NodeCellTheorems

/-! Lemmas on the neighbour loops. -/

namespace Verif.Swage
open Finset

/-- What the node lists must satisfy: list of node `n` is `nb n`. -/
def NodeListsOk (N : ℕ) (m : NodeCell) (nb : ℕ → List ℕ) : Prop :=
  ∀ n < N, m.numCellsInNode n = some (nb n).length ∧
    ∀ i (h : i < (nb n).length), m.cellsInNode n i = some (nb n)[i]

/-- Sequence of neighbours visited for cell `c`. -/
def visits (w : ℕ) (nodes : ℕ → ℕ → ℕ) (nb : ℕ → List ℕ) (c : ℕ) : List ℕ :=
  (List.range w).flatMap fun l => nb (nodes c l)

theorem loopM_list {σ α : Type} (L : List α) (body : ℕ → σ → Option σ) (s : σ) (I : List α → σ → Prop)
    (pre0 : List α) (h0 : I pre0 s)
    (hs : ∀ i s (h : i < L.length), I (pre0 ++ L.take i) s →
      ∃ s', body i s = some s' ∧ I (pre0 ++ L.take i ++ [L[i]]) s') :
    ∃ s', loopM L.length body s = some s' ∧ I (pre0 ++ L) s' := by
  obtain ⟨s', h1, h2⟩ := loopM_spec (n := L.length) (body := body) (s := s)
    (fun i s => I (pre0 ++ L.take i) s) (by simpa using h0)
    (fun i s hi hI => by
      obtain ⟨s', h1, h2⟩ := hs i s hi hI
      refine ⟨s', h1, ?_⟩
      rw [List.take_succ_eq_append_getElem hi, ← List.append_assoc]; exact h2)
  exact ⟨s', h1, by simpa using h2⟩

theorem visitLoop_spec {σ : Type} (w N : ℕ) (nodes : ℕ → ℕ → ℕ) (m : NodeCell) (nb : ℕ → List ℕ)
    (hm : NodeListsOk N m nb) (c : ℕ) (hv : ∀ l < w, nodes c l < N) (body : ℕ → σ → Option σ) (s : σ)
    (I : List ℕ → σ → Prop) (h0 : I [] s)
    (hs : ∀ pre x post s, visits w nodes nb c = pre ++ x :: post → I pre s →
      ∃ s', body x s = some s' ∧ I (pre ++ [x]) s') :
    ∃ s', visitLoop w nodes m c body s = some s' ∧ I (visits w nodes nb c) s' := by
  unfold visitLoop
  obtain ⟨s', h1, h2⟩ := loopM_spec (n := w) (body := fun l s => (do
    let k ← m.numCellsInNode (nodes c l)
    loopM k (fun i s => do
      let nb ← m.cellsInNode (nodes c l) i
      body nb s) s)) (s := s)
    (fun l s => I ((List.range l).flatMap fun l => nb (nodes c l)) s) (by simpa using h0)
    (by
      intro l s hl hI
      obtain ⟨m1, m2⟩ := hm (nodes c l) (hv l hl)
      simp only [Option.bind_eq_bind, m1, Option.bind_some]
      have hsplit : visits w nodes nb c = ((List.range l).flatMap fun l => nb (nodes c l)) ++
          nb (nodes c l) ++ ((List.range' (l + 1) (w - (l + 1))).flatMap fun l => nb (nodes c l)) := by
        unfold visits
        have : List.range w = List.range l ++ [l] ++ List.range' (l + 1) (w - (l + 1)) := by
          rw [← List.range_succ, List.range_eq_range', List.range_eq_range',
            show List.range' (l + 1) (w - (l + 1)) = List.range' (0 + 1 * (l + 1)) (w - (l + 1)) by simp,
            List.range'_append]
          congr 1; omega
        rw [this]; simp
      obtain ⟨s', h1, h2⟩ := loopM_list (nb (nodes c l)) (fun i s =>
        (m.cellsInNode (nodes c l) i).bind fun x => body x s) s I _ hI
        (by
          intro i s hi hI
          rw [m2 i hi, Option.bind_some]
          refine hs _ _ ((nb (nodes c l)).drop (i + 1) ++
            ((List.range' (l + 1) (w - (l + 1))).flatMap fun l => nb (nodes c l))) s ?_ hI
          rw [hsplit]
          have : nb (nodes c l) = (nb (nodes c l)).take i ++ (nb (nodes c l))[i] ::
              (nb (nodes c l)).drop (i + 1) := by
            rw [← List.drop_eq_getElem_cons hi, List.take_append_drop]
          have h3 : nb (nodes c l) ++ ((List.range' (l + 1) (w - (l + 1))).flatMap fun l =>
              nb (nodes c l)) = (nb (nodes c l)).take i ++ ((nb (nodes c l))[i] ::
              ((nb (nodes c l)).drop (i + 1) ++ ((List.range' (l + 1) (w - (l + 1))).flatMap fun l =>
              nb (nodes c l)))) := by
            rw [← List.cons_append, ← List.append_assoc, ← this]
          rw [List.append_assoc, h3, ← List.append_assoc])
      refine ⟨s', h1, ?_⟩
      rw [List.range_succ, List.flatMap_append]
      simpa using h2)
  exact ⟨s', h1, h2⟩

/-- Neighbours recorded for cell `c` after visiting the list. -/
def record (c : ℕ) (L : List ℕ) : List ℕ :=
  L.foldl (fun D x => if x = c ∨ x ∈ D then D else D ++ [x]) []

theorem record_snoc (c : ℕ) (L : List ℕ) (x : ℕ) :
    record c (L ++ [x]) = if x = c ∨ x ∈ record c L then record c L else record c L ++ [x] := by
  unfold record; rw [List.foldl_append]; rfl

theorem mem_record (c : ℕ) (L : List ℕ) : ∀ y, y ∈ record c L ↔ y ∈ L ∧ y ≠ c := by
  induction L using List.reverseRecOn with
  | nil => simp [record]
  | append_singleton L x ih =>
    intro y
    rw [record_snoc]
    split
    · rename_i h
      rw [ih, List.mem_append, List.mem_singleton]
      constructor
      · rintro ⟨h1, h2⟩; exact ⟨Or.inl h1, h2⟩
      · rintro ⟨h1 | rfl, h2⟩
        · exact ⟨h1, h2⟩
        · rcases h with h | h
          · exact absurd h h2
          · exact (ih _).1 h
    · rename_i h
      rw [List.mem_append, List.mem_append, ih, List.mem_singleton]
      constructor
      · rintro (⟨h1, h2⟩ | rfl)
        · exact ⟨Or.inl h1, h2⟩
        · exact ⟨Or.inr rfl, fun hc => h (Or.inl hc)⟩
      · rintro ⟨h1 | rfl, h2⟩
        · exact Or.inl ⟨h1, h2⟩
        · exact Or.inr rfl

theorem record_nodup (c : ℕ) (L : List ℕ) : (record c L).Nodup := by
  induction L using List.reverseRecOn with
  | nil => simp [record]
  | append_singleton L x ih =>
    rw [record_snoc]
    split
    · exact ih
    · rename_i h
      refine List.Nodup.append ih (by simp) ?_
      intro y hy hy2
      rw [List.mem_singleton] at hy2
      subst hy2; exact h (Or.inr hy)

/-- Number of visits of other cells. -/
def others (c : ℕ) (L : List ℕ) : ℕ := (L.filter (fun x => x ≠ c)).length

theorem others_append (c : ℕ) (A B : List ℕ) : others c (A ++ B) = others c A + others c B := by
  simp [others]

theorem record_le (c : ℕ) (L : List ℕ) : (record c L).length ≤ others c L := by
  induction L using List.reverseRecOn with
  | nil => simp [record]
  | append_singleton L x ih =>
    rw [record_snoc, others_append]
    split
    · omega
    · rename_i h
      have : x ≠ c := fun hc => h (Or.inl hc)
      rw [List.length_append]
      simp [others, this] at ih ⊢
      exact ih

theorem pairLoop_spec (C w N : ℕ) (nodes : ℕ → ℕ → ℕ) (m : NodeCell) (nb : ℕ → List ℕ)
    (hm : NodeListsOk N m nb) (hv : Valid C w N nodes) (num : Arr ℕ) (hs : num.size = C)
    (h0 : ∀ c < C, num.val c = 0) :
    ∃ r, pairLoop C w nodes m num = some r ∧ r.2.size = C ∧
      (∀ c < C, r.2.val c = others c (visits w nodes nb c)) ∧
      r.1 = ∑ c ∈ range C, others c (visits w nodes nb c) := by
  unfold pairLoop
  obtain ⟨r, h1, h2, h3, h4, h5⟩ := loopM_spec (n := C)
    (body := fun c s => visitLoop w nodes m c (pairBody c) s) (s := (0, num))
    (fun m' s => s.2.size = C ∧ (∀ c < m', s.2.val c = others c (visits w nodes nb c)) ∧
      (∀ c, m' ≤ c → c < C → s.2.val c = 0) ∧
      s.1 = ∑ c ∈ range m', others c (visits w nodes nb c))
    ⟨hs, fun c h => absurd h (Nat.not_lt_zero _), fun c _ h => h0 c h, rfl⟩
    (by
      rintro c s hc ⟨e1, e2, e3, e4⟩
      obtain ⟨s', k1, k2, k3, k4, k5⟩ := visitLoop_spec w N nodes m nb hm c (hv c hc) (pairBody c) s
        (fun pre t => t.2.size = C ∧ t.2.val c = others c pre ∧
          (∀ c' ≠ c, t.2.val c' = s.2.val c') ∧ t.1 = s.1 + others c pre)
        ⟨e1, by rw [e3 c le_rfl hc]; rfl, fun _ _ => rfl, rfl⟩
        (by
          rintro pre x post t - ⟨f1, f2, f3, f4⟩
          unfold pairBody
          by_cases hx : x ≠ c
          · rw [if_pos hx, Arr.get_lt (by omega)]
            simp only [Option.bind_eq_bind, Option.bind_some]
            rw [Arr.set_lt _ (by omega)]
            refine ⟨_, rfl, f1, ?_, ?_, ?_⟩
            · simp only [store_same]; rw [f2, others_append]; simp [others, hx]
            · intro c' hc'; simp only []; rw [store_ne _ _ hc']; exact f3 c' hc'
            · simp only []; rw [f4, others_append]; simp [others, hx, Nat.add_assoc]
          · rw [if_neg hx]
            have : x = c := by omega
            refine ⟨t, rfl, f1, ?_, f3, ?_⟩
            · rw [f2, others_append]; simp [others, this]
            · rw [f4, others_append]; simp [others, this])
      refine ⟨s', k1, k2, ?_, ?_, ?_⟩
      · intro c' hc'
        by_cases h : c' = c
        · subst h; exact k3
        · rw [k4 c' h]; exact e2 c' (by omega)
      · intro c' h1 h2; rw [k4 c' (by omega)]; exact e3 c' (by omega) h2
      · rw [k5, e4, sum_range_succ])
  exact ⟨r, h1, h2, h3, h5⟩

/-- The scan for duplicates. -/
theorem scan_spec (temp : Arr ℕ) (st k nb : ℕ) (b : Bool) (h : st + k ≤ temp.size) :
    loopM k (fun j save => (do
      let v ← temp.get (st + j)
      pure (if nb = v then false else save) : Option Bool)) b =
    some (b && decide (∀ j < k, temp.val (st + j) ≠ nb)) := by
  induction k with
  | zero => simp
  | succ k ih =>
    rw [loopM_succ, ih (by omega), Option.bind_some, Arr.get_lt (by omega)]
    simp only [Option.bind_eq_bind, Option.bind_some]
    show some _ = some _
    congr 1
    by_cases hk : nb = temp.val (st + k)
    · rw [if_pos hk]
      have : ¬ ∀ j < k + 1, temp.val (st + j) ≠ nb := fun h' => h' k (by omega) hk.symm
      rw [decide_eq_false this, Bool.and_false]
    · rw [if_neg hk]
      congr 1
      rw [decide_eq_decide]
      constructor
      · intro h' j hj
        by_cases hjk : j = k
        · subst hjk; exact fun h'' => hk h''.symm
        · exact h' j (by omega)
      · intro h' j hj; exact h' j (by omega)

theorem getD_lt {D : List ℕ} {j : ℕ} (h : j < D.length) : D.getD j 0 = D[j] := by simp [List.getD, h]
theorem getD_snoc_lt {D : List ℕ} {x j : ℕ} (h : j < D.length) : (D ++ [x]).getD j 0 = D.getD j 0 := by
  simp [List.getD, List.getElem?_append_left h]
theorem getD_snoc_eq {D : List ℕ} {x : ℕ} : (D ++ [x]).getD D.length 0 = x := by simp [List.getD]

theorem saveLoop_spec (C w N : ℕ) (nodes : ℕ → ℕ → ℕ) (m : NodeCell) (nb : ℕ → List ℕ)
    (hm : NodeListsOk N m nb) (hv : Valid C w N nodes) (start : Arr ℕ) (hst : C ≤ start.size)
    (hsv : ∀ c ≤ C, start.val c = ∑ i ∈ range c, others i (visits w nodes nb i))
    (s0 : SaveState) (ht : s0.temp.size = ∑ i ∈ range C, others i (visits w nodes nb i))
    (hss : C ≤ s0.saved.size) (hs0 : ∀ c < C, s0.saved.val c = 0) (ha : s0.actual = 0) :
    ∃ r, saveLoop C w nodes m start s0 = some r ∧ r.temp.size = s0.temp.size ∧
      r.saved.size = s0.saved.size ∧
      (∀ c < C, r.saved.val c = (record c (visits w nodes nb c)).length ∧
        ∀ j < (record c (visits w nodes nb c)).length,
          r.temp.val ((∑ i ∈ range c, others i (visits w nodes nb i)) + j) =
            (record c (visits w nodes nb c)).getD j 0) ∧
      r.actual = ∑ c ∈ range C, (record c (visits w nodes nb c)).length := by
  have smono : ∀ a b, a ≤ b → ∑ i ∈ range a, others i (visits w nodes nb i) ≤
      ∑ i ∈ range b, others i (visits w nodes nb i) := fun a b h =>
    Finset.sum_le_sum_of_subset (range_mono h)
  unfold saveLoop
  obtain ⟨r, h1, h2, h3, h4, h5, h6⟩ := loopM_spec (n := C)
    (body := fun c s => visitLoop w nodes m c (saveBody start c) s) (s := s0)
    (fun m' s => s.temp.size = s0.temp.size ∧ s.saved.size = s0.saved.size ∧
      (∀ c < m', s.saved.val c = (record c (visits w nodes nb c)).length ∧
        ∀ j < (record c (visits w nodes nb c)).length,
          s.temp.val ((∑ i ∈ range c, others i (visits w nodes nb i)) + j) =
            (record c (visits w nodes nb c)).getD j 0) ∧
      (∀ c, m' ≤ c → c < C → s.saved.val c = 0) ∧
      s.actual = ∑ c ∈ range m', (record c (visits w nodes nb c)).length)
    ⟨rfl, rfl, fun c h => absurd h (Nat.not_lt_zero _), fun c _ h => hs0 c h, by simpa using ha⟩
    (by
      rintro c s hc ⟨e1, e2, e3, e4, e5⟩
      obtain ⟨s', k1, k2, k3, k4, k5, k6, k7, k8⟩ := visitLoop_spec w N nodes m nb hm c (hv c hc)
        (saveBody start c) s
        (fun pre t => t.temp.size = s0.temp.size ∧ t.saved.size = s0.saved.size ∧
          t.saved.val c = (record c pre).length ∧
          (∀ j < (record c pre).length,
            t.temp.val ((∑ i ∈ range c, others i (visits w nodes nb i)) + j) = (record c pre).getD j 0) ∧
          (∀ c' ≠ c, t.saved.val c' = s.saved.val c') ∧
          (∀ p < ∑ i ∈ range c, others i (visits w nodes nb i), t.temp.val p = s.temp.val p) ∧
          t.actual = s.actual + (record c pre).length)
        ⟨e1, e2, by rw [e4 c le_rfl hc]; rfl, fun j h => absurd h (Nat.not_lt_zero _), fun _ _ => rfl,
          fun _ _ => rfl, rfl⟩
        (by
          rintro pre x post t hvis ⟨f1, f2, f3, f4, f5, f6, f7⟩
          have hle := record_le c pre
          have hS : start.val c = ∑ i ∈ range c, others i (visits w nodes nb i) := hsv c (by omega)
          have hnext : (∑ i ∈ range c, others i (visits w nodes nb i)) + others c (visits w nodes nb c) ≤
              t.temp.size := by
            rw [f1, ht, ← sum_range_succ]; exact smono _ _ (by omega)
          have hoth : others c (visits w nodes nb c) = others c pre + others c [x] + others c post := by
            rw [hvis, show pre ++ x :: post = pre ++ [x] ++ post by simp, others_append, others_append]
          unfold saveBody
          rw [Arr.get_lt (by omega), Arr.get_lt (by omega)]
          simp only [Option.bind_eq_bind, Option.bind_some]
          have hscan := scan_spec t.temp (start.val c) (t.saved.val c) x (if x = c then false else true)
            (by rw [hS, f3]; omega)
          simp only [Option.bind_eq_bind] at hscan
          rw [hscan, Option.bind_some, record_snoc]
          have hdec : (∀ j < t.saved.val c, t.temp.val (start.val c + j) ≠ x) ↔ x ∉ record c pre := by
            rw [f3, hS]
            constructor
            · intro h hx
              obtain ⟨j, hj, hj2⟩ := List.getElem_of_mem hx
              refine h j hj ?_
              rw [f4 j hj, getD_lt hj, hj2]
            · intro h j hj hx
              rw [f4 j hj, getD_lt hj] at hx
              exact h (hx ▸ List.getElem_mem hj)
          by_cases hx : x = c ∨ x ∈ record c pre
          · rw [if_pos hx]
            have : ((if x = c then false else true) &&
                decide (∀ j < t.saved.val c, t.temp.val (start.val c + j) ≠ x)) = false := by
              rcases hx with hx | hx
              · simp [hx]
              · rw [decide_eq_false (fun h => (hdec.1 h) hx), Bool.and_false]
            rw [this]
            exact ⟨t, rfl, f1, f2, f3, f4, f5, f6, f7⟩
          · rw [if_neg hx]
            have hxc : x ≠ c := fun h => hx (Or.inl h)
            have hxr : x ∉ record c pre := fun h => hx (Or.inr h)
            have : ((if x = c then false else true) &&
                decide (∀ j < t.saved.val c, t.temp.val (start.val c + j) ≠ x)) = true := by
              rw [if_neg hxc, decide_eq_true (hdec.2 hxr), Bool.and_true]
            rw [this]
            have hone : others c [x] = 1 := by simp [others, hxc]
            simp only [if_true]
            rw [Arr.set_lt _ (by rw [hS, f3]; omega), Option.bind_some, Arr.set_lt _ (by omega),
              Option.bind_some]
            refine ⟨_, rfl, f1, f2, ?_, ?_, ?_, ?_, ?_⟩
            · simp only [store_same, f3, List.length_append, List.length_singleton]
            · intro j hj
              rw [List.length_append, List.length_singleton] at hj
              simp only []
              by_cases h : j = (record c pre).length
              · subst h; rw [hS, f3, store_same, getD_snoc_eq]
              · rw [hS, f3, store_ne _ _ (by omega), getD_snoc_lt (by omega)]
                exact f4 j (by omega)
            · intro c' hc'; simp only []; rw [store_ne _ _ hc']; exact f5 c' hc'
            · intro p hp; simp only []; rw [hS, store_ne _ _ (by omega)]; exact f6 p hp
            · simp only [f7, List.length_append, List.length_singleton]; omega)
      refine ⟨s', k1, k2, k3, ?_, ?_, ?_⟩
      · intro c' hc'
        by_cases h : c' = c
        · subst h; exact ⟨k4, k5⟩
        · have hlt : c' < c := by omega
          refine ⟨by rw [k6 c' h]; exact (e3 c' hlt).1, fun j hj => ?_⟩
          rw [k7 _ ?_]
          · exact (e3 c' hlt).2 j hj
          · have := record_le c' (visits w nodes nb c')
            have h2 := smono (c' + 1) c (by omega)
            rw [sum_range_succ] at h2; omega
      · intro c' h1 h2; rw [k6 c' (by omega)]; exact e4 c' (by omega) h2
      · rw [k8, e5, sum_range_succ])
  exact ⟨r, h1, h2, h3, h4, h6⟩

theorem compactLoop_spec (C : ℕ) (R : ℕ → List ℕ) (S : ℕ → ℕ) (temp saved : Arr ℕ)
    (hsz : C ≤ saved.size) (hsv : ∀ c < C, saved.val c = (R c).length)
    (htz : ∀ c < C, S c + (R c).length ≤ temp.size)
    (htv : ∀ c < C, ∀ j < (R c).length, temp.val (S c + j) = (R c).getD j 0)
    (k : CellCell) (hn : k.num.size = C) (hs : C ≤ k.start.size) (hS : ∀ c < C, k.start.val c = S c)
    (hl : k.list.size = ∑ c ∈ range C, (R c).length) :
    ∃ r, compactLoop C temp saved (k, 0) = some r ∧ r.1.num.size = C ∧
      r.1.start.size = k.start.size ∧ r.1.list.size = k.list.size ∧
      ∀ c < C, r.1.num.val c = (R c).length ∧ r.1.start.val c = ∑ i ∈ range c, (R i).length ∧
        ∀ j < (R c).length, r.1.list.val ((∑ i ∈ range c, (R i).length) + j) = (R c).getD j 0 := by
  have smono : ∀ a b, a ≤ b → ∑ i ∈ range a, (R i).length ≤ ∑ i ∈ range b, (R i).length := fun a b h =>
    Finset.sum_le_sum_of_subset (range_mono h)
  unfold compactLoop
  obtain ⟨r, h1, h2, h3, h4, h5, h6, h7⟩ := loopM_spec (n := C)
    (body := fun c (s : CellCell × ℕ) => (do
      let k ← saved.get c
      let num ← s.1.num.set c k
      let st ← s.1.start.get c
      let start ← s.1.start.set c s.2
      let r ← loopM k (fun j (t : Arr ℕ × ℕ) => do
        let v ← temp.get (st + j)
        let list ← t.1.set t.2 v
        pure (list, t.2 + 1)) (s.1.list, s.2)
      pure (⟨num, start, r.1⟩, r.2) : Option (CellCell × ℕ))) (s := (k, 0))
    (fun m s => s.1.num.size = C ∧ s.1.start.size = k.start.size ∧ s.1.list.size = k.list.size ∧
      s.2 = ∑ i ∈ range m, (R i).length ∧
      (∀ c, m ≤ c → c < C → s.1.start.val c = S c) ∧
      ∀ c < m, s.1.num.val c = (R c).length ∧ s.1.start.val c = ∑ i ∈ range c, (R i).length ∧
        ∀ j < (R c).length, s.1.list.val ((∑ i ∈ range c, (R i).length) + j) = (R c).getD j 0)
    ⟨hn, rfl, rfl, rfl, fun c _ h => hS c h, fun c h => absurd h (Nat.not_lt_zero _)⟩
    (by
      rintro c ⟨⟨num, start, list⟩, idx⟩ hc ⟨e1, e2, e3, e4, e5, e6⟩
      simp only [] at e1 e2 e3 e4 e5 e6
      have hend : idx + (R c).length ≤ list.size := by
        rw [e4, ← sum_range_succ, e3, hl]; exact smono _ _ (by omega)
      obtain ⟨t, t1, t2, t3, t4, t5⟩ := loopM_spec (n := saved.val c)
        (body := fun j (t : Arr ℕ × ℕ) => (do
          let v ← temp.get (start.val c + j)
          let list ← t.1.set t.2 v
          pure (list, t.2 + 1) : Option (Arr ℕ × ℕ))) (s := (list, idx))
        (fun m t => t.1.size = list.size ∧ t.2 = idx + m ∧ (∀ p < idx, t.1.val p = list.val p) ∧
          ∀ j < m, t.1.val (idx + j) = (R c).getD j 0)
        ⟨rfl, rfl, fun _ _ => rfl, fun j h => absurd h (Nat.not_lt_zero _)⟩
        (by
          rintro j ⟨⟨ls, lv⟩, i⟩ hj ⟨g1, g2, g3, g4⟩
          simp only [] at g1 g2 g3 g4
          have hj' : j < (R c).length := by rw [← hsv c hc]; exact hj
          have hz := htz c hc
          refine ⟨(⟨ls, store lv i (temp.val (start.val c + j))⟩, i + 1), by
            rw [e5 c le_rfl hc, Arr.get_lt (by omega)]
            simp only [Option.bind_eq_bind, Option.bind_some]
            rw [Arr.set_lt _ (by simp only []; omega)]; rfl, g1, by simp only []; omega, ?_, ?_⟩
          · intro p hp; simp only []; rw [store_ne _ _ (by omega)]; exact g3 p hp
          · intro j' hj''
            simp only []
            by_cases h : j' = j
            · subst h; rw [g2, store_same, e5 c le_rfl hc, htv c hc _ hj']
            · rw [store_ne _ _ (by omega)]; exact g4 j' (by omega))
      refine ⟨(⟨⟨num.size, store num.val c (saved.val c)⟩, ⟨start.size, store start.val c idx⟩, t.1⟩, t.2),
        ?_, e1, e2, by simp only []; omega, ?_, ?_, ?_⟩
      · rw [Arr.get_lt (by omega)]
        simp only [Option.bind_eq_bind, Option.bind_some]
        rw [Arr.set_lt _ (by omega), Option.bind_some, Arr.get_lt (by omega), Option.bind_some,
          Arr.set_lt _ (by omega), Option.bind_some]
        refine (congrArg (Option.bind · _) t1).trans ?_
        rfl
      · simp only []; rw [t3, e4, sum_range_succ, hsv c hc]
      · intro c' h1 h2; simp only []; rw [store_ne _ _ (by omega)]; exact e5 c' (by omega) h2
      · intro c' hc'
        simp only []
        by_cases h : c' = c
        · subst h
          refine ⟨by rw [store_same, hsv _ hc], by rw [store_same, e4], fun j hj => ?_⟩
          rw [← e4]; exact t5 j (by rw [hsv _ hc]; exact hj)
        · have hlt : c' < c := by omega
          obtain ⟨q1, q2, q3⟩ := e6 c' hlt
          refine ⟨by rw [store_ne _ _ h]; exact q1, by rw [store_ne _ _ h]; exact q2, fun j hj => ?_⟩
          rw [t4 _ ?_]
          · exact q3 j hj
          · have h2 := smono (c' + 1) c (by omega)
            rw [sum_range_succ] at h2; omega)
  exact ⟨r, h1, h2, h3, h4, h7⟩

end Verif.Swage
