import Verif.Average.Driver
import Verif.Average.Cycle
import Mathlib.Tactic.Linarith
import Mathlib.Algebra.Order.Archimedean.Real.Basic

/-!
# Lemmas on the dumps of the Average example
-/

namespace Verif.Average

theorem fieldColumn_spec {cells : ℕ} (col : ℕ) {field : Arr ℝ} {a : Arr (ℕ → ℝ)} (hf : field.size = cells) (ha : a.size = cells) :
    ∃ r, fieldColumn cells col field a = some r ∧ r.size = cells ∧
      ∀ c < cells, ∀ k, r.val c k = if k = col then field.val c else a.val c k := by
  obtain ⟨r, e, r1, r2⟩ := loopM_spec (n := cells) (body := fun c (a : Arr (ℕ → ℝ)) => do
      let v ← field.get c
      let row ← a.get c
      a.set c (store row col v)) (s := a)
    (fun t (r : Arr (ℕ → ℝ)) => r.size = cells ∧ ∀ c < cells, ∀ k, r.val c k = if k = col ∧ c < t then field.val c else a.val c k)
    ⟨ha, fun c _ k => by simp⟩
    (by
      rintro t b ht ⟨b1, b2⟩
      refine ⟨⟨b.size, store b.val t (store (b.val t) col (field.val t))⟩, ?_, b1, ?_⟩
      · show (field.get t).bind _ = _
        rw [Arr.get_lt (by omega), Option.bind_some]
        show (b.get t).bind _ = _
        rw [Arr.get_lt (by omega), Option.bind_some, Arr.set_lt _ (by omega)]
      · intro c hc k
        show store b.val t (store (b.val t) col (field.val t)) c k = _
        by_cases h1 : c = t
        · subst h1
          rw [store_same]
          by_cases h2 : k = col
          · subst h2; rw [store_same]; simp
          · rw [store_ne _ _ h2, b2 c hc k]; simp [h2]
        · rw [store_ne _ _ h1, b2 c hc k]
          refine if_congr ?_ rfl rfl
          constructor <;> rintro ⟨h2, h3⟩ <;> exact ⟨h2, by omega⟩)
  refine ⟨r, e, r1, fun c hc k => ?_⟩
  rw [r2 c hc k]; simp [hc]

theorem elemColumn_spec {sub : ℕ} (col e : ℕ) (v : ℝ) {a : Arr (ℕ → ℝ)} (ha : sub * sub * sub * (e + 1) ≤ a.size) :
    ∃ r, elemColumn sub col e v a = some r ∧ r.size = a.size ∧
      ∀ c k, r.val c k = if k = col ∧ sub * sub * sub * e ≤ c ∧ c < sub * sub * sub * (e + 1) then v else a.val c k := by
  have hW : sub * sub * sub * (e + 1) = sub * sub * sub * e + sub * sub * sub := by ring
  obtain ⟨r, e1, r1, r2⟩ := loopM3_spec (nk := sub) (nj := sub) (ni := sub) (body := fun k j i (a : Arr (ℕ → ℝ)) => do
      let index := i + j * sub + k * sub * sub
      let c := index + sub * sub * sub * e
      let row ← a.get c
      a.set c (store row col v)) (s := a)
    (fun t (r : Arr (ℕ → ℝ)) => r.size = a.size ∧
      ∀ c k, r.val c k = if k = col ∧ sub * sub * sub * e ≤ c ∧ c < sub * sub * sub * e + t then v else a.val c k)
    ⟨rfl, fun c k => by
      rw [if_neg]; rintro ⟨-, h1, h2⟩; omega⟩
    (by
      rintro k j i b hk hj hi ⟨b1, b2⟩
      have hlt : i + j * sub + k * sub * sub < sub * sub * sub := by
        have h1 : (k + 1) * (sub * sub) ≤ sub * (sub * sub) := Nat.mul_le_mul_right _ hk
        have h2 : (j + 1) * sub ≤ sub * sub := Nat.mul_le_mul_right _ hj
        nlinarith
      generalize i + j * sub + k * sub * sub = t at hlt b2
      have hb : t + sub * sub * sub * e < b.size := by omega
      refine ⟨⟨b.size, store b.val (t + sub * sub * sub * e) (store (b.val (t + sub * sub * sub * e)) col v)⟩, ?_, b1, ?_⟩
      · show (b.get (t + sub * sub * sub * e)).bind _ = _
        rw [Arr.get_lt hb, Option.bind_some]
        show b.set (t + sub * sub * sub * e) _ = _
        rw [Arr.set_lt _ hb]
      · intro c k'
        show store b.val (t + sub * sub * sub * e) (store (b.val (t + sub * sub * sub * e)) col v) c k' = _
        by_cases h1 : c = t + sub * sub * sub * e
        · subst h1
          rw [store_same]
          by_cases h2 : k' = col
          · subst h2; rw [store_same, if_pos ⟨rfl, by omega, by omega⟩]
          · rw [store_ne _ _ h2, b2, if_neg (fun h => h2 h.1), if_neg (fun h => h2 h.1)]
        · rw [store_ne _ _ h1, b2]
          refine if_congr ?_ rfl rfl
          constructor <;> rintro ⟨h2, h3, h4⟩ <;> exact ⟨h2, h3, by omega⟩)
  refine ⟨r, e1, r1, fun c k => ?_⟩
  rw [r2 c k, hW]

/-- The four scalars of the cells: the field, the colour `±1` and the number of the element, the field. -/
def FieldsAre (m : Mesh) (sub : ℕ) (field : Arr ℝ) (f : Arr (ℕ → ℝ)) : Prop :=
  f.size = m.cells ∧ ∀ c < m.cells, f.val c 0 = field.val c ∧ f.val c 1 = (-1) ^ (c / sub ^ 3) ∧ f.val c 2 = ((c / sub ^ 3 : ℕ) : ℝ) ∧
    f.val c 3 = field.val c

theorem cellFields_spec (m : Mesh) {sub : ℕ} (hsub : 0 < sub) (hc : m.cells = m.elems * sub ^ 3) {field : Arr ℝ} (hf : field.size = m.cells)
    (junk : ℕ → ℕ → ℝ) : ∃ f, cellFields m sub field junk = some f ∧ FieldsAre m sub field f := by
  have hW : sub ^ 3 = sub * sub * sub := by ring
  have hpos : 0 < sub * sub * sub := by positivity
  have hle : ∀ e < m.elems, sub * sub * sub * (e + 1) ≤ m.cells := by
    intro e he
    rw [hc, hW, Nat.mul_comm m.elems]
    exact Nat.mul_le_mul_left _ he
  have hdiv : ∀ c t : ℕ, c < sub * sub * sub * t ↔ c / (sub * sub * sub) < t := by
    intro c t
    rw [Nat.div_lt_iff_lt_mul hpos, Nat.mul_comm]
  obtain ⟨a, e1, a1, a2⟩ := fieldColumn_spec 0 hf (show (⟨m.cells, junk⟩ : Arr (ℕ → ℝ)).size = m.cells from rfl)
  obtain ⟨⟨b, w⟩, e2, b1, b2, b3⟩ := loopM_spec (n := m.elems) (body := fun e (s : Arr (ℕ → ℝ) × ℤ) => do
      let a ← elemColumn sub 1 e (s.2 : ℝ) s.1
      pure (a, s.2 * (-1))) (s := (a, 1))
    (fun t (s : Arr (ℕ → ℝ) × ℤ) => s.1.size = m.cells ∧ s.2 = (-1) ^ t ∧ ∀ c k, s.1.val c k =
      if k = 1 ∧ c / (sub * sub * sub) < t then (-1) ^ (c / (sub * sub * sub)) else a.val c k)
    ⟨a1, rfl, fun c k => by simp⟩
    (by
      rintro t ⟨b, w⟩ ht ⟨b1, b2, b3⟩
      simp only [] at b1 b2 b3
      obtain ⟨r, q, r1, r2⟩ := elemColumn_spec (sub := sub) 1 t (w : ℝ) (a := b) (by rw [b1]; exact hle t ht)
      refine ⟨(r, w * (-1)), ?_, r1.trans b1, by rw [b2, pow_succ], ?_⟩
      · show (elemColumn sub 1 t (w : ℝ) b).bind _ = _
        rw [q]; rfl
      · intro c k
        show r.val c k = _
        rw [r2, b3]
        by_cases hk : k = 1
        · subst hk
          have h1 := hdiv c t
          have h2 := hdiv c (t + 1)
          by_cases h3 : c / (sub * sub * sub) < t
          · rw [if_neg (by rintro ⟨-, h4, -⟩; omega), if_pos ⟨rfl, h3⟩, if_pos ⟨rfl, by omega⟩]
          · by_cases h4 : c / (sub * sub * sub) = t
            · rw [if_pos ⟨rfl, by omega, h2.2 (by omega)⟩, if_pos ⟨rfl, by omega⟩, h4, b2]
              push_cast; rfl
            · rw [if_neg (by rintro ⟨-, -, h5⟩; have := h2.1 h5; omega), if_neg (by rintro ⟨-, h5⟩; omega),
                if_neg (by rintro ⟨-, h5⟩; omega)]
        · simp [hk])
  obtain ⟨d, e3, d1, d2⟩ := loopM_spec (n := m.elems) (body := fun e (a : Arr (ℕ → ℝ)) => elemColumn sub 2 e (e : ℝ) a) (s := b)
    (fun t (s : Arr (ℕ → ℝ)) => s.size = m.cells ∧ ∀ c k, s.val c k =
      if k = 2 ∧ c / (sub * sub * sub) < t then ((c / (sub * sub * sub) : ℕ) : ℝ) else b.val c k)
    ⟨b1, fun c k => by simp⟩
    (by
      rintro t y ht ⟨y1, y2⟩
      obtain ⟨r, q, r1, r2⟩ := elemColumn_spec (sub := sub) 2 t (t : ℝ) (a := y) (by rw [y1]; exact hle t ht)
      refine ⟨r, q, r1.trans y1, ?_⟩
      intro c k
      rw [r2, y2]
      by_cases hk : k = 2
      · subst hk
        have h1 := hdiv c t
        have h2 := hdiv c (t + 1)
        by_cases h3 : c / (sub * sub * sub) < t
        · rw [if_neg (by rintro ⟨-, h4, -⟩; omega), if_pos ⟨rfl, h3⟩, if_pos ⟨rfl, by omega⟩]
        · by_cases h4 : c / (sub * sub * sub) = t
          · rw [if_pos ⟨rfl, by omega, h2.2 (by omega)⟩, if_pos ⟨rfl, by omega⟩, h4]
          · rw [if_neg (by rintro ⟨-, -, h5⟩; have := h2.1 h5; omega), if_neg (by rintro ⟨-, h5⟩; omega),
              if_neg (by rintro ⟨-, h5⟩; omega)]
      · simp [hk])
  obtain ⟨f, e4, f1, f2⟩ := fieldColumn_spec 3 hf d1
  refine ⟨f, ?_, f1, fun c hcc => ?_⟩
  · unfold cellFields
    show (fieldColumn m.cells 0 field ⟨m.cells, junk⟩).bind _ = _
    rw [e1, Option.bind_some]
    show (loopM m.elems _ _).bind _ = _
    rw [e2, Option.bind_some]
    show (loopM m.elems _ _).bind _ = _
    rw [e3, Option.bind_some]
    exact e4
  · have hce : c / (sub * sub * sub) < m.elems := by
      rw [← hdiv]; rw [hc, hW] at hcc; rwa [Nat.mul_comm]
    rw [hW]
    refine ⟨?_, ?_, ?_, ?_⟩
    · rw [f2 c hcc, if_neg (by decide), d2, if_neg (by simp), b3, if_neg (by simp), a2 c hcc, if_pos rfl]
    · rw [f2 c hcc, if_neg (by decide), d2, if_neg (by simp), b3, if_pos ⟨rfl, hce⟩]
    · rw [f2 c hcc, if_neg (by decide), d2, if_pos ⟨rfl, hce⟩]
    · rw [f2 c hcc, if_pos rfl]

theorem vecFields_spec (m : Mesh) (hx : m.coords.size = m.nodes) (junk : ℕ → ℕ → ℝ) :
    ∃ v, vecFields m junk = some v ∧ v.size = m.nodes ∧ ∀ n < m.nodes, ∀ d < 3, v.val n d = m.coords.val n d := by
  obtain ⟨v, e, v1, v2⟩ := loopM_spec (n := m.nodes) (body := fun n (a : Arr (ℕ → ℝ)) => do
      let x ← m.coords.get n
      let row ← a.get n
      a.set n (store (store (store row 0 (x 0)) 1 (x 1)) 2 (x 2))) (s := ⟨m.nodes, junk⟩)
    (fun t (r : Arr (ℕ → ℝ)) => r.size = m.nodes ∧ ∀ n < t, ∀ d < 3, r.val n d = m.coords.val n d)
    ⟨rfl, fun n hn => absurd hn (by omega)⟩
    (by
      rintro t b ht ⟨b1, b2⟩
      refine ⟨⟨b.size, store b.val t (store (store (store (b.val t) 0 (m.coords.val t 0)) 1 (m.coords.val t 1)) 2 (m.coords.val t 2))⟩, ?_, b1, ?_⟩
      · show (m.coords.get t).bind _ = _
        rw [Arr.get_lt (by omega), Option.bind_some]
        show (b.get t).bind _ = _
        rw [Arr.get_lt (by omega), Option.bind_some, Arr.set_lt _ (by omega)]
      · intro n hn d hd
        show store b.val t _ n d = _
        by_cases h1 : n = t
        · subst h1
          rw [store_same]
          obtain rfl | rfl | rfl : d = 0 ∨ d = 1 ∨ d = 2 := by omega
          · rw [store_ne _ _ (by decide), store_ne _ _ (by decide), store_same]
          · rw [store_ne _ _ (by decide), store_same]
          · rw [store_same]
        · rw [store_ne _ _ h1]; exact b2 n (by omega) d hd)
  exact ⟨v, e, v1, v2⟩

theorem printTimes_spec {n : ℕ} {times : Arr ℝ} (h : n ≤ times.size) : printTimes n times = some ((List.range n).map times.val) := by
  obtain ⟨l, e, rfl⟩ := loopM_spec (n := n) (body := fun i (l : List ℝ) => do
      let t ← times.get i
      pure (l ++ [t])) (s := [])
    (fun t (l : List ℝ) => l = (List.range t).map times.val) rfl
    (by
      rintro t l ht rfl
      refine ⟨_, ?_, rfl⟩
      show (times.get t).bind _ = _
      rw [Arr.get_lt (by omega), Option.bind_some, List.range_succ, List.map_append]; rfl)
  exact e

/-- A dump shows the given state of the fields on the mesh. -/
structure Dump.Shows (d : Dump) (m : Mesh) (order : ℕ) (s : State) : Prop where
  fields : FieldsAre m (numSub order) s.cell d.fields
  size : d.positions.size = m.nodes
  position : ∀ n < m.nodes, ∀ x < 3, d.positions.val n x = m.coords.val n x

theorem ensight_spec (m : Mesh) (cfg : Settings) (hc : m.cells = m.elems * numSub cfg.order ^ 3) (hx : m.coords.size = m.nodes)
    (j1 j2 : ℕ → ℕ → ℝ) (r : Run) (hf : r.state.cell.size = m.cells) (hid : r.id < r.times.size) :
    ∃ d : Dump, ensight m cfg j1 j2 r = some { r with times := ⟨r.times.size, store r.times.val r.id r.time⟩, id := r.id + 1, dumps := r.dumps ++ [d] } ∧
      d.id = r.id ∧ d.Shows m cfg.order r.state ∧ d.times = (List.range (r.id + 1)).map (store r.times.val r.id r.time) := by
  have hsub : 0 < numSub cfg.order := by unfold numSub; split <;> omega
  obtain ⟨f, e1, f1⟩ := cellFields_spec m hsub hc hf j1
  obtain ⟨v, e2, v1, v2⟩ := vecFields_spec m hx j2
  refine ⟨⟨r.id, f, v, (List.range (r.id + 1)).map (store r.times.val r.id r.time)⟩, ?_, rfl, ⟨f1, v1, v2⟩, rfl⟩
  unfold ensight
  show (cellFields m (numSub cfg.order) r.state.cell j1).bind _ = _
  rw [e1, Option.bind_some]
  show (vecFields m j2).bind _ = _
  rw [e2, Option.bind_some]
  show (r.times.set r.id r.time).bind _ = _
  rw [Arr.set_lt _ hid, Option.bind_some]
  show (printTimes (r.id + 1) _).bind _ = _
  rw [printTimes_spec (times := ⟨r.times.size, store r.times.val r.id r.time⟩) (show r.id + 1 ≤ r.times.size from hid)]
  rfl

theorem ensight_none (m : Mesh) (cfg : Settings) (j1 j2 : ℕ → ℕ → ℝ) (r : Run) (hid : r.times.size ≤ r.id) : ensight m cfg j1 j2 r = none := by
  unfold ensight
  show (cellFields m (numSub cfg.order) r.state.cell j1).bind _ = _
  cases cellFields m (numSub cfg.order) r.state.cell j1 with
  | none => rfl
  | some f =>
    rw [Option.bind_some]
    show (vecFields m j2).bind _ = _
    cases vecFields m j2 with
    | none => rfl
    | some v =>
      rw [Option.bind_some]
      show (r.times.set r.id r.time).bind _ = _
      rw [Arr.set_ge _ hid]; rfl

theorem cycles_succ (m : Mesh) (k : ℕ) (s : State) :
    cycles m (k + 1) s = (cycles m k s).bind fun s => (smoothElement m s).bind (applyBoundary m) := rfl

/-- The cycles never leave the arrays. -/
theorem cycles_run (m : Mesh) (h : m.Ok) (he : m.ElemOk) (h0 : m.SetOk 0) (h3 : m.SetOk 3) (s : State) (h1 : s.node.size = m.nodes)
    (h2 : s.cell.size = m.cells) : ∃ S : ℕ → State, ∀ k, cycles m k s = some (S k) ∧ (S k).cell.size = m.cells := by
  have : ∀ k, ∃ s', cycles m k s = some s' ∧ s'.cell.size = m.cells := by
    intro k
    obtain ⟨s', e, -, a2⟩ := loopM_spec (n := k) (body := fun _ s => (smoothElement m s).bind (applyBoundary m)) (s := s)
      (fun _ (s : State) => s.node.size = m.nodes ∧ s.cell.size = m.cells) ⟨h1, h2⟩
      (by
        rintro i s - ⟨g1, g2⟩
        obtain ⟨t, e, z1, z2, -, -⟩ := smoothElement_spec m h he s g1 g2
        obtain ⟨r, e', y1, y2, -⟩ := C54_boundary m h0 h3 t z1
        exact ⟨r, by rw [e, Option.bind_some, e'], y1, by rw [y2, z2]⟩)
    exact ⟨s', e, a2⟩
  choose S hS using this
  exact ⟨S, hS⟩

end Verif.Average
