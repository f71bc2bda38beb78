import Verif.Average.Smooth

/-!
# C55: region fills
-/

namespace Verif.Average
open Finset

/-- Specification: the region a fill describes (global: everywhere; box: between the planes; cylinder: the distance from the
z axis is between the radii; sphere: the distance from the origin is between the radii). -/
def Fill.Region (f : Fill) (x : ℕ → ℝ) : Prop :=
  match f.volume with
  | .global => True
  | .box => f.x1 ≤ x 0 ∧ x 0 ≤ f.x2 ∧ f.y1 ≤ x 1 ∧ x 1 ≤ f.y2 ∧ f.z1 ≤ x 2 ∧ x 2 ≤ f.z2
  | .cylinder => f.radius1 ≤ Real.sqrt (x 0 ^ 2 + x 1 ^ 2) ∧ Real.sqrt (x 0 ^ 2 + x 1 ^ 2) ≤ f.radius2
  | .sphere => f.radius1 ≤ Real.sqrt (x 0 ^ 2 + x 1 ^ 2 + x 2 ^ 2) ∧ Real.sqrt (x 0 ^ 2 + x 1 ^ 2 + x 2 ^ 2) ≤ f.radius2

/-- What the code tests: every region is enlarged by the regions listed after it in the switch, with the fill's radii. -/
def Fill.Tested (f : Fill) (x : ℕ → ℝ) : Prop :=
  match f.volume with
  | .global => True
  | .box => f.Region x ∨ { f with volume := .cylinder }.Region x ∨ { f with volume := .sphere }.Region x
  | .cylinder => f.Region x ∨ { f with volume := .sphere }.Region x
  | .sphere => f.Region x

theorem fillThis_iff (f : Fill) (x : ℕ → ℝ) : fillThis f (x 0) (x 1) (x 2) = true ↔ f.Tested x := by
  unfold fillThis Fill.Tested
  cases hv : f.volume <;> simp only [Fill.Region, hv, pow_two, ge_iff_le] <;> split_ifs <;> simp_all

/-- Centre of a cell: the mean of its eight nodes. -/
noncomputable def Mesh.centre (m : Mesh) (c d : ℕ) : ℝ := (∑ l ∈ range 8, m.coords.val (m.nodesInCell.val (c * 8 + l)) d) / 8

/-- Valid cells and coordinates. -/
structure Mesh.CellsOk (m : Mesh) : Prop where
  size : m.nodesInCell.size = m.cells * 8
  lt : ∀ i < m.cells * 8, m.nodesInCell.val i < m.coords.size

theorem cellCentre_spec {m : Mesh} (h : m.CellsOk) {c : ℕ} (hc : c < m.cells) (d : ℕ) : cellCentre m c d = some (m.centre c d) := by
  obtain ⟨r, e, hr⟩ := loopM_spec (n := 8) (body := fun l t => do
      let n ← m.nodesInCell.get (c * 8 + l)
      let x ← m.coords.get n
      pure (t + x d)) (s := (0 : ℝ))
    (fun k t => t = ∑ l ∈ range k, m.coords.val (m.nodesInCell.val (c * 8 + l)) d) (by simp) (by
      intro l t hl ht
      have h1 : c * 8 + l < m.cells * 8 := by omega
      refine ⟨t + m.coords.val (m.nodesInCell.val (c * 8 + l)) d, ?_, ?_⟩
      · simp only [Option.bind_eq_bind]
        rw [Arr.get_lt (by rw [h.size]; exact h1), Option.bind_some, Arr.get_lt (h.lt _ h1)]
        rfl
      · rw [sum_range_succ, ht])
  unfold cellCentre
  show (loopM 8 _ 0).bind _ = _
  rw [e, hr]; rfl

open Classical in
/-- The value a sequence of fills leaves in a cell with centre `x`: that of the last fill that applies, or the initial value. -/
noncomputable def lastFill (P : Fill → (ℕ → ℝ) → Prop) (fills : ℕ → Fill) (x : ℕ → ℝ) (init : ℝ) : ℕ → ℝ
  | 0 => init
  | k + 1 => if P (fills k) x then (fills k).field2 else lastFill P fills x init k

theorem lastFill_none {P : Fill → (ℕ → ℝ) → Prop} {fills : ℕ → Fill} {x : ℕ → ℝ} {init : ℝ} {k : ℕ} (h : ∀ i < k, ¬ P (fills i) x) :
    lastFill P fills x init k = init := by
  induction k with
  | zero => rfl
  | succ k ih => rw [lastFill, if_neg (h k (by omega))]; exact ih fun i hi => h i (by omega)

theorem lastFill_some {P : Fill → (ℕ → ℝ) → Prop} {fills : ℕ → Fill} {x : ℕ → ℝ} {init : ℝ} {k j : ℕ} (hj : j < k)
    (h1 : P (fills j) x) (h2 : ∀ i, j < i → i < k → ¬ P (fills i) x) : lastFill P fills x init k = (fills j).field2 := by
  induction k with
  | zero => omega
  | succ k ih =>
    rw [lastFill]
    by_cases e : j = k
    · subst e; rw [if_pos h1]
    · rw [if_neg (h2 k (by omega) (by omega))]
      exact ih (by omega) fun i a b => h2 i a (by omega)

theorem initializeState_spec (m : Mesh) (h : m.CellsOk) (fills : Arr Fill) (rk rks : ℕ) (hrk : rk < rks) (s : MatPt)
    (h1 : s.coords.size = rks * m.cells * 3) (h2 : s.field.size = m.cells) :
    ∃ s', initializeState m fills rk s = some s' ∧ s'.coords.size = rks * m.cells * 3 ∧ s'.field.size = m.cells ∧
      (0 < fills.size → ∀ c < m.cells, ∀ d < 3, s'.coords.val (rk * m.cells * 3 + c * 3 + d) = m.centre c d) ∧
      ∀ c < m.cells, s'.field.val c = lastFill Fill.Tested fills.val (m.centre c) (s.field.val c) fills.size := by
  refine loopM_spec (fun k (s' : MatPt) => s'.coords.size = rks * m.cells * 3 ∧ s'.field.size = m.cells ∧
      (0 < k → ∀ c < m.cells, ∀ d < 3, s'.coords.val (rk * m.cells * 3 + c * 3 + d) = m.centre c d) ∧
      ∀ c < m.cells, s'.field.val c = lastFill Fill.Tested fills.val (m.centre c) (s.field.val c) k)
    ⟨h1, h2, by omega, fun c _ => rfl⟩ ?_
  rintro k t hk ⟨g1, g2, -, g4⟩
  obtain ⟨r, e, r1, r2, r3, r4, r5⟩ := loopM_spec (n := m.cells) (body := fun c (s : MatPt) => do
      let x ← cellCentre m c 0
      let y ← cellCentre m c 1
      let z ← cellCentre m c 2
      let s ← s.setCoord m.cells rk c 0 x
      let s ← s.setCoord m.cells rk c 1 y
      let s ← s.setCoord m.cells rk c 2 z
      let f ← fills.get k
      if fillThis f x y z then do
        let a ← s.field.set c f.field2
        pure (⟨s.coords, a⟩ : MatPt)
      else pure s) (s := t)
    (fun j (s' : MatPt) => s'.coords.size = rks * m.cells * 3 ∧ s'.field.size = m.cells ∧
      (∀ c < j, ∀ d < 3, s'.coords.val (rk * m.cells * 3 + c * 3 + d) = m.centre c d) ∧
      (∀ c < j, s'.field.val c = lastFill Fill.Tested fills.val (m.centre c) (s.field.val c) (k + 1)) ∧
      ∀ c, j ≤ c → s'.field.val c = t.field.val c)
    ⟨g1, g2, by intro c hc; omega, by intro c hc; omega, fun _ _ => rfl⟩ (by
      rintro c ⟨⟨N, v⟩, ⟨M, w⟩⟩ hc ⟨f1, f2, f3, f4, f5⟩
      simp only [] at f1 f2 f3 f4 f5
      have hb : rk * m.cells * 3 + c * 3 + 2 < N := by
        have : (rk + 1) * m.cells ≤ rks * m.cells := Nat.mul_le_mul_right _ hrk
        rw [Nat.add_mul] at this
        omega
      have hfr : ∀ c' < c, ∀ d < 3, ∀ d' < 3, rk * m.cells * 3 + c' * 3 + d ≠ rk * m.cells * 3 + c * 3 + d' := by
        intro c' hc' d hd d' hd'; omega
      simp only [Option.bind_eq_bind, MatPt.setCoord]
      rw [cellCentre_spec h hc, Option.bind_some, cellCentre_spec h hc, Option.bind_some, cellCentre_spec h hc, Option.bind_some,
        Arr.set_lt _ (show rk * m.cells * 3 + c * 3 + 0 < N by omega), Option.bind_some]
      simp only [Option.pure_def, Option.bind_some]
      rw [Arr.set_lt _ (show rk * m.cells * 3 + c * 3 + 1 < N by omega), Option.bind_some]
      simp only [Option.bind_some]
      rw [Arr.set_lt _ (show rk * m.cells * 3 + c * 3 + 2 < N by omega), Option.bind_some]
      simp only [Option.bind_some]
      rw [Arr.get_lt hk, Option.bind_some]
      have hx : ∀ c' < c + 1, ∀ d < 3, store (store (store v (rk * m.cells * 3 + c * 3 + 0) (m.centre c 0))
          (rk * m.cells * 3 + c * 3 + 1) (m.centre c 1)) (rk * m.cells * 3 + c * 3 + 2) (m.centre c 2) (rk * m.cells * 3 + c' * 3 + d) =
          m.centre c' d := by
        intro c' hc' d hd
        by_cases hcc : c' = c
        · subst hcc
          have : d = 0 ∨ d = 1 ∨ d = 2 := by omega
          rcases this with rfl | rfl | rfl
          · rw [store_ne _ _ (by omega), store_ne _ _ (by omega), store_same]
          · rw [store_ne _ _ (by omega), store_same]
          · rw [store_same]
        · rw [store_ne _ _ (by omega), store_ne _ _ (by omega), store_ne _ _ (by omega)]
          exact f3 c' (by omega) d hd
      have ht : w c = lastFill Fill.Tested fills.val (m.centre c) (s.field.val c) k := by rw [f5 c le_rfl]; exact g4 c hc
      by_cases hF : fillThis (fills.val k) (m.centre c 0) (m.centre c 1) (m.centre c 2) = true
      · rw [if_pos hF, Arr.set_lt _ (show c < M by omega)]
        refine ⟨_, rfl, f1, f2, hx, ?_, ?_⟩
        · intro c' hc'
          show store w c (fills.val k).field2 c' = _
          by_cases hcc : c' = c
          · subst hcc
            rw [store_same, lastFill, if_pos ((fillThis_iff _ _).1 hF)]
          · rw [store_ne _ _ hcc]; exact f4 c' (by omega)
        · intro c' hc'
          show store w c (fills.val k).field2 c' = _
          rw [store_ne _ _ (by omega)]; exact f5 c' (by omega)
      · rw [if_neg hF]
        refine ⟨_, rfl, f1, f2, hx, ?_, ?_⟩
        · intro c' hc'
          by_cases hcc : c' = c
          · subst hcc
            show w c' = _
            rw [lastFill, if_neg fun hT => hF ((fillThis_iff _ _).2 hT)]
            exact ht
          · exact f4 c' (by omega)
        · intro c' hc'
          exact f5 c' (by omega))
  exact ⟨r, e, r1, r2, fun _ => r3, r4⟩

/-- **C55 (what the code does).**  For every mesh and fill list, `initialize_state` runs without error, sets the material
points to the cell centres, and leaves in each cell the value of the last fill whose test succeeds at the centre; the test
is the region or one of the regions listed after it in the switch. -/
theorem C55_tested_partial (m : Mesh) (h : m.CellsOk) (fills : Arr Fill) (rk rks : ℕ) (hrk : rk < rks) (s : MatPt)
    (h1 : s.coords.size = rks * m.cells * 3) (h2 : s.field.size = m.cells) :
    ∃ s', initializeState m fills rk s = some s' ∧
      (0 < fills.size → ∀ c < m.cells, ∀ d < 3, s'.coords.get (rk * m.cells * 3 + c * 3 + d) = some (m.centre c d)) ∧
      ∀ c < m.cells,
        ((∀ i < fills.size, ¬ (fills.val i).Tested (m.centre c)) → s'.field.get c = some (s.field.val c)) ∧
        ∀ j < fills.size, (fills.val j).Tested (m.centre c) → (∀ i, j < i → i < fills.size → ¬ (fills.val i).Tested (m.centre c)) →
          s'.field.get c = some (fills.val j).field2 := by
  obtain ⟨s', e, z1, z2, x, y⟩ := initializeState_spec m h fills rk rks hrk s h1 h2
  refine ⟨s', e, fun hp c hc d hd => ?_, fun c hc => ⟨fun hno => ?_, fun j hj hT hafter => ?_⟩⟩
  · rw [Arr.get_lt, x hp c hc d hd]
    have : (rk + 1) * m.cells ≤ rks * m.cells := Nat.mul_le_mul_right _ hrk
    rw [Nat.add_mul] at this
    omega
  · rw [Arr.get_lt (by omega), y c hc, lastFill_none hno]
  · rw [Arr.get_lt (by omega), y c hc, lastFill_some hj hT hafter]

/-- **C55 (fills).**  If every fill is global or a sphere, or is a box or cylinder whose radii exclude every cell centre
(for a cylinder: whose sphere test holds only inside the cylinder region), then a cell has the value of the last fill whose
region contains its centre, and its old value if there is none. -/
theorem C55_fills_partial (m : Mesh) (h : m.CellsOk) (fills : Arr Fill) (rk rks : ℕ) (hrk : rk < rks) (s : MatPt)
    (h1 : s.coords.size = rks * m.cells * 3) (h2 : s.field.size = m.cells)
    (hf : ∀ i < fills.size, (fills.val i).volume = .global ∨ (fills.val i).volume = .sphere ∨
      ((fills.val i).volume = .box ∧ ∀ c < m.cells, ¬ { fills.val i with volume := .cylinder }.Region (m.centre c) ∧
        ¬ { fills.val i with volume := .sphere }.Region (m.centre c)) ∨
      ((fills.val i).volume = .cylinder ∧ ∀ c < m.cells, { fills.val i with volume := .sphere }.Region (m.centre c) → (fills.val i).Region (m.centre c))) :
    ∃ s', initializeState m fills rk s = some s' ∧ ∀ c < m.cells,
        ((∀ i < fills.size, ¬ (fills.val i).Region (m.centre c)) → s'.field.get c = some (s.field.val c)) ∧
        ∀ j < fills.size, (fills.val j).Region (m.centre c) → (∀ i, j < i → i < fills.size → ¬ (fills.val i).Region (m.centre c)) →
          s'.field.get c = some (fills.val j).field2 := by
  obtain ⟨s', e, -, x⟩ := C55_tested_partial m h fills rk rks hrk s h1 h2
  have hiff : ∀ c < m.cells, ∀ i < fills.size, (fills.val i).Tested (m.centre c) ↔ (fills.val i).Region (m.centre c) := by
    intro c hc i hi
    rcases hf i hi with g | g | ⟨g, g'⟩ | ⟨g, g'⟩
    · simp [Fill.Tested, Fill.Region, g]
    · simp [Fill.Tested, g]
    · have := g' c hc
      unfold Fill.Tested
      rw [g]
      simp only [this.1, this.2, or_false]
    · have := g' c hc
      unfold Fill.Tested
      rw [g]
      simp only
      exact ⟨fun z => z.elim id this, Or.inl⟩
  refine ⟨s', e, fun c hc => ⟨fun hno => (x c hc).1 fun i hi hT => hno i hi ((hiff c hc i hi).1 hT), fun j hj hT ha => ?_⟩⟩
  exact (x c hc).2 j hj ((hiff c hc j hj).2 hT) fun i a b hT' => ha i a b ((hiff c hc i b).1 hT')

/-- The unit cube `[0,1]^3` as a mesh of one cell. -/
def cube : Mesh := ⟨8, 1, 1, 1, 8, ⟨8, fun i => i⟩, ⟨⟨0, fun _ => 0⟩, ⟨0, fun _ => 0⟩, ⟨0, fun _ => 0⟩⟩, ⟨1, fun i => i⟩, ⟨8, fun i => i⟩,
  ⟨8, fun p d => if d = 0 then (p % 2 : ℕ) else if d = 1 then (p / 2 % 2 : ℕ) else (p / 4 : ℕ)⟩,
  ⟨0, ⟨0, fun _ => 0⟩, ⟨0, fun _ => 0⟩, ⟨0, fun _ => 0⟩, fun _ _ => 0, fun _ _ => 0, 0⟩,
  ⟨0, ⟨0, fun _ => 0⟩, ⟨0, fun _ => 0⟩, ⟨0, fun _ => 0⟩⟩⟩

theorem cube_ok : cube.CellsOk := ⟨rfl, fun i hi => hi⟩

theorem cube_centre : ∀ d, cube.centre 0 d = 1 / 2 := by
  intro d
  simp only [Mesh.centre, cube, sum_range_succ, sum_range_zero]
  split_ifs <;> norm_num

/-- **C55 (the claim fails).**  A box fill assigns its value to a cell whose centre is outside the box, because its radii
(which have no meaning for a box) happen to contain the distance of the centre from the axis: the switch has no `break`. -/
theorem C55_box_negation : ∃ (m : Mesh) (f : Fill) (s s' : MatPt), m.CellsOk ∧ f.volume = .box ∧ s.coords.size = 2 * m.cells * 3 ∧
    s.field.size = m.cells ∧ initializeState m ⟨1, fun _ => f⟩ 0 s = some s' ∧
    ∃ c < m.cells, ¬ f.Region (m.centre c) ∧ s'.field.get c = some f.field2 ∧ f.field2 ≠ s.field.val c := by
  have hsq : Real.sqrt ((1 / 2 : ℝ) ^ 2 + (1 / 2) ^ 2) ≤ 1 := by
    rw [show (1 : ℝ) = Real.sqrt 1 from Real.sqrt_one.symm]
    exact Real.sqrt_le_sqrt (by norm_num)
  obtain ⟨s', e, -, x⟩ := C55_tested_partial cube cube_ok ⟨1, fun _ => ⟨.box, 2, 3, 2, 3, 2, 3, 0, 1, 7⟩⟩ 0 2 (by omega)
    ⟨⟨6, fun _ => 0⟩, ⟨1, fun _ => 0⟩⟩ rfl rfl
  refine ⟨cube, ⟨.box, 2, 3, 2, 3, 2, 3, 0, 1, 7⟩, ⟨⟨6, fun _ => 0⟩, ⟨1, fun _ => 0⟩⟩, s', cube_ok, rfl, rfl, rfl, e, 0, by decide, ?_, ?_, ?_⟩
  · simp only [Fill.Region, cube_centre]
    norm_num
  · refine (x 0 (by decide)).2 0 (by decide) (Or.inr (Or.inl ?_)) (fun i a b => by simp only [] at b; omega)
    simp only [Fill.Region, cube_centre]
    exact ⟨Real.sqrt_nonneg _, by rw [show (1:ℝ) / 2 = 1 / 2 from rfl]; exact hsq⟩
  · norm_num

/-- A global fill followed by a sphere meets the hypotheses of `C55_fills_partial` on the cube. -/
example : ∃ fills : Arr Fill, fills.size = 2 ∧ (fills.val 1).Region (cube.centre 0) ∧
    ∀ i < fills.size, (fills.val i).volume = .global ∨ (fills.val i).volume = .sphere := by
  refine ⟨⟨2, fun i => if i = 0 then ⟨.global, 0, 0, 0, 0, 0, 0, 0, 0, 1⟩ else ⟨.sphere, 0, 0, 0, 0, 0, 0, 0, 2, 5⟩⟩, rfl, ?_, ?_⟩
  · simp only [Fill.Region, cube_centre]
    refine ⟨Real.sqrt_nonneg _, ?_⟩
    rw [show (2 : ℝ) = Real.sqrt (2 ^ 2) from (Real.sqrt_sq (by norm_num)).symm]
    exact Real.sqrt_le_sqrt (by norm_num)
  · intro i hi
    by_cases h : i = 0
    · left; simp [h]
    · right; simp [h]

end Verif.Average
