import Verif.Geometry.JacobianTheorems

/-!
# Loops of the volume routines
-/

namespace Verif.Geometry
open Finset

/-- The nodes of cell `c` exist. -/
structure CellOK (m : Mesh) (c : ℕ) : Prop where
  size : ∀ l < 8, c * 8 + l < m.nodesInCell.size
  nodes : ∀ l < 8, m.nodesInCell.val (c * 8 + l) < m.coords.size

/-- Coordinate `d` of node `l` of cell `c`. -/
def nodePt (m : Mesh) (c l d : ℕ) : ℝ := m.coords.val (m.nodesInCell.val (c * 8 + l)) d

theorem cellCoords_spec {m : Mesh} {c : ℕ} (h : CellOK m c) {cc : Arr (ℕ → ℝ)} (hc : c < cc.size) (d : ℕ) :
    cellCoords m cc c d = some (⟨cc.size, store cc.val c (store (cc.val c) d ((∑ l ∈ range 8, nodePt m c l d) / 8))⟩,
      (∑ l ∈ range 8, nodePt m c l d) / 8) := by
  have L : ∀ n ≤ 8, loopM n (fun l row => do
      let node ← m.nodesInCell.get (c * 8 + l)
      let x ← m.coords.get node
      pure (store row d (row d + x d))) (store (cc.val c) d 0) =
      some (store (cc.val c) d (∑ l ∈ range n, nodePt m c l d)) := by
    intro n hn
    induction n with
    | zero => simp
    | succ n ih =>
      rw [loopM_succ, ih (by omega)]
      simp only [Option.bind_eq_bind, Option.bind_some]
      rw [Arr.get_lt (h.size n (by omega)), Option.bind_some, Arr.get_lt (h.nodes n (by omega)), Option.bind_some]
      refine congrArg some ?_
      funext d'
      rw [sum_range_succ]
      by_cases hd : d' = d
      · subst hd; simp only [store_same]; rfl
      · simp only [store_ne _ _ hd]
  unfold cellCoords
  simp only [Option.bind_eq_bind] at L ⊢
  rw [Arr.get_lt hc, Option.bind_some, L 8 le_rfl, Option.bind_some, Arr.set_lt _ hc, Option.bind_some]
  simp only [store_same]
  refine congrArg some ?_
  refine Prod.ext ?_ rfl
  simp only []
  congr 1
  funext c'
  by_cases h1 : c' = c
  · subst h1; simp only [store_same]
    funext d'
    by_cases hd : d' = d
    · subst hd; simp only [store_same]
    · simp only [store_ne _ _ hd]
  · simp only [store_ne _ _ h1]

theorem assign_spec {m : Mesh} {c : ℕ} (h : CellOK m c) {cc : Arr (ℕ → ℝ)} (hc : c < cc.size) (d : ℕ) (v : ℝ) :
    assignCellCoords m cc c d v = some ⟨cc.size, store cc.val c (store (cc.val c) d v)⟩ := by
  unfold assignCellCoords
  simp only [Option.bind_eq_bind]
  rw [cellCoords_spec h hc, Option.bind_some, Arr.get_lt (by exact hc), Option.bind_some, Arr.set_lt _ (by exact hc)]
  refine congrArg some ?_
  simp only [store_same]
  congr 1
  funext c'
  by_cases h1 : c' = c
  · subst h1; simp only [store_same]
    funext d'
    by_cases hd : d' = d
    · subst hd; simp only [store_same]
    · simp only [store_ne _ _ hd]
  · simp only [store_ne _ _ h1]

/-- Three assignments, one per component. -/
theorem assign3_spec {m : Mesh} {c : ℕ} (h : CellOK m c) {cc : Arr (ℕ → ℝ)} (hc : c < cc.size) (a b d : ℝ) {β : Type}
    (k : Arr (ℕ → ℝ) → Option β) :
    ((assignCellCoords m cc c 0 a).bind fun cc => (assignCellCoords m cc c 1 b).bind fun cc =>
      (assignCellCoords m cc c 2 d).bind k) =
    k ⟨cc.size, store cc.val c (store (store (store (cc.val c) 0 a) 1 b) 2 d)⟩ := by
  rw [assign_spec h hc, Option.bind_some, assign_spec h (by exact hc), Option.bind_some, assign_spec h (by exact hc),
    Option.bind_some]
  refine congrArg k ?_
  simp only [store_same]
  congr 1
  funext c'
  by_cases h1 : c' = c
  · subst h1; simp only [store_same]
  · simp only [store_ne _ _ h1]

theorem cornerSum_spec {m : Mesh} {r : RefElem.Ref} {detJ : Arr ℝ} {lid gid : ℕ} (h : CellOK m gid) {crn : ℕ → ℕ}
    (h1 : ∀ l < 8, gid * 8 + l < m.gaussInCell.size) (h2 : ∀ l < 8, m.gaussInCell.val (gid * 8 + l) < detJ.size)
    (h3 : ∀ l < 8, r.cornersInCell lid l = some (crn l)) (h4 : ∀ l < 8, crn l < r.cornerW.size) :
    ∃ t, cornerSum m r detJ lid gid = some t ∧
      t.1 = ∑ l ∈ range 8, detJ.val (m.gaussInCell.val (gid * 8 + l)) * r.cornerW.val (crn l) ∧
      ∀ d < 3, t.2 d = ∑ l ∈ range 8, nodePt m gid l d := by
  unfold cornerSum
  refine loopM_spec (fun n (t : ℝ × (ℕ → ℝ)) =>
    t.1 = ∑ l ∈ range n, detJ.val (m.gaussInCell.val (gid * 8 + l)) * r.cornerW.val (crn l) ∧
      ∀ d < 3, t.2 d = ∑ l ∈ range n, nodePt m gid l d) (by simp) ?_
  rintro l ⟨t1, t2⟩ hl ⟨e1, e2⟩
  simp only [] at e1 e2
  simp only [Option.bind_eq_bind]
  rw [Arr.get_lt (h1 l hl), Option.bind_some, h3 l hl, Option.bind_some, Arr.get_lt (h2 l hl), Option.bind_some,
    Arr.get_lt (h4 l hl), Option.bind_some, Arr.get_lt (h.size l hl), Option.bind_some, Arr.get_lt (h.nodes l hl),
    Option.bind_some]
  refine ⟨_, rfl, ?_, ?_⟩
  · simp only [sum_range_succ, e1]
  · intro d hd
    have c : d = 0 ∨ d = 1 ∨ d = 2 := by omega
    rcases c with rfl | rfl | rfl <;> simp [RefElem.row3, sum_range_succ, e2, nodePt]

/-- Mesh hypotheses of the volume routine: the numbers `cid e l` of the cells of the elements, the nodes and Gauss
points of the cells, and the corners `crn l k` of the reference cells. -/
structure VolMesh (m : Mesh) (r : RefElem.Ref) (detJ : Arr ℝ) (cid crn : ℕ → ℕ → ℕ) : Prop where
  cells : ∀ e < m.elems, ∀ l < m.cellsPerElem, m.cellsInElem.get (e * m.cellsPerElem + l) = some (cid e l) ∧ cid e l < m.cells
  inj : ∀ e l e' l', e < m.elems → l < m.cellsPerElem → e' < m.elems → l' < m.cellsPerElem →
    cid e l = cid e' l' → e = e' ∧ l = l'
  nodesSize : m.nodesInCell.size = m.cells * 8
  nodes : ∀ a < m.cells * 8, m.nodesInCell.val a < m.coords.size
  gaussSize : m.gaussInCell.size = m.cells * 8
  gauss : ∀ a < m.cells * 8, m.gaussInCell.val a < detJ.size
  corners : ∀ l < m.cellsPerElem, ∀ k < 8, r.cornersInCell l k = some (crn l k) ∧ crn l k < r.cornerW.size

theorem VolMesh.cellOK {m : Mesh} {r : RefElem.Ref} {detJ : Arr ℝ} {cid crn : ℕ → ℕ → ℕ} (h : VolMesh m r detJ cid crn)
    {c : ℕ} (hc : c < m.cells) : CellOK m c :=
  ⟨fun l hl => by rw [h.nodesSize]; omega, fun l hl => h.nodes _ (by omega)⟩

/-- The volume of cell `l` of element `e`. -/
noncomputable def cvol (m : Mesh) (r : RefElem.Ref) (detJ : Arr ℝ) (cid crn : ℕ → ℕ → ℕ) (e l : ℕ) : ℝ :=
  ∑ k ∈ range 8, detJ.val (m.gaussInCell.val (cid e l * 8 + k)) * r.cornerW.val (crn l k)

/-- What the arrays must contain for a cell with number `c`. -/
def CellDone (m : Mesh) (v : ℝ) (c : ℕ) (s : Vol) : Prop :=
  s.cell.val c = v ∧ ∀ d < 3, s.coords.val c d = (∑ k ∈ range 8, nodePt m c k d) / 8

/-- Sizes of the arrays. -/
def Vol.Sized (s : Vol) (m : Mesh) : Prop := s.cell.size = m.cells ∧ s.coords.size = m.cells ∧ s.elem.size = m.elems

theorem volCell_spec {m : Mesh} {r : RefElem.Ref} {detJ : Arr ℝ} {cid crn : ℕ → ℕ → ℕ} (h : VolMesh m r detJ cid crn)
    {e l : ℕ} (he : e < m.elems) (hl : l < m.cellsPerElem) (s : Vol × ℝ) (hs : s.1.Sized m) :
    ∃ s', volCell m r detJ e l s = some s' ∧ s'.1.Sized m ∧ s'.2 = s.2 + cvol m r detJ cid crn e l ∧
      CellDone m (cvol m r detJ cid crn e l) (cid e l) s'.1 ∧ s'.1.elem = s.1.elem ∧
      (∀ c, c ≠ cid e l → s'.1.cell.val c = s.1.cell.val c ∧ s'.1.coords.val c = s.1.coords.val c) := by
  obtain ⟨c1, c2⟩ := h.cells e he l hl
  obtain ⟨s1, s2, s3⟩ := hs
  have hg := h.gaussSize
  obtain ⟨t, t1, t2, t3⟩ := cornerSum_spec (r := r) (detJ := detJ) (lid := l) (crn := crn l) (h.cellOK c2)
    (fun k hk => by rw [hg]; omega) (fun k hk => h.gauss _ (by omega)) (fun k hk => (h.corners l hl k hk).1)
    (fun k hk => (h.corners l hl k hk).2)
  refine ⟨(⟨⟨s.1.cell.size, store s.1.cell.val (cid e l) t.1⟩, ⟨s.1.coords.size, store s.1.coords.val (cid e l)
    (store (store (store (s.1.coords.val (cid e l)) 0 (t.2 0 * (1 / 8))) 1 (t.2 1 * (1 / 8))) 2 (t.2 2 * (1 / 8)))⟩,
    s.1.elem⟩, s.2 + t.1), ?_, ⟨s1, s2, s3⟩, ?_, ⟨?_, ?_⟩, rfl, ?_⟩
  · unfold volCell
    simp only [Option.bind_eq_bind]
    rw [c1, Option.bind_some, t1, Option.bind_some, Arr.set_lt _ (by omega), Option.bind_some,
      assign3_spec (h.cellOK c2) (by omega)]
    rfl
  · simp only [t2]; rfl
  · simp only [store_same, t2]; rfl
  · intro d hd
    have c : d = 0 ∨ d = 1 ∨ d = 2 := by omega
    rcases c with rfl | rfl | rfl <;> simp [store, t3] <;> ring
  · intro c hc
    simp only [store_ne _ _ hc]
    exact ⟨trivial, trivial⟩

theorem volJacobi_spec {m : Mesh} {r : RefElem.Ref} {detJ : Arr ℝ} {cid crn : ℕ → ℕ → ℕ} (h : VolMesh m r detJ cid crn)
    (s : Vol) (hs : s.Sized m) :
    ∃ s', volJacobi m r detJ s = some s' ∧ s'.Sized m ∧
      ∀ e < m.elems, (∀ l < m.cellsPerElem, CellDone m (cvol m r detJ cid crn e l) (cid e l) s') ∧
        s'.elem.val e = ∑ l ∈ range m.cellsPerElem, cvol m r detJ cid crn e l := by
  unfold volJacobi
  refine (loopM_spec (fun E s => Vol.Sized s m ∧
    ∀ e < E, (∀ l < m.cellsPerElem, CellDone m (cvol m r detJ cid crn e l) (cid e l) s) ∧
        s.elem.val e = ∑ l ∈ range m.cellsPerElem, cvol m r detJ cid crn e l) ⟨hs, by intro e he; omega⟩ ?_)
  rintro E s hE ⟨hS, hI⟩
  obtain ⟨t, t1, t2, t3, t4, t5, t6⟩ := loopM_spec (n := m.cellsPerElem) (body := volCell m r detJ E) (s := (s, 0))
    (fun n t => t.1.Sized m ∧ t.2 = ∑ l ∈ range n, cvol m r detJ cid crn E l ∧
      (∀ l < n, CellDone m (cvol m r detJ cid crn E l) (cid E l) t.1) ∧ t.1.elem = s.elem ∧
      ∀ e < E, ∀ l < m.cellsPerElem, CellDone m (cvol m r detJ cid crn e l) (cid e l) t.1)
    ⟨hS, by simp, by intro l hl; omega, rfl, fun e he l hl => (hI e he).1 l hl⟩
    (by
      rintro n t hn ⟨i1, i2, i3, i4, i5⟩
      obtain ⟨t', j1, j2, j3, j4, j5, j6⟩ := volCell_spec h hE hn t i1
      have keep : ∀ {v c}, c ≠ cid E n → CellDone m v c t.1 → CellDone m v c t'.1 := by
        rintro v c hc ⟨a1, a2⟩
        obtain ⟨k1, k2⟩ := j6 c hc
        exact ⟨by rw [k1]; exact a1, by rw [k2]; exact a2⟩
      refine ⟨t', j1, j2, by rw [j3, i2, sum_range_succ], ?_, by rw [j5, i4], ?_⟩
      · intro l hl
        by_cases hl' : l = n
        · subst hl'; exact j4
        · refine keep (fun hc => hl' (h.inj E l E n hE (by omega) hE hn hc).2) (i3 l (by omega))
      · intro e he l hl
        exact keep (fun hc => by have := (h.inj e l E n (by omega) hl hE hn hc).1; omega) (i5 e he l hl))
  obtain ⟨z1, z2, z3⟩ := t2
  refine ⟨⟨t.1.cell, t.1.coords, ⟨t.1.elem.size, store t.1.elem.val E t.2⟩⟩, ?_, ⟨z1, z2, z3⟩, ?_⟩
  · simp only [Option.bind_eq_bind]
    rw [t1, Option.bind_some, Arr.set_lt _ (by omega), Option.bind_some]
    rfl
  · intro e he
    by_cases hee : e = E
    · subst hee
      exact ⟨fun l hl => t4 l hl, by simp only [store_same]; exact t3⟩
    · refine ⟨fun l hl => t6 e (by omega) l hl, ?_⟩
      simp only [store_ne _ _ hee, t5]
      exact (hI e (by omega)).2

end Verif.Geometry
