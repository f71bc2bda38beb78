import Verif.Average.Cycle
import Mathlib.Tactic.IntervalCases

/-!
# A concrete mesh for the hypotheses of C54: two cells side by side, one cell per element
-/

namespace Verif.Average
open Verif.Swage

/-- Node `l` of cell `c`. -/
def exNodes (c l : ℕ) : ℕ := c + l % 2 + 3 * (l / 2 % 2) + 6 * (l / 4)

theorem exIncidences (n : ℕ) (hn : n < 12) :
    incidences 2 8 (fun c l => exNodes ((c * 8 + l) / 8) ((c * 8 + l) % 8)) n = incidences 2 8 (fun c l => exNodes c l) n := by
  revert n; decide

/-- The mesh; with `w = 0` its boundary sets are empty. -/
theorem example_mesh_gen (w : ℕ) (hw : w ≤ 1) : ∃ m : Mesh, m.elems = 2 ∧ m.coords.size = m.nodes ∧ m.cells = 2 ∧ m.nodes = 12 ∧ m.Ok ∧ m.ElemOk ∧ m.Covered ∧
    (∀ n < m.nodes, m.cellsOf n ≠ []) ∧ m.SetOk 0 ∧ m.SetOk 3 ∧ (w = 1 → m.OnSet 0 1) ∧ (w = 1 → m.OnSet 3 11) ∧
    (w = 0 → ∀ b < 4, ∀ n, ¬ m.OnSet b n) ∧ ∀ n < 12, ∃ c < 2, (∃ l < 8, m.nodesInCell.val (c * 8 + l) = n) ∧ ∃ l < 8, m.nodesInCell.val (c * 8 + l) = 1 := by
  obtain ⟨r, e, hr⟩ := C35_node_cells 2 12 (fun c l => exNodes c l) (by decide) ⟨⟨12, fun _ => 0⟩, ⟨13, fun _ => 0⟩, ⟨0, fun _ => 0⟩⟩ rfl rfl
    (fun _ => 0) (fun _ => 0)
  refine ⟨⟨12, 2, 2, 1, 8, ⟨16, fun x => exNodes (x / 8) (x % 8)⟩, r, ⟨2, fun x => x⟩, ⟨16, fun x => exNodes (x / 8) (x % 8)⟩,
    ⟨12, fun _ _ => 0⟩, ⟨4, ⟨0, fun _ => 0⟩, ⟨0, fun _ => 0⟩, ⟨16, fun x => (x % 12 : ℕ)⟩, fun _ _ => 0, fun _ _ => 0, 0⟩,
    ⟨4, ⟨4, fun _ => w⟩, ⟨5, fun b => b⟩, ⟨4, fun b => if b = 3 then 2 else b⟩⟩⟩, rfl, rfl, rfl, rfl, ⟨rfl, ?_, ?_, ?_⟩, ⟨rfl, ?_, rfl, ?_⟩, ⟨?_, ?_⟩, ?_, ?_, ?_, ?_, ?_, ?_, ?_⟩
  · show ∀ i < 16, exNodes (i / 8) (i % 8) < 12
    decide
  · intro n hn
    have hi : incidences 2 8 (fun c l => exNodes ((c * 8 + l) / 8) ((c * 8 + l) % 8)) n = incidences 2 8 (fun c l => exNodes c l) n :=
      exIncidences n hn
    show r.numCellsInNode n = some ((incidences 2 8 (fun c l => exNodes ((c * 8 + l) / 8) ((c * 8 + l) % 8)) n).map Prod.fst).length
    rw [hi, List.length_map]
    exact (hr n hn).1
  · intro n hn
    have hi : incidences 2 8 (fun c l => exNodes ((c * 8 + l) / 8) ((c * 8 + l) % 8)) n = incidences 2 8 (fun c l => exNodes c l) n :=
      exIncidences n hn
    show (List.range ((incidences 2 8 (fun c l => exNodes ((c * 8 + l) / 8) ((c * 8 + l) % 8)) n).map Prod.fst).length).map (fun l => r.cellsInNode n l) =
      ((incidences 2 8 (fun c l => exNodes ((c * 8 + l) / 8) ((c * 8 + l) % 8)) n).map Prod.fst).map some
    rw [hi, List.length_map, List.map_map]
    exact (hr n hn).2
  · show ∀ x < 2, x < 2
    exact fun x h => h
  · show ∀ i < 16, exNodes (i / 8) (i % 8) < 12
    decide
  · intro c hc; exact ⟨c, hc, rfl⟩
  · show ∀ n < 12, ∃ x < 16, exNodes (x / 8) (x % 8) = n
    decide
  · show ∀ n < 12, (incidences 2 8 (fun c l => exNodes ((c * 8 + l) / 8) ((c * 8 + l) % 8)) n).map Prod.fst ≠ []
    decide
  · refine ⟨w, rfl, fun i hi => ?_⟩
    have : i = 0 := by omega
    subst this
    refine ⟨0, rfl, fun q hq => ⟨q % 12, ?_, ?_⟩⟩
    · interval_cases q <;> rfl
    · show q % 12 < 12
      omega
  · refine ⟨w, rfl, fun i hi => ?_⟩
    have : i = 0 := by omega
    subst this
    refine ⟨2, rfl, fun q hq => ⟨(8 + q) % 12, ?_, ?_⟩⟩
    · interval_cases q <;> rfl
    · show (8 + q) % 12 < 12
      omega
  · rintro rfl; exact ⟨1, rfl, 0, by decide, 0, rfl, 1, by decide, rfl⟩
  · rintro rfl; exact ⟨1, rfl, 0, by decide, 2, rfl, 3, by decide, rfl⟩
  · rintro rfl b hb n ⟨k, hk, i, hi, -⟩
    obtain ⟨-, rfl⟩ := Arr.get_eq_some hk
    exact absurd hi (Nat.not_lt_zero i)
  · show ∀ n < 12, ∃ c < 2, (∃ l < 8, exNodes ((c * 8 + l) / 8) ((c * 8 + l) % 8) = n) ∧ ∃ l < 8, exNodes ((c * 8 + l) / 8) ((c * 8 + l) % 8) = 1
    decide

theorem example_mesh_full : ∃ m : Mesh, m.elems = 2 ∧ m.coords.size = m.nodes ∧ m.cells = 2 ∧ m.nodes = 12 ∧ m.Ok ∧ m.ElemOk ∧ m.Covered ∧ (∀ n < m.nodes, m.cellsOf n ≠ []) ∧
    m.SetOk 0 ∧ m.SetOk 3 ∧ (∃ n, m.OnSet 0 n) ∧ (∃ n, m.OnSet 3 n ∧ n = 11) :=
  let ⟨m, h1, h2, h3, h4, h5, h6, h7, h8, h9, h10, h11, h12, _⟩ := example_mesh_gen 1 (by omega)
  ⟨m, h1, h2, h3, h4, h5, h6, h7, h8, h9, h10, ⟨1, h11 rfl⟩, ⟨11, h12 rfl, rfl⟩⟩

theorem example_mesh : ∃ m : Mesh, m.cells = 2 ∧ m.nodes = 12 ∧ m.Ok ∧ m.ElemOk ∧ m.Covered ∧ (∀ n < m.nodes, m.cellsOf n ≠ []) ∧
    m.SetOk 0 ∧ m.SetOk 3 ∧ (∃ n, m.OnSet 0 n) ∧ (∃ n, m.OnSet 3 n ∧ n = 11) :=
  let ⟨m, h⟩ := example_mesh_full
  ⟨m, h.2.2⟩

end Verif.Average
