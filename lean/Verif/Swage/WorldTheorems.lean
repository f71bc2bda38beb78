import Verif.Swage.World
import Verif.Swage.RefineTheorems
import Mathlib.Tactic.Linarith

/-!
# C91: every mesh owns its quadrature-point state

* `C91_gauss`: after a refinement the Gauss-point state of the refined mesh has one slot per Gauss point, addressed bijectively by
  (element, local point).
* `C91_access`, `C91_write`: an access is defined exactly for the points of the allocation and the matrix indices below 3; a write is
  seen by the same access and by no other one.
* `C91_frame_partial`: an operation changes the mesh it is called for and, at most, the global mesh.
* `C91_global_partial`, `C91_average`: the patch and cell points of the *global* mesh are right after its refinement, in particular in the
  Average example.
* `C91_local_negation`, `C91_new_negation`: the refinement of any other mesh leaves its patch- and cell-point state as it was: for a new
  object no access to it is defined.
* `C91_clobber_negation`: it replaces the state of the global mesh: what was stored there is lost.
* `C91_count_negation`: nothing ever sets the number of cell points.
-/

namespace Verif.Swage.World
open Verif.Swage

variable {K : Type} {ι : Type} [DecidableEq ι]

/-- Specification: state for `n` points. -/
def SizedFor (s : PtState K) (n : ℕ) : Prop := s.jac.size = 9 * n ∧ s.inv.size = 9 * n ∧ s.det.size = n

theorem alloc_sized (n : ℕ) (q : Junk K) : SizedFor (alloc n q) n := ⟨by show n * 3 * 3 = _; ring, by show n * 3 * 3 = _; ring, rfl⟩

theorem upd_same (w : ι → Mesh K) (a : ι) (f : Mesh K → Mesh K) : upd w a f a = f (w a) := if_pos rfl
theorem upd_ne (w : ι → Mesh K) {a b : ι} (h : b ≠ a) (f : Mesh K → Mesh K) : upd w a f b = w b := if_neg h

/-- Number of entries of an array with one matrix, or one determinant, per point. -/
def cap (r : Part) (n : ℕ) : ℕ := match r with | .det => n | _ => 9 * n

theorem arr_size {s : PtState K} {n : ℕ} (h : SizedFor s n) (r : Part) :
    (s.arr r).size = cap r n := by
  cases r
  · exact h.1
  · exact h.2.1
  · exact h.2.2

theorem slot_lt {r : Part} {i j : ℕ} (h : okIJ r i j) {pt n : ℕ} :
    slot r pt i j < cap r n ↔ pt < n := by
  cases r <;> simp only [okIJ, slot, cap] at h ⊢ <;> omega

/-- **C91, accesses.**  With state for `n` points an access is defined exactly for points below `n` and matrix indices below 3. -/
theorem C91_access (m : Mesh K) (k : Kind) (n : ℕ) (h : SizedFor (m.state k) n) (r : Part) (pt i j : ℕ) :
    ((∃ v, read m k r pt i j = some v) ↔ pt < n ∧ okIJ r i j) ∧
      ((∃ v, read m k r pt i j = some v) ↔ ∀ v, ∃ m', write m k r pt i j v = some m') := by
  have hr : (∃ v, read m k r pt i j = some v) ↔ pt < n ∧ okIJ r i j := by
    unfold read
    by_cases hok : okIJ r i j
    · rw [if_pos hok]
      have hs := slot_lt hok (pt := pt) (n := n)
      have ha := arr_size h r
      unfold Arr.get
      rw [ha]
      constructor
      · rintro ⟨v, hv⟩
        split at hv
        · exact ⟨hs.1 ‹_›, hok⟩
        · cases hv
      · rintro ⟨h1, -⟩
        exact ⟨_, if_pos (hs.2 h1)⟩
    · rw [if_neg hok]
      simp [hok]
  refine ⟨hr, ?_⟩
  rw [hr]
  unfold write
  by_cases hok : okIJ r i j
  · simp only [if_pos hok]
    have hs := slot_lt hok (pt := pt) (n := n)
    have ha := arr_size h r
    unfold Arr.set
    rw [ha]
    constructor
    · rintro ⟨h1, -⟩ v
      rw [if_pos (hs.2 h1)]
      exact ⟨_, rfl⟩
    · intro hv
      by_contra hcon
      have : ¬ pt < n := fun h1 => hcon ⟨h1, hok⟩
      -- the state has a value to try unless the array is empty; use the definedness for any value
      have hno : ¬ slot r pt i j < cap r n := fun h2 => this (hs.1 h2)
      obtain ⟨m', hm'⟩ := hv (((m.state k).arr r).val 0)
      rw [if_neg hno] at hm'
      cases hm'
  · simp only [if_neg hok]
    constructor
    · rintro ⟨-, h2⟩; exact absurd h2 hok
    · intro hv
      obtain ⟨m', hm'⟩ := hv (((m.state k).arr r).val 0)
      cases hm'

theorem slot_inj {r : Part} {pt i j pt' i' j' : ℕ} (h : okIJ r i j) (h' : okIJ r i' j')
    (e : slot r pt i j = slot r pt' i' j') : pt = pt' ∧ i = i' ∧ j = j' := by
  cases r <;> simp only [okIJ, slot] at h h' e <;> omega

/-- **C91, writes.**  A write is seen by the same access and by no other access to the mesh; it changes no count. -/
theorem C91_write (m m' : Mesh K) (k : Kind) (r : Part) (pt i j : ℕ) (v : K) (h : write m k r pt i j v = some m') :
    read m' k r pt i j = some v ∧
      (∀ k' r' pt' i' j', (k', r', pt', i', j') ≠ (k, r, pt, i, j) → read m' k' r' pt' i' j' = read m k' r' pt' i' j') ∧
      m'.numG = m.numG ∧ m'.numGPatch = m.numGPatch ∧ m'.numElem = m.numElem ∧ m'.numCells = m.numCells ∧ m'.nig = m.nig := by
  unfold write at h
  by_cases hok : okIJ r i j
  · rw [if_pos hok] at h
    obtain ⟨a, ha, rfl⟩ := Option.map_eq_some_iff.1 h
    unfold Arr.set at ha
    split at ha
    · rename_i hlt
      have ha := (Option.some.inj ha).symm
      subst ha
      have hst : ((m.put k ((m.state k).put r ⟨((m.state k).arr r).size, store ((m.state k).arr r).val (slot r pt i j) v⟩)).state k)
          = (m.state k).put r ⟨((m.state k).arr r).size, store ((m.state k).arr r).val (slot r pt i j) v⟩ := by cases k <;> rfl
      have harr : ∀ (s : PtState K) (b : Arr K), (s.put r b).arr r = b := by intro s b; cases r <;> rfl
      refine ⟨?_, ?_, ?_⟩
      · unfold read
        rw [if_pos hok, hst, harr, Arr.get_lt (by exact hlt)]
        exact congrArg some (store_same _ _ _)
      · intro k' r' pt' i' j' hne
        unfold read
        by_cases hok' : okIJ r' i' j'
        · rw [if_pos hok', if_pos hok']
          by_cases hk : k' = k
          · subst hk
            rw [hst]
            by_cases hr : r' = r
            · subst hr
              rw [harr]
              have hs : slot r' pt' i' j' ≠ slot r' pt i j := by
                intro e
                obtain ⟨rfl, rfl, rfl⟩ := slot_inj hok' hok e
                exact hne rfl
              unfold Arr.get
              simp only []
              rw [store_ne _ _ hs]
            · congr 1
              cases r <;> cases r' <;> first | rfl | exact absurd rfl hr
          · have : (m.put k ((m.state k).put r ⟨((m.state k).arr r).size, store ((m.state k).arr r).val (slot r pt i j) v⟩)).state k'
              = m.state k' := by cases k <;> cases k' <;> first | rfl | exact absurd rfl hk
            rw [this]
        · rw [if_neg hok', if_neg hok']
      · cases k <;> exact ⟨rfl, rfl, rfl, rfl, rfl⟩
    · cases ha
  · rw [if_neg hok] at h
    cases h

/-! ### Refinement -/

theorem buildPatch_global (g a : ι) (qp qc : Junk K) (w : ι → Mesh K) :
    buildPatch g a qp qc w g = initGaussCell qc (initGaussPatch qp (w g)) := by
  unfold buildPatch; rw [upd_same, upd_same]

theorem buildPatch_other {g b : ι} (a : ι) (qp qc : Junk K) (w : ι → Mesh K) (h : b ≠ g) : buildPatch g a qp qc w b = w b := by
  unfold buildPatch; rw [upd_ne _ h, upd_ne _ h]

/-- The mesh before `build_connectivity`. -/
theorem pre_same (w : ι → Mesh K) (a : ι) (p E : ℕ) (q : RJunk K) :
    (upd (upd (upd w a (initElement p 3 E)) a (initCells (E * Refine.sub1d p ^ 3))) a (initGauss q.nig q.pt)) a =
      initGauss q.nig q.pt (initCells (E * Refine.sub1d p ^ 3) (initElement p 3 E (w a))) := by
  rw [upd_same, upd_same, upd_same]

theorem pre_ne (w : ι → Mesh K) {a b : ι} (h : b ≠ a) (p E : ℕ) (q : RJunk K) :
    (upd (upd (upd w a (initElement p 3 E)) a (initCells (E * Refine.sub1d p ^ 3))) a (initGauss q.nig q.pt)) b = w b := by
  rw [upd_ne _ h, upd_ne _ h, upd_ne _ h]

/-- **C91, Gauss points.**  After the refinement of mesh `a` with `E` elements to order `p` (whichever mesh is the global one) it reports
`E n³` Gauss points, `n = 2p + 1` (2 for order 0), has state and a node entry for exactly these, and `gauss_in_elem` maps the pairs (element,
local point) one-to-one onto them. -/
theorem C91_gauss (g a : ι) (p E : ℕ) (q : RJunk K) (w w' : ι → Mesh K) (h : (Op.refine a p E q).run g w = some w') :
    let n := if p = 0 then 2 else 2 * p + 1
    (w' a).numG = E * n ^ 3 ∧ (w' a).nig.size = E * n ^ 3 ∧ SizedFor (w' a).pt (E * n ^ 3) ∧
      (∀ e < E, ∀ l < n ^ 3, gaussInElem (w' a).gInElem e l < E * n ^ 3) ∧
      ∀ x < E * n ^ 3, ∃! el : ℕ × ℕ, el.1 < E ∧ el.2 < n ^ 3 ∧ gaussInElem (w' a).gInElem el.1 el.2 = x := by
  intro n
  have h := (Option.some.inj h).symm
  subst h
  have hpre : ∃ m : Mesh K, m = initGauss q.nig q.pt (initCells (E * Refine.sub1d p ^ 3) (initElement p 3 E (w a))) ∧
      (refine g a p E q w a).numG = m.numG ∧ (refine g a p E q w a).nig = m.nig ∧ (refine g a p E q w a).pt = m.pt ∧
      (refine g a p E q w a).gInElem = m.gInElem := by
    refine ⟨_, rfl, ?_⟩
    unfold refine
    by_cases hga : a = g
    · subst hga
      rw [buildPatch_global, pre_same]
      exact ⟨rfl, rfl, rfl, rfl⟩
    · rw [buildPatch_other _ _ _ _ hga, pre_same]
      exact ⟨rfl, rfl, rfl, rfl⟩
  obtain ⟨m, rfl, h1, h2, h3, h4⟩ := hpre
  have hn : n = Refine.pts1d p := rfl
  have hG : (initGauss q.nig q.pt (initCells (E * Refine.sub1d p ^ 3) (initElement p 3 E (w a)))).gInElem = n ^ 3 := rfl
  rw [h1, h2, h3, h4, hG]
  refine ⟨rfl, rfl, alloc_sized _ _, ?_, ?_⟩
  · intro e he l hl
    unfold gaussInElem
    calc e * n ^ 3 + l < (e + 1) * n ^ 3 := by rw [Nat.add_mul]; omega
      _ ≤ E * n ^ 3 := Nat.mul_le_mul_right _ he
  · intro x hx
    have hn0 : 0 < n ^ 3 := by
      have : 0 < n := by rw [hn]; unfold Refine.pts1d; split <;> omega
      positivity
    refine ⟨(x / n ^ 3, x % n ^ 3), ⟨?_, Nat.mod_lt _ hn0, ?_⟩, ?_⟩
    · exact Nat.div_lt_of_lt_mul (by rw [Nat.mul_comm]; exact hx)
    · show x / n ^ 3 * n ^ 3 + x % n ^ 3 = x
      exact Nat.div_add_mod' x (n ^ 3)
    · rintro ⟨e, l⟩ ⟨he, hl, hx'⟩
      unfold gaussInElem at hx'
      simp only [] at hl hx'
      subst hx'
      rw [Nat.add_comm, Nat.add_mul_div_right _ _ hn0, Nat.div_eq_of_lt hl, Nat.zero_add, Nat.add_mul_mod_self_right,
        Nat.mod_eq_of_lt hl]

/-- **C91, patch and cell points of the global mesh (partial).**  If the refined mesh is the global object, it has state for all its
patch points and all its cells, and reports the number of patch points. -/
theorem C91_global_partial (g : ι) (p E : ℕ) (q : RJunk K) (w w' : ι → Mesh K) (h : (Op.refine g p E q).run g w = some w') :
    (w' g).numGPatch = E * (Refine.initElement p 3 E).patches ∧ SizedFor (w' g).patchPt (E * (Refine.initElement p 3 E).patches) ∧
      (w' g).numCells = E * (Refine.initElement p 3 E).cells ∧ SizedFor (w' g).cellPt (E * (Refine.initElement p 3 E).cells) := by
  have h := (Option.some.inj h).symm
  subst h
  unfold refine
  rw [buildPatch_global, pre_same]
  have hc : E * Refine.sub1d p ^ 3 = E * (Refine.initElement p 3 E).cells := by
    congr 1
    unfold Refine.sub1d Refine.initElement Refine.pts1d
    by_cases hp : p = 0
    · subst hp; rfl
    · simp only [if_neg hp]; ring
  refine ⟨rfl, alloc_sized _ _, hc, ?_⟩
  rw [← hc]
  exact alloc_sized _ _

/-- **C91, frame (partial).**  An operation changes no mesh but the one it is called for and the global one. -/
theorem C91_frame_partial (g : ι) (o : Op K ι) (w w' : ι → Mesh K) (h : o.run g w = some w') (b : ι) (hb : b ≠ o.target) (hg : b ≠ g) :
    w' b = w b := by
  cases o with
  | element a p dim E => cases h; exact upd_ne _ hb _
  | cells a n => cases h; exact upd_ne _ hb _
  | gauss a qn q => cases h; exact upd_ne _ hb _
  | gaussPatch a q => cases h; exact upd_ne _ hb _
  | gaussCell a q => cases h; exact upd_ne _ hb _
  | patches a qp qc => cases h; exact buildPatch_other _ _ _ _ hg
  | refine a p E q => cases h; unfold World.refine; rw [buildPatch_other _ _ _ _ hg]; exact pre_ne _ hb _ _ _
  | write a k r pt i j v =>
    obtain ⟨m, -, rfl⟩ := Option.map_eq_some_iff.1 h
    exact upd_ne _ hb _

/-- **C91, negation: other meshes.**  The refinement of a mesh that is not the global object leaves its patch- and cell-point state and its
number of patch points as they were. -/
theorem C91_local_negation (g a : ι) (hga : a ≠ g) (p E : ℕ) (q : RJunk K) (w w' : ι → Mesh K)
    (h : (Op.refine a p E q).run g w = some w') :
    (w' a).patchPt = (w a).patchPt ∧ (w' a).cellPt = (w a).cellPt ∧ (w' a).numGPatch = (w a).numGPatch := by
  have h := (Option.some.inj h).symm
  subst h
  unfold refine
  rw [buildPatch_other _ _ _ _ hga, pre_same]
  exact ⟨rfl, rfl, rfl⟩

/-- **C91, negation: new objects.**  A new mesh object (nothing allocated) that is not the global one: after its refinement no access to the
state of its patch points and cells is defined. -/
theorem C91_new_negation (g a : ι) (hga : a ≠ g) (p E : ℕ) (q : RJunk K) (w w' : ι → Mesh K)
    (hnew : SizedFor (w a).patchPt 0 ∧ SizedFor (w a).cellPt 0) (h : (Op.refine a p E q).run g w = some w') (r : Part) (pt i j : ℕ) (v : K) :
    read (w' a) .patch r pt i j = none ∧ read (w' a) .cell r pt i j = none ∧
      write (w' a) .patch r pt i j v = none ∧ write (w' a) .cell r pt i j v = none := by
  obtain ⟨h1, h2, -⟩ := C91_local_negation g a hga p E q w w' h
  have hp : SizedFor ((w' a).state .patch) 0 := by show SizedFor (w' a).patchPt 0; rw [h1]; exact hnew.1
  have hc : SizedFor ((w' a).state .cell) 0 := by show SizedFor (w' a).cellPt 0; rw [h2]; exact hnew.2
  have key : ∀ k, SizedFor ((w' a).state k) 0 → read (w' a) k r pt i j = none ∧ write (w' a) k r pt i j v = none := by
    intro k hk
    have hsz : ((w' a).state k).arr r = ((w' a).state k).arr r ∧ (((w' a).state k).arr r).size = 0 := by
      refine ⟨rfl, ?_⟩
      rw [arr_size hk r]; cases r <;> rfl
    unfold read write
    by_cases hok : okIJ r i j
    · rw [if_pos hok, if_pos hok, Arr.get_ge (by omega), Arr.set_ge _ (by omega)]
      exact ⟨rfl, rfl⟩
    · rw [if_neg hok, if_neg hok]
      exact ⟨rfl, rfl⟩
  exact ⟨(key .patch hp).1, (key .cell hc).1, (key .patch hp).2, (key .cell hc).2⟩

/-- **C91, negation: the global mesh is overwritten.**  Building the patches of any mesh `a` (or refining it) reallocates the patch-point
state of the global mesh: whatever is stored there, the value read afterwards is the initial content of the new array; for a suitable one it is
not the value stored. -/
theorem C91_clobber_negation [Nontrivial K] (g a : ι) (w : ι → Mesh K) (pt i j : ℕ) (hi : i < 3) (hj : j < 3)
    (hpt : pt < (w g).numElem * (w g).patchPtsInElem) (v : K) (_hv : read (w g) .patch .jac pt i j = some v) :
    ∃ (qp qc : Junk K) (w' : ι → Mesh K), (Op.patches a qp qc).run g w = some w' ∧ read (w' g) .patch .jac pt i j ≠ some v := by
  obtain ⟨u, hu⟩ := exists_ne v
  refine ⟨⟨fun _ => u, fun _ => u, fun _ => u⟩, ⟨fun _ => u, fun _ => u, fun _ => u⟩, _, rfl, ?_⟩
  rw [buildPatch_global]
  unfold read
  rw [if_pos (show okIJ .jac i j from ⟨hi, hj⟩)]
  show Arr.get ⟨(w g).numElem * (w g).patchPtsInElem * 3 * 3, fun _ => u⟩ (pt * 3 * 3 + i * 3 + j) ≠ some v
  rw [Arr.get_lt (show pt * 3 * 3 + i * 3 + j < (w g).numElem * (w g).patchPtsInElem * 3 * 3 by omega)]
  intro h
  exact hu (Option.some.inj h)

theorem run_count (g : ι) (o : Op K ι) (w w' : ι → Mesh K) (h : o.run g w = some w') (b : ι) : (w' b).numGCell = (w b).numGCell := by
  have hu : ∀ (w : ι → Mesh K) (a : ι) (f : Mesh K → Mesh K), (∀ m, (f m).numGCell = m.numGCell) → (upd w a f b).numGCell = (w b).numGCell := by
    intro w a f hf
    unfold upd; split
    · rename_i hb; subst hb; exact hf _
    · rfl
  have hbuild : ∀ (a : ι) (qp qc : Junk K) (w : ι → Mesh K), (buildPatch g a qp qc w b).numGCell = (w b).numGCell := by
    intro a qp qc w
    unfold buildPatch
    exact (hu _ _ (initGaussCell qc) (fun _ => rfl)).trans (hu _ _ (initGaussPatch qp) (fun _ => rfl))
  cases o with
  | element a p dim E => cases h; exact hu _ _ _ (fun _ => rfl)
  | cells a n => cases h; exact hu _ _ _ (fun _ => rfl)
  | gauss a qn q => cases h; exact hu _ _ _ (fun _ => rfl)
  | gaussPatch a q => cases h; exact hu _ _ _ (fun _ => rfl)
  | gaussCell a q => cases h; exact hu _ _ _ (fun _ => rfl)
  | patches a qp qc => cases h; exact hbuild _ _ _ _
  | refine a p E q =>
    cases h; unfold World.refine
    rw [hbuild]
    exact (hu _ _ (initGauss q.nig q.pt) (fun _ => rfl)).trans ((hu _ _ (initCells _) (fun _ => rfl)).trans
      (hu _ _ (initElement p 3 E) (fun _ => rfl)))
  | write a k r pt i j v =>
    obtain ⟨m, hm, rfl⟩ := Option.map_eq_some_iff.1 h
    unfold upd; split
    · rename_i hb; subst hb
      unfold World.write at hm
      split at hm
      · obtain ⟨x, -, rfl⟩ := Option.map_eq_some_iff.1 hm
        cases k <;> rfl
      · cases hm
    · rfl

/-- **C91, negation: the number of cell points.**  After any history `num_gauss_cell_pts()` of a mesh is the indeterminate value it had at
the beginning. -/
theorem C91_count_negation (g : ι) (l : List (Op K ι)) (w w' : ι → Mesh K) (h : runAll g l w = some w') (b : ι) :
    (w' b).numGCell = (w b).numGCell := by
  induction l generalizing w with
  | nil => cases h; rfl
  | cons o l ih =>
    obtain ⟨w1, h1, h2⟩ := Option.bind_eq_some_iff.1 h
    rw [ih w1 h2, run_count g o w w1 h1]

/-- **C91 in the Average example.**  `read_mesh` builds the patches of `init_mesh` and refines it into the global `mesh`: at the end the state
of the Gauss, patch and cell points of `mesh` is allocated for all of them. -/
theorem C91_average (g im : ι) (hne : im ≠ g) (p E : ℕ) (qp qc : Junk K) (q : RJunk K) (w w' : ι → Mesh K)
    (h : runAll g [.element im 0 3 E, .cells im E, .patches im qp qc, .refine g p E q] w = some w') :
    SizedFor (w' g).pt (E * (Refine.initElement p 3 E).gPts) ∧ SizedFor (w' g).patchPt (E * (Refine.initElement p 3 E).patches) ∧
      SizedFor (w' g).cellPt (E * (Refine.initElement p 3 E).cells) ∧ (w' g).numGPatch = E * (Refine.initElement p 3 E).patches ∧
      (w' im).numElem = E ∧ (w' im).numCells = E := by
  obtain ⟨w1, h1, h⟩ := Option.bind_eq_some_iff.1 h
  obtain ⟨w2, h2, h⟩ := Option.bind_eq_some_iff.1 h
  obtain ⟨w3, h3, h⟩ := Option.bind_eq_some_iff.1 h
  obtain ⟨w4, h4, h⟩ := Option.bind_eq_some_iff.1 h
  have h := (Option.some.inj h)
  subst h
  obtain ⟨-, -, a3, -⟩ := C91_gauss g g p E q w3 w4 h4
  obtain ⟨b1, b2, -, b4⟩ := C91_global_partial g p E q w3 w4 h4
  have f4 := C91_frame_partial g _ w3 w4 h4 im hne hne
  cases h3
  cases h2
  cases h1
  refine ⟨a3, b2, b4, b1, ?_⟩
  rw [f4, buildPatch_other _ _ _ _ hne, upd_same, upd_same]
  exact ⟨rfl, rfl⟩

/-! ### Concrete cases -/

/-- A new object. -/
def fresh (z : ℕ) : Mesh ℚ := ⟨z, z, z, z, z, z, z, z, ⟨0, fun _ => 0⟩, ⟨⟨0, fun _ => 0⟩, ⟨0, fun _ => 0⟩, ⟨0, fun _ => 0⟩⟩,
  ⟨⟨0, fun _ => 0⟩, ⟨0, fun _ => 0⟩, ⟨0, fun _ => 0⟩⟩, ⟨⟨0, fun _ => 0⟩, ⟨0, fun _ => 0⟩, ⟨0, fun _ => 0⟩⟩⟩

/-- Some initial contents. -/
def zeroJ : Junk ℚ := ⟨fun _ => 0, fun _ => 0, fun _ => 0⟩

/-- Non-vacuity: two elements of order 2, refined into the global mesh 0 and into a new mesh 1. -/
example : ∃ w w' : ℕ → Mesh ℚ, (Op.refine 0 2 2 ⟨fun _ => 0, zeroJ, zeroJ, zeroJ⟩).run 0 (fun _ => fresh 0) = some w ∧
    (Op.refine 1 2 2 ⟨fun _ => 0, zeroJ, zeroJ, zeroJ⟩).run 0 w = some w' ∧
    (w 0).numG = 250 ∧ (w 0).numGPatch = 480 ∧ SizedFor (w 0).cellPt 128 ∧ (w' 1).numG = 250 ∧ SizedFor (w' 1).patchPt 0 ∧
    (∃ v, read (w 0) .patch .jac 479 2 2 = some v) ∧ read (w' 1) .patch .jac 0 0 0 = none := by
  refine ⟨_, _, rfl, rfl, ?_⟩
  obtain ⟨b1, b2, -, b4⟩ := C91_global_partial (0 : ℕ) 2 2 ⟨fun _ => 0, zeroJ, zeroJ, zeroJ⟩ (fun _ => fresh 0) _ rfl
  obtain ⟨a1, -⟩ := C91_gauss (0 : ℕ) 0 2 2 ⟨fun _ => 0, zeroJ, zeroJ, zeroJ⟩ (fun _ => fresh 0) _ rfl
  refine ⟨a1, b1, b4, ?_, ?_, ?_, ?_⟩
  · exact (C91_gauss (0 : ℕ) 1 2 2 ⟨fun _ => 0, zeroJ, zeroJ, zeroJ⟩ _ _ rfl).1
  · rw [(C91_local_negation (0 : ℕ) 1 (by omega) 2 2 ⟨fun _ => 0, zeroJ, zeroJ, zeroJ⟩ _ _ rfl).1]
    exact ⟨rfl, rfl, rfl⟩
  · exact (C91_access _ .patch 480 b2 .jac 479 2 2).1.2 ⟨by omega, by decide⟩
  · exact (C91_new_negation (0 : ℕ) 1 (by omega) 2 2 ⟨fun _ => 0, zeroJ, zeroJ, zeroJ⟩ _ _
      ⟨⟨rfl, rfl, rfl⟩, ⟨rfl, rfl, rfl⟩⟩ rfl .jac 0 0 0 0).1

/-- Non-vacuity of `C91_clobber_negation` and `C91_write`: a value stored at a patch point of the refined global mesh is lost when the patches
of another mesh are built. -/
example : ∃ (l : List (Op ℚ ℕ)) (w' : ℕ → Mesh ℚ) (qp qc : Junk ℚ) (w'' : ℕ → Mesh ℚ), runAll 0 l (fun _ => fresh 0) = some w' ∧
    read (w' 0) .patch .jac 5 1 2 = some 7 ∧ (Op.patches 1 qp qc).run 0 w' = some w'' ∧ read (w'' 0) .patch .jac 5 1 2 ≠ some 7 := by
  obtain ⟨b1, b2, -, b4⟩ := C91_global_partial (0 : ℕ) 2 2 ⟨fun _ => 0, zeroJ, zeroJ, zeroJ⟩ (fun _ => fresh 0) _ rfl
  have hacc := C91_access _ .patch 480 b2 .jac 5 1 2
  obtain ⟨m, hm⟩ := (hacc.2.1 (hacc.1.2 ⟨by omega, by decide⟩)) 7
  obtain ⟨w1, -, -⟩ := C91_write _ m .patch .jac 5 1 2 7 hm
  have hcount := (C91_write _ m .patch .jac 5 1 2 7 hm).2.2
  have hrun : runAll 0 [.refine 0 2 2 ⟨fun _ => 0, zeroJ, zeroJ, zeroJ⟩, .write 0 .patch .jac 5 1 2 7] (fun _ => fresh 0) =
      some (upd (refine 0 0 2 2 ⟨fun _ => 0, zeroJ, zeroJ, zeroJ⟩ (fun _ => fresh 0)) 0 fun _ => m) := by
    show ((write (refine 0 0 2 2 ⟨fun _ => 0, zeroJ, zeroJ, zeroJ⟩ (fun _ => fresh 0) 0) .patch .jac 5 1 2 7).map
      (fun m => upd (refine 0 0 2 2 ⟨fun _ => 0, zeroJ, zeroJ, zeroJ⟩ (fun _ => fresh 0)) 0 fun _ => m)).bind (runAll 0 []) = _
    rw [hm]; rfl
  have hm' : m.patchPtsInElem = 240 := by
    unfold write at hm
    split at hm
    · obtain ⟨x, -, rfl⟩ := Option.map_eq_some_iff.1 hm
      rfl
    · cases hm
  have he : m.numElem = 2 := by rw [hcount.2.2.1]; rfl
  obtain ⟨qp, qc, w'', e1, e2⟩ := C91_clobber_negation (0 : ℕ) 1
    (upd (refine 0 0 2 2 ⟨fun _ => 0, zeroJ, zeroJ, zeroJ⟩ (fun _ => fresh 0)) 0 fun _ => m) 5 1 2 (by omega) (by omega)
    (by rw [upd_same, hm', he]; omega) 7 (by rw [upd_same]; exact w1)
  exact ⟨_, _, qp, qc, w'', hrun, by rw [upd_same]; exact w1, e1, e2⟩

end Verif.Swage.World
