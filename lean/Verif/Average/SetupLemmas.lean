import Verif.Average.Setup
import Verif.Average.Cycle
import Verif.Swage.CellCellTheorems
import Verif.Swage.ElemTheorems

/-!
# Setup of the Average example: the connectivity builders and the boundary sets
-/

namespace Verif.Average
open Verif.Swage

/-- The four cell builders run without undefined behaviour on every valid mesh in which two different cells share a node. -/
theorem buildCells_spec (C N : ℕ) (nodes : ℕ → ℕ → ℕ) (x : ℕ → ℕ → ℝ) (q : ConnJunk) (hv : ∀ c < C, ∀ l < 8, nodes c l < N)
    (hshare : ∃ c < C, ∃ c' < C, c' ≠ c ∧ Share 8 nodes c c') :
    ∃ r, buildCells C N nodes x q = some r ∧
      (∀ n < N, r.nodeCell.numCellsInNode n = some (incidences C 8 nodes n).length ∧
        (List.range (incidences C 8 nodes n).length).map (fun l => r.nodeCell.cellsInNode n l) =
          (incidences C 8 nodes n).map (fun p => some p.1)) ∧
      buildPatches C nodes (Key.key C N nodes x q.dist q.dist0) q.paTable q.paCells q.paSides q.paNodes q.paCell q.paSide =
        some r.patches := by
  obtain ⟨nc, a1, a2⟩ := C35_node_cells C N nodes hv ⟨⟨N, q.ncNum⟩, ⟨N + 1, q.ncStart⟩, ⟨0, q.ncList⟩⟩ rfl rfl q.ncSaved q.ncList
  have st := C36_start C N nodes hv _ rfl rfl q.ncSaved q.ncList nc a1
  obtain ⟨co, b1, -⟩ := C36_corners C N nodes hv nc.start ⟨N, q.coNum⟩ st rfl q.coCell q.coSaved q.coList
  obtain ⟨cc, c1, -⟩ := C37_cells_partial C N nodes hv _ nc rfl rfl q.ncSaved q.ncList a1
    ⟨⟨C, q.ccNum⟩, ⟨C + 1, q.ccStart⟩, ⟨0, q.ccList⟩⟩ rfl rfl q.ccSaved q.ccTemp q.ccList hshare
  obtain ⟨k, d1, -⟩ := C38_patches_partial C nodes (Key.key C N nodes x q.dist q.dist0) q.paTable q.paCells q.paSides q.paNodes
    q.paCell q.paSide
  refine ⟨⟨nc, co, cc, k⟩, ?_, a2, d1⟩
  unfold buildCells
  show (buildNodeCell C N nodes _ _ _).bind _ = _
  rw [a1, Option.bind_some]
  show (buildCorners C N nodes _ _ _ _ _).bind _ = _
  rw [b1, Option.bind_some]
  show (buildCellCell C 8 nodes _ _ _ _ _).bind _ = _
  rw [c1, Option.bind_some]
  show (buildPatches C nodes _ _ _ _ _ _ _).bind _ = _
  rw [d1]; rfl

/-- Without two different cells sharing a node the builders write outside a list. -/
theorem buildCells_none (C N : ℕ) (nodes : ℕ → ℕ → ℕ) (x : ℕ → ℕ → ℝ) (q : ConnJunk) (hv : ∀ c < C, ∀ l < 8, nodes c l < N)
    (hno : ¬ ∃ c < C, ∃ c' < C, c' ≠ c ∧ Share 8 nodes c c') : buildCells C N nodes x q = none := by
  obtain ⟨nc, a1, a2⟩ := C35_node_cells C N nodes hv ⟨⟨N, q.ncNum⟩, ⟨N + 1, q.ncStart⟩, ⟨0, q.ncList⟩⟩ rfl rfl q.ncSaved q.ncList
  have st := C36_start C N nodes hv _ rfl rfl q.ncSaved q.ncList nc a1
  obtain ⟨co, b1, -⟩ := C36_corners C N nodes hv nc.start ⟨N, q.coNum⟩ st rfl q.coCell q.coSaved q.coList
  have c1 := C37_negation C N nodes hv _ nc rfl rfl q.ncSaved q.ncList a1
    ⟨⟨C, q.ccNum⟩, ⟨C + 1, q.ccStart⟩, ⟨0, q.ccList⟩⟩ rfl rfl q.ccSaved q.ccTemp q.ccList hno
  unfold buildCells
  show (buildNodeCell C N nodes _ _ _).bind _ = _
  rw [a1, Option.bind_some]
  show (buildCorners C N nodes _ _ _ _ _).bind _ = _
  rw [b1, Option.bind_some]
  show (buildCellCell C 8 nodes _ _ _ _ _).bind _ = _
  rw [c1]; rfl

theorem buildElems_spec (E G N C : ℕ) (hG : 0 < G) (hC : E ≤ C) (nig : Arr ℕ) (hz : nig.size = E * G)
    (hv : ∀ x < E * G, nig.val x < N) (q : ConnJunk) :
    ∃ r, buildElems E G N C nig q = some r ∧ ∀ e < E, ∀ g < G, r.nodesInElem e g = nig.val (e * G + g) := by
  obtain ⟨r, h1, h2, -⟩ := C39_elements E G N C hG hC nig hz hv
    ⟨⟨⟨N, q.enNum⟩, ⟨N + 1, q.enStart⟩, ⟨0, q.enList⟩⟩, q.enNodes, ⟨E, q.eeNum⟩, ⟨E + 1, q.eeStart⟩,
    ⟨0, q.eeSize⟩, q.eeRag⟩ rfl rfl rfl rfl q.enHit q.enList q.eeSaved q.eeTemp q.eeSize q.eeRag
  exact ⟨r, h1, h2⟩

/-- `patch_coords` depends only on the patch; `check_bdy` only on the coordinates. -/
theorem checkBdy_congr {y z : ℕ → ℝ} (h : ∀ d, y d = z d) (tag : ℕ) (v : ℝ) : Key.checkBdy y tag v ↔ Key.checkBdy z tag v := by
  rw [show y = z from funext h]

open Classical in
theorem onBdy_iff (k : Patches) (x : ℕ → ℕ → ℝ) (b : Bdy) (g : ℕ) :
    onBdy k x b g = true ↔ Key.checkBdy (fun d => (Key.patchCoord k x g d).getD 0) b.surface b.value := by
  unfold onBdy; exact decide_eq_true_iff

/-- `generate_bcs` for every mesh and every list of boundary planes, cylinders and spheres: set `b` lists, each once, the patches
that belong to one cell side only and whose mean position meets the condition of entry `b`. -/
theorem generateBcs_spec (C : ℕ) (nodes : ℕ → ℕ → ℕ) (keys : ℕ → ℕ) (x : ℕ → ℕ → ℝ) (jt jc js jn : ℕ → ℤ)
    (ji : ℕ → ℕ → ℤ) (jk : ℕ → ℕ → ℕ) (k : Patches) (hk : buildPatches C nodes keys jt jc js jn ji jk = some k)
    (boundary : List Bdy) (jb j1 j2 j3 : ℕ → ℕ) :
    ∃ s, generateBcs k x boundary jb j1 j2 j3 = some s ∧ ∀ b < boundary.length, ∃ L : List ℕ,
      s.num.get b = some L.length ∧ (∀ i (h : i < L.length), s.inSet b i = some L[i]) ∧ L.Nodup ∧
      ∀ g, g ∈ L ↔ g < k.num ∧ ∃ c < C, ∃ p < 6, k.inCell c p = (g : ℤ) ∧
        (∀ c' < C, ∀ p' < 6, k.inCell c' p' = (g : ℤ) → c' = c ∧ p' = p) ∧
        (∀ q < 4, k.nodeInPatch g q = some (nodeInPatchInCell nodes c p q : ℤ)) ∧
        Key.checkBdy (Key.sideCoord nodes x c p) (boundary.getD b ⟨0, 0⟩).surface (boundary.getD b ⟨0, 0⟩).value := by
  obtain ⟨k', bd, hk', hb, hz, hv, -⟩ := C40_bdy C nodes keys jt jc js jn ji jk jb
  obtain rfl : k' = k := Option.some.inj (hk'.symm.trans hk)
  obtain ⟨k2, hk2, -, -, -, -, hp⟩ := C38_patches_partial C nodes keys jt jc js jn ji jk
  obtain rfl : k2 = k' := Option.some.inj (hk2.symm.trans hk')
  set L0 := (List.range k2.num).filter fun g => decide ((sidesOf k2 C g).length = 1) with hL0
  obtain ⟨s, hs, ht⟩ := C41_tags bd L0 hz hv (fun i => onBdy k2 x (boundary.getD i ⟨0, 0⟩)) boundary.length boundary.length
    (le_max_left _ _) j1 j2 j3
  refine ⟨s, ?_, fun b hb' => ⟨L0.filter (onBdy k2 x (boundary.getD b ⟨0, 0⟩)), (ht b hb').1, (ht b hb').2,
    (List.nodup_range.filter _).filter _, fun g => ?_⟩⟩
  · unfold generateBcs
    show (buildBdy k2 jb).bind _ = _
    rw [hb, Option.bind_some]
    show (tagSeq bd _ _).bind _ = _
    rw [hz, hs, Option.bind_some]
  · rw [List.mem_filter, hL0, List.mem_filter, List.mem_range, decide_eq_true_eq]
    constructor
    · rintro ⟨⟨hg, h1⟩, h2⟩
      refine ⟨hg, ?_⟩
      obtain ⟨a, L, e1, -, -, e2, -⟩ := hp g hg
      have hL : L = [] := by
        rw [e1] at h1
        simpa using h1
      have hmem : ∀ e, e ∈ sidesOf k2 C g ↔ e = a := by intro e; rw [e1, hL]; simp
      have ha := (hmem a).2 rfl
      unfold sidesOf at ha
      rw [List.mem_filter, List.mem_range, decide_eq_true_eq] at ha
      refine ⟨a / 6, by omega, a % 6, by omega, ha.2, ?_, e2, ?_⟩
      · intro c' hc' p' hp' h
        have : 6 * c' + p' ∈ sidesOf k2 C g := by
          unfold sidesOf
          rw [List.mem_filter, List.mem_range, decide_eq_true_eq]
          refine ⟨by omega, ?_⟩
          rw [show (6 * c' + p') / 6 = c' by omega, show (6 * c' + p') % 6 = p' by omega, h]
        have := (hmem _).1 this
        omega
      · refine (checkBdy_congr (fun d => ?_) _ _).1 ((onBdy_iff _ _ _ _).1 h2)
        unfold Key.patchCoord
        simp only [loopM_succ, loopM_zero, Option.bind_eq_bind, Option.bind_some, e2 0 (by omega), e2 1 (by omega),
          e2 2 (by omega), e2 3 (by omega), Int.toNat_natCast, Option.pure_def, Option.getD_some]
        rfl
    · rintro ⟨hg, c, hc, p, hp6, h1, h2, h3, h4⟩
      obtain ⟨a, L, e1, -, -, -, -⟩ := hp g hg
      have hmem : ∀ e ∈ sidesOf k2 C g, e = 6 * c + p := by
        intro e he
        unfold sidesOf at he
        rw [List.mem_filter, List.mem_range, decide_eq_true_eq] at he
        have := h2 (e / 6) (by omega) (e % 6) (by omega) he.2
        omega
      have hnd : (sidesOf k2 C g).Nodup := List.nodup_range.filter _
      refine ⟨⟨hg, ?_⟩, ?_⟩
      · rw [e1] at hmem hnd ⊢
        have : L = [] := by
          rcases L with _ | ⟨y, L⟩
          · rfl
          · have z1 := hmem a (by simp)
            have z2 := hmem y (by simp)
            rw [z1, z2] at hnd
            simp at hnd
        rw [this]; rfl
      · refine (onBdy_iff _ _ _ _).2 ((checkBdy_congr (fun d => ?_) _ _).1 h4)
        unfold Key.patchCoord
        simp only [loopM_succ, loopM_zero, Option.bind_eq_bind, Option.bind_some, h3 0 (by omega), h3 1 (by omega),
          h3 2 (by omega), h3 3 (by omega), Int.toNat_natCast, Option.pure_def, Option.getD_some]
        rfl

end Verif.Average
