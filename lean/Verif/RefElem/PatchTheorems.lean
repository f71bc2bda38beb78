import Verif.RefElem.IndexTheorems

/-!
# C34, C63: patches and cell points of the reference element
-/

namespace Verif.RefElem
open scoped Classical

/-- Specification: the lattice nodes of side `s` of cell `(i, j, k)`; the sides are in the order
-x, +x, -y, +y, -z, +z. -/
def face (i j k s : ℕ) : Set (ℕ × ℕ × ℕ) :=
  {t | (i ≤ t.1 ∧ t.1 ≤ i + 1) ∧ (j ≤ t.2.1 ∧ t.2.1 ≤ j + 1) ∧ (k ≤ t.2.2 ∧ t.2.2 ≤ k + 1) ∧
    (s = 0 → t.1 = i) ∧ (s = 1 → t.1 = i + 1) ∧ (s = 2 → t.2.1 = j) ∧ (s = 3 → t.2.1 = j + 1) ∧
    (s = 4 → t.2.2 = k) ∧ (s = 5 → t.2.2 = k + 1)}

theorem face_eq {i j k s : ℕ} (hs : s < 6) : face i j k s =
    {t | ((ctr i j k s).1 / 2 ≤ t.1 ∧ t.1 ≤ ((ctr i j k s).1 + 1) / 2) ∧
      ((ctr i j k s).2.1 / 2 ≤ t.2.1 ∧ t.2.1 ≤ ((ctr i j k s).2.1 + 1) / 2) ∧
      ((ctr i j k s).2.2 / 2 ≤ t.2.2 ∧ t.2.2 ≤ ((ctr i j k s).2.2 + 1) / 2)} := by
  have c : s = 0 ∨ s = 1 ∨ s = 2 ∨ s = 3 ∨ s = 4 ∨ s = 5 := by omega
  ext ⟨x, y, z⟩
  rcases c with rfl | rfl | rfl | rfl | rfl | rfl <;> simp [face, ctr] <;> omega

theorem face_iff {i j k s i' j' k' s' : ℕ} (hs : s < 6) (hs' : s' < 6) :
    face i j k s = face i' j' k' s' ↔ ctr i j k s = ctr i' j' k' s' := by
  rw [face_eq hs, face_eq hs']
  constructor
  · intro h
    have h1 := Set.ext_iff.1 h ((ctr i j k s).1 / 2, (ctr i j k s).2.1 / 2, (ctr i j k s).2.2 / 2)
    have h2 := Set.ext_iff.1 h (((ctr i j k s).1 + 1) / 2, ((ctr i j k s).2.1 + 1) / 2, ((ctr i j k s).2.2 + 1) / 2)
    have h3 := Set.ext_iff.1 h ((ctr i' j' k' s').1 / 2, (ctr i' j' k' s').2.1 / 2, (ctr i' j' k' s').2.2 / 2)
    have h4 := Set.ext_iff.1 h (((ctr i' j' k' s').1 + 1) / 2, ((ctr i' j' k' s').2.1 + 1) / 2, ((ctr i' j' k' s').2.2 + 1) / 2)
    simp only [Set.mem_ofPred_eq] at h1 h2 h3 h4
    generalize ctr i j k s = c at *
    generalize ctr i' j' k' s' = c' at *
    obtain ⟨a, b, d⟩ := c
    obtain ⟨a', b', d'⟩ := c'
    simp only [] at h1 h2 h3 h4
    have g1 := h1.1 (by omega)
    have g2 := h2.1 (by omega)
    have g3 := h3.2 (by omega)
    have g4 := h4.2 (by omega)
    simp only [Prod.mk.injEq]
    omega
  · intro h; rw [h]

theorem patch_id {p : ℕ} {q : Junk} {r : Ref} (h : InitSpec p q r) {i j k s : ℕ} (hi : i < cells1D p)
    (hj : j < cells1D p) (hk : k < cells1D p) (hs : s < 6) :
    r.patchesInCell (rid (cells1D p) i j k) s =
      some (Nat.count (First (cells1D p)) (rep (cells1D p) (s + rid (cells1D p) i j k * 6)) : ℤ) := by
  have ht := side_lt hi hj hk hs
  refine get_of (by rw [h.pat.lsize]; exact ht) ?_
  rw [h.pat.list _ ht, if_pos (lt_of_le_of_lt (rep_le_self _ _) ht)]

theorem count_inj {P : ℕ → Prop} [DecidablePred P] {a b : ℕ} (ha : P a) (hb : P b) (h : Nat.count P a = Nat.count P b) :
    a = b := by
  rcases lt_trichotomy a b with c | c | c
  · exact absurd h (Nat.count_strict_mono ha c).ne
  · exact c
  · exact absurd h (Nat.count_strict_mono hb c).ne'

theorem count_surj {P : ℕ → Prop} [DecidablePred P] {N t : ℕ} (h : t < Nat.count P N) :
    ∃ m < N, P m ∧ Nat.count P m = t := by
  induction N with
  | zero => simp at h
  | succ N ih =>
    by_cases g : t < Nat.count P N
    · obtain ⟨m, h1, h2⟩ := ih g
      exact ⟨m, by omega, h2⟩
    · rw [Nat.count_succ] at h
      by_cases hP : P N
      · rw [if_pos hP] at h
        exact ⟨N, by omega, hP, by omega⟩
      · rw [if_neg hP] at h; omega

/-- **C34.**  For `C` cells per direction, `ref_patches_in_cell` gives every side of every cell an id below
`3 C² (C + 1)`; two sides have the same id exactly if they are the same face of the lattice; every id occurs; and
this is the number of ids the function has handed out. -/
theorem C34_patches (p : ℕ) (q : Junk) : ∃ r, init p q = some r ∧
    let C := cells1D p
    (∀ i j k, i < C → j < C → k < C → ∀ s < 6, ∃ id : ℕ, id < 3 * C ^ 2 * (C + 1) ∧
      r.patchesInCell (i + j * C + k * C ^ 2) s = some (id : ℤ)) ∧
    (∀ i j k s i' j' k' s', i < C → j < C → k < C → s < 6 → i' < C → j' < C → k' < C → s' < 6 →
      (r.patchesInCell (i + j * C + k * C ^ 2) s = r.patchesInCell (i' + j' * C + k' * C ^ 2) s' ↔
        face i j k s = face i' j' k' s')) ∧
    (∀ id : ℕ, id < 3 * C ^ 2 * (C + 1) → ∃ i j k s, i < C ∧ j < C ∧ k < C ∧ s < 6 ∧
      r.patchesInCell (i + j * C + k * C ^ 2) s = some (id : ℤ)) ∧
    r.pat.count = 3 * C ^ 2 * (C + 1) := by
  obtain ⟨r, h1, h2⟩ := init_run p q
  refine ⟨r, h1, ?_⟩
  simp only []
  have ec : ∀ i j k, i + j * cells1D p + k * cells1D p ^ 2 = rid (cells1D p) i j k := by intro i j k; unfold rid; ring
  have eP : 3 * cells1D p ^ 2 * (cells1D p + 1) = (cells1D p + 1) * (cells1D p * cells1D p) * 3 := by ring
  simp only [ec, eP]
  refine ⟨?_, ?_, ?_, ?_⟩
  · intro i j k hi hj hk s hs
    refine ⟨_, ?_, patch_id h2 hi hj hk hs⟩
    rw [← count_first]
    exact Nat.count_strict_mono (first_rep _ _) (lt_of_le_of_lt (rep_le_self _ _) (side_lt hi hj hk hs))
  · intro i j k s i' j' k' s' hi hj hk hs hi' hj' hk' hs'
    rw [patch_id h2 hi hj hk hs, patch_id h2 hi' hj' hk' hs', face_iff hs hs', Option.some.injEq, Nat.cast_inj,
      ← ctrF_eq (k := k) hi hj hs, ← ctrF_eq (k := k') hi' hj' hs']
    constructor
    · intro h
      rw [← ctrF_rep, count_inj (first_rep _ _) (first_rep _ _) h, ctrF_rep]
    · intro h; rw [rep_congr h]
  · intro id hid
    rw [← count_first] at hid
    obtain ⟨t, ht, hf, rfl⟩ := count_surj hid
    obtain ⟨i, j, k, s, hi, hj, hk, hs, rfl⟩ := side_surj ht
    refine ⟨i, j, k, s, hi, hj, hk, hs, ?_⟩
    rw [patch_id h2 hi hj hk hs, first_iff.1 hf]
  · rw [h2.pat.count, count_first]

/-- The two cells at a face see the same patch (an instance of the second part). -/
example (q : Junk) : ∃ r, init 1 q = some r ∧ r.patchesInCell 0 1 = r.patchesInCell 1 0 ∧
    r.patchesInCell 0 1 ≠ r.patchesInCell 0 0 := by
  obtain ⟨r, h, -, h2, -⟩ := C34_patches 1 q
  refine ⟨r, h, ?_, ?_⟩
  · have := (h2 0 0 0 1 1 0 0 0 (by decide) (by decide) (by decide) (by decide) (by decide) (by decide) (by decide)
      (by decide)).2 (by ext ⟨x, y, z⟩; simp [face]; omega)
    simpa using this
  · intro e
    have := (h2 0 0 0 1 0 0 0 0 (by decide) (by decide) (by decide) (by decide) (by decide) (by decide) (by decide)
      (by decide)).1 (by simpa using e)
    have := Set.ext_iff.1 this (0, 0, 0)
    simp [face] at this

/-! ### Positions and weights of patches and cells -/

/-- Coordinate `d` of a triple. -/
def co (i j k d : ℕ) : ℕ := if d = 0 then i else if d = 1 then j else k

theorem row3_co (f : ℕ → ℝ) (i j k d : ℕ) : row3 (f i) (f j) (f k) d = f (co i j k d) := by
  unfold row3 co; split <;> [rfl; split <;> rfl]

/-- **C63 (patch points).**  Whatever cell it is reached from, the patch on side `s` of cell `(i, j, k)` is at the
Lobatto plane of that side (axis `s / 2`, lower or upper plane as `s % 2`) and at the Legendre points of the cell in
the two other directions, and its weight is the product of the two Legendre weights. -/
theorem C63_patch_points (p : ℕ) (q : Junk) : ∃ r, init p q = some r ∧
    ∀ i j k s, i < cells1D p → j < cells1D p → k < cells1D p → s < 6 → ∃ (id : ℕ) (x : ℕ → ℝ) (w : ℝ),
      r.patchesInCell (i + j * cells1D p + k * cells1D p ^ 2) s = some (id : ℤ) ∧
      r.pat.pos.get id = some x ∧ r.pat.weights.get id = some w ∧
      (∀ d < 3, x d = if d = s / 2 then r.lob.val (co i j k d + s % 2) else r.leg.val (co i j k d)) ∧
      w = ∏ d ∈ (Finset.range 3).erase (s / 2), r.legw.val (co i j k d) := by
  obtain ⟨r, h1, h2⟩ := init_run p q
  refine ⟨r, h1, ?_⟩
  intro i j k s hi hj hk hs
  rw [show i + j * cells1D p + k * cells1D p ^ 2 = rid (cells1D p) i j k by unfold rid; ring]
  have ht := side_lt hi hj hk hs
  have hr : rep (cells1D p) (s + rid (cells1D p) i j k * 6) < cells1D p * cells1D p * cells1D p * 6 :=
    lt_of_le_of_lt (rep_le_self _ _) ht
  have hlt : Nat.count (First (cells1D p)) (rep (cells1D p) (s + rid (cells1D p) i j k * 6)) <
      (cells1D p + 1) * (cells1D p * cells1D p) * 3 := by
    rw [← count_first]
    exact Nat.count_strict_mono (first_rep _ _) hr
  have hc : ctrF (cells1D p) (rep (cells1D p) (s + rid (cells1D p) i j k * 6)) = ctr i j k s := by
    rw [ctrF_rep, ctrF_eq hi hj hs]
  refine ⟨_, _, _, patch_id h2 hi hj hk hs, get_of (by rw [h2.pat.psize]; exact hlt) (h2.pat.pos _ hr (first_rep _ _)),
    get_of (by rw [h2.pat.wsize]; exact hlt) (h2.pat.weights _ hr (first_rep _ _)), ?_, ?_⟩
  · rw [hc]
    intro d hd
    have c : s = 0 ∨ s = 1 ∨ s = 2 ∨ s = 3 ∨ s = 4 ∨ s = 5 := by omega
    have c' : d = 0 ∨ d = 1 ∨ d = 2 := by omega
    rcases c with rfl | rfl | rfl | rfl | rfl | rfl <;> rcases c' with rfl | rfl | rfl <;>
      simp [ctr, posOf, row3, co, crd_even, crd_even', crd_odd]
  · rw [hc]
    have c : s = 0 ∨ s = 1 ∨ s = 2 ∨ s = 3 ∨ s = 4 ∨ s = 5 := by omega
    have e0 : (Finset.range 3).erase 0 = {1, 2} := by decide
    have e1 : (Finset.range 3).erase 1 = {0, 2} := by decide
    have e2 : (Finset.range 3).erase 2 = {0, 1} := by decide
    rcases c with rfl | rfl | rfl | rfl | rfl | rfl <;>
      simp [ctr, wOf, co, fac_even, fac_even', fac_odd, e0, e1, e2]

/-- **C63 (cell points).**  The point of cell `(i, j, k)` has the Legendre points as coordinates and its weight is the
product of the Legendre weights. -/
theorem C63_cell_points (p : ℕ) (q : Junk) : ∃ r, init p q = some r ∧
    ∀ i j k, i < cells1D p → j < cells1D p → k < cells1D p → ∃ (x : ℕ → ℝ),
      r.pat.cellPos.get (i + j * cells1D p + k * cells1D p ^ 2) = some x ∧
      r.pat.cellWeights.get (i + j * cells1D p + k * cells1D p ^ 2) =
        some (r.legw.val i * r.legw.val j * r.legw.val k) ∧
      ∀ d < 3, x d = r.leg.val (co i j k d) := by
  obtain ⟨r, h1, h2⟩ := init_run p q
  refine ⟨r, h1, ?_⟩
  intro i j k hi hj hk
  rw [show i + j * cells1D p + k * cells1D p ^ 2 = rid (cells1D p) i j k by unfold rid; ring]
  have hb := rid_lt hi hj hk
  refine ⟨_, get_of (by rw [h2.cposSize]; exact hb) (h2.cellPos i j k hi hj hk),
    get_of (by rw [h2.cwtSize]; exact hb) (h2.cellW i j k hi hj hk), ?_⟩
  intro d hd
  exact row3_co _ i j k d

/-! ### The points lie inside their cells -/

set_option maxRecDepth 100000 in
theorem interlaceQ : ∀ p < 10, p ≠ 2 → ∀ i < cells1D p,
    (Quad.lobNodesQ (nodes1D p)).getD i 0 < (Quad.legNodesQ (cells1D p)).getD i 0 ∧
    (Quad.legNodesQ (cells1D p)).getD i 0 < (Quad.lobNodesQ (nodes1D p)).getD (i + 1) 0 := by decide +kernel

theorem lob_len {n : ℕ} (h1 : 2 ≤ n) (h2 : n ≤ 20) : (Quad.lobNodes n).length = n := by
  by_cases h4 : n = 4
  · subst h4; rfl
  by_cases h5 : n = 5
  · subst h5; rfl
  by_cases h6 : n = 6
  · subst h6; rfl
  rw [Quad.lobNodes_eq ⟨h4, h5, h6⟩, List.length_map]
  exact (Quad.lob_check n (by omega) h1 ⟨h4, h5, h6⟩).1

theorem assign_val {l : List ℝ} {a b : Arr ℝ} (h : Quad.assign l a = some b) (hl : l.length ≤ a.size) {i : ℕ}
    (hi : i < l.length) : b.val i = l.getD i 0 := by
  obtain ⟨c, h1, -, h3⟩ := Quad.assign_spec l a hl
  rw [h] at h1
  rw [Option.some.inj h1, h3, if_pos hi]

theorem lob_vals {p : ℕ} (hp : p ≤ 9) {q : Junk} {r : Ref} (h : InitSpec p q r) {i : ℕ} (hi : i < nodes1D p) :
    r.lob.val i = (Quad.lobNodes (nodes1D p)).getD i 0 := by
  have l := lob_len (two_le_nodes p) (by have := nodes_le hp; omega)
  exact assign_val h.lob (by rw [l]) (by rw [l]; exact hi)

theorem leg_vals {p : ℕ} (hp : p ≤ 9) {q : Junk} {r : Ref} (h : InitSpec p q r) {i : ℕ} (hi : i < cells1D p) :
    r.leg.val i = (((Quad.legNodesQ (cells1D p)).getD i 0 : ℚ) : ℝ) := by
  have hn := nodes_le hp
  have h1 := cells_pos p
  have l : (Quad.legNodes (cells1D p)).length = cells1D p := by
    rw [Quad.legNodes_eq, List.length_map]
    exact (Quad.leg_check (cells1D p) (by unfold cells1D; omega) h1).1
  rw [assign_val h.leg (by rw [l]) (by rw [l]; exact hi), Quad.legNodes_eq, Quad.getD_map_cast]

theorem interlace {p : ℕ} (hp : p ≤ 9) {q : Junk} {r : Ref} (h : InitSpec p q r) {i : ℕ} (hi : i < cells1D p) :
    r.lob.val i < r.leg.val i ∧ r.leg.val i < r.lob.val (i + 1) := by
  have hC : cells1D p + 1 = nodes1D p := by have := two_le_nodes p; unfold cells1D; omega
  rw [leg_vals hp h hi, lob_vals hp h (show i < nodes1D p by omega), lob_vals hp h (show i + 1 < nodes1D p by omega)]
  by_cases h2 : p = 2
  · subst h2
    have hs : √21 ^ 2 = (21 : ℝ) := Real.sq_sqrt (by norm_num)
    have h0 : 0 < √21 := Real.sqrt_pos.2 (by norm_num)
    have h4 : 4 < √21 := by nlinarith
    have h5 : √21 < 5 := by nlinarith
    have hx : Quad.lobNodes (nodes1D 2) = [-1, -1/7*√21, 0, 1/7*√21, (1:ℝ)] := rfl
    have hi4 : i < 4 := hi
    rw [hx, show cells1D 2 = 4 from rfl]
    have c : i = 0 ∨ i = 1 ∨ i = 2 ∨ i = 3 := by omega
    rcases c with rfl | rfl | rfl | rfl <;> simp [Quad.legNodesQ, Quad.dec] <;> first | nlinarith | (constructor <;> nlinarith)
  · have n4 : nodes1D p ≠ 4 ∧ nodes1D p ≠ 5 ∧ nodes1D p ≠ 6 := by unfold nodes1D; split <;> omega
    rw [Quad.lobNodes_eq n4, Quad.getD_map_cast, Quad.getD_map_cast]
    have := interlaceQ p (by omega) h2 i hi
    exact ⟨by exact_mod_cast this.1, by exact_mod_cast this.2⟩

/-- **C63 (inside).**  For the tabulated orders the point of a cell lies strictly between the planes that bound the
cell, in each direction. -/
theorem C63_inside (p : ℕ) (hp : p ≤ 9) (q : Junk) : ∃ r, init p q = some r ∧
    ∀ i j k, i < cells1D p → j < cells1D p → k < cells1D p → ∃ (x : ℕ → ℝ),
      r.pat.cellPos.get (i + j * cells1D p + k * cells1D p ^ 2) = some x ∧
      ∀ d < 3, r.lob.val (co i j k d) < x d ∧ x d < r.lob.val (co i j k d + 1) := by
  obtain ⟨r, h1, h2⟩ := init_run p q
  refine ⟨r, h1, ?_⟩
  intro i j k hi hj hk
  rw [show i + j * cells1D p + k * cells1D p ^ 2 = rid (cells1D p) i j k by unfold rid; ring]
  have hb := rid_lt hi hj hk
  refine ⟨_, get_of (by rw [h2.cposSize]; exact hb) (h2.cellPos i j k hi hj hk), ?_⟩
  intro d hd
  have : co i j k d < cells1D p := by unfold co; split <;> [skip; split] <;> assumption
  rw [row3_co]
  exact interlace hp h2 this

/-- Non-vacuity: order 3 has 6 cells per direction. -/
example (q : Junk) : ∃ r, init 3 q = some r ∧ ∃ x, r.pat.cellPos.get 0 = some x ∧ r.lob.val 0 < x 0 ∧ x 0 < r.lob.val 1 := by
  obtain ⟨r, h, h2⟩ := C63_inside 3 (by norm_num) q
  obtain ⟨x, h3, h4⟩ := h2 0 0 0 (by decide) (by decide) (by decide)
  exact ⟨r, h, x, by simpa using h3, by simpa [co] using h4 0 (by norm_num)⟩

end Verif.RefElem
