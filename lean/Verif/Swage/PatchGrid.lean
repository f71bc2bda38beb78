import Verif.Swage.PatchKeyLemmas
import Verif.Swage.PatchTheorems
import Mathlib.Tactic.LinearCombination

/-!
# C38: keys and rectilinear grids

* `C38_key_partial`: a sufficient condition on a general mesh for the keys to be faithful.
* `C38_grid_partial`: on every rectilinear grid whose last cell is at most 3% thicker than any other in each direction, the
  patches are exactly the faces.
-/

namespace Verif.Swage.Key
open Verif.Swage

theorem hash_idx_le {η a n : ℝ} (h1 : η ≤ n) (h2 : a ≤ n) : max η a ≤ n := max_le h1 h2

theorem sideCoord_mem {C N : ℕ} {nodes : ℕ → ℕ → ℕ} (hv : ∀ c < C, ∀ l < 8, nodes c l < N) (x : ℕ → ℕ → ℝ)
    {c p : ℕ} (hc : c < C) (hp : p < 6) (d : ℕ) :
    coordMin N x d ≤ sideCoord nodes x c p d ∧ sideCoord nodes x c p d ≤ coordMax N x d := by
  rw [sideCoord_eq]
  have hn : ∀ q < 4, nodeInPatchInCell nodes c p q < N := fun q hq => hv c hc _ (table_lt p hp q hq)
  have l0 := coordMin_le N x d _ (hn 0 (by omega))
  have l1 := coordMin_le N x d _ (hn 1 (by omega))
  have l2 := coordMin_le N x d _ (hn 2 (by omega))
  have l3 := coordMin_le N x d _ (hn 3 (by omega))
  have u0 := le_coordMax N x d _ (hn 0 (by omega))
  have u1 := le_coordMax N x d _ (hn 1 (by omega))
  have u2 := le_coordMax N x d _ (hn 2 (by omega))
  have u3 := le_coordMax N x d _ (hn 3 (by omega))
  constructor <;> linarith

/-- `node_hash_delta` is a third of the smallest distance at most. -/
theorem delta_pos {C : ℕ} {nodes : ℕ → ℕ → ℕ} {x : ℕ → ℕ → ℝ} {junk : ℕ → ℝ} {junk0 : ℝ} (h : 0 < distMin C nodes x junk junk0) :
    0 < delta C nodes x junk junk0 ∧ 3 * delta C nodes x junk junk0 ≤ distMin C nodes x junk junk0 := by
  unfold delta
  refine ⟨div_pos (lt_min (by positivity) h) (by norm_num), ?_⟩
  calc 3 * (min (10 ^ 64) (distMin C nodes x junk junk0) / 3) = min (10 ^ 64) (distMin C nodes x junk junk0) := by ring
    _ ≤ distMin C nodes x junk junk0 := min_le_right _ _

/-- Sides with different centroids have numbers more than one apart. -/
theorem hash_gap (C N : ℕ) (nodes : ℕ → ℕ → ℕ) (hv : ∀ c < C, ∀ l < 8, nodes c l < N) (x : ℕ → ℕ → ℝ)
    (m δ : ℝ) (hδpos : 0 < δ) (hδle : 3 * δ ≤ m)
    (hbox : ∀ d < 2, m ≤ coordMax N x d - coordMin N x d)
    (hsep : ∀ c < C, ∀ p < 6, ∀ c' < C, ∀ p' < 6, ∀ d < 3,
      sideCoord nodes x c p d = sideCoord nodes x c' p' d ∨
      m / 2.06 ≤ |sideCoord nodes x c p d - sideCoord nodes x c' p' d|)
    (c p c' p' : ℕ) (hc : c < C) (hp : p < 6) (hc' : c' < C) (hp' : p' < 6) :
    0 ≤ hash1 N nodes x δ c p ∧ (¬ (∀ d < 3, sideCoord nodes x c p d = sideCoord nodes x c' p' d) →
      hash1 N nodes x δ c p + 1.05 ≤ hash1 N nodes x δ c' p' ∨ hash1 N nodes x δ c' p' + 1.05 ≤ hash1 N nodes x δ c p) := by
  -- bins at least 3
  have hb : ∀ d < 2, 3 ≤ numBins N x δ d := by
    intro d hd
    unfold numBins
    rw [le_div_iff₀ hδpos]
    have := hbox d hd
    have : (0 : ℝ) < 1 / 10 ^ 12 := by positivity
    linarith
  -- raw indices
  have hraw : ∀ c p, c < C → p < 6 → ∀ d, 0 ≤ (sideCoord nodes x c p d - coordMin N x d + 1 / 10 ^ 12) / δ ∧
      (sideCoord nodes x c p d - coordMin N x d + 1 / 10 ^ 12) / δ ≤ numBins N x δ d := by
    intro c p hc hp d
    obtain ⟨h1, h2⟩ := sideCoord_mem hv x hc hp d
    have h3 : (0 : ℝ) < 1 / 10 ^ 12 := by positivity
    refine ⟨div_nonneg (by linarith) hδpos.le, ?_⟩
    unfold numBins
    exact div_le_div_of_nonneg_right (by linarith) hδpos.le
  have hidx0 : ∀ c p, c < C → p < 6 → ∀ d, 0 ≤ hashIdx N nodes x δ c p d := fun c p hc hp d =>
    (hraw c p hc hp d).1.trans (le_max_right _ _)
  have hidx1 : ∀ c p, c < C → p < 6 → ∀ d < 2, hashIdx N nodes x δ c p d ≤ numBins N x δ d := fun c p hc hp d hd =>
    max_le (le_trans (by norm_num) (hb d hd)) (hraw c p hc hp d).2
  have hlt : ∀ c p c' p', c < C → p < 6 → c' < C → p' < 6 → ∀ d < 3,
      sideCoord nodes x c p d < sideCoord nodes x c' p' d →
      hashIdx N nodes x δ c p d + 1.45 ≤ hashIdx N nodes x δ c' p' d := by
    intro c p c' p' hc hp hc' hp' d hd h
    have hs := hsep c hc p hp c' hc' p' hp' d hd
    have hs : m / 2.06 ≤ sideCoord nodes x c' p' d - sideCoord nodes x c p d := by
      rcases hs with hs | hs
      · exact absurd hs (ne_of_lt h)
      · rwa [abs_sub_comm, abs_of_pos (by linarith)] at hs
    refine max_gap (by positivity) (by norm_num) (hraw c p hc hp d).1 ?_
    rw [div_add' _ _ _ hδpos.ne']
    have hm3 : 1.456 * δ ≤ m / 2.06 := by
      rw [le_div_iff₀ (by norm_num)]; norm_num; linarith
    exact div_le_div_of_nonneg_right (by linarith) hδpos.le
  have hgap : ∀ c p c' p', c < C → p < 6 → c' < C → p' < 6 →
      (sideCoord nodes x c p 2 < sideCoord nodes x c' p' 2 ∨
        (sideCoord nodes x c p 2 = sideCoord nodes x c' p' 2 ∧
          sideCoord nodes x c p 1 < sideCoord nodes x c' p' 1) ∨
        (sideCoord nodes x c p 2 = sideCoord nodes x c' p' 2 ∧
          sideCoord nodes x c p 1 = sideCoord nodes x c' p' 1 ∧
          sideCoord nodes x c p 0 < sideCoord nodes x c' p' 0)) →
      hash1 N nodes x δ c p + 1.05 ≤ hash1 N nodes x δ c' p' := by
    intro c p c' p' hc hp hc' hp' h
    have heq : ∀ d, sideCoord nodes x c p d = sideCoord nodes x c' p' d →
        hashIdx N nodes x δ c p d = hashIdx N nodes x δ c' p' d := fun d h => by
      unfold hashIdx; rw [h]
    exact lex_gap (hb 0 (by omega)) (hb 1 (by omega)) (hidx0 c p hc hp 0) (hidx1 c p hc hp 0 (by omega))
      (hidx0 c p hc hp 1) (hidx1 c p hc hp 1 (by omega)) (hidx0 c' p' hc' hp' 0) (hidx1 c' p' hc' hp' 0 (by omega))
      (hidx0 c' p' hc' hp' 1) (hidx1 c' p' hc' hp' 1 (by omega))
      (a2 := hashIdx N nodes x δ c p 2) (b2 := hashIdx N nodes x δ c' p' 2)
      (by
        rcases h with h | ⟨h, h'⟩ | ⟨h, h', h''⟩
        · exact Or.inl (hlt c p c' p' hc hp hc' hp' 2 (by omega) h)
        · exact Or.inr (Or.inl ⟨heq 2 h, hlt c p c' p' hc hp hc' hp' 1 (by omega) h'⟩)
        · exact Or.inr (Or.inr ⟨heq 2 h, heq 1 h', hlt c p c' p' hc hp hc' hp' 0 (by omega) h''⟩))
  constructor
  · unfold hash1
    have n0 : 0 ≤ numBins N x δ 0 := by linarith [hb 0 (by omega)]
    have n1 : 0 ≤ numBins N x δ 1 := by linarith [hb 1 (by omega)]
    have := hidx0 c p hc hp
    exact add_nonneg (add_nonneg (this 0) (mul_nonneg (this 1) n0)) (mul_nonneg (mul_nonneg (this 2) n0) n1)
  · intro hne
    rcases lt_trichotomy (sideCoord nodes x c p 2) (sideCoord nodes x c' p' 2) with h2 | h2 | h2
    · exact Or.inl (hgap c p c' p' hc hp hc' hp' (Or.inl h2))
    · rcases lt_trichotomy (sideCoord nodes x c p 1) (sideCoord nodes x c' p' 1) with h1 | h1 | h1
      · exact Or.inl (hgap c p c' p' hc hp hc' hp' (Or.inr (Or.inl ⟨h2, h1⟩)))
      · rcases lt_trichotomy (sideCoord nodes x c p 0) (sideCoord nodes x c' p' 0) with h0 | h0 | h0
        · exact Or.inl (hgap c p c' p' hc hp hc' hp' (Or.inr (Or.inr ⟨h2, h1, h0⟩)))
        · exact absurd (fun d hd => by interval_cases d <;> assumption) hne
        · exact Or.inr (hgap c' p' c p hc' hp' hc hp (Or.inr (Or.inr ⟨h2.symm, h1.symm, h0⟩)))
      · exact Or.inr (hgap c' p' c p hc' hp' hc hp (Or.inr (Or.inl ⟨h2.symm, h1⟩)))
    · exact Or.inr (hgap c' p' c p hc' hp' hc hp (Or.inl h2))

/-- **C38, keys on a general mesh (partial).**  If the smallest vertex distance `m` of the last cell is
positive and not larger than the mesh extent in x and y, and the centroids of any two sides agree or differ
by at least `m / 2.06` in each coordinate, then two sides have equal keys exactly when their centroids agree. -/
theorem C38_key_partial (C N : ℕ) (nodes : ℕ → ℕ → ℕ) (hv : ∀ c < C, ∀ l < 8, nodes c l < N) (x : ℕ → ℕ → ℝ)
    (junk : ℕ → ℝ) (junk0 : ℝ) (m : ℝ) (hm : m = distMin C nodes x junk junk0) (hpos : 0 < m)
    (hbox : ∀ d < 2, m ≤ coordMax N x d - coordMin N x d)
    (hsep : ∀ c < C, ∀ p < 6, ∀ c' < C, ∀ p' < 6, ∀ d < 3,
      sideCoord nodes x c p d = sideCoord nodes x c' p' d ∨
      m / 2.06 ≤ |sideCoord nodes x c p d - sideCoord nodes x c' p' d|)
    (c p c' p' : ℕ) (hc : c < C) (hp : p < 6) (hc' : c' < C) (hp' : p' < 6) :
    key C N nodes x junk junk0 (6 * c + p) = key C N nodes x junk junk0 (6 * c' + p') ↔
      ∀ d < 3, sideCoord nodes x c p d = sideCoord nodes x c' p' d := by
  unfold key
  rw [show (6 * c + p) / 6 = c by omega, show (6 * c + p) % 6 = p by omega,
    show (6 * c' + p') / 6 = c' by omega, show (6 * c' + p') % 6 = p' by omega]
  obtain ⟨hδpos, hδle⟩ := delta_pos (hm ▸ hpos)
  rw [← hm] at hδle
  set δ := delta C nodes x junk junk0 with hδ
  obtain ⟨z1, g⟩ := hash_gap C N nodes hv x m δ hδpos hδle hbox hsep c p c' p' hc hp hc' hp'
  have z2 := (hash_gap C N nodes hv x m δ hδpos hδle hbox hsep c' p' c p hc' hp' hc hp).1
  have flt : ∀ a b : ℝ, 0 ≤ a → a + 1.05 ≤ b → ⌊a⌋₊ < ⌊b⌋₊ := fun a b h0 h => by
    have h2 := Nat.floor_le_floor (show a + 1 ≤ b by norm_num at h; linarith)
    rw [Nat.floor_add_one h0] at h2
    omega
  constructor
  · intro hk
    by_contra hne
    rcases g hne with h | h
    · exact absurd hk (flt _ _ z1 h).ne
    · exact absurd hk (flt _ _ z2 h).ne'
  · intro h
    have : hash1 N nodes x δ c p = hash1 N nodes x δ c' p' := by
      unfold hash1 hashIdx
      rw [h 0 (by omega), h 1 (by omega), h 2 (by omega)]
    rw [this]

/-! ### Grid meshes -/

/-- Position (0 or 1) of local vertex `l` in direction `d` (vertices in i-j-k order). -/
def bit (l d : ℕ) : ℕ := l / 2 ^ d % 2

/-- A mesh whose cells are different cells `pos c` of a rectilinear grid with increasing plane positions `X d`, whose nodes are
the grid points (a grid point is one node), and whose last cell is at most 3% thicker than any other in each direction. -/
structure Grid (C N : ℕ) (nodes : ℕ → ℕ → ℕ) (x : ℕ → ℕ → ℝ) (X : ℕ → ℤ → ℝ) (pos : ℕ → ℕ → ℤ) : Prop where
  ne : 0 < C
  valid : ∀ c < C, ∀ l < 8, nodes c l < N
  incr : ∀ d < 3, ∀ z, X d z < X d (z + 1)
  last : ∀ d < 3, ∀ z, X d (pos (C - 1) d + 1) - X d (pos (C - 1) d) ≤ 1.03 * (X d (z + 1) - X d z)
  coords : ∀ c < C, ∀ l < 8, ∀ d < 3, x (nodes c l) d = X d (pos c d + bit l d)
  conform : ∀ c < C, ∀ l < 8, ∀ c' < C, ∀ l' < 8,
    (∀ d < 3, x (nodes c l) d = x (nodes c' l') d) → nodes c l = nodes c' l'
  inj : ∀ c < C, ∀ c' < C, (∀ d < 3, pos c d = pos c' d) → c = c'

/-- Twice the lattice coordinate of the centroid of a side. -/
def mid (pos : ℕ → ℕ → ℤ) (c p d : ℕ) : ℤ :=
  2 * pos c d + ((if p / 2 = d then 2 * (p % 2) else 1 : ℕ) : ℤ)

theorem bits_sum : ∀ p < 6, ∀ d < 3, 2 * (bit (patchNodeTable.getD (0 + p * 4) 0) d +
    bit (patchNodeTable.getD (1 + p * 4) 0) d + bit (patchNodeTable.getD (2 + p * 4) 0) d
    + bit (patchNodeTable.getD (3 + p * 4) 0) d) = 4 * if p / 2 = d then 2 * (p % 2) else 1 := by decide

theorem bits_range : ∀ p < 6, ∀ d < 3,
    (∀ q < 4, (if p / 2 = d then p % 2 else 0) ≤ bit (patchNodeTable.getD (q + p * 4) 0) d ∧
      bit (patchNodeTable.getD (q + p * 4) 0) d ≤ if p / 2 = d then p % 2 else 1) ∧
    (∃ q < 4, bit (patchNodeTable.getD (q + p * 4) 0) d = if p / 2 = d then p % 2 else 0) ∧
    (∃ q < 4, bit (patchNodeTable.getD (q + p * 4) 0) d = if p / 2 = d then p % 2 else 1) := by decide

theorem bits_face : ∀ p < 6, ∀ q < 4, bit (patchNodeTable.getD (q + p * 4) 0) (p / 2) = p % 2 := by decide
theorem bits_opposite0 : ∀ r < 3, ∀ q < 4, ∀ d < 3, r ≠ d →
    bit (patchNodeTable.getD (q + (2 * r) * 4) 0) d = bit (patchNodeTable.getD (q + (2 * r + 1) * 4) 0) d := by decide
theorem bits_opposite (p : ℕ) (hp : p < 6) (p' : ℕ) (_ : p' < 6) (h : p / 2 = p' / 2) (q : ℕ) (hq : q < 4)
    (d : ℕ) (hd : d < 3) :
    (p / 2 = d → bit (patchNodeTable.getD (q + p * 4) 0) d = p % 2) ∧
    (p / 2 ≠ d → bit (patchNodeTable.getD (q + p * 4) 0) d = bit (patchNodeTable.getD (q + p' * 4) 0) d) := by
  refine ⟨fun e => e ▸ bits_face p hp q hq, fun e => ?_⟩
  have := bits_opposite0 (p / 2) (by omega) q hq d hd e
  rcases Nat.mod_two_eq_zero_or_one p with h1 | h1 <;> rcases Nat.mod_two_eq_zero_or_one p' with h2 | h2
  · rw [show p = p' by omega]
  · rwa [show 2 * (p / 2) = p by omega, show p + 1 = p' by omega] at this
  · rw [show 2 * (p / 2) = p' by omega, show p' + 1 = p by omega] at this
    exact this.symm
  · rw [show p = p' by omega]

theorem bit_ne : ∀ b < 8, ∀ a < b, ∃ d < 3, bit a d ≠ bit b d := by decide
theorem bit_le : ∀ a < 8, ∀ d < 3, bit a d ≤ 1 := by decide

/-- Position of the half plane `m`: plane `m / 2` if `m` is even, midway between two planes otherwise. -/
noncomputable def half (X : ℕ → ℤ → ℝ) (d : ℕ) (m : ℤ) : ℝ := (X d (m / 2) + X d ((m + 1) / 2)) / 2

section
variable {C N : ℕ} {nodes : ℕ → ℕ → ℕ} {x : ℕ → ℕ → ℝ} {X : ℕ → ℤ → ℝ} {pos : ℕ → ℕ → ℤ}

theorem Grid.X_lt (hL : Grid C N nodes x X pos) {d : ℕ} (hd : d < 3) {a b : ℤ} (h : a < b) : X d a < X d b := by
  obtain ⟨k, rfl⟩ : ∃ k : ℕ, b = a + 1 + k := ⟨(b - a - 1).toNat, by omega⟩
  induction k with
  | zero => simpa using hL.incr d hd a
  | succ k ih =>
    have := ih (by omega)
    have h2 := hL.incr d hd (a + 1 + k)
    rw [show a + 1 + ((k + 1 : ℕ) : ℤ) = a + 1 + k + 1 by push_cast; ring]
    linarith

theorem Grid.X_inj (hL : Grid C N nodes x X pos) {d : ℕ} (hd : d < 3) {a b : ℤ} (h : X d a = X d b) : a = b := by
  rcases lt_trichotomy a b with h1 | h1 | h1
  · exact absurd h (hL.X_lt hd h1).ne
  · exact h1
  · exact absurd h (hL.X_lt hd h1).ne'

theorem Grid.half_gap (hL : Grid C N nodes x X pos) {d : ℕ} (hd : d < 3) {a b : ℤ} (h : a < b) :
    (X d (pos (C - 1) d + 1) - X d (pos (C - 1) d)) / 2.06 ≤ half X d b - half X d a := by
  have step : ∀ m : ℤ, (X d (pos (C - 1) d + 1) - X d (pos (C - 1) d)) / 2.06 ≤ half X d (m + 1) - half X d m := by
    intro m
    unfold half
    rw [show (m + 1 + 1) / 2 = m / 2 + 1 by omega]
    have := hL.last d hd (m / 2)
    rw [div_le_iff₀ (by norm_num)]
    norm_num at this ⊢
    linarith
  obtain ⟨k, rfl⟩ : ∃ k : ℕ, b = a + 1 + k := ⟨(b - a - 1).toNat, by omega⟩
  induction k with
  | zero => simpa using step a
  | succ k ih =>
    have h1 := ih (by omega)
    have h2 := step (a + 1 + k)
    have h3 := hL.incr d hd (pos (C - 1) d)
    rw [show a + 1 + ((k + 1 : ℕ) : ℤ) = a + 1 + k + 1 by push_cast; ring]
    have h4 : 0 < (X d (pos (C - 1) d + 1) - X d (pos (C - 1) d)) / 2.06 := div_pos (by linarith) (by norm_num)
    linarith

/-- Position of a vertex of a cell, from the two planes of the cell. -/
theorem X_bit (X : ℕ → ℤ → ℝ) (d : ℕ) (z : ℤ) {b : ℕ} (hb : b ≤ 1) :
    X d (z + (b : ℤ)) = X d z + (X d (z + 1) - X d z) * (b : ℝ) := by
  have : b = 0 ∨ b = 1 := by omega
  rcases this with rfl | rfl <;> simp

theorem bits_le : ∀ p < 6, ∀ q < 4, ∀ d < 3, bit (patchNodeTable.getD (q + p * 4) 0) d ≤ 1 := by decide

theorem Grid.side (hL : Grid C N nodes x X pos) {c p d : ℕ} (hc : c < C) (hp : p < 6) (hd : d < 3) :
    sideCoord nodes x c p d = half X d (mid pos c p d) := by
  rw [sideCoord_eq]
  unfold nodeInPatchInCell
  have t := fun q hq => (hL.coords c hc _ (table_lt p hp q hq) d hd).trans (X_bit X d (pos c d) (bits_le p hp q hq d hd))
  rw [t 0 (by omega), t 1 (by omega), t 2 (by omega), t 3 (by omega)]
  have hb := bits_sum p hp d hd
  have hb' : (2 : ℝ) * ((bit (patchNodeTable.getD (0 + p * 4) 0) d : ℝ) +
    (bit (patchNodeTable.getD (1 + p * 4) 0) d : ℝ) + (bit (patchNodeTable.getD (2 + p * 4) 0) d : ℝ)
    + (bit (patchNodeTable.getD (3 + p * 4) 0) d : ℝ)) = 4 * ((if p / 2 = d then 2 * (p % 2) else 1 : ℕ) : ℝ) := by
    exact_mod_cast hb
  have hm : half X d (mid pos c p d) = X d (pos c d) + (X d (pos c d + 1) - X d (pos c d)) *
      ((if p / 2 = d then 2 * (p % 2) else 1 : ℕ) : ℝ) / 2 := by
    unfold mid half
    split
    · have : p % 2 = 0 ∨ p % 2 = 1 := by omega
      rcases this with h | h
      · rw [h, show (2 * pos c d + ((2 * 0 : ℕ) : ℤ)) / 2 = pos c d by omega,
          show (2 * pos c d + ((2 * 0 : ℕ) : ℤ) + 1) / 2 = pos c d by omega]
        push_cast; ring
      · rw [h, show (2 * pos c d + ((2 * 1 : ℕ) : ℤ)) / 2 = pos c d + 1 by omega,
          show (2 * pos c d + ((2 * 1 : ℕ) : ℤ) + 1) / 2 = pos c d + 1 by omega]
        push_cast; ring
    · rw [show (2 * pos c d + ((1 : ℕ) : ℤ)) / 2 = pos c d by omega,
        show (2 * pos c d + ((1 : ℕ) : ℤ) + 1) / 2 = pos c d + 1 by omega]
      push_cast; ring
  rw [hm]
  linear_combination ((X d (pos c d + 1) - X d (pos c d)) / 8) * hb'

theorem Grid.half_inj (hL : Grid C N nodes x X pos) {d : ℕ} (hd : d < 3) {a b : ℤ} : half X d a = half X d b ↔ a = b := by
  constructor
  · intro h
    have h3 : 0 < (X d (pos (C - 1) d + 1) - X d (pos (C - 1) d)) / 2.06 :=
      div_pos (by linarith [hL.incr d hd (pos (C - 1) d)]) (by norm_num)
    rcases lt_trichotomy a b with h1 | h1 | h1
    · have := hL.half_gap hd h1; linarith
    · exact h1
    · have := hL.half_gap hd h1; linarith
  · rintro rfl; rfl

theorem Grid.sideCoord_iff (hL : Grid C N nodes x X pos) {c p c' p' d : ℕ} (hc : c < C) (hp : p < 6)
    (hc' : c' < C) (hp' : p' < 6) (hd : d < 3) :
    sideCoord nodes x c p d = sideCoord nodes x c' p' d ↔ mid pos c p d = mid pos c' p' d := by
  rw [hL.side hc hp hd, hL.side hc' hp' hd, hL.half_inj hd]

theorem Grid.dist (hL : Grid C N nodes x X pos) (junk : ℕ → ℝ) (j : ℝ) :
    0 < distMin C nodes x junk j ∧
      ∀ d < 3, distMin C nodes x junk j ≤ X d (pos (C - 1) d + 1) - X d (pos (C - 1) d) := by
  have hC := hL.ne
  rw [distMin_last C nodes x junk j hC]
  obtain ⟨o, ho⟩ : ∃ o : ℕ → ℝ, o = fun d => X d (pos (C - 1) d) := ⟨_, rfl⟩
  obtain ⟨h, hh⟩ : ∃ h : ℕ → ℝ, h = fun d => X d (pos (C - 1) d + 1) - X d (pos (C - 1) d) := ⟨_, rfl⟩
  have hx : ∀ l < 8, ∀ d < 3, x (nodes (C - 1) l) d = o d + h d * (bit l d : ℝ) := fun l hl d hd => by
    rw [hL.coords (C - 1) (by omega) l hl d hd, X_bit X d _ (bit_le l hl d hd), ho, hh]
  have hpos : ∀ d < 3, 0 < h d := fun d hd => by rw [hh]; linarith [hL.incr d hd (pos (C - 1) d)]
  have hh' : ∀ d, X d (pos (C - 1) d + 1) - X d (pos (C - 1) d) = h d := fun d => by rw [hh]
  have p0 := hpos 0 (by omega)
  have p1 := hpos 1 (by omega)
  have p2 := hpos 2 (by omega)
  constructor
  · refine lt_of_lt_of_le (b := min (h 0) (min (h 1) (h 2))) (lt_min p0 (lt_min p1 p2)) (le_cellDistMin _ _ _ ?_)
    intro b hb a ha
    unfold dist1
    simp only []
    rw [hx a (by omega) 0 (by omega), hx a (by omega) 1 (by omega), hx a (by omega) 2 (by omega),
      hx b hb 0 (by omega), hx b hb 1 (by omega), hx b hb 2 (by omega)]
    refine le_trans ?_ (le_abs_self _)
    obtain ⟨d, hd, hne⟩ := bit_ne b hb a ha
    have ba := bit_le a (by omega) d hd
    have bb := bit_le b hb d hd
    have hsq : ((bit b d : ℝ) - (bit a d : ℝ)) ^ 2 = 1 := by
      have : (bit a d = 0 ∧ bit b d = 1) ∨ (bit a d = 1 ∧ bit b d = 0) := by omega
      rcases this with ⟨e1, e2⟩ | ⟨e1, e2⟩ <;> rw [e1, e2] <;> norm_num
    have hle : ∀ e, e < 3 → min (h 0) (min (h 1) (h 2)) ≤ h e := by
      intro e he
      interval_cases e
      · exact min_le_left _ _
      · exact (min_le_right _ _).trans (min_le_left _ _)
      · exact (min_le_right _ _).trans (min_le_right _ _)
    refine (hle d hd).trans ?_
    apply Real.le_sqrt_of_sq_le
    have r : ∀ e, (o e + h e * (bit b e : ℝ) - (o e + h e * (bit a e : ℝ))) ^ 2
        = h e ^ 2 * ((bit b e : ℝ) - (bit a e : ℝ)) ^ 2 := fun e => by ring
    rw [r 0, r 1, r 2]
    have nn : ∀ e, 0 ≤ h e ^ 2 * ((bit b e : ℝ) - (bit a e : ℝ)) ^ 2 := fun e => by positivity
    have n0 := nn 0
    have n1 := nn 1
    have n2 := nn 2
    interval_cases d
    · rw [hsq] at *; linarith
    · rw [hsq] at *; linarith
    · rw [hsq] at *; linarith
  · intro d hd
    rw [hh']
    have hb : 2 ^ d < 8 := by interval_cases d <;> norm_num
    refine (cellDistMin_le _ junk 0 (2 ^ d) hb (by positivity)).trans ?_
    unfold dist1
    simp only []
    rw [hx 0 (by omega) 0 (by omega), hx 0 (by omega) 1 (by omega), hx 0 (by omega) 2 (by omega),
      hx _ hb 0 (by omega), hx _ hb 1 (by omega), hx _ hb 2 (by omega)]
    have hh := hpos d hd
    rw [abs_of_nonneg (Real.sqrt_nonneg _)]
    apply Real.sqrt_le_iff.2 ⟨hh.le, ?_⟩
    interval_cases d <;> norm_num [bit]

theorem Grid.box (hL : Grid C N nodes x X pos) (d : ℕ) (hd : d < 3) :
    X d (pos (C - 1) d + 1) - X d (pos (C - 1) d) ≤ coordMax N x d - coordMin N x d := by
  have hC : C - 1 < C := by have := hL.ne; omega
  have hx := hL.coords (C - 1) hC
  have hb : 2 ^ d < 8 := by interval_cases d <;> norm_num
  have h1 := coordMin_le N x d _ (hL.valid (C - 1) hC 0 (by omega))
  have h2 := le_coordMax N x d _ (hL.valid (C - 1) hC (2 ^ d) hb)
  rw [hx 0 (by omega) d hd] at h1
  rw [hx _ hb d hd] at h2
  have e1 : bit 0 d = 0 := by interval_cases d <;> rfl
  have e2 : bit (2 ^ d) d = 1 := by interval_cases d <;> rfl
  rw [e1] at h1; rw [e2] at h2
  push_cast at h1 h2
  rw [add_zero] at h1
  linarith

/-- Centroids of sides of a grid agree or are well apart. -/
theorem Grid.sep (hL : Grid C N nodes x X pos) (junk : ℕ → ℝ) (j : ℝ) : ∀ c < C, ∀ p < 6, ∀ c' < C, ∀ p' < 6, ∀ d < 3,
    sideCoord nodes x c p d = sideCoord nodes x c' p' d ∨
    distMin C nodes x junk j / 2.06 ≤ |sideCoord nodes x c p d - sideCoord nodes x c' p' d| := by
  intro c hc p hp c' hc' p' hp' d hd
  rw [hL.side hc hp hd, hL.side hc' hp' hd]
  have h1 := div_le_div_of_nonneg_right ((hL.dist junk j).2 d hd) (show (0 : ℝ) ≤ 2.06 by norm_num)
  rcases lt_trichotomy (mid pos c p d) (mid pos c' p' d) with h | h | h
  · have h2 := hL.half_gap hd h
    right
    rw [abs_sub_comm]
    exact le_trans (by linarith) (le_abs_self _)
  · rw [h]; exact Or.inl rfl
  · have h2 := hL.half_gap hd h
    right
    exact le_trans (by linarith) (le_abs_self _)

/-- On a grid the keys tell the centroids apart. -/
theorem Grid.key_iff (hL : Grid C N nodes x X pos) (junk : ℕ → ℝ) (j : ℝ) {c p c' p' : ℕ}
    (hc : c < C) (hp : p < 6) (hc' : c' < C) (hp' : p' < 6) :
    key C N nodes x junk j (6 * c + p) = key C N nodes x junk j (6 * c' + p') ↔
      ∀ d < 3, mid pos c p d = mid pos c' p' d := by
  rw [C38_key_partial C N nodes hL.valid x junk j _ rfl (hL.dist junk j).1
    (fun d hd => ((hL.dist junk j).2 d (by omega)).trans (hL.box d (by omega))) (hL.sep junk j) c p c' p' hc hp hc' hp']
  exact forall_congr' fun d => forall_congr' fun hd => hL.sideCoord_iff hc hp hc' hp' hd

/-- Sides with the same centroid have the same nodes, position by position. -/
theorem Grid.nodes_of_mid (hL : Grid C N nodes x X pos) {c p c' p' : ℕ}
    (hc : c < C) (hp : p < 6) (hc' : c' < C) (hp' : p' < 6) (hm : ∀ d < 3, mid pos c p d = mid pos c' p' d) :
    p / 2 = p' / 2 ∧ ∀ q < 4, nodeInPatchInCell nodes c p q = nodeInPatchInCell nodes c' p' q := by
  have hdir : p / 2 = p' / 2 := by
    have := hm (p / 2) (by omega)
    unfold mid at this
    rw [if_pos rfl] at this
    by_contra hne
    rw [if_neg (fun h => hne h.symm)] at this
    omega
  refine ⟨hdir, fun q hq => ?_⟩
  unfold nodeInPatchInCell
  refine hL.conform c hc _ (table_lt p hp q hq) c' hc' _ (table_lt p' hp' q hq) fun d hd => ?_
  rw [hL.coords c hc _ (table_lt p hp q hq) d hd, hL.coords c' hc' _ (table_lt p' hp' q hq) d hd]
  have o1 := bits_opposite p hp p' hp' hdir q hq d hd
  have o2 := bits_opposite p' hp' p hp hdir.symm q hq d hd
  have hmd := hm d hd
  unfold mid at hmd
  have : pos c d + (bit (patchNodeTable.getD (q + p * 4) 0) d : ℤ)
      = pos c' d + (bit (patchNodeTable.getD (q + p' * 4) 0) d : ℤ) := by
    by_cases hpd : p / 2 = d
    · rw [if_pos hpd, if_pos (hdir ▸ hpd)] at hmd
      rw [o1.1 hpd, o2.1 (hdir ▸ hpd)]; omega
    · rw [if_neg hpd, if_neg (hdir ▸ hpd)] at hmd
      rw [o1.2 hpd]; omega
  rw [this]

/-- Sides with the same node set have the same centroid. -/
theorem Grid.mid_of_nodes (hL : Grid C N nodes x X pos) {c p c' p' : ℕ}
    (hc : c < C) (hp : p < 6) (hc' : c' < C) (hp' : p' < 6)
    (hn : ∀ n, (∃ q < 4, nodeInPatchInCell nodes c p q = n) ↔ ∃ q < 4, nodeInPatchInCell nodes c' p' q = n) :
    ∀ d < 3, mid pos c p d = mid pos c' p' d := by
  intro d hd
  have key : ∀ c p c' p' : ℕ, c < C → p < 6 → c' < C → p' < 6 →
      (∀ n, (∃ q < 4, nodeInPatchInCell nodes c p q = n) → ∃ q < 4, nodeInPatchInCell nodes c' p' q = n) →
      pos c' d + ((if p' / 2 = d then p' % 2 else 0 : ℕ) : ℤ) ≤ pos c d + ((if p / 2 = d then p % 2 else 0 : ℕ) : ℤ) ∧
      pos c d + ((if p / 2 = d then p % 2 else 1 : ℕ) : ℤ) ≤ pos c' d + ((if p' / 2 = d then p' % 2 else 1 : ℕ) : ℤ) := by
    intro c p c' p' hc hp hc' hp' hn
    have lat : ∀ q < 4, ∃ q' < 4, pos c d + (bit (patchNodeTable.getD (q + p * 4) 0) d : ℤ) =
        pos c' d + (bit (patchNodeTable.getD (q' + p' * 4) 0) d : ℤ) := by
      intro q hq
      obtain ⟨q', hq', he⟩ := hn _ ⟨q, hq, rfl⟩
      refine ⟨q', hq', ?_⟩
      have e1 := hL.coords c hc _ (table_lt p hp q hq) d hd
      have e2 := hL.coords c' hc' _ (table_lt p' hp' q' hq') d hd
      unfold nodeInPatchInCell at he
      rw [he, e1] at e2
      exact hL.X_inj hd e2
    obtain ⟨_, ⟨q1, hq1, b1⟩, ⟨q2, hq2, b2⟩⟩ := bits_range p hp d hd
    obtain ⟨r, _, _⟩ := bits_range p' hp' d hd
    obtain ⟨q1', hq1', e1⟩ := lat q1 hq1
    obtain ⟨q2', hq2', e2⟩ := lat q2 hq2
    have r1 := (r q1' hq1').1
    have r2 := (r q2' hq2').2
    rw [b1] at e1
    rw [b2] at e2
    constructor <;> omega
  obtain ⟨a1, a2⟩ := key c p c' p' hc hp hc' hp' (fun n => (hn n).1)
  obtain ⟨a3, a4⟩ := key c' p' c p hc' hp' hc hp (fun n => (hn n).2)
  unfold mid
  split_ifs at * <;> omega

/-- A lattice side has at most two owners. -/
theorem Grid.owner (hL : Grid C N nodes x X pos) {c p c' p' : ℕ}
    (hc : c < C) (hp : p < 6) (hc' : c' < C) (hp' : p' < 6) (hm : ∀ d < 3, mid pos c p d = mid pos c' p' d)
    (hpar : p % 2 = p' % 2) : c = c' ∧ p = p' := by
  have hdir := (hL.nodes_of_mid hc hp hc' hp' hm).1
  have hpp : p = p' := by omega
  subst hpp
  refine ⟨hL.inj c hc c' hc' fun d hd => ?_, rfl⟩
  have := hm d hd
  unfold mid at this
  omega

theorem Grid.owner_ne (hL : Grid C N nodes x X pos) {c p c' p' : ℕ}
    (hc : c < C) (hp : p < 6) (hc' : c' < C) (hp' : p' < 6) (hm : ∀ d < 3, mid pos c p d = mid pos c' p' d)
    (hcc : c = c') : p = p' := by
  subst hcc
  have hdir := (hL.nodes_of_mid hc hp hc' hp' hm).1
  have := hm (p / 2) (by omega)
  unfold mid at this
  rw [if_pos rfl, if_pos hdir.symm] at this
  omega

/-- On a grid, keys that tell the centroids apart give the patches of `C38_grid_partial`. -/
theorem Grid.patches_of_keys (hL : Grid C N nodes x X pos) (keys : ℕ → ℕ)
    (hk : ∀ c < C, ∀ p < 6, ∀ c' < C, ∀ p' < 6, keys (6 * c + p) = keys (6 * c' + p') ↔ ∀ d < 3, mid pos c p d = mid pos c' p' d)
    (jt jc js jn : ℕ → ℤ)
    (ji : ℕ → ℕ → ℤ) (jk : ℕ → ℕ → ℕ) :
    ∃ k, buildPatches C nodes keys jt jc js jn ji jk = some k ∧
      (∀ c < C, ∀ p < 6, ∀ c' < C, ∀ p' < 6, k.inCell c p = k.inCell c' p' ↔
        ∀ n, (∃ q < 4, nodeInPatchInCell nodes c p q = n) ↔ ∃ q < 4, nodeInPatchInCell nodes c' p' q = n) ∧
      ∀ c < C, ∀ p < 6, ∃ g < k.num, k.inCell c p = (g : ℤ) ∧
        ((k.cellsInPatch g 0 = some (c : ℤ) ∧ k.cellsInPatch g 1 = some (-1) ∧
            ∀ c' < C, ∀ p' < 6, k.inCell c' p' = k.inCell c p → c' = c ∧ p' = p) ∨
          ∃ c' < C, ∃ p' < 6, c' ≠ c ∧ k.inCell c' p' = k.inCell c p ∧
            ((k.cellsInPatch g 0 = some (c : ℤ) ∧ k.cellsInPatch g 1 = some (c' : ℤ)) ∨
             (k.cellsInPatch g 0 = some (c' : ℤ) ∧ k.cellsInPatch g 1 = some (c : ℤ))) ∧
            ∀ c'' < C, ∀ p'' < 6, k.inCell c'' p'' = k.inCell c p →
              (c'' = c ∧ p'' = p) ∨ (c'' = c' ∧ p'' = p')) := by
  obtain ⟨k, h1, h2, h3, _, _, h4⟩ := C38_patches_partial C nodes keys jt jc js jn ji jk
  have hid : ∀ c < C, ∀ p < 6, ∀ c' < C, ∀ p' < 6, k.inCell c p = k.inCell c' p' ↔
      ∀ d < 3, mid pos c p d = mid pos c' p' d := fun c hc p hp c' hc' p' hp' => by
    rw [h2 c hc p hp c' hc' p' hp', hk c hc p hp c' hc' p' hp']
  refine ⟨k, h1, ?_, ?_⟩
  · intro c hc p hp c' hc' p' hp'
    rw [hid c hc p hp c' hc' p' hp']
    constructor
    · intro hm n
      have := (hL.nodes_of_mid hc hp hc' hp' hm).2
      constructor
      · rintro ⟨q, hq, e⟩; exact ⟨q, hq, by rw [← this q hq]; exact e⟩
      · rintro ⟨q, hq, e⟩; exact ⟨q, hq, by rw [this q hq]; exact e⟩
    · exact hL.mid_of_nodes hc hp hc' hp'
  · intro c hc p hp
    obtain ⟨l0, l1⟩ := h3 c hc p hp
    obtain ⟨g, hg⟩ : ∃ g : ℕ, k.inCell c p = (g : ℤ) := ⟨(k.inCell c p).toNat, by omega⟩
    have hgn : g < k.num := by omega
    refine ⟨g, hgn, hg, ?_⟩
    obtain ⟨a, L, hs, c0, _, _, c1, c2⟩ := h4 g hgn
    have hmem : ∀ c' < C, ∀ p' < 6, k.inCell c' p' = k.inCell c p ↔ 6 * c' + p' = a ∨ 6 * c' + p' ∈ L := by
      intro c' hc' p' hp'
      have : 6 * c' + p' ∈ sidesOf k C g ↔ k.inCell c' p' = k.inCell c p := by
        unfold sidesOf
        rw [List.mem_filter, List.mem_range, show (6 * c' + p') / 6 = c' by omega,
          show (6 * c' + p') % 6 = p' by omega, hg]
        simp only [decide_eq_true_eq]
        exact ⟨fun h => h.2, fun h => ⟨by omega, h⟩⟩
      rw [← this, hs, List.mem_cons]
    have hnd : (a :: L).Nodup := by
      rw [← hs]; unfold sidesOf; exact (List.nodup_range).filter _
    have hall : ∀ e ∈ a :: L, e < 6 * C ∧ k.inCell (e / 6) (e % 6) = k.inCell c p := by
      intro e he
      rw [← hs] at he
      unfold sidesOf at he
      rw [List.mem_filter, List.mem_range] at he
      exact ⟨he.1, by rw [hg]; simpa using he.2⟩
    -- any two different sides of this patch have different parity and different cells
    have hpar : ∀ e ∈ a :: L, ∀ e' ∈ a :: L, e % 6 % 2 = e' % 6 % 2 → e = e' := by
      intro e he e' he' hh
      obtain ⟨q1, q2⟩ := hall e he
      obtain ⟨q3, q4⟩ := hall e' he'
      have := (hid (e / 6) (by omega) (e % 6) (by omega) (e' / 6) (by omega) (e' % 6) (by omega)).1 (q2.trans q4.symm)
      obtain ⟨r1, r2⟩ := hL.owner (by omega) (by omega) (by omega) (by omega) this hh
      omega
    have hcell : ∀ e ∈ a :: L, ∀ e' ∈ a :: L, e / 6 = e' / 6 → e = e' := by
      intro e he e' he' hh
      obtain ⟨q1, q2⟩ := hall e he
      obtain ⟨q3, q4⟩ := hall e' he'
      have := (hid (e / 6) (by omega) (e % 6) (by omega) (e' / 6) (by omega) (e' % 6) (by omega)).1 (q2.trans q4.symm)
      have := hL.owner_ne (by omega) (by omega) (by omega) (by omega) this hh
      omega
    have hself : 6 * c + p = a ∨ 6 * c + p ∈ L := (hmem c hc p hp).1 rfl
    cases L with
    | nil =>
      left
      have ha : 6 * c + p = a := by simpa using hself
      refine ⟨?_, (c1 rfl).1, ?_⟩
      · rw [c0, show a / 6 = c by omega]
      · intro c' hc' p' hp' he
        have := (hmem c' hc' p' hp').1 he
        simp at this
        omega
    | cons b M =>
      have hM : M = [] := by
        cases M with
        | nil => rfl
        | cons d M =>
          exfalso
          have n1 : a ≠ b := by intro h; simp [h] at hnd
          have n2 : a ≠ d := by intro h; simp [h] at hnd
          have n3 : b ≠ d := by intro h; simp [h] at hnd
          have p1 := hpar a (by simp) b (by simp)
          have p2 := hpar a (by simp) d (by simp)
          have p3 := hpar b (by simp) d (by simp)
          have q1 : ¬ a % 6 % 2 = b % 6 % 2 := fun h => n1 (p1 h)
          have q2 : ¬ a % 6 % 2 = d % 6 % 2 := fun h => n2 (p2 h)
          have q3 : ¬ b % 6 % 2 = d % 6 % 2 := fun h => n3 (p3 h)
          omega
      subst hM
      have n1 : a ≠ b := by intro h; simp [h] at hnd
      have ncell : a / 6 ≠ b / 6 := fun h => n1 (hcell a (by simp) b (by simp) h)
      obtain ⟨aK, aI⟩ := hall a (by simp)
      obtain ⟨bK, bI⟩ := hall b (by simp)
      have c2' := (c2 (by simp)).1
      simp only [List.getLast_singleton] at c2'
      right
      rcases hself with hs1 | hs1
      · refine ⟨b / 6, by omega, b % 6, by omega, by omega, bI, Or.inl ⟨?_, c2'⟩, ?_⟩
        · rw [c0, show a / 6 = c by omega]
        · intro c' hc' p' hp' he
          rcases (hmem c' hc' p' hp').1 he with h | h
          · left; omega
          · right; simp at h; omega
      · simp at hs1
        refine ⟨a / 6, by omega, a % 6, by omega, by omega, aI, Or.inr ⟨c0, ?_⟩, ?_⟩
        · rw [c2', show b / 6 = c by omega]
        · intro c' hc' p' hp' he
          rcases (hmem c' hc' p' hp').1 he with h | h
          · right; omega
          · left; simp at h; omega


/-- **C38 on rectilinear grids (partial).**  For every mesh made of different cells of a rectilinear grid whose last cell is at
most 3% thicker than any other in each direction and whose nodes are the grid points: `build_patch_connectivity` performs no out-of-bounds access, two
sides get the same patch id exactly when they have the same nodes, and for every patch the slots of `cells_in_patch` are the one
cell and `-1` if only one side has this face, and otherwise the two cells having it.  (`C38_negation` is a grid whose last
cell is much thicker than another.) -/
theorem C38_grid_partial (hL : Grid C N nodes x X pos) (junk : ℕ → ℝ) (j : ℝ) (jt jc js jn : ℕ → ℤ)
    (ji : ℕ → ℕ → ℤ) (jk : ℕ → ℕ → ℕ) :
    ∃ k, buildPatches C nodes (key C N nodes x junk j) jt jc js jn ji jk = some k ∧
      (∀ c < C, ∀ p < 6, ∀ c' < C, ∀ p' < 6, k.inCell c p = k.inCell c' p' ↔
        ∀ n, (∃ q < 4, nodeInPatchInCell nodes c p q = n) ↔ ∃ q < 4, nodeInPatchInCell nodes c' p' q = n) ∧
      ∀ c < C, ∀ p < 6, ∃ g < k.num, k.inCell c p = (g : ℤ) ∧
        ((k.cellsInPatch g 0 = some (c : ℤ) ∧ k.cellsInPatch g 1 = some (-1) ∧
            ∀ c' < C, ∀ p' < 6, k.inCell c' p' = k.inCell c p → c' = c ∧ p' = p) ∨
          ∃ c' < C, ∃ p' < 6, c' ≠ c ∧ k.inCell c' p' = k.inCell c p ∧
            ((k.cellsInPatch g 0 = some (c : ℤ) ∧ k.cellsInPatch g 1 = some (c' : ℤ)) ∨
             (k.cellsInPatch g 0 = some (c' : ℤ) ∧ k.cellsInPatch g 1 = some (c : ℤ))) ∧
            ∀ c'' < C, ∀ p'' < 6, k.inCell c'' p'' = k.inCell c p →
              (c'' = c ∧ p'' = p) ∨ (c'' = c' ∧ p'' = p')) :=
  hL.patches_of_keys _ (fun _ hc _ hp _ hc' _ hp' => hL.key_iff junk j hc hp hc' hp') jt jc js jn ji jk

end

end Verif.Swage.Key
