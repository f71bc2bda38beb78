import Verif.RefElem.PatchTheorems

/-!
# C62, C64: surface and inside nodes, corner surfaces
-/

namespace Verif.RefElem
open Finset
open scoped Classical

theorem enum_of_count {P : ℕ → Prop} [DecidablePred P] {v : ℕ → ℕ} {N T : ℕ} (hT : T = Nat.count P N)
    (h : ∀ m < N, P m → v (Nat.count P m) = m) :
    StrictMonoOn v (Set.Iio T) ∧ v '' Set.Iio T = {m | m < N ∧ P m} := by
  subst hT
  constructor
  · intro a ha b hb hab
    obtain ⟨m, h1, h2, rfl⟩ := count_surj ha
    obtain ⟨m', h1', h2', rfl⟩ := count_surj hb
    rw [h m h1 h2, h m' h1' h2']
    by_contra hc
    exact absurd (Nat.count_monotone P (not_lt.1 hc)) (by omega)
  · ext m
    constructor
    · rintro ⟨t, ht, rfl⟩
      obtain ⟨m, h1, h2, rfl⟩ := count_surj ht
      rw [h m h1 h2]; exact ⟨h1, h2⟩
    · rintro ⟨h1, h2⟩
      exact ⟨_, Nat.count_strict_mono h2 h1, h m h1 h2⟩

/-- **C62.**  The list of inside nodes contains, in increasing order and without repetition, exactly the lattice nodes
with all coordinates strictly between the first and the last, the list of surface nodes exactly the others; the
lists have the advertised lengths `(n-2)³` and `n³-(n-2)³`. -/
theorem C62_surface (p : ℕ) (q : Junk) : ∃ r, init p q = some r ∧
    let n := nodes1D p
    r.split.inside.size = (n - 2) ^ 3 ∧ r.split.surf.size = n ^ 3 - (n - 2) ^ 3 ∧
    r.split.numIn = (n - 2) ^ 3 ∧ r.split.numSurf = n ^ 3 - (n - 2) ^ 3 ∧
    StrictMonoOn r.split.inside.val (Set.Iio ((n - 2) ^ 3)) ∧
    StrictMonoOn r.split.surf.val (Set.Iio (n ^ 3 - (n - 2) ^ 3)) ∧
    r.split.inside.val '' Set.Iio ((n - 2) ^ 3) =
      {m | ∃ x y z, (0 < x ∧ x + 1 < n) ∧ (0 < y ∧ y + 1 < n) ∧ (0 < z ∧ z + 1 < n) ∧ m = x + y * n + z * n ^ 2} ∧
    r.split.surf.val '' Set.Iio (n ^ 3 - (n - 2) ^ 3) =
      {m | ∃ x y z, (x < n ∧ y < n ∧ z < n) ∧ (x = 0 ∨ x + 1 = n ∨ y = 0 ∨ y + 1 = n ∨ z = 0 ∨ z + 1 = n) ∧
        m = x + y * n + z * n ^ 2} := by
  obtain ⟨r, h1, h2⟩ := init_run p q
  refine ⟨r, h1, ?_⟩
  simp only []
  have hn := two_le_nodes p
  have e1 : (nodes1D p - 2) ^ 3 = (nodes1D p - 2) * (nodes1D p - 2) * (nodes1D p - 2) := by ring
  have e2 : nodes1D p ^ 3 = nodes1D p * nodes1D p * nodes1D p := by ring
  have ec : ∀ i j k, i + j * nodes1D p + k * nodes1D p ^ 2 = rid (nodes1D p) i j k := by intro i j k; unfold rid; ring
  rw [e1, e2]
  simp only [ec]
  have c1 := count_inner (nodes1D p)
  have c2 := count_not (Inner (nodes1D p)) (nodes1D p * nodes1D p * nodes1D p)
  obtain ⟨a1, a2⟩ := enum_of_count c1.symm h2.inside
  obtain ⟨b1, b2⟩ := enum_of_count (P := fun x => ¬ Inner (nodes1D p) x)
    (T := nodes1D p * nodes1D p * nodes1D p - (nodes1D p - 2) * (nodes1D p - 2) * (nodes1D p - 2)) (by omega) h2.surf
  refine ⟨h2.inSize, h2.surfSize, h2.numIn, h2.numSurf, a1, b1, ?_, ?_⟩
  · rw [a2]
    ext m
    constructor
    · rintro ⟨hm, i, j, k, rfl, hi, hj, hk⟩
      exact ⟨i + 1, j + 1, k + 1, by omega, by omega, by omega, rfl⟩
    · rintro ⟨x, y, z, hx, hy, hz, rfl⟩
      exact ⟨rid_lt (by omega) (by omega) (by omega), (inner_iff (by omega) (by omega)).2 (by omega)⟩
  · rw [b2]
    ext m
    constructor
    · rintro ⟨hm, hin⟩
      obtain ⟨i, j, k, hi, hj, hk, rfl⟩ := rid_surj hm
      rw [inner_iff hi hj] at hin
      exact ⟨i, j, k, ⟨hi, hj, hk⟩, by omega, rfl⟩
    · rintro ⟨x, y, z, ⟨hx, hy, hz⟩, ho, rfl⟩
      refine ⟨rid_lt hx hy hz, ?_⟩
      show ¬ Inner _ _
      rw [inner_iff hx hy]; omega

/-- Non-vacuity: order 1 has one inside node, number 13, and 26 surface nodes. -/
example (q : Junk) : ∃ r, init 1 q = some r ∧ r.split.numIn = 1 ∧ r.split.numSurf = 26 ∧ r.split.inside.val 0 = 13 := by
  have key := C62_surface 1 q
  simp only [show nodes1D 1 = 3 from rfl] at key
  obtain ⟨r, h, -, -, h3, h4, -, -, h7, -⟩ := key
  refine ⟨r, h, h3, h4, ?_⟩
  have h8 := Set.ext_iff.1 h7 (r.split.inside.val 0)
  obtain ⟨x, y, z, hx, hy, hz, e⟩ := h8.1 ⟨0, by simp, rfl⟩
  omega

/-! ### Corner surfaces -/

theorem unit_eq {ii jj kk : ℕ} (hi : ii < 2) (hj : jj < 2) (hk : kk < 2) {s d : ℕ} (hs : s < 3) (hd : d < 3) :
    surfVec (rid 2 ii jj kk) s d = if d = s then (if co ii jj kk s = 0 then -1 else 1) else 0 := by
  have a : ii = 0 ∨ ii = 1 := by omega
  have b : jj = 0 ∨ jj = 1 := by omega
  have c : kk = 0 ∨ kk = 1 := by omega
  have e : s = 0 ∨ s = 1 ∨ s = 2 := by omega
  have f : d = 0 ∨ d = 1 ∨ d = 2 := by omega
  rcases a with rfl | rfl <;> rcases b with rfl | rfl <;> rcases c with rfl | rfl <;> rcases e with rfl | rfl | rfl <;>
    rcases f with rfl | rfl | rfl <;> simp [surfVec, unitNormals, rid, co]

theorem surfWeight_eq {ii jj kk : ℕ} (hi : ii < 2) (hj : jj < 2) (hk : kk < 2) {s : ℕ} (hs : s < 3) (f : ℕ → ℝ) :
    surfWeight f (rid 2 ii jj kk) s = ∏ d ∈ (range 3).erase s, f d := by
  unfold surfWeight
  rw [unit_eq hi hj hk hs (by norm_num), unit_eq hi hj hk hs (by norm_num), unit_eq hi hj hk hs (by norm_num)]
  have e0 : (Finset.range 3).erase 0 = {1, 2} := by decide
  have e1 : (Finset.range 3).erase 1 = {0, 2} := by decide
  have e2 : (Finset.range 3).erase 2 = {0, 1} := by decide
  have e : s = 0 ∨ s = 1 ∨ s = 2 := by omega
  rcases e with rfl | rfl | rfl <;> simp [e0, e1, e2] <;> split <;> simp

/-- **C64 (corner surfaces).**  Corner `(a, b, c)` (numbered on the `2C × 2C × 2C` lattice) has three surfaces.  The
normal of surface `s` is the unit vector along axis `s`, pointing to the side of the cell on which the corner lies
(negative for even, positive for odd corner coordinate); its weight is the product of the 1-D corner weights of the two
other directions. -/
theorem C64_surfaces (p : ℕ) (q : Junk) : ∃ r, init p q = some r ∧
    ∀ a b c, a < corners1D p → b < corners1D p → c < corners1D p → ∃ (nrm : ℕ → ℕ → ℝ) (w : ℕ → ℝ),
      r.crn.normals.get (a + b * corners1D p + c * corners1D p ^ 2) = some nrm ∧
      r.crn.weights.get (a + b * corners1D p + c * corners1D p ^ 2) = some w ∧
      ∀ s < 3, (∀ d < 3, nrm s d = if d = s then (if co a b c s % 2 = 0 then -1 else 1) else 0) ∧
        w s = ∏ d ∈ (range 3).erase s, cw1 (nodes1D p) r.lobw.val (co a b c d) := by
  obtain ⟨r, h1, h2⟩ := init_run p q
  refine ⟨r, h1, ?_⟩
  rw [corners_eq]
  intro a b c ha hb hc
  rw [show a + b * (2 * cells1D p) + c * (2 * cells1D p) ^ 2 = rid (2 * cells1D p) a b c by unfold rid; ring]
  have hlt := rid_lt ha hb hc
  obtain ⟨part, g1, g2⟩ := h2.crn
  have hT : rid (cells1D p) (a / 2) (b / 2) (c / 2) * 8 + rid 2 (a % 2) (b % 2) (c % 2) <
      2 * cells1D p * (2 * cells1D p) * (2 * cells1D p) := by
    have := rid_lt (w := cells1D p) (i := a / 2) (j := b / 2) (k := c / 2) (by omega) (by omega) (by omega)
    have := rid_lt (w := 2) (i := a % 2) (j := b % 2) (k := c % 2) (by omega) (by omega) (by omega)
    rw [show 2 * cells1D p * (2 * cells1D p) * (2 * cells1D p) = cells1D p * cells1D p * cells1D p * 8 by ring]; omega
  have k1 := g2.normals (a / 2) (b / 2) (c / 2) (by omega) (by omega) (by omega) (a % 2) (b % 2) (c % 2) (by omega)
    (by omega) (by omega) hT
  have k2 := g2.weights (a / 2) (b / 2) (c / 2) (by omega) (by omega) (by omega) (a % 2) (b % 2) (c % 2) (by omega)
    (by omega) (by omega) hT
  rw [show 2 * (a / 2) + a % 2 = a by omega, show 2 * (b / 2) + b % 2 = b by omega,
    show 2 * (c / 2) + c % 2 = c by omega] at k1 k2
  refine ⟨_, _, get_of (by rw [g2.size3]; exact hlt) k1, get_of (by rw [g2.size4]; exact hlt) k2, ?_⟩
  intro s hs
  refine ⟨?_, ?_⟩
  · intro d hd
    rw [unit_eq (by omega) (by omega) (by omega) hs hd]
    have : co (a % 2) (b % 2) (c % 2) s = co a b c s % 2 := by unfold co; split <;> [rfl; split <;> rfl]
    rw [this]
  · rw [surfWeight_eq (by omega) (by omega) (by omega) hs, g1 a b c ha hb hc]
    exact prod_congr rfl fun d _ => row3_co _ a b c d

/-- **C64 (closed cells).**  The weighted normals of the corner surfaces of a cell sum to zero, for each of the three
surfaces and each direction. -/
theorem C64_closed (p : ℕ) (q : Junk) : ∃ r, init p q = some r ∧
    ∀ cell < cells1D p ^ 3, ∀ s < 3, ∀ d < 3, ∑ l ∈ range 8,
      ((r.cornersInCell cell l).map fun c => r.crn.weights.val c s * r.crn.normals.val c s d).getD 0 = 0 := by
  obtain ⟨r, h1, h2⟩ := init_run p q
  obtain ⟨r', h1', h3⟩ := C64_surfaces p q
  obtain rfl : r' = r := Option.some.inj (h1'.symm.trans h1)
  refine ⟨r', h1, ?_⟩
  intro cell hcell s hs d hd
  rw [show cells1D p ^ 3 = cells1D p * cells1D p * cells1D p by ring] at hcell
  obtain ⟨i, j, k, hi, hj, hk, rfl⟩ := rid_surj hcell
  have key : ∀ l < 8, ((r'.cornersInCell (rid (cells1D p) i j k) l).map fun c =>
      r'.crn.weights.val c s * r'.crn.normals.val c s d).getD 0 =
      (∏ d ∈ (range 3).erase s, cw1 (nodes1D p) r'.lobw.val (co (2 * i + l % 2) (2 * j + l / 2 % 2) (2 * k + l / 4) d)) *
      (if d = s then (if co (2 * i + l % 2) (2 * j + l / 2 % 2) (2 * k + l / 4) s % 2 = 0 then -1 else 1) else 0) := by
    intro l hl
    rw [cornersInCell_eq h2 hi hj hk hl]
    simp only [Option.map_some, Option.getD_some]
    obtain ⟨nrm, w, e1, e2, e3⟩ := h3 (2 * i + l % 2) (2 * j + l / 2 % 2) (2 * k + l / 4)
      (by rw [corners_eq]; omega) (by rw [corners_eq]; omega) (by rw [corners_eq]; omega)
    have er : 2 * i + l % 2 + (2 * j + l / 2 % 2) * corners1D p + (2 * k + l / 4) * corners1D p ^ 2 =
        rid (2 * cells1D p) (2 * i + l % 2) (2 * j + l / 2 % 2) (2 * k + l / 4) := by rw [corners_eq]; unfold rid; ring
    rw [er] at e1 e2
    rw [(Arr.get_eq_some e1).2, (Arr.get_eq_some e2).2, (e3 s hs).1 d hd, (e3 s hs).2]
  rw [sum_congr rfl fun l hl => key l (mem_range.1 hl)]
  have e0 : (Finset.range 3).erase 0 = {1, 2} := by decide
  have e1 : (Finset.range 3).erase 1 = {0, 2} := by decide
  have e2 : (Finset.range 3).erase 2 = {0, 1} := by decide
  by_cases hds : d = s
  · have e : s = 0 ∨ s = 1 ∨ s = 2 := by omega
    rcases e with rfl | rfl | rfl <;> simp [sum_range_succ, hds, e0, e1, e2, co]
    ring
  · simp [hds]

end Verif.RefElem
