import Verif.Swage.HighOrderLattice

/-!
# C69: three ways in which `refine_high_order_mesh` fails
-/

namespace Verif.Swage.HighOrder
open Verif.Swage Verif.Swage.Refine LagrangeElement LagrangeElement.Spec

/-! ### Gauss point 0 is never merged -/

/-- **C69 fails (first vertex).**  On every mesh in which the first vertex of element 0 is also a corner of another
element, the Gauss point of that corner coincides with Gauss point 0 but gets a different node. -/
theorem C69_first_vertex_negation (E N p : ℕ) (hp : 1 ≤ p) (hp9 : p ≤ 9) (nodes : ℕ → ℕ → ℕ) (x : ℕ → ℕ → ℝ) (q : Junk)
    (hf : FirstRows E p nodes x) (e : ℕ) (he0 : 0 < e) (he : e < E) (a b c : ℕ) (ha : a < 2) (hb : b < 2) (hc : c < 2)
    (hshare : nodes e (a * p + b * p * (p + 1) + c * p * (p + 1) ^ 2) = nodes 0 0) :
    ∃ r, refineHighOrder E N p nodes x q = some r ∧ ∃ g, 0 < g ∧ g < E * (2 * p + 1) ^ 3 ∧
      (∀ d < 3, r.gauss.val g d = r.gauss.val 0 d) ∧ r.nig.val g ≠ r.nig.val 0 := by
  obtain ⟨r, hr, hv⟩ := C69_vertex E N p hp hp9 nodes x q hf
  obtain ⟨r', hr', R⟩ := high_run (N := N) hp hp9 nodes x q hf
  have : r' = r := by rw [hr] at hr'; exact (Option.some.inj hr').symm
  subst this
  obtain ⟨y, hy, hyv⟩ := hv e he a ha b hb c hc
  obtain ⟨y0, hy0, hyv0⟩ := hv 0 (by omega) 0 (by omega) 0 (by omega) 0 (by omega)
  obtain ⟨hlt, hye⟩ := Arr.get_eq_some hy
  obtain ⟨-, hye0⟩ := Arr.get_eq_some hy0
  set g := gaussInElem ((2 * p + 1) ^ 3) e (a * (2 * p) + b * (2 * p) * (2 * p + 1) + c * (2 * p) * (2 * p + 1) ^ 2) with hg
  have hz : gaussInElem ((2 * p + 1) ^ 3) 0 (0 * (2 * p) + 0 * (2 * p) * (2 * p + 1)
    + 0 * (2 * p) * (2 * p + 1) ^ 2) = 0 := by simp [gaussInElem]
  rw [hz] at hye0
  rw [R.gauss_size] at hlt
  have hg0 : 0 < g := by
    rw [hg]; unfold gaussInElem
    have : 0 < e * (2 * p + 1) ^ 3 := by positivity
    omega
  refine ⟨r', hr, g, hg0, hlt, ?_, ?_⟩
  · intro d hd
    rw [hye, hye0, hyv d hd, hyv0 d hd, hshare]
    simp
  · intro h
    rcases (R.nig_iff g hlt 0 (by omega)).1 h with h | ⟨-, h, -⟩
    · omega
    · exact h rfl

/-- Non-vacuity: the two boxes of `two_boxes`, the left one listed second. -/
example (q : Junk) : ∃ r, refineHighOrder 2 45 2 (fun e => twoNodes (1 - e)) twoPos q = some r ∧ ∃ g, 0 < g ∧ g < 250 ∧
    (∀ d < 3, r.gauss.val g d = r.gauss.val 0 d) ∧ r.nig.val g ≠ r.nig.val 0 :=
  C69_first_vertex_negation 2 45 2 (by omega) (by omega) _ _ q
    (fun e he j i hji hi => two_rows (1 - e) (by omega) j i hji hi) 1 (by omega) (by omega) 1 0 0 (by omega) (by omega)
    (by omega) (by decide)

/-! ### First rows in the z direction -/

theorem minDist_nonneg (E p : ℕ) (nodes : ℕ → ℕ → ℕ) (x : ℕ → ℕ → ℝ) : 0 ≤ minDist E p nodes x := by
  unfold minDist
  refine loop_keep (fun m => 0 ≤ m) ?_ fun e he m hm => loop_keep (fun m => 0 ≤ m) hm fun j hj m hm =>
    loop_keep (fun m => 0 ≤ m) hm fun t ht m hm => le_min hm (Real.sqrt_nonneg _)
  unfold numMax; positivity

theorem high_ne {E N p : ℕ} {nodes : ℕ → ℕ → ℕ} {x : ℕ → ℕ → ℝ} {q : Junk} {r : Refined}
    (hr : refineHighOrder E N p nodes x q = some r) : binSize E p nodes x ≠ 0 := by
  intro h0
  have hh : hashDist p (minDist E p nodes x) = 0 := h0
  unfold refineHighOrder at hr
  simp only [Option.bind_eq_bind] at hr
  rw [hh] at hr
  obtain ⟨Z, -, hr⟩ := Option.bind_eq_some_iff.1 hr
  obtain ⟨lob, -, hr⟩ := Option.bind_eq_some_iff.1 hr
  obtain ⟨g, -, hr⟩ := Option.bind_eq_some_iff.1 hr
  rw [if_pos rfl] at hr
  cases hr

/-- **C69 fails (rows along z).**  The distance of two vertices leaves out the z coordinate (`(z2 - z1)*(z1 - z1)`).  So if
two vertices of the first row of any element differ only in z, as for every box whose first reference direction
is the z axis, the bin size is 0 and the conversion of the bin numbers to `int` is undefined. -/
theorem C69_zdir_negation (E N p : ℕ) (nodes : ℕ → ℕ → ℕ) (x : ℕ → ℕ → ℝ) (q : Junk) (e j i : ℕ) (he : e < E)
    (hji : j < i) (hi : i ≤ p) (hx : x (nodes e j) 0 = x (nodes e i) 0) (hy : x (nodes e j) 1 = x (nodes e i) 1) :
    refineHighOrder E N p nodes x q = none := by
  have h1 := minDist_le (E := E) (p := p) nodes x he hji hi
  rw [pairDist_eq, hx, hy] at h1
  simp only [sub_self] at h1
  rw [show ((0 : ℝ) ^ 2 + 0 ^ 2) = 0 by norm_num, Real.sqrt_zero] at h1
  have h0 : binSize E p nodes x = 0 := by
    unfold binSize hashDist
    rw [le_antisymm h1 (minDist_nonneg E p nodes x), zero_div]
  by_contra hne
  obtain ⟨r, hr⟩ := Option.ne_none_iff_exists'.1 hne
  exact high_ne hr h0

/-- Non-vacuity: the box `[0, 2]³` with the reference directions along z, x, y. -/
example (q : Junk) : refineHighOrder 1 27 2 (fun _ l => l)
    (fun n d => ((dig (n / 3 % 3) (n / 9) (n % 3) d : ℕ) : ℝ)) q = none :=
  C69_zdir_negation 1 27 2 _ _ q 0 0 1 (by omega) (by omega) (by omega) (by norm_num [dig]) (by norm_num [dig])

/-! ### Curved elements -/

/-- The image of the reference point `(ξ, η, ζ)` under a map of degree 2 with Jacobian determinant 1 everywhere. -/
noncomputable def bent (ξ η ζ : ℝ) (d : ℕ) : ℝ := dig' d (ξ + 3 * η ^ 2 + 18 / 5 * η) η ζ

/-- The element with the vertices `bent` of the equally spaced lattice of order 2. -/
noncomputable def bentPos (n d : ℕ) : ℝ := bent (-1 + (n % 3 : ℕ)) (-1 + (n / 3 % 3 : ℕ)) (-1 + (n / 9 : ℕ)) d

theorem bent_rows : FirstRows 1 2 (fun _ l => l) bentPos := by
  intro e he j i hji hi
  refine ⟨0, by omega, ?_⟩
  have : (j = 0 ∧ i = 1) ∨ (j = 0 ∧ i = 2) ∨ (j = 1 ∧ i = 2) := by omega
  rcases this with ⟨rfl, rfl⟩ | ⟨rfl, rfl⟩ | ⟨rfl, rfl⟩ <;> norm_num [bentPos, bent, dig']

theorem bent_min : -8 / 5 ≤ posMin 27 bentPos 0 := by
  unfold posMin
  refine loop_keep (fun m => -8 / 5 ≤ m) ?_ fun n hn m hm => le_min hm ?_
  · have : (0 : ℝ) < numMax := by unfold numMax; positivity
    linarith
  · interval_cases n <;> norm_num [bentPos, bent, dig']

/-- **C69 fails (curved elements).**  On a mesh of one element of order 2, a smooth map of the cube with Jacobian
determinant 1, two Gauss points more than 0.3 apart become one node: they lie outside the bounding box of the
vertices, and all negative bin numbers are replaced by 0. -/
theorem C69_curved_negation (q : Junk) :
    ∃ r, refineHighOrder 1 27 2 (fun _ l => l) bentPos q = some r ∧
      r.nig.val 55 = r.nig.val 56 ∧ r.gauss.val 55 0 + 3 / 10 < r.gauss.val 56 0 := by
  obtain ⟨r, lob, hr, hl, h⟩ := C69_polynomial 1 27 2 (by omega) (by omega) (fun _ l => l) bentPos q bent_rows 0 (by omega)
    (fun d a b c => if d = 0 then (if (a, b, c) = (1, 0, 0) then 1 else if (a, b, c) = (0, 2, 0) then 3 else
        if (a, b, c) = (0, 1, 0) then 18 / 5 else 0)
      else if d = 1 then (if (a, b, c) = (0, 1, 0) then 1 else 0) else (if (a, b, c) = (0, 0, 1) then 1 else 0))
    (by
      intro i hi j hj k hk d hd
      interval_cases d <;> interval_cases i <;> interval_cases j <;> interval_cases k <;>
        norm_num [polyMap, Finset.sum_range_succ, bentPos, bent, dig'])
  obtain ⟨r', hr', R⟩ := high_run (N := 27) (p := 2) (by omega) (by omega) (fun _ l => l) bentPos q bent_rows
  have : r' = r := by rw [hr] at hr'; exact (Option.some.inj hr').symm
  subst this
  obtain ⟨y, hy, hyd⟩ := h 2 (by omega) 1 (by omega) 0 (by omega)
  obtain ⟨z, hz, hzd⟩ := h 2 (by omega) 1 (by omega) 1 (by omega)
  obtain ⟨-, hye⟩ := Arr.get_eq_some hy
  obtain ⟨-, hze⟩ := Arr.get_eq_some hz
  have i1 : gaussInElem ((2 * 2 + 1) ^ 3) 0 (0 + 1 * (2 * 2 + 1) + 2 * (2 * 2 + 1) ^ 2) = 55 := by decide
  have i2 : gaussInElem ((2 * 2 + 1) ^ 3) 0 (1 + 1 * (2 * 2 + 1) + 2 * (2 * 2 + 1) ^ 2) = 56 := by decide
  rw [i1] at hye; rw [i2] at hze
  have hx : Quad.lobNodes (2 * 2 + 1) = [-1, -1/7*√21, 0, 1/7*√21, (1:ℝ)] := rfl
  have L0 : lob.val 0 = -1 := by rw [lob_val (by omega) (by omega) hl 0 (by omega), hx]; rfl
  have L1 : lob.val 1 = -1/7*√21 := by rw [lob_val (by omega) (by omega) hl 1 (by omega), hx]; rfl
  have hs : √21 ^ 2 = (21 : ℝ) := Real.sq_sqrt (by norm_num)
  have h0 : 0 < √21 := Real.sqrt_pos.2 (by norm_num)
  have h1 : √21 < 4.6 := by nlinarith
  have h3 : 4.58 < √21 := by nlinarith
  have e0 : y 0 = -1 + 3 * (3 / 7) - 18 / 35 * √21 := by
    rw [hyd 0 (by omega), L0, L1]
    norm_num [polyMap, Finset.sum_range_succ]
    nlinarith
  have e1 : z 0 = -1 / 7 * √21 + 3 * (3 / 7) - 18 / 35 * √21 := by
    rw [hzd 0 (by omega), L1]
    norm_num [polyMap, Finset.sum_range_succ]
    nlinarith
  have e2 : ∀ d < 3, 0 < d → y d = z d := by
    intro d hd hd0
    rw [hyd d hd, hzd d hd, L0, L1]
    interval_cases d <;> norm_num [polyMap, Finset.sum_range_succ]
  refine ⟨r', hr, ?_, by rw [hye, hze, e0, e1]; norm_num at h1 ⊢; linarith⟩
  rw [R.nig_iff 55 (by norm_num) 56 (by norm_num)]
  refine Or.inr ⟨by omega, by omega, ?_⟩
  have hb := binSize_pos (p := 2) (by omega) bent_rows
  have hm := bent_min
  have neg : ∀ w : ℝ, w ≤ -17 / 10 → ⌊(w - posMin 27 bentPos 0 + 1 / 10 ^ 14) / binSize 1 2 (fun _ l => l) bentPos⌋₊ = 0 := by
    intro w hw
    apply Nat.floor_of_nonpos
    apply div_nonpos_of_nonpos_of_nonneg _ hb.le
    have : (1 : ℝ) / 10 ^ 14 < 1 / 100 := by norm_num
    linarith
  have k0 : index 27 bentPos (binSize 1 2 (fun _ l => l) bentPos) (r'.gauss.val 55) 0 =
      index 27 bentPos (binSize 1 2 (fun _ l => l) bentPos) (r'.gauss.val 56) 0 := by
    rw [index_eq, index_eq]; unfold bin
    rw [hye, hze, neg _ (by rw [e0]; norm_num at h3 ⊢; linarith), neg _ (by rw [e1]; norm_num at h3 ⊢; linarith)]
  have kd : ∀ d < 3, 0 < d → index 27 bentPos (binSize 1 2 (fun _ l => l) bentPos) (r'.gauss.val 55) d =
      index 27 bentPos (binSize 1 2 (fun _ l => l) bentPos) (r'.gauss.val 56) d := by
    intro d hd hd0
    unfold index; rw [hye, hze, e2 d hd hd0]
  unfold key
  rw [k0, kd 1 (by omega) (by omega), kd 2 (by omega) (by omega)]

end Verif.Swage.HighOrder
