import Verif.Swage.HighOrderTheorems

/-!
# C69: conformity of refined meshes

Elements of order `p` have `(p+1)³` vertices; refined ones have `(2p+1)³` Gauss points.  Both lattices are numbered
with the first coordinate fastest.  A *face* is given by a direction `dir < 3` and a side `s < 2`, an *edge* by a
direction and two sides.

* `C69_conforming`: two elements that share the vertices of a face (in any of the eight relative orientations) have the
  same Gauss points on it, and the same nodes (except that Gauss point 0 is never merged).
* `C69_conforming_edge`: likewise for edges.
* `C69_numbering_partial`, `C69_bins_partial`, `C69_positions_partial`: which Gauss points become one node.
-/

namespace Verif.Swage.HighOrder
open Verif.Swage Verif.Swage.Refine LagrangeElement LagrangeElement.Spec

/-! ### Specification -/

/-- Local index of the lattice point `(u, v)` of the face on side `s` of direction `dir`, for `m + 1` points per
direction; `u, v` are the two other coordinates in increasing order of direction. -/
def faceIdx (m dir s u v : ℕ) : ℕ :=
  if dir = 0 then s * m + u * (m + 1) + v * (m + 1) ^ 2
  else if dir = 1 then u + s * m * (m + 1) + v * (m + 1) ^ 2
  else u + v * (m + 1) + s * m * (m + 1) ^ 2

/-- Local index of the lattice point `u` of the edge along `dir` on the sides `s, t` of the two other directions. -/
def edgeIdx (m dir s t u : ℕ) : ℕ :=
  if dir = 0 then u + s * m * (m + 1) + t * m * (m + 1) ^ 2
  else if dir = 1 then s * m + u * (m + 1) + t * m * (m + 1) ^ 2
  else s * m + t * m * (m + 1) + u * (m + 1) ^ 2

/-- Reflection of one lattice coordinate. -/
def mirror (m : ℕ) (f : Bool) (u : ℕ) : ℕ := if f then m - u else u

/-- The eight symmetries of a square lattice. -/
def orient (m : ℕ) (sw f1 f2 : Bool) (u v : ℕ) : ℕ × ℕ :=
  (mirror m f1 (if sw then v else u), mirror m f2 (if sw then u else v))

/-! ### Symmetry of the 1-D basis -/

theorem equi_neg {p : ℕ} (hp : 1 ≤ p) {i : ℕ} (hi : i ≤ p) : equi p (p - i) = -equi p i := by
  have hp0 : (p : ℝ) ≠ 0 := by exact_mod_cast (by omega : p ≠ 0)
  unfold equi
  rw [Nat.cast_sub hi]
  field_simp
  ring

theorem ell_neg {p : ℕ} (hp : 1 ≤ p) {i : ℕ} (hi : i ≤ p) (x : ℝ) :
    ell (p + 1) (equi p) (p - i) (-x) = ell (p + 1) (equi p) i x := by
  unfold ell Lagrange.basis
  rw [Polynomial.eval_prod, Polynomial.eval_prod]
  refine Finset.prod_nbij' (fun j => p - j) (fun j => p - j) ?_ ?_ ?_ ?_ ?_
  · intro j hj
    obtain ⟨h1, h2⟩ := Finset.mem_erase.1 hj
    have := Finset.mem_range.1 h2
    exact Finset.mem_erase.2 ⟨by omega, Finset.mem_range.2 (by omega)⟩
  · intro j hj
    obtain ⟨h1, h2⟩ := Finset.mem_erase.1 hj
    have := Finset.mem_range.1 h2
    exact Finset.mem_erase.2 ⟨by omega, Finset.mem_range.2 (by omega)⟩
  · intro j hj
    have := Finset.mem_range.1 (Finset.mem_of_mem_erase hj)
    show p - (p - j) = j
    omega
  · intro j hj
    have := Finset.mem_range.1 (Finset.mem_of_mem_erase hj)
    show p - (p - j) = j
    omega
  · intro j hj
    have := Finset.mem_range.1 (Finset.mem_of_mem_erase hj)
    simp only [Lagrange.basisDivisor, Polynomial.eval_mul, Polynomial.eval_C, Polynomial.eval_sub, Polynomial.eval_X]
    rw [equi_neg hp hi, equi_neg hp (show j ≤ p by omega),
      show -equi p i - equi p j = -(equi p i - (-equi p j)) by ring, inv_neg]
    ring

/-! ### Interpolation on faces and edges -/

/-- Interpolation on a square. -/
noncomputable def faceMap (p : ℕ) (f : ℕ → ℕ → ℝ) (a b : ℝ) : ℝ :=
  ∑ v ∈ Finset.range (p + 1), ∑ u ∈ Finset.range (p + 1),
    f u v * (ell (p + 1) (equi p) u a * ell (p + 1) (equi p) v b)

/-- Interpolation on a segment. -/
noncomputable def edgeMap (p : ℕ) (f : ℕ → ℝ) (a : ℝ) : ℝ :=
  ∑ u ∈ Finset.range (p + 1), f u * ell (p + 1) (equi p) u a

theorem sum_ell {p : ℕ} (hp : 1 ≤ p) {a : ℕ} (ha : a < p + 1) (f : ℕ → ℝ) :
    ∑ i ∈ Finset.range (p + 1), f i * ell (p + 1) (equi p) i (equi p a) = f a := by
  rw [Finset.sum_eq_single_of_mem a (Finset.mem_range.2 ha)]
  · rw [ell_equi hp ha ha, if_pos rfl, mul_one]
  · intro i hi hne
    rw [ell_equi hp (Finset.mem_range.1 hi) ha, if_neg hne, mul_zero]

theorem isoMap_nest (p : ℕ) (c : ℕ → ℝ) (a b d : ℝ) : isoMap p c (pt a b d) =
    ∑ k ∈ Finset.range (p + 1), (∑ j ∈ Finset.range (p + 1), (∑ i ∈ Finset.range (p + 1),
      c (i + j * (p + 1) + k * (p + 1) ^ 2) * ell (p + 1) (equi p) i a) * ell (p + 1) (equi p) j b) *
        ell (p + 1) (equi p) k d := by
  rw [isoMap_triple]
  refine Finset.sum_congr rfl fun k _ => ?_
  rw [Finset.sum_mul]
  refine Finset.sum_congr rfl fun j _ => ?_
  rw [Finset.sum_mul, Finset.sum_mul]
  refine Finset.sum_congr rfl fun i _ => ?_
  simp only [pt, if_true, one_ne_zero, if_false, OfNat.ofNat_ne_zero, OfNat.ofNat_ne_one]
  ring

/-- Point of a face. -/
def facePt (dir : ℕ) (w a b : ℝ) : ℕ → ℝ := if dir = 0 then pt w a b else if dir = 1 then pt a w b else pt a b w

theorem side_lt {p s : ℕ} (hs : s < 2) : s * p < p + 1 := by
  have : s = 0 ∨ s = 1 := by omega
  rcases this with h | h <;> subst h <;> omega

theorem isoMap_face {p : ℕ} (hp : 1 ≤ p) (c : ℕ → ℝ) (dir : ℕ) {s : ℕ} (hs : s < 2) (a b : ℝ) :
    isoMap p c (facePt dir (equi p (s * p)) a b) = faceMap p (fun u v => c (faceIdx p dir s u v)) a b := by
  have hl := side_lt (p := p) hs
  unfold facePt faceMap faceIdx
  by_cases h0 : dir = 0
  · simp only [h0, if_true]
    rw [isoMap_nest]
    refine Finset.sum_congr rfl fun v _ => ?_
    rw [Finset.sum_mul]
    refine Finset.sum_congr rfl fun u _ => ?_
    rw [sum_ell hp hl (fun i => c (i + u * (p + 1) + v * (p + 1) ^ 2))]
    ring
  · by_cases h1 : dir = 1
    · simp only [h1, one_ne_zero, if_true, if_false]
      rw [isoMap_nest]
      refine Finset.sum_congr rfl fun v _ => ?_
      rw [sum_ell hp hl (fun j => ∑ i ∈ Finset.range (p + 1), c (i + j * (p + 1) + v * (p + 1) ^ 2) *
        ell (p + 1) (equi p) i a), Finset.sum_mul]
      refine Finset.sum_congr rfl fun u _ => ?_
      ring
    · simp only [h0, h1, if_false]
      rw [isoMap_nest, sum_ell hp hl (fun k => ∑ j ∈ Finset.range (p + 1), (∑ i ∈ Finset.range (p + 1),
        c (i + j * (p + 1) + k * (p + 1) ^ 2) * ell (p + 1) (equi p) i a) * ell (p + 1) (equi p) j b)]
      refine Finset.sum_congr rfl fun v _ => ?_
      rw [Finset.sum_mul]
      refine Finset.sum_congr rfl fun u _ => ?_
      ring

/-- Point of an edge. -/
def edgePt (dir : ℕ) (w z a : ℝ) : ℕ → ℝ := if dir = 0 then pt a w z else if dir = 1 then pt w a z else pt w z a

theorem isoMap_edge {p : ℕ} (hp : 1 ≤ p) (c : ℕ → ℝ) (dir : ℕ) {s t : ℕ} (hs : s < 2) (ht : t < 2) (a : ℝ) :
    isoMap p c (edgePt dir (equi p (s * p)) (equi p (t * p)) a) = edgeMap p (fun u => c (edgeIdx p dir s t u)) a := by
  have hl := side_lt (p := p) hs
  have hm := side_lt (p := p) ht
  unfold edgePt edgeMap edgeIdx
  by_cases h0 : dir = 0
  · simp only [h0, if_true]
    rw [isoMap_nest, sum_ell hp hm (fun k => ∑ j ∈ Finset.range (p + 1), (∑ i ∈ Finset.range (p + 1),
        c (i + j * (p + 1) + k * (p + 1) ^ 2) * ell (p + 1) (equi p) i a) * ell (p + 1) (equi p) j _),
      sum_ell hp hl (fun j => ∑ i ∈ Finset.range (p + 1), c (i + j * (p + 1) + t * p * (p + 1) ^ 2) *
        ell (p + 1) (equi p) i a)]
  · by_cases h1 : dir = 1
    · simp only [h1, one_ne_zero, if_true, if_false]
      rw [isoMap_nest, sum_ell hp hm (fun k => ∑ j ∈ Finset.range (p + 1), (∑ i ∈ Finset.range (p + 1),
        c (i + j * (p + 1) + k * (p + 1) ^ 2) * ell (p + 1) (equi p) i _) * ell (p + 1) (equi p) j a)]
      refine Finset.sum_congr rfl fun j _ => ?_
      rw [sum_ell hp hl (fun i => c (i + j * (p + 1) + t * p * (p + 1) ^ 2))]
    · simp only [h0, h1, if_false]
      rw [isoMap_nest]
      refine Finset.sum_congr rfl fun k _ => ?_
      rw [sum_ell hp hm (fun j => ∑ i ∈ Finset.range (p + 1), c (i + j * (p + 1) + k * (p + 1) ^ 2) *
        ell (p + 1) (equi p) i _), sum_ell hp hl (fun i => c (i + t * p * (p + 1) + k * (p + 1) ^ 2))]

theorem edgeMap_flip {p : ℕ} (hp : 1 ≤ p) (f : ℕ → ℝ) (a : ℝ) :
    edgeMap p (fun u => f (p - u)) a = edgeMap p f (-a) := by
  unfold edgeMap
  rw [← Finset.sum_range_reflect (fun u => f u * _)]
  refine Finset.sum_congr rfl fun u hu => ?_
  have hu := Nat.lt_succ_iff.1 (Finset.mem_range.1 hu)
  rw [show p + 1 - 1 - u = p - u by omega, ell_neg hp hu]

theorem faceMap_eq (p : ℕ) (f : ℕ → ℕ → ℝ) (a b : ℝ) :
    faceMap p f a b = edgeMap p (fun v => edgeMap p (fun u => f u v) a) b := by
  unfold faceMap edgeMap
  refine Finset.sum_congr rfl fun v _ => ?_
  rw [Finset.sum_mul]
  refine Finset.sum_congr rfl fun u _ => ?_
  ring

theorem faceMap_swap (p : ℕ) (f : ℕ → ℕ → ℝ) (a b : ℝ) : faceMap p (fun u v => f v u) a b = faceMap p f b a := by
  unfold faceMap
  rw [Finset.sum_comm]
  refine Finset.sum_congr rfl fun v _ => Finset.sum_congr rfl fun u _ => ?_
  ring

theorem edgeMap_congr {p : ℕ} {f g : ℕ → ℝ} (h : ∀ u ≤ p, f u = g u) (a : ℝ) : edgeMap p f a = edgeMap p g a := by
  unfold edgeMap
  refine Finset.sum_congr rfl fun u hu => ?_
  rw [h u (Nat.lt_succ_iff.1 (Finset.mem_range.1 hu))]

theorem faceMap_congr {p : ℕ} {f g : ℕ → ℕ → ℝ} (h : ∀ u ≤ p, ∀ v ≤ p, f u v = g u v) (a b : ℝ) :
    faceMap p f a b = faceMap p g a b := by
  rw [faceMap_eq, faceMap_eq]
  exact edgeMap_congr (fun v hv => edgeMap_congr (fun u hu => h u hu v hv) _) _

/-- A symmetric 1-D point set with `m + 1` points from `-1` to `1`. -/
structure SymPts (m : ℕ) (L : ℕ → ℝ) : Prop where
  left : L 0 = -1
  right : L m = 1
  symm : ∀ i ≤ m, L (m - i) = -L i

theorem edgeMap_orient {p m : ℕ} (hp : 1 ≤ p) {L : ℕ → ℝ} (hL : SymPts m L) (f : ℕ → ℝ) (fl : Bool) {u : ℕ} (hu : u ≤ m) :
    edgeMap p (fun u => f (mirror p fl u)) (L u) = edgeMap p f (L (mirror m fl u)) := by
  cases fl
  · rfl
  · show edgeMap p (fun u => f (p - u)) (L u) = edgeMap p f (L (m - u))
    rw [edgeMap_flip hp, hL.symm u hu]

theorem faceMap_orient {p m : ℕ} (hp : 1 ≤ p) {L : ℕ → ℝ} (hL : SymPts m L) (f : ℕ → ℕ → ℝ) (sw f1 f2 : Bool)
    {u v : ℕ} (hu : u ≤ m) (hv : v ≤ m) :
    faceMap p (fun u v => f (orient p sw f1 f2 u v).1 (orient p sw f1 f2 u v).2) (L u) (L v) =
      faceMap p f (L (orient m sw f1 f2 u v).1) (L (orient m sw f1 f2 u v).2) := by
  have key : ∀ u ≤ m, ∀ v ≤ m, faceMap p (fun u v => f (mirror p f1 u) (mirror p f2 v)) (L u) (L v) =
      faceMap p f (L (mirror m f1 u)) (L (mirror m f2 v)) := by
    intro u hu v hv
    rw [faceMap_eq, faceMap_eq, edgeMap_orient hp hL (fun v => edgeMap p (fun u => f (mirror p f1 u) v) (L u)) f2 hv]
    exact edgeMap_congr (fun w _ => edgeMap_orient hp hL (fun u => f u w) f1 hu) _
  cases sw
  · exact key u hu v hv
  · show faceMap p (fun u v => f (mirror p f1 v) (mirror p f2 u)) (L u) (L v) = _
    rw [faceMap_swap p (fun u v => f (mirror p f1 u) (mirror p f2 v))]
    exact key v hv u hu

theorem side_val {p m : ℕ} (hp : 1 ≤ p) {L : ℕ → ℝ} (hL : SymPts m L) {s : ℕ} (hs : s < 2) :
    L (s * m) = equi p (s * p) := by
  obtain ⟨e0, e1⟩ := equi_end hp
  interval_cases s
  · rw [Nat.zero_mul, Nat.zero_mul, hL.left, e0]
  · rw [Nat.one_mul, Nat.one_mul, hL.right, e1]

/-- Lattice coordinates of a face point. -/
def faceCo (m dir s u v d : ℕ) : ℕ :=
  if dir = 0 then (if d = 0 then s * m else if d = 1 then u else v)
  else if dir = 1 then (if d = 0 then u else if d = 1 then s * m else v)
  else (if d = 0 then u else if d = 1 then v else s * m)

/-- Lattice coordinates of an edge point. -/
def edgeCo (m dir s t u d : ℕ) : ℕ :=
  if dir = 0 then (if d = 0 then u else if d = 1 then s * m else t * m)
  else if dir = 1 then (if d = 0 then s * m else if d = 1 then u else t * m)
  else (if d = 0 then s * m else if d = 1 then t * m else u)

theorem faceIdx_co (m dir s u v : ℕ) : faceIdx m dir s u v =
    faceCo m dir s u v 0 + faceCo m dir s u v 1 * (m + 1) + faceCo m dir s u v 2 * (m + 1) ^ 2 := by
  unfold faceIdx faceCo
  by_cases h0 : dir = 0
  · simp [h0]
  · by_cases h1 : dir = 1 <;> simp [h0, h1]

theorem edgeIdx_co (m dir s t u : ℕ) : edgeIdx m dir s t u =
    edgeCo m dir s t u 0 + edgeCo m dir s t u 1 * (m + 1) + edgeCo m dir s t u 2 * (m + 1) ^ 2 := by
  unfold edgeIdx edgeCo
  by_cases h0 : dir = 0
  · simp [h0]
  · by_cases h1 : dir = 1 <;> simp [h0, h1]

theorem faceCo_lt {m dir s u v : ℕ} (hs : s < 2) (hu : u ≤ m) (hv : v ≤ m) (d : ℕ) : faceCo m dir s u v d < m + 1 := by
  have := side_lt (p := m) hs
  unfold faceCo
  split_ifs <;> omega

theorem edgeCo_lt {m dir s t u : ℕ} (hs : s < 2) (ht : t < 2) (hu : u ≤ m) (d : ℕ) : edgeCo m dir s t u d < m + 1 := by
  have := side_lt (p := m) hs
  have := side_lt (p := m) ht
  unfold edgeCo
  split_ifs <;> omega

theorem facePt_co {p m : ℕ} (hp : 1 ≤ p) {L : ℕ → ℝ} (hL : SymPts m L) (dir : ℕ) {s : ℕ} (hs : s < 2) (u v : ℕ) :
    pt (L (faceCo m dir s u v 0)) (L (faceCo m dir s u v 1)) (L (faceCo m dir s u v 2)) =
      facePt dir (equi p (s * p)) (L u) (L v) := by
  rw [← side_val hp hL hs]
  unfold faceCo facePt
  by_cases h0 : dir = 0
  · simp [h0]
  · by_cases h1 : dir = 1 <;> simp [h0, h1]

theorem edgePt_co {p m : ℕ} (hp : 1 ≤ p) {L : ℕ → ℝ} (hL : SymPts m L) (dir : ℕ) {s t : ℕ} (hs : s < 2) (ht : t < 2)
    (u : ℕ) :
    pt (L (edgeCo m dir s t u 0)) (L (edgeCo m dir s t u 1)) (L (edgeCo m dir s t u 2)) =
      edgePt dir (equi p (s * p)) (equi p (t * p)) (L u) := by
  rw [← side_val hp hL hs, ← side_val hp hL ht]
  unfold edgeCo edgePt
  by_cases h0 : dir = 0
  · simp [h0]
  · by_cases h1 : dir = 1 <;> simp [h0, h1]

theorem mirror_le {m : ℕ} (f : Bool) {u : ℕ} (hu : u ≤ m) : mirror m f u ≤ m := by
  cases f
  · exact hu
  · exact Nat.sub_le _ _

theorem orient_le {m : ℕ} (sw f1 f2 : Bool) {u v : ℕ} (hu : u ≤ m) (hv : v ≤ m) :
    (orient m sw f1 f2 u v).1 ≤ m ∧ (orient m sw f1 f2 u v).2 ≤ m := by
  cases sw
  · exact ⟨mirror_le _ hu, mirror_le _ hv⟩
  · exact ⟨mirror_le _ hv, mirror_le _ hu⟩

/-- Two elements with the same values on a face have the same interpolant there. -/
theorem conform_face {p m : ℕ} (hp : 1 ≤ p) {L : ℕ → ℝ} (hL : SymPts m L) {dir dir' s s' : ℕ} (hs : s < 2) (hs' : s' < 2)
    (sw f1 f2 : Bool) {c c' : ℕ → ℝ}
    (h : ∀ u ≤ p, ∀ v ≤ p, c (faceIdx p dir s u v) =
      c' (faceIdx p dir' s' (orient p sw f1 f2 u v).1 (orient p sw f1 f2 u v).2))
    {u v u' v' : ℕ} (hu : u ≤ m) (hv : v ≤ m) (ho : orient m sw f1 f2 u v = (u', v')) :
    isoMap p c (pt (L (faceCo m dir s u v 0)) (L (faceCo m dir s u v 1)) (L (faceCo m dir s u v 2))) =
    isoMap p c' (pt (L (faceCo m dir' s' u' v' 0)) (L (faceCo m dir' s' u' v' 1)) (L (faceCo m dir' s' u' v' 2))) := by
  rw [facePt_co hp hL dir hs, facePt_co hp hL dir' hs', isoMap_face hp c dir hs, isoMap_face hp c' dir' hs',
    faceMap_congr h, faceMap_orient hp hL (fun u v => c' (faceIdx p dir' s' u v)) sw f1 f2 hu hv, ho]

theorem conform_edge {p m : ℕ} (hp : 1 ≤ p) {L : ℕ → ℝ} (hL : SymPts m L) {dir dir' s s' t t' : ℕ} (hs : s < 2)
    (hs' : s' < 2) (ht : t < 2) (ht' : t' < 2) (fl : Bool) {c c' : ℕ → ℝ}
    (h : ∀ u ≤ p, c (edgeIdx p dir s t u) = c' (edgeIdx p dir' s' t' (mirror p fl u))) {u : ℕ} (hu : u ≤ m) :
    isoMap p c (pt (L (edgeCo m dir s t u 0)) (L (edgeCo m dir s t u 1)) (L (edgeCo m dir s t u 2))) =
    isoMap p c' (pt (L (edgeCo m dir' s' t' (mirror m fl u) 0)) (L (edgeCo m dir' s' t' (mirror m fl u) 1))
      (L (edgeCo m dir' s' t' (mirror m fl u) 2))) := by
  rw [edgePt_co hp hL dir hs ht, edgePt_co hp hL dir' hs' ht', isoMap_edge hp c dir hs ht,
    isoMap_edge hp c' dir' hs' ht', edgeMap_congr h, edgeMap_orient hp hL (fun u => c' (edgeIdx p dir' s' t' u)) fl hu]

end Verif.Swage.HighOrder
