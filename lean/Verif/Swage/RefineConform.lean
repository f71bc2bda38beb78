import Verif.Swage.HighOrderLattice

/-!
# C42: conformity of `refine_mesh`

Faces, edges and their orientations as in `HighOrderConform` (`faceIdx 1`, `edgeIdx 1` number the eight vertices of a
cell).
-/

namespace Verif.Swage.Refine
open Verif.Swage Verif.Swage.HighOrder LagrangeElement.Spec

theorem ell_two (t : ℝ) : ell 2 (equi 1) 0 t = (1 - t) / 2 ∧ ell 2 (equi 1) 1 t = (1 + t) / 2 := by
  have h0 := ell_pow (p := 1) le_rfl (Nat.zero_le 1) t
  have h1 := ell_pow (p := 1) le_rfl le_rfl t
  simp only [Finset.sum_range_succ, Finset.sum_range_zero, equi] at h0 h1
  norm_num at h0 h1
  constructor <;> linarith

/-- The trilinear map of `refine_mesh` is the interpolant of order 1. -/
theorem gPoint_iso (L : ℕ → ℝ) (i j k : ℕ) (c : ℕ → ℝ) :
    gPoint (basis L i j k) c = isoMap 1 c (HighOrder.pt (L i) (L j) (L k)) := by
  rw [gPoint_eq, Finset.sum_congr rfl fun v hv => by rw [basis_eq L i j k v (Finset.mem_range.1 hv)], isoMap_triple]
  simp only [Finset.sum_range_succ, Finset.sum_range_zero, HighOrder.pt, if_true, one_ne_zero, if_false,
    OfNat.ofNat_ne_zero, OfNat.ofNat_ne_one, zero_add]
  simp only [(ell_two (L i)).1, (ell_two (L i)).2, (ell_two (L j)).1, (ell_two (L j)).2, (ell_two (L k)).1,
    (ell_two (L k)).2]
  norm_num
  ring

theorem lob_sym0 {p : ℕ} (hp : p ≤ 9) {a : ℕ → ℝ} {lob : Arr ℝ}
    (hl : Quad.lobatto_nodes_1D (pts1d p) ⟨pts1d p, a⟩ = some lob) : SymPts (pts1d p - 1) lob.val := by
  obtain ⟨l, w, h1, -, h3, h4, h5⟩ := Quad.C30_lobatto (pts1d p) (by unfold pts1d; split <;> omega)
    (by unfold pts1d; split <;> omega) a a
  obtain rfl : l = lob := Option.some.inj (h1.symm.trans hl)
  have n2 : 2 ≤ pts1d p := by unfold pts1d; split <;> omega
  exact ⟨h4, h5, fun i hi => (h3.symm i (by omega)).1⟩

theorem key_congr0 {N : ℕ} {x : ℕ → ℕ → ℝ} {h : ℝ} {y z : ℕ → ℝ} (e : ∀ d < 3, y d = z d) :
    key N x h y = key N x h z := by
  unfold key
  have : ∀ d < 3, index N x h y d = index N x h z d := fun d hd => by unfold index; rw [e d hd]
  rw [this 0 (by omega), this 1 (by omega), this 2 (by omega)]

/-- **C42 (conformity).**  For every order up to 9 and every mesh of hexahedra: if the vertices of face `(dir, s)` of
cell `e` are those of face `(dir', s')` of cell `e'`, up to one of the eight symmetries of the square, then the
Gauss points of the two elements on that face coincide under the same symmetry, and have the same nodes (unless one
of them is Gauss point 0). -/
theorem C42_conforming (E N p : ℕ) (hp : p ≤ 9) (nodes : ℕ → ℕ → ℕ) (x : ℕ → ℕ → ℝ) (q : Junk)
    (hd : DistinctVerts E nodes x) :
    ∃ r, refineMesh E N p nodes x q = some r ∧
      ∀ e < E, ∀ e' < E, ∀ dir s dir' s' : ℕ, s < 2 → s' < 2 → ∀ sw f1 f2 : Bool,
        (∀ u ≤ 1, ∀ v ≤ 1, nodes e (faceIdx 1 dir s u v) =
          nodes e' (faceIdx 1 dir' s' (orient 1 sw f1 f2 u v).1 (orient 1 sw f1 f2 u v).2)) →
        ∀ u ≤ sub1d p, ∀ v ≤ sub1d p, ∃ g g', g = gaussInElem (pts1d p ^ 3) e (faceIdx (sub1d p) dir s u v) ∧
          g' = gaussInElem (pts1d p ^ 3) e' (faceIdx (sub1d p) dir' s'
            (orient (sub1d p) sw f1 f2 u v).1 (orient (sub1d p) sw f1 f2 u v).2) ∧
          (∃ y z, r.gauss.get g = some y ∧ r.gauss.get g' = some z ∧ ∀ d < 3, y d = z d) ∧
          (g ≠ 0 → g' ≠ 0 → ∃ n, r.nig.get g = some n ∧ r.nig.get g' = some n) := by
  obtain ⟨r, hr, R⟩ := refine_run E N p nodes x q (hash_ne hd p _ _)
  obtain ⟨lob, hl, hg⟩ := R.gauss
  have hL := lob_sym0 hp hl
  have hsub := sub_pts p
  rw [show pts1d p - 1 = sub1d p by omega] at hL
  refine ⟨r, hr, ?_⟩
  intro e he e' he' dir s dir' s' hs hs' sw f1 f2 hshare u hu v hv
  refine ⟨_, _, rfl, rfl, ?_⟩
  rw [← hsub] at hg
  have gsz : r.gauss.size = E * (sub1d p + 1) ^ 3 := by rw [R.gauss_size, hsub]
  have nsz : r.nig.size = E * (sub1d p + 1) ^ 3 := by rw [R.nig_size, hsub]
  have niff := R.nig_iff
  rw [← hsub] at niff ⊢
  set m := sub1d p with hm
  obtain ⟨ho1, ho2⟩ := orient_le (m := m) sw f1 f2 hu hv
  set u' := (orient m sw f1 f2 u v).1 with hu'
  set v' := (orient m sw f1 f2 u v).2 with hv'
  have hid : ∀ e dir s u v, gaussInElem ((m + 1) ^ 3) e (faceIdx m dir s u v) =
      cellId (m + 1) e (faceCo m dir s u v 2) (faceCo m dir s u v 1) (faceCo m dir s u v 0) := by
    intro e dir s u v
    rw [faceIdx_co]; unfold gaussInElem cellId; ring
  have hlt : ∀ e < E, ∀ dir s u v, s < 2 → u ≤ m → v ≤ m →
      gaussInElem ((m + 1) ^ 3) e (faceIdx m dir s u v) < E * (m + 1) ^ 3 := by
    intro e he dir s u v hs hu hv
    rw [hid]
    exact lt_of_lt_of_eq (cellId_lt he (faceCo_lt hs hu hv 2) (faceCo_lt hs hu hv 1) (faceCo_lt hs hu hv 0)) (by ring)
  have hpos : ∀ d < 3, r.gauss.val (gaussInElem ((m + 1) ^ 3) e (faceIdx m dir s u v)) d =
      r.gauss.val (gaussInElem ((m + 1) ^ 3) e' (faceIdx m dir' s' u' v')) d := by
    intro d hd
    rw [hid, hid, hg _ _ _ _ he (faceCo_lt hs hu hv 2) (faceCo_lt hs hu hv 1) (faceCo_lt hs hu hv 0),
      hg _ _ _ _ he' (faceCo_lt hs' ho1 ho2 2) (faceCo_lt hs' ho1 ho2 1) (faceCo_lt hs' ho1 ho2 0)]
    simp only [gPoint_iso]
    exact conform_face le_rfl hL hs hs' sw f1 f2 (fun u hu v hv => by rw [hshare u hu v hv]) hu hv rfl
  have hl1 := hlt e he dir s u v hs hu hv
  have hl2 := hlt e' he' dir' s' u' v' hs' ho1 ho2
  refine ⟨⟨_, _, Arr.get_lt (by rw [gsz]; exact hl1), Arr.get_lt (by rw [gsz]; exact hl2), hpos⟩, ?_⟩
  intro n1 n2
  refine ⟨_, Arr.get_lt (by rw [nsz]; exact hl1), ?_⟩
  rw [Arr.get_lt (by rw [nsz]; exact hl2), (niff _ hl1 _ hl2).2 (Or.inr ⟨n1, n2, key_congr0 hpos⟩)]

/-- **C42 (conformity, edges).**  Likewise for an edge shared by two cells, in either direction. -/
theorem C42_conforming_edge (E N p : ℕ) (hp : p ≤ 9) (nodes : ℕ → ℕ → ℕ) (x : ℕ → ℕ → ℝ) (q : Junk)
    (hd : DistinctVerts E nodes x) :
    ∃ r, refineMesh E N p nodes x q = some r ∧
      ∀ e < E, ∀ e' < E, ∀ dir s t dir' s' t' : ℕ, s < 2 → t < 2 → s' < 2 → t' < 2 → ∀ fl : Bool,
        (∀ u ≤ 1, nodes e (edgeIdx 1 dir s t u) = nodes e' (edgeIdx 1 dir' s' t' (mirror 1 fl u))) →
        ∀ u ≤ sub1d p, ∃ g g', g = gaussInElem (pts1d p ^ 3) e (edgeIdx (sub1d p) dir s t u) ∧
          g' = gaussInElem (pts1d p ^ 3) e' (edgeIdx (sub1d p) dir' s' t' (mirror (sub1d p) fl u)) ∧
          (∃ y z, r.gauss.get g = some y ∧ r.gauss.get g' = some z ∧ ∀ d < 3, y d = z d) ∧
          (g ≠ 0 → g' ≠ 0 → ∃ n, r.nig.get g = some n ∧ r.nig.get g' = some n) := by
  obtain ⟨r, hr, R⟩ := refine_run E N p nodes x q (hash_ne hd p _ _)
  obtain ⟨lob, hl, hg⟩ := R.gauss
  have hL := lob_sym0 hp hl
  have hsub := sub_pts p
  rw [show pts1d p - 1 = sub1d p by omega] at hL
  refine ⟨r, hr, ?_⟩
  intro e he e' he' dir s t dir' s' t' hs ht hs' ht' fl hshare u hu
  refine ⟨_, _, rfl, rfl, ?_⟩
  rw [← hsub] at hg
  have gsz : r.gauss.size = E * (sub1d p + 1) ^ 3 := by rw [R.gauss_size, hsub]
  have nsz : r.nig.size = E * (sub1d p + 1) ^ 3 := by rw [R.nig_size, hsub]
  have niff := R.nig_iff
  rw [← hsub] at niff ⊢
  set m := sub1d p with hm
  have ho := mirror_le (m := m) fl hu
  set u' := mirror m fl u with hu'
  have hid : ∀ e dir s t u, gaussInElem ((m + 1) ^ 3) e (edgeIdx m dir s t u) =
      cellId (m + 1) e (edgeCo m dir s t u 2) (edgeCo m dir s t u 1) (edgeCo m dir s t u 0) := by
    intro e dir s t u
    rw [edgeIdx_co]; unfold gaussInElem cellId; ring
  have hlt : ∀ e < E, ∀ dir s t u, s < 2 → t < 2 → u ≤ m →
      gaussInElem ((m + 1) ^ 3) e (edgeIdx m dir s t u) < E * (m + 1) ^ 3 := by
    intro e he dir s t u hs ht hu
    rw [hid]
    exact lt_of_lt_of_eq (cellId_lt he (edgeCo_lt hs ht hu 2) (edgeCo_lt hs ht hu 1) (edgeCo_lt hs ht hu 0)) (by ring)
  have hpos : ∀ d < 3, r.gauss.val (gaussInElem ((m + 1) ^ 3) e (edgeIdx m dir s t u)) d =
      r.gauss.val (gaussInElem ((m + 1) ^ 3) e' (edgeIdx m dir' s' t' u')) d := by
    intro d hd
    rw [hid, hid, hg _ _ _ _ he (edgeCo_lt hs ht hu 2) (edgeCo_lt hs ht hu 1) (edgeCo_lt hs ht hu 0),
      hg _ _ _ _ he' (edgeCo_lt hs' ht' ho 2) (edgeCo_lt hs' ht' ho 1) (edgeCo_lt hs' ht' ho 0)]
    simp only [gPoint_iso]
    exact conform_edge le_rfl hL hs hs' ht ht' fl (fun u hu => by rw [hshare u hu]) hu
  have hl1 := hlt e he dir s t u hs ht hu
  have hl2 := hlt e' he' dir' s' t' u' hs' ht' ho
  refine ⟨⟨_, _, Arr.get_lt (by rw [gsz]; exact hl1), Arr.get_lt (by rw [gsz]; exact hl2), hpos⟩, ?_⟩
  intro n1 n2
  refine ⟨_, Arr.get_lt (by rw [nsz]; exact hl1), ?_⟩
  rw [Arr.get_lt (by rw [nsz]; exact hl2), (niff _ hl1 _ hl2).2 (Or.inr ⟨n1, n2, key_congr0 hpos⟩)]

/-! ### Non-vacuity: two cubes, the second one turned -/

/-- Two unit cubes sharing a face; the local axes of the second are turned: its first direction is `-y`. -/
def turned (e l : ℕ) : ℕ :=
  if e = 0 then l % 2 + 3 * (l / 2 % 2) + 6 * (l / 4)
  else (1 + l / 2 % 2) + 3 * (1 - l % 2) + 6 * (l / 4)

theorem turned_distinct : DistinctVerts 2 turned (fun n d => (([n % 3, n / 3 % 2, n / 6].getD d 0 : ℕ) : ℝ)) := by
  refine ⟨by omega, fun a ha b hb hab => ?_⟩
  have : ∀ a < 8, ∀ b < 8, a ≠ b → ∃ d < 3, ([turned 1 a % 3, turned 1 a / 3 % 2, turned 1 a / 6] : List ℕ).getD d 0 ≠
      [turned 1 b % 3, turned 1 b / 3 % 2, turned 1 b / 6].getD d 0 := by decide +kernel
  obtain ⟨d, hd, hne⟩ := this a ha b hb hab
  exact ⟨d, hd, fun h => hne (Nat.cast_injective h)⟩

/-- Face `x = 1` of the first cube is face `(1, 0)` of the second with the first coordinate reversed. -/
example (q : Junk) : ∃ r, refineMesh 2 12 3 turned (fun n d => (([n % 3, n / 3 % 2, n / 6].getD d 0 : ℕ) : ℝ)) q = some r ∧
    ∀ u ≤ 6, ∀ v ≤ 6, ∃ n, r.nig.get (faceIdx 6 0 1 u v) = some n ∧
      r.nig.get (343 + faceIdx 6 1 0 (6 - u) v) = some n := by
  obtain ⟨r, hr, h⟩ := C42_conforming 2 12 3 (by omega) _ _ q turned_distinct
  refine ⟨r, hr, ?_⟩
  intro u hu v hv
  have hs : ∀ u : ℕ, u < 2 → ∀ v : ℕ, v < 2 → turned 0 (faceIdx 1 0 1 u v) = turned 1 (faceIdx 1 1 0 (1 - u) v) := by
    decide +kernel
  obtain ⟨g, g', e, e', -, h3⟩ := h 0 (by omega) 1 (by omega) 0 1 1 0 (by omega) (by omega) false true false
    (fun u hu v hv => hs u (by omega) v (by omega)) u hu v hv
  have i1 : g = faceIdx 6 0 1 u v := by rw [e]; simp [gaussInElem, sub1d]
  have i2 : g' = 343 + faceIdx 6 1 0 (6 - u) v := by rw [e']; simp [gaussInElem, orient, mirror, sub1d, pts1d]
  have hne : faceIdx 6 0 1 u v ≠ 0 := by simp [faceIdx]
  obtain ⟨n, h4, h5⟩ := h3 (by rw [i1]; exact hne) (by rw [i2]; omega)
  rw [i1] at h4; rw [i2] at h5
  exact ⟨n, h4, h5⟩

end Verif.Swage.Refine
