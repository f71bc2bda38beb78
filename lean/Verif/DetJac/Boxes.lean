import Verif.DetJac.Refined

/-!
# C70: box meshes, negations and concrete instances
-/

namespace Verif.DetJac
open Verif.Swage.HighOrder (tol pt refPt polyMap refineHighOrder Boxes FirstRows HRun high_run C69_lattice_partial twoNodes twoPos
  two_boxes two_rows)
open Swage.Refine (initElement Refined cellId cellId_lt dig lob_val assign_some)

/-! ### Affine maps along the axes -/

/-- Exponents of the coordinate `d`. -/
def unit (d a : ℕ) : ℕ := if a = d then 1 else 0

/-- Coefficients of `A + B X_d`. -/
noncomputable def affine (A B : ℝ) (d a b c : ℕ) : ℝ :=
  (if a = 0 then if b = 0 then if c = 0 then A else 0 else 0 else 0) +
  (if a = unit d 0 then if b = unit d 1 then if c = unit d 2 then B else 0 else 0 else 0)

theorem sum_single (p u v w : ℕ) (hu : u ≤ p) (hv : v ≤ p) (hw : w ≤ p) (A X Y Z : ℝ) :
    ∑ a ∈ Finset.range (p + 1), ∑ b ∈ Finset.range (p + 1), ∑ c ∈ Finset.range (p + 1),
      (if a = u then if b = v then if c = w then A else 0 else 0 else 0) * (X ^ a * Y ^ b * Z ^ c) = A * (X ^ u * Y ^ v * Z ^ w) := by
  rw [Finset.sum_eq_single_of_mem u (Finset.mem_range.2 (by omega)), Finset.sum_eq_single_of_mem v (Finset.mem_range.2 (by omega)),
    Finset.sum_eq_single_of_mem w (Finset.mem_range.2 (by omega))]
  · simp
  · intro c _ hc; simp [hc]
  · intro b _ hb; simp [hb]
  · intro a _ ha; simp [ha]

theorem affine_poly {p : ℕ} (hp : 1 ≤ p) (A B : ℝ) {d : ℕ} (hd : d < 3) (X : ℕ → ℝ) :
    polyMap p (affine A B d) (X 0) (X 1) (X 2) = A + B * X d := by
  have hu : ∀ a, unit d a ≤ p := fun a => by unfold unit; split <;> omega
  unfold polyMap affine
  simp only [add_mul, Finset.sum_add_distrib]
  rw [sum_single p 0 0 0 (by omega) (by omega) (by omega), sum_single p _ _ _ (hu 0) (hu 1) (hu 2)]
  interval_cases d <;> simp [unit]

theorem affine_jac {F : ℕ → (ℕ → ℝ) → ℝ} {A B : ℕ → ℝ} (hF : ∀ d < 3, F d = fun X => A d + B d * X d) (X : ℕ → ℝ) :
    jacDet F X = B 0 * B 1 * B 2 := by
  have key : ∀ a d : Fin 3, partialAt (F a) d X = if a = d then B a else 0 := by
    intro a d
    unfold partialAt
    rw [hF a a.2]
    by_cases h : a = d
    · subst h
      rw [if_pos rfl]
      simp only [Function.update_self]
      simp
    · rw [if_neg h]
      have : (fun t => A a + B a * Function.update X d t a) = fun _ => A a + B a * X a := by
        funext t
        rw [Function.update_of_ne (by simpa [Fin.ext_iff] using h)]
      rw [this]; simp
  unfold jacDet
  rw [Matrix.det_fin_three]
  simp only [Matrix.of_apply, key]
  simp [Fin.ext_iff]

/-- **C70 on box meshes.**  Refine a mesh of equal boxes of edge lengths `w` (hypotheses of `C69_lattice_partial`) and evaluate: at every
node of every element the stored value is `w₀ w₁ w₂ / 8`, the ratio of the volume of the box to that of the reference cube. -/
theorem C70_boxes_partial (E N p : ℕ) (hp : 1 ≤ p) (hp9 : p ≤ 9) (nodes : ℕ → ℕ → ℕ) (x : ℕ → ℕ → ℝ) (o w : ℕ → ℝ)
    (pos : ℕ → ℕ → ℤ) (hB : Boxes E N p nodes x o w pos) (hw : w 0 ≤ 7 * ((p : ℝ) * p)) (hw3 : ∀ d < 3, w 0 ≤ 3 * w d)
    (hfirst : ∀ e < E, 0 < e → ∃ d < 3, pos e d ≠ pos 0 d ∧ pos e d ≠ pos 0 d - 1) (q : Swage.HighOrder.Junk) :
    ∃ r, refineHighOrder E N p nodes x q = some r ∧ ∀ (det : Arr ℝ) (q' : Junk), det.size = E * (2 * p + 1) ^ 3 →
      ∃ s, evaluate (refinedMesh E p r) det q' = some s ∧
        ∀ e < E, ∀ i < 2 * p + 1, ∀ j < 2 * p + 1, ∀ k < 2 * p + 1,
          s.get (r.nig.val (cellId (2 * p + 1) e k j i)).toNat = some (w 0 * w 1 * w 2 / 8) := by
  have hp0 : (p : ℝ) ≠ 0 := by exact_mod_cast (by omega : p ≠ 0)
  have hrow : ∀ e < E, ∀ i ≤ p, x (nodes e i) 0 = o 0 + w 0 * ((pos e 0 : ℝ) + (i : ℝ) / p) := by
    intro e he i hi
    have := hB.coords e he i hi 0 (by omega) 0 (by omega) 0 (by omega)
    simpa [dig] using this
  have hf : FirstRows E p nodes x := by
    intro e he j i hji hip
    refine ⟨0, by omega, ?_⟩
    rw [hrow e he j (by omega), hrow e he i hip]
    intro h
    have hw0 := hB.wpos 0 (by omega)
    have : w 0 * ((j : ℝ) / p) = w 0 * ((i : ℝ) / p) := by linarith
    have h2 := mul_left_cancel₀ hw0.ne' this
    have h3 : (j : ℝ) = i := by field_simp at h2; linarith
    have : j = i := by exact_mod_cast h3
    omega
  obtain ⟨r, hr, -, hposn⟩ := C69_lattice_partial E N p hp hp9 nodes x o w pos hB hw hw3 hfirst q
  have hxp : ∀ e < E, ∀ i < p + 1, ∀ j < p + 1, ∀ k < p + 1, ∀ d < 3, x (nodes e (i + j * (p + 1) + k * (p + 1) ^ 2)) d =
      polyMap p (affine (o d + w d * ((pos e d : ℝ) + 1 / 2)) (w d / 2) d) (-1 + 2 * i / p) (-1 + 2 * j / p) (-1 + 2 * k / p) := by
    intro e he i hi j hj k hk d hd
    rw [hB.coords e he i (by omega) j (by omega) k (by omega) d hd]
    have := affine_poly hp (o d + w d * ((pos e d : ℝ) + 1 / 2)) (w d / 2) hd
      (fun c => if c = 0 then -1 + 2 * (i : ℝ) / p else if c = 1 then -1 + 2 * (j : ℝ) / p else -1 + 2 * (k : ℝ) / p)
    simp only [if_true, one_ne_zero, if_false, OfNat.ofNat_ne_zero, OfNat.ofNat_ne_one] at this
    rw [this]
    unfold dig
    interval_cases d <;> simp only [if_true, one_ne_zero, if_false, OfNat.ofNat_ne_zero, OfNat.ofNat_ne_one] <;> ring
  obtain ⟨r', hr', H⟩ := C70_refined_partial E N p hp hp9 nodes x q hf _ hxp
  obtain rfl : r' = r := by rw [hr] at hr'; exact (Option.some.inj hr').symm
  refine ⟨r', hr, ?_⟩
  intro det q' hdet
  obtain ⟨s, lob, h1, -, h3⟩ := H hposn det q' hdet
  refine ⟨s, h1, ?_⟩
  intro e he i hi j hj k hk
  refine h3 e he i hi j hj k hk _ ?_
  intro e' he' i' _ j' _ k' _ _
  rw [affine_jac (A := fun d => o d + w d * ((pos e' d : ℝ) + 1 / 2)) (B := fun d => w d / 2) (fun d hd => by
    funext X; exact affine_poly hp _ _ hd X)]
  ring

/-- Non-vacuity of `C70_boxes_partial`, `C70_refined_partial`, `C70_agree_partial`: two boxes of order 2. -/
example (q : Swage.HighOrder.Junk) : ∃ r, refineHighOrder 2 45 2 twoNodes twoPos q = some r ∧ ∀ (det : Arr ℝ) (q' : Junk),
    det.size = 250 → ∃ s, evaluate (refinedMesh 2 2 r) det q' = some s ∧
      ∀ e < 2, ∀ i < 5, ∀ j < 5, ∀ k < 5, s.get (r.nig.val (cellId 5 e k j i)).toNat = some 1 := by
  obtain ⟨r, hr, h⟩ := C70_boxes_partial 2 45 2 (by omega) (by omega) _ _ _ _ _ two_boxes (by norm_num)
    (by intro d _; norm_num) (by
      intro e he h0
      obtain rfl : e = 1 := by omega
      exact ⟨0, by omega, by norm_num, by norm_num⟩) q
  refine ⟨r, hr, fun det q' hd => ?_⟩
  obtain ⟨s, h1, h2⟩ := h det q' hd
  refine ⟨s, h1, fun e he i hi j hj k hk => ?_⟩
  rw [h2 e he i hi j hj k hk]
  norm_num

/-! ### The entry of a Gauss point is not its determinant -/

/-- **C70, negation.**  `gauss_pt_det_j` is indexed by Gauss points everywhere else, but is written here at node numbers: entries from
the number of nodes on are never written, so as soon as elements share a node the last Gauss points of the mesh have arbitrary
contents.  (`v` is what the memory contained.) -/
theorem C70_gauss_negation (E N p : ℕ) (hp : 1 ≤ p) (hp9 : p ≤ 9) (nodes : ℕ → ℕ → ℕ) (x : ℕ → ℕ → ℝ) (q : Swage.HighOrder.Junk)
    (hf : FirstRows E p nodes x) :
    ∃ r, refineHighOrder E N p nodes x q = some r ∧
      ((∃ g < E * (2 * p + 1) ^ 3, ∃ g' < E * (2 * p + 1) ^ 3, g ≠ g' ∧ r.nig.val g = r.nig.val g') →
        ∀ (v : ℝ) (q' : Junk), ∃ det s : Arr ℝ, det.size = E * (2 * p + 1) ^ 3 ∧ evaluate (refinedMesh E p r) det q' = some s ∧
          s.get (E * (2 * p + 1) ^ 3 - 1) = some v) := by
  obtain ⟨r, hr, R⟩ := high_run (N := N) hp hp9 nodes x q hf
  refine ⟨r, hr, ?_⟩
  rintro ⟨g, hg, g', hg', hne, heq⟩ v q'
  have hlt : r.numNodes < E * (2 * p + 1) ^ 3 := by
    choose! f h1 h2 h2' _ using R.coords
    by_contra hge
    -- the chosen first Gauss points would be all Gauss points
    have hcard : (Finset.image f (Finset.range r.numNodes)).card = r.numNodes := by
      rw [Finset.card_image_of_injOn, Finset.card_range]
      intro a ha b hb hab
      have e1 := h2 a (Finset.mem_range.1 (Finset.mem_coe.1 ha))
      have e2 := h2 b (Finset.mem_range.1 (Finset.mem_coe.1 hb))
      rw [hab, e2] at e1
      exact_mod_cast e1.symm
    have hsub : Finset.image f (Finset.range r.numNodes) ⊆ Finset.range (E * (2 * p + 1) ^ 3) := by
      intro y hy
      obtain ⟨a, ha, rfl⟩ := Finset.mem_image.1 hy
      exact Finset.mem_range.2 (h1 a (Finset.mem_range.1 ha))
    have hall := Finset.eq_of_subset_of_card_le hsub (by rw [hcard, Finset.card_range]; omega)
    have m1 : g ∈ Finset.image f (Finset.range r.numNodes) := by rw [hall]; exact Finset.mem_range.2 hg
    have m2 : g' ∈ Finset.image f (Finset.range r.numNodes) := by rw [hall]; exact Finset.mem_range.2 hg'
    obtain ⟨a, ha, rfl⟩ := Finset.mem_image.1 m1
    obtain ⟨b, hb, rfl⟩ := Finset.mem_image.1 m2
    rw [h2 a (Finset.mem_range.1 ha), h2 b (Finset.mem_range.1 hb)] at heq
    have : a = b := by exact_mod_cast heq
    exact hne (by rw [this])
  have hz : (⟨E * (2 * p + 1) ^ 3, fun _ => v⟩ : Arr ℝ).size = E * (2 * p + 1) ^ 3 := rfl
  obtain ⟨s, lob, h1, -, -, h4⟩ := C70_value_partial (refinedMesh E p r) hp hp9 (refined_wf R) ⟨E * (2 * p + 1) ^ 3, fun _ => v⟩
    (by rw [hz]; exact refined_nodes_le R) q'
  refine ⟨⟨E * (2 * p + 1) ^ 3, fun _ => v⟩, s, rfl, h1, ?_⟩
  rw [h4 (E * (2 * p + 1) ^ 3 - 1)]
  · exact Arr.get_lt (by rw [hz]; omega)
  · intro e he l hl hcon
    have := (refined_wf R).ids e he l hl
    have h5 : (refinedMesh E p r).coords.size = r.numNodes := R.coords_size
    rw [h5] at this
    have h6 : (refinedMesh E p r).nodes.val (e * (refinedMesh E p r).stride + l) = E * (2 * p + 1) ^ 3 - 1 := hcon
    omega

/-- Non-vacuity of `C70_gauss_negation`: in the two boxes of order 2, Gauss points 4 of element 0 and 0 of element 1 share a node. -/
example (q : Swage.HighOrder.Junk) : ∃ r, refineHighOrder 2 45 2 twoNodes twoPos q = some r ∧
    ∃ g < 250, ∃ g' < 250, g ≠ g' ∧ r.nig.val g = r.nig.val g' := by
  obtain ⟨r, hr, h⟩ := Swage.HighOrder.C69_conforming 2 45 2 (by omega) (by omega) _ _ q two_rows
  refine ⟨r, hr, ?_⟩
  have hs : ∀ u : ℕ, u < 3 → ∀ v : ℕ, v < 3 → twoNodes 0 (Swage.HighOrder.faceIdx 2 0 1 u v) = twoNodes 1 (Swage.HighOrder.faceIdx 2 0 0 u v) := by decide +kernel
  obtain ⟨g, g', e, e', h2, h3⟩ := h 0 (by omega) 1 (by omega) 0 1 0 0 (by omega) (by omega) false false false
    (fun u hu v hv => hs u (by omega) v (by omega)) 0 (by omega) 0 (by omega)
  have i1 : g = 4 := by rw [e]; decide
  have i2 : g' = 125 := by rw [e']; decide
  obtain ⟨n, h4, h5⟩ := h3 (by omega) (by omega)
  refine ⟨4, by omega, 125, by omega, by omega, ?_⟩
  rw [i1] at h4; rw [i2] at h5
  rw [(Arr.get_eq_some h4).2, (Arr.get_eq_some h5).2]

/-! ### At a shared node the last element wins -/

/-- Two elements of order 1 (27 quadrature points each): `[-1, 1]³` and `[1, 7] × [-1, 1]²`; node `27 + l` is point `l` of element 1
unless it lies on the common face. -/
noncomputable def stretched : Mesh :=
  ⟨1, 2, 27, ⟨54, fun t => if t < 27 then t else if (t - 27) % 3 = 0 then t - 27 + 2 else t⟩,
    ⟨54, fun n d => if n < 27 then pt (((n % 3 : ℕ) : ℝ) - 1) (((n / 3 % 3 : ℕ) : ℝ) - 1) (((n / 9 : ℕ) : ℝ) - 1) d
      else pt (1 + 3 * (((n - 27) % 3 : ℕ) : ℝ)) ((((n - 27) / 3 % 3 : ℕ) : ℝ) - 1) ((((n - 27) / 9 : ℕ) : ℝ) - 1) d⟩⟩

theorem stretched_wf : WellFormed stretched ((2 * 1 + 1) ^ 3) := by
  refine ⟨rfl, le_rfl, ?_⟩
  have : ∀ e : ℕ, e < 2 → ∀ l : ℕ, l < 27 → (if e * 27 + l < 27 then e * 27 + l else
      if (e * 27 + l - 27) % 3 = 0 then e * 27 + l - 27 + 2 else e * 27 + l) < 54 := by decide +kernel
  exact this

theorem lob3 {a : ℕ → ℝ} {lob : Arr ℝ} (h : Quad.lobatto_nodes_1D 3 ⟨3, a⟩ = some lob) :
    lob.val 0 = -1 ∧ lob.val 1 = 0 ∧ lob.val 2 = 1 := by
  obtain ⟨h0, h2, h1⟩ := Swage.HighOrder.lob_facts (p := 1) (by omega) (by omega) h
  refine ⟨h0, ?_, h2⟩
  have := h1 1 (by omega)
  norm_num at this
  linarith

theorem stretched_map {a : ℕ → ℝ} {lob : Arr ℝ} (h : Quad.lobatto_nodes_1D 3 ⟨3, a⟩ = some lob) {e : ℕ} (he : e < 2) :
    ∀ d < 3, elemMap stretched lob.val e d = fun X =>
      (if d = 0 then (if e = 0 then 0 else 4) else 0) + (if d = 0 then (if e = 0 then 1 else 3) else 1) * X d := by
  intro d hd
  obtain ⟨l0, l1, l2⟩ := lob3 h
  have := interp_poly (p := 1) (Z := fun v => lob.val (2 * v)) (even_inj (p := 1) (by omega) (by omega) h)
    (affine (if d = 0 then (if e = 0 then 0 else 4) else 0) (if d = 0 then (if e = 0 then 1 else 3) else 1) d)
    (fun v => stretched.pos e (evenNode 1 v) d) (by
      intro i hi j hj k hk
      have hz : ∀ t < 2, lob.val (2 * t) = 2 * (t : ℝ) - 1 := by
        intro t ht
        interval_cases t
        · rw [l0]; norm_num
        · rw [l2]; norm_num
      have ha := affine_poly (p := 1) le_rfl (if d = 0 then (if e = 0 then 0 else 4) else 0) (if d = 0 then (if e = 0 then 1 else 3) else 1) hd
        (fun c => if c = 0 then lob.val (2 * i) else if c = 1 then lob.val (2 * j) else lob.val (2 * k))
      simp only [if_true, one_ne_zero, if_false, OfNat.ofNat_ne_zero, OfNat.ofNat_ne_one] at ha
      rw [ha, hz i hi, hz j hj, hz k hk]
      simp only [stretched, Mesh.pos, Mesh.node]
      interval_cases e <;> interval_cases i <;> interval_cases j <;> interval_cases k <;> interval_cases d <;>
        norm_num [evenNode, pt])
  show interp (1 + 1) (fun v => lob.val (2 * v)) (fun v => stretched.pos e (evenNode 1 v) d) = _
  rw [this]
  funext X
  exact affine_poly le_rfl _ _ hd X

/-- **C70, negation.**  At a node shared by elements with different determinants the value of the last element is stored: in the mesh
`stretched` the node of quadrature point 2 of element 0 gets 3, the determinant of element 1, although the determinant of
element 0 is 1 everywhere. -/
theorem C70_shared_negation (det : Arr ℝ) (hdet : det.size = 54) (q : Junk) :
    ∃ r lob, evaluate stretched det q = some r ∧ Quad.lobatto_nodes_1D 3 ⟨3, q.lob⟩ = some lob ∧
      r.get (stretched.node 0 2) = some 3 ∧ ∀ X, jacDet (elemMap stretched lob.val 0) X = 1 := by
  obtain ⟨r, lob, h1, h2, h3, -⟩ := C70_value_partial stretched le_rfl (by decide) stretched_wf det (by rw [hdet]; exact le_rfl) q
  refine ⟨r, lob, h1, h2, ?_, ?_⟩
  · have := h3 1 (by decide) 0 (by decide) 0 (by decide) 0 (by decide) 0 rfl (by
      have : ∀ e : ℕ, e < 2 → ∀ l : ℕ, l < 27 → (1 < e ∨ (1 = e ∧ 0 < l)) → (if e * 27 + l < 27 then e * 27 + l else
        if (e * 27 + l - 27) % 3 = 0 then e * 27 + l - 27 + 2 else e * 27 + l) ≠ 2 := by decide +kernel
      exact this)
    rw [show stretched.node 0 2 = stretched.node 1 0 by decide, this, affine_jac (stretched_map h2 (by omega))]
    norm_num
  · intro X
    rw [affine_jac (stretched_map h2 (by omega))]
    norm_num

/-- Non-vacuity of `C70_value_partial` and `C70_polynomial_partial`: the interior point of element 0 belongs to no other element. -/
example (det : Arr ℝ) (hdet : det.size = 54) (q : Junk) : ∃ r, evaluate stretched det q = some r ∧ r.get 13 = some 1 := by
  obtain ⟨r, lob, h1, h2, h3, -⟩ := C70_value_partial stretched le_rfl (by decide) stretched_wf det (by rw [hdet]; exact le_rfl) q
  refine ⟨r, h1, ?_⟩
  have := h3 0 (by decide) 1 (by decide) 1 (by decide) 1 (by decide) 13 rfl (by
      have : ∀ e : ℕ, e < 2 → ∀ l : ℕ, l < 27 → (0 < e ∨ (0 = e ∧ 13 < l)) → (if e * 27 + l < 27 then e * 27 + l else
        if (e * 27 + l - 27) % 3 = 0 then e * 27 + l - 27 + 2 else e * 27 + l) ≠ 13 := by decide +kernel
      exact this)
  rw [show (13 : ℕ) = stretched.node 0 13 by decide, this, affine_jac (stretched_map h2 (by omega))]
  norm_num

end Verif.DetJac
