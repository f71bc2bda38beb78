import Verif.ComplexStep.Lemmas
import Verif.LagrangeElement.Theorems

/-!
# C83, C84: differentiation by the complex step through the `Complex` instantiations
-/

namespace Verif.ComplexStep
open Polynomial Finset Complex LagrangeElement LagrangeElement.Spec

/-- The point `X` with coordinate `d` replaced by the complex number `z`. -/
def replace (X : ℕ → ℝ) (d : ℕ) (z : ℂ) : ℕ → ℂ := fun e => if e = d then z else (X e : ℂ)

/-- Entry `d` of a gradient. -/
def entry {K : Type*} (t : K × K × K) (d : ℕ) : K := if d = 0 then t.1 else if d = 1 then t.2.1 else t.2.2

variable {tol : ℝ} {N : ℕ} {Z : ℕ → ℝ}

/-- A complex step that sees no imaginary part returns the derivative 0. -/
theorem step_im_zero {f : ℂ → ℂ} {x v d : ℝ} (hf : ∀ h : ℝ, (f (x + h * I)).im = 0) (hs : Step f x v d) : d = 0 := by
  obtain ⟨B, hB⟩ := hs
  by_contra hd
  have hd' : 0 < |d| := abs_pos.2 hd
  have hB0 : 0 ≤ |B| := abs_nonneg B
  set h := min 1 (|d| / (2 * (|B| + 1))) with hh
  have hpos : 0 < h := lt_min one_pos (by positivity)
  have h1 : h ≤ 1 := min_le_left _ _
  have h2 : h ≤ |d| / (2 * (|B| + 1)) := min_le_right _ _
  have := (hB h hpos.ne' (by rw [abs_of_pos hpos]; exact h1)).2
  rw [hf, zero_div, zero_sub, abs_neg] at this
  have h3 : h * (2 * (|B| + 1)) ≤ |d| := (le_div_iff₀ (by positivity)).1 h2
  have h4 : h ^ 2 ≤ h := by nlinarith
  have h5 : B * h ^ 2 ≤ |B| * h := by
    calc B * h ^ 2 ≤ |B| * h ^ 2 := mul_le_mul_of_nonneg_right (le_abs_self B) (sq_nonneg h)
      _ ≤ |B| * h := mul_le_mul_of_nonneg_left h4 hB0
  nlinarith

/-! ## C83: Lagrange -/

/-- **C83** (real inputs).  At resolved real points with real vertices and coefficients, `LagrangeElement<Complex>` returns what
`LagrangeElement<Real>` returns. -/
theorem C83_real (hs : Separated tol N Z) {X : ℕ → ℝ} (hX : ∀ d < 3, Resolved tol N Z (X d)) {I : ℕ} (hI : I < N * N * N)
    (C : ℕ → ℂ) (C' c : ℕ → ℝ) :
    lagBasis tol N (cx Z) I (cx X) = (evalBasis tol N Z I X).map ofReal ∧
    lagGradBasis tol N (cx Z) C I (cx X) =
      (evalGradBasis tol N Z C' I X).map (fun t => ((t.1 : ℂ), (t.2.1 : ℂ), (t.2.2 : ℂ))) ∧
    lagApprox tol N (cx Z) C (cx c) (cx X) = (evalApprox tol N Z C' c X : ℝ) := by
  have hv := verts_cx hs
  have hh : ∀ d < 3, Hits N (cx Z) (cx X d) (find tol N (cx Z) (cx X d)) := fun d hd => hits_real hs (hX d hd)
  have hphi : ∀ I, phi N (cx Z) I (cx X) = (phi N Z I X : ℝ) := by
    intro I
    unfold phi
    simp only [cx, ofReal_mul, ← ell_real]
  have hd : ∀ d I, dphi N (cx Z) d I (cx X) = (dphi N Z d I X : ℝ) := by
    intro d I
    unfold dphi
    have : ∀ (p : Prop) [Decidable p] (i : ℕ) (x : ℝ), (if p then dell N (cx Z) i (x : ℂ) else ell N (cx Z) i (x : ℂ)) =
        ((if p then dell N Z i x else ell N Z i x : ℝ) : ℂ) := by
      intro p _ i x
      split
      · exact dell_real i x
      · exact ell_real i x
    rw [ofReal_mul, ofReal_mul, ← this, ← this, ← this]
    rfl
  refine ⟨?_, ?_, ?_⟩
  · rw [C09_basis hs hX hI]
    unfold lagBasis
    rw [basisAt hv hh hI, hphi]; rfl
  · rw [C10_grad_basis hs hX C' hI]
    unfold lagGradBasis
    rw [gradBasisAt hv hh C hI, hd, hd, hd]; rfl
  · rw [C10_approx hs hX C' c]
    unfold lagApprox
    rw [approxAt hv hh C (cx c), ofReal_sum]
    refine sum_congr rfl fun J hJ => ?_
    rw [basisAt hv hh (mem_range.1 hJ), C09_basis hs hX (mem_range.1 hJ), hphi]
    show (c J : ℂ) * (phi N Z J X : ℝ) = ((c J * phi N Z J X : ℝ) : ℂ)
    push_cast; rfl

/-- Real part of a stepped point. -/
theorem step_re (x h : ℝ) : ((x : ℂ) + h * I).re = x := by simp

/-- **C83** (one-dimensional interpolants; partial, see `C83_vertex_negation`).  At a point at least the tolerance away from every vertex, the
complex step through `eval_interp<Complex>` returns the real interpolant and its derivative as returned by
`eval_der_interp<Real>`, and the complex step through `eval_der_interp<Complex>` of order 1 returns first and second derivative.  `C`, `w0`, `v0` are
contents of memory. -/
theorem C83_interp_partial (hs : Separated tol N Z) {x : ℝ} (hx : ∀ j < N, tol ≤ |Z j - x|) (c w0 : ℕ → ℝ) (v0 : ℕ → ℂ) :
    let w := Lagrange.computeBarycentricWeights N Z w0
    let wc := Lagrange.computeBarycentricWeights N (cx Z) v0
    let ic := (Lagrange.findCoincidentVertex tol N Z x).toNat
    Step (fun z => Lagrange.evalInterp N (find tol N (cx Z) z) (cx Z) wc z (cx c)) x
      (Lagrange.evalInterp N ic Z w x c) (Lagrange.evalDerInterp N 1 ic Z w x c) ∧
    Step (fun z => Lagrange.evalDerInterp N 1 (find tol N (cx Z) z) (cx Z) wc z (cx c)) x
      (Lagrange.evalDerInterp N 1 ic Z w x c) (Lagrange.evalDerInterp N 2 ic Z w x c) := by
  intro w wc ic
  have hv := verts_cx hs
  have hx' : ∀ j < N, x = Z j ∨ tol ≤ |Z j - x| := fun j hj => Or.inr (hx j hj)
  have hmap : _root_.Lagrange.interpolate (range N) (cx Z) (cx c) = (_root_.Lagrange.interpolate (range N) Z c).map ofRealHom := by
    rw [_root_.Lagrange.interpolate_apply, _root_.Lagrange.interpolate_apply, Polynomial.map_sum]
    refine sum_congr rfl fun i _ => ?_
    rw [Polynomial.map_mul, map_C, basis_map]; rfl
  have hh : ∀ h : ℝ, Hits N (cx Z) (x + h * I) (find tol N (cx Z) (x + h * I)) := fun h =>
    hits_far hs (by simpa [step_re] using hx)
  set p := _root_.Lagrange.interpolate (range N) Z c with hp
  have e0 : Lagrange.evalInterp N ic Z w x c = p.eval x := Lagrange.C07_interp tol hs.tol_pos N hs.lt Z w0 c hs.sep x hx'
  have e1 : Lagrange.evalDerInterp N 1 ic Z w x c = (derivative p).eval x :=
    Lagrange.C08_der_interp_partial tol hs.tol_pos N hs.lt Z w0 c hs.sep x hx' 1 (Or.inl rfl)
  have e2 : Lagrange.evalDerInterp N 2 ic Z w x c = (derivative (derivative p)).eval x :=
    Lagrange.C08_der_interp_partial tol hs.tol_pos N hs.lt Z w0 c hs.sep x hx' 2 (Or.inr rfl)
  rw [e0, e1, e2]
  refine ⟨step_poly fun h _ => ?_, step_poly fun h _ => ?_⟩
  · rcases hh h with ⟨hj, he⟩ | ⟨hj, hne⟩
    · exfalso
      have := hx _ hj
      have hr : x = Z (find tol N (cx Z) (x + h * I)) := by simpa [cx] using congrArg re he
      rw [← hr, sub_self, abs_zero] at this
      have := hs.tol_pos
      linarith
    · show Lagrange.evalInterp N (find tol N (cx Z) (x + h * I)) (cx Z) wc (x + h * I) (cx c) = _
      rw [Lagrange.evalInterp, if_neg hj, Lagrange.pL_loop]
      refine (Lagrange.interp_nonco N (cx Z) _ (cx c) _ (fun j hj => Lagrange.weights_eq N (cx Z) v0 j hj) hne).trans ?_
      rw [hmap]; rfl
  · show Lagrange.evalDerInterp N 1 (find tol N (cx Z) (x + h * I)) (cx Z) wc (x + h * I) (cx c) = _
    rw [Lagrange.der_core hv.inj v0 (cx c) _ _ (hh h) 1 (Or.inl rfl), hmap, Function.iterate_one, derivative_map]; rfl

/-- Values of the complex element functions at a stepped point. -/
theorem stepped_hits (hs : Separated tol N Z) {X : ℕ → ℝ} (hX : ∀ e < 3, Resolved tol N Z (X e)) {d : ℕ}
    (hd : ∀ j < N, tol ≤ |Z j - X d|) (h : ℝ) :
    ∀ e < 3, Hits N (cx Z) (replace X d (X d + h * I) e) (find tol N (cx Z) (replace X d (X d + h * I) e)) := by
  intro e he
  unfold replace
  by_cases hed : e = d
  · rw [if_pos hed]; exact hits_far hs (by simpa [step_re] using hd)
  · rw [if_neg hed]; exact hits_real hs (hX e he)

/-- The polynomial in coordinate `d` of a basis function. -/
noncomputable def linePoly (N : ℕ) (Z X : ℕ → ℝ) (d I : ℕ) : ℝ[X] :=
  (if d = 0 then _root_.Lagrange.basis (range N) Z (I % N) else C (ell N Z (I % N) (X 0))) *
  (if d = 1 then _root_.Lagrange.basis (range N) Z (I / N % N) else C (ell N Z (I / N % N) (X 1))) *
  (if d = 2 then _root_.Lagrange.basis (range N) Z (I / N / N) else C (ell N Z (I / N / N) (X 2)))

theorem linePoly_ev (X : ℕ → ℝ) {d : ℕ} (hd : d < 3) (I : ℕ) (z : ℂ) :
    phi N (cx Z) I (replace X d z) = ev (linePoly N Z X d I) z := by
  have hC : ∀ (i : ℕ) (x : ℝ), ell N (cx Z) i (x : ℂ) = ev (C (ell N Z i x)) z := fun i x => by
    rw [ell_real]; simp [ev]
  have hm : ∀ p q : ℝ[X], ev (p * q) z = ev p z * ev q z := fun p q => by simp [ev]
  unfold phi linePoly replace
  rw [hm, hm]
  interval_cases d <;> simp only [if_true, if_false, hC, ← ell_cx, OfNat.ofNat_ne_zero, OfNat.ofNat_ne_one,
    OfNat.zero_ne_ofNat, OfNat.one_ne_ofNat, one_ne_zero, zero_ne_one]

theorem linePoly_eval (X : ℕ → ℝ) {d : ℕ} (hd : d < 3) (I : ℕ) :
    (linePoly N Z X d I).eval (X d) = phi N Z I X ∧ (derivative (linePoly N Z X d I)).eval (X d) = dphi N Z d I X := by
  unfold phi linePoly dphi
  interval_cases d <;> simp [ell, dell]

/-- **C83** (hexahedral elements; partial, see `C83_vertex_negation`).  When coordinate `d` of the point is at least the tolerance away from every vertex coordinate
(the others are resolved), the complex step in coordinate `d` through `LagrangeElement<Complex>::eval_basis` and `eval_approx`
returns the values of `LagrangeElement<Real>` and entry `d` of its gradients. -/
theorem C83_element_partial (hs : Separated tol N Z) {X : ℕ → ℝ} (hX : ∀ e < 3, Resolved tol N Z (X e)) {d : ℕ} (hd : d < 3)
    (hfar : ∀ j < N, tol ≤ |Z j - X d|) :
    (∀ J < N * N * N, ∀ C : ℕ → ℝ,
      Step (fun z => (lagBasis tol N (cx Z) J (replace X d z)).getD 0) (X d) ((evalBasis tol N Z J X).getD 0)
        (entry ((evalGradBasis tol N Z C J X).getD (0, 0, 0)) d)) ∧
    ∀ (W : ℕ → ℂ) (C C' c g : ℕ → ℝ),
      Step (fun z => lagApprox tol N (cx Z) W (cx c) (replace X d z)) (X d) (evalApprox tol N Z C c X)
        ((evalGradApprox tol N Z C' c X 0 g).2 d) := by
  have hv := verts_cx hs
  have hh := stepped_hits hs hX hfar
  refine ⟨fun J hJ C => ?_, fun W C C' c g => ?_⟩
  · rw [C09_basis hs hX hJ, C10_grad_basis hs hX C hJ]
    have e1 : (some (phi N Z J X)).getD 0 = (linePoly N Z X d J).eval (X d) := (linePoly_eval X hd J).1.symm
    have e2 : entry ((some (dphi N Z 0 J X, dphi N Z 1 J X, dphi N Z 2 J X)).getD (0, 0, 0)) d =
        (derivative (linePoly N Z X d J)).eval (X d) := by
      rw [(linePoly_eval X hd J).2]
      interval_cases d <;> rfl
    rw [e1, e2]
    refine step_poly fun h _ => ?_
    show (evalBasisAt (find tol N (cx Z)) N (cx Z) J (replace X d (X d + h * I))).getD 0 = _
    rw [basisAt hv (hh h) hJ]
    exact linePoly_ev X hd J _
  · have e1 : evalApprox tol N Z C c X = (∑ J ∈ range (N * N * N), Polynomial.C (c J) * linePoly N Z X d J).eval (X d) := by
      rw [C10_approx hs hX C c, eval_finsetSum]
      refine sum_congr rfl fun J hJ => ?_
      rw [C09_basis hs hX (mem_range.1 hJ), eval_mul, eval_C, (linePoly_eval X hd J).1]; rfl
    have e2 : (evalGradApprox tol N Z C' c X 0 g).2 d =
        (derivative (∑ J ∈ range (N * N * N), Polynomial.C (c J) * linePoly N Z X d J)).eval (X d) := by
      have := (gradApprox_specAt hs.verts (fun d hd => hits hs (hX d hd)) c C' 0 g).1 d hd
      rw [Nat.zero_add] at this
      unfold evalGradApprox
      rw [this, derivative_sum, eval_finsetSum]
      refine sum_congr rfl fun J _ => ?_
      rw [derivative_C_mul, eval_mul, eval_C, (linePoly_eval X hd J).2]
    rw [e1, e2]
    refine step_poly fun h _ => ?_
    show evalApproxAt (find tol N (cx Z)) N (cx Z) W (cx c) (replace X d (X d + h * I)) = _
    rw [approxAt hv (hh h) W (cx c), ev_sum]
    refine sum_congr rfl fun J hJ => ?_
    rw [basisAt hv (hh h) (mem_range.1 hJ), ev_C_mul, ← linePoly_ev X hd]; rfl

/-- **C83** (at a vertex).  Within the tolerance of a vertex, every complex step through `eval_interp<Complex>` returns the vertex value
with imaginary part zero. -/
theorem C83_vertex (hs : Separated tol N Z) {x : ℝ} {j : ℕ} (hj : j < N) (hx : |Z j - x| < tol) (c : ℕ → ℝ) (wc : ℕ → ℂ) (h : ℝ) :
    Lagrange.evalInterp N (find tol N (cx Z) (x + h * I)) (cx Z) wc (x + h * I) (cx c) = (c j : ℂ) := by
  rw [find_cx, step_re]
  unfold LagrangeElement.find
  rw [Lagrange.find_of_near hs.lt hs.sep hj hx, Lagrange.evalInterp, if_pos hj]; rfl

/-- **C83** fails at vertices: through the vertices 0, 1, 2 with the data 0, 1, 4 (the function `t²`), the complex step at the vertex 1
returns the derivative 0, not 2. -/
theorem C83_vertex_negation :
    ∃ (tol : ℝ) (N : ℕ) (Z c : ℕ → ℝ) (x : ℝ), Separated tol N Z ∧ Resolved tol N Z x ∧
      Lagrange.evalDerInterp N 1 (Lagrange.findCoincidentVertex tol N Z x).toNat Z (Lagrange.computeBarycentricWeights N Z 0) x c = 2 ∧
      ∀ (wc : ℕ → ℂ) (v d : ℝ),
        Step (fun z => Lagrange.evalInterp N (find tol N (cx Z) z) (cx Z) wc z (cx c)) x v d → d = 0 := by
  have hs : Separated (1 / 100 : ℝ) 3 (fun j => (j : ℝ)) := by
    refine ⟨by norm_num, by norm_num, by norm_num, ?_⟩
    intro j hj k hk hjk
    interval_cases j <;> interval_cases k <;> first | exact absurd rfl hjk | norm_num [le_abs]
  have hr : Resolved (1 / 100 : ℝ) 3 (fun j => (j : ℝ)) 1 := by
    intro j hj
    interval_cases j <;> norm_num [le_abs]
  refine ⟨1 / 100, 3, fun j => (j : ℝ), fun j => (j : ℝ) ^ 2, 1, hs, hr, ?_, fun wc v d h => ?_⟩
  · have hdeg : (X ^ 2 : ℝ[X]).degree < ((#(range 3) : ℕ) : WithBot ℕ) := by
      rw [degree_X_pow, card_range]; exact_mod_cast (by norm_num : 2 < 3)
    have hc : (fun j : ℕ => (j : ℝ) ^ 2) = fun j => (X ^ 2 : ℝ[X]).eval ((j : ℕ) : ℝ) := by funext j; simp
    rw [Lagrange.C08_der_interp_partial _ hs.tol_pos 3 hs.lt _ 0 _ hs.sep 1 hr 1 (Or.inl rfl), hc,
      ← _root_.Lagrange.eq_interpolate hs.verts.inj hdeg]
    norm_num
  · refine step_im_zero (fun h => ?_) h
    show (Lagrange.evalInterp 3 (find (1 / 100) 3 (cx fun j => (j : ℝ)) (((1 : ℝ) : ℂ) + h * I)) _ wc _ (cx fun j => (j : ℝ) ^ 2)).im = 0
    rw [C83_vertex hs (j := 1) (by norm_num) (by norm_num) _ wc h, ofReal_im]

/-- Non-vacuity: vertices 0, 1, 2, point 1/2. -/
example : Separated (1 / 100 : ℝ) 3 (fun j => (j : ℝ)) ∧ ∀ j < 3, (1 / 100 : ℝ) ≤ |((j : ℕ) : ℝ) - 1 / 2| := by
  refine ⟨⟨by norm_num, by norm_num, by norm_num, ?_⟩, ?_⟩
  · intro j hj k hk hjk
    interval_cases j <;> interval_cases k <;> first | exact absurd rfl hjk | norm_num [le_abs]
  · intro j hj
    interval_cases j <;> norm_num [le_abs]

/-! ## C84: Legendre -/

theorem dP_eval (n : ℕ) (x : ℝ) : (derivative (Legendre.P n : ℝ[X])).eval x = Legendre.evalDer n 1 x := by
  rw [(Legendre.C13_legendre_der n 1 le_rfl x).1, iteratedDeriv_one, ← Polynomial.deriv]
  congr 1
  funext y
  exact (Legendre.eval_eq n y).symm

/-- **C84** (polynomials).  For every degree and every real point, the complex step through `legendre::eval<Complex>` returns the Legendre
polynomial and its first derivative as given by `legendre::eval_der<Real>`; through `legendre::eval_der<Complex>` of order `k`,
derivatives `k` and `k + 1`; through `jacobi::eval<Complex>`, value and derivative of the Jacobi polynomial, for any parameters. -/
theorem C84_legendre (n : ℕ) (x : ℝ) :
    Step (fun z => Legendre.eval n z) x (Legendre.eval n x) (Legendre.evalDer n 1 x) ∧
    (∀ k, 1 ≤ k → Step (fun z => legEvalDer n k z) x (Legendre.evalDer n k x) (Legendre.evalDer n (k + 1) x)) ∧
    ∀ α β : ℝ, Step (fun z => jacobiEval n α β z) x (Legendre.jacobiEval n α β x)
      (deriv (fun y => Legendre.jacobiEval n α β y) x) := by
  refine ⟨?_, fun k hk => ?_, fun α β => ?_⟩
  · rw [Legendre.eval_eq, ← dP_eval]
    exact step_poly fun h _ => leg_cx n _
  · have e : Legendre.evalDer n (k + 1) x = (derivative (jacDer n k 0 0)).eval x := by
      rw [(Legendre.C13_legendre_der n (k + 1) (by omega) x).1, iteratedDeriv_succ, ← Polynomial.deriv]
      congr 1
      funext y
      rw [← (Legendre.C13_legendre_der n k hk y).1]
      exact jacDer_real n k 0 0 y
    rw [e, show Legendre.evalDer n k x = _ from jacDer_real n k 0 0 x]
    exact step_poly fun h _ => jacDer_cx n k 0 0 _
  · have e : (fun y => Legendre.jacobiEval n α β y) = fun y => (jac α β (n + 1)).eval y := by
      funext y; exact jac_real α β y (n + 1)
    rw [e, Polynomial.deriv, show Legendre.jacobiEval n α β x = _ from jac_real α β x (n + 1)]
    exact step_poly fun h _ => jac_cx α β _ (n + 1)

/-- The polynomial in coordinate `d` of a Legendre basis function. -/
noncomputable def legPoly (N : ℕ) (X : ℕ → ℝ) (d I : ℕ) : ℝ[X] :=
  (if d = 0 then Legendre.P (I % N) else C (Legendre.eval (I % N) (X 0))) *
  (if d = 1 then Legendre.P (I / N % N) else C (Legendre.eval (I / N % N) (X 1))) *
  (if d = 2 then Legendre.P (I / N / N) else C (Legendre.eval (I / N / N) (X 2)))

theorem legPoly_ev (N : ℕ) (X : ℕ → ℝ) {d : ℕ} (hd : d < 3) (J : ℕ) (z : ℂ) :
    Legendre.eval (J % N) (replace X d z 0) * Legendre.eval (J / N % N) (replace X d z 1) *
      Legendre.eval (J / N / N) (replace X d z 2) = ev (legPoly N X d J) z := by
  have hC : ∀ (i : ℕ) (x : ℝ), Legendre.eval i (x : ℂ) = ev (C (Legendre.eval i x)) z := fun i x => by
    rw [leg_real]; simp [ev]
  have hm : ∀ p q : ℝ[X], ev (p * q) z = ev p z * ev q z := fun p q => by simp [ev]
  unfold legPoly replace
  rw [hm, hm]
  interval_cases d <;> simp only [if_true, if_false, hC, ← leg_cx, OfNat.ofNat_ne_zero, OfNat.ofNat_ne_one,
    OfNat.zero_ne_ofNat, OfNat.one_ne_ofNat, one_ne_zero, zero_ne_one]

theorem legPoly_eval (N : ℕ) (X : ℕ → ℝ) {d : ℕ} (hd : d < 3) (J : ℕ) :
    (legPoly N X d J).eval (X d) = Legendre.eval (J % N) (X 0) * Legendre.eval (J / N % N) (X 1) * Legendre.eval (J / N / N) (X 2) ∧
    (derivative (legPoly N X d J)).eval (X d) =
      LegendreElement.bas LegendreElement.derReal (d == 0) (J % N) (X 0) *
      LegendreElement.bas LegendreElement.derReal (d == 1) (J / N % N) (X 1) *
      LegendreElement.bas LegendreElement.derReal (d == 2) (J / N / N) (X 2) := by
  unfold legPoly LegendreElement.bas LegendreElement.derReal
  interval_cases d <;> simp [dP_eval, Legendre.eval_eq]

/-- **C84** (hexahedral elements).  At every real point, the complex step in coordinate `d` through `LegendreElement<Complex>::eval_basis` and
`eval_approx` returns the values of `LegendreElement<Real>` and entry `d` of its gradients. -/
theorem C84_element (hN : 0 < N) (hfit : N * N * N < 2 ^ 64) (X : ℕ → ℝ) {d : ℕ} (hd : d < 3) :
    (∀ J < N * N * N,
      Step (fun z => (LegendreElement.evalBasis N J (replace X d z)).getD 0) (X d) ((LegendreElement.evalBasis N J X).getD 0)
        (entry ((LegendreElement.evalGradBasis N J X).getD (0, 0, 0)) d)) ∧
    ∀ (W : ℕ → ℂ) (C C' c g : ℕ → ℝ),
      Step (fun z => LegendreElement.evalApprox N W (cx c) (replace X d z)) (X d) (LegendreElement.evalApprox N C c X)
        ((LegendreElement.evalGradApprox N C' c X g).2 d) := by
  refine ⟨fun J hJ => ?_, fun W C C' c g => ?_⟩
  · have e1 : (LegendreElement.evalBasis N J X).getD 0 = (legPoly N X d J).eval (X d) := by
      rw [LegendreElement.basis_eq hN hfit X hJ, (legPoly_eval N X hd J).1]; rfl
    have e2 : entry ((LegendreElement.evalGradBasis N J X).getD (0, 0, 0)) d = (derivative (legPoly N X d J)).eval (X d) := by
      unfold LegendreElement.evalGradBasis
      rw [LegendreElement.gradBasis_eq _ hN hfit X hJ, (legPoly_eval N X hd J).2]
      interval_cases d <;> rfl
    rw [e1, e2]
    refine step_poly fun h _ => ?_
    show (LegendreElement.evalBasis N J (replace X d (X d + h * I))).getD 0 = _
    rw [LegendreElement.basis_eq hN hfit _ hJ]
    exact legPoly_ev N X hd J _
  · have e1 : LegendreElement.evalApprox N C c X = (∑ J ∈ range (N * N * N), Polynomial.C (c J) * legPoly N X d J).eval (X d) := by
      rw [LegendreElement.approx_eq, eval_finsetSum]
      refine sum_congr rfl fun J _ => ?_
      rw [eval_mul, eval_C, (legPoly_eval N X hd J).1]
    have e2 : (LegendreElement.evalGradApprox N C' c X g).2 d =
        (derivative (∑ J ∈ range (N * N * N), Polynomial.C (c J) * legPoly N X d J)).eval (X d) := by
      unfold LegendreElement.evalGradApprox
      rw [LegendreElement.gradApprox_eq _ N C' c X g d hd, derivative_sum, eval_finsetSum]
      refine sum_congr rfl fun J _ => ?_
      rw [derivative_C_mul, eval_mul, eval_C, (legPoly_eval N X hd J).2]
    rw [e1, e2]
    refine step_poly fun h _ => ?_
    show LegendreElement.evalApprox N W (cx c) (replace X d (X d + h * I)) = _
    rw [LegendreElement.approx_eq, ev_sum]
    refine sum_congr rfl fun J _ => ?_
    rw [ev_C_mul, ← legPoly_ev N X hd]; rfl

/-- **C84** (real inputs).  At real points with real coefficients, `LegendreElement<Complex>` returns what `LegendreElement<Real>` returns:
basis functions, their gradients, and expansions; and so do `jacobi::eval_der` and `legendre::eval_der`. -/
theorem C84_real (hN : 0 < N) (hfit : N * N * N < 2 ^ 64) (X : ℕ → ℝ) :
    (∀ J < N * N * N, LegendreElement.evalBasis N J (cx X) = (LegendreElement.evalBasis N J X).map ofReal) ∧
    (∀ J < N * N * N, legGradBasis N J (cx X) =
      (LegendreElement.evalGradBasis N J X).map (fun t => ((t.1 : ℂ), (t.2.1 : ℂ), (t.2.2 : ℂ)))) ∧
    (∀ (W : ℕ → ℂ) (C c : ℕ → ℝ), LegendreElement.evalApprox N W (cx c) (cx X) = (LegendreElement.evalApprox N C c X : ℝ)) ∧
    ∀ (n k : ℕ) (α β x : ℝ), jacobiEvalDer n k α β (x : ℂ) = (Legendre.jacobiEvalDer n k α β x : ℝ) := by
  have hj : ∀ (n k : ℕ) (α β x : ℝ), jacobiEvalDer n k α β (x : ℂ) = (Legendre.jacobiEvalDer n k α β x : ℝ) :=
    fun n k α β x => by rw [jacDer_cx, ev_real, ← jacDer_real]
  have hb : ∀ (n : ℕ) (x : ℝ), legEvalDer n 1 (x : ℂ) = (LegendreElement.derReal n x : ℝ) := fun n x => hj n 1 0 0 x
  refine ⟨fun J hJ => ?_, fun J hJ => ?_, fun W C c => ?_, hj⟩
  · rw [LegendreElement.basis_eq hN hfit X hJ, LegendreElement.basis_eq hN hfit _ hJ]
    simp only [cx, leg_real, Option.map_some, ofReal_mul]
  · unfold legGradBasis LegendreElement.evalGradBasis
    rw [LegendreElement.gradBasis_eq _ hN hfit X hJ, LegendreElement.gradBasis_eq _ hN hfit _ hJ]
    simp only [cx, hb, leg_real, Option.map_some, ofReal_mul]
  · rw [LegendreElement.approx_eq, LegendreElement.approx_eq]
    simp only [cx, leg_real, ofReal_mul, ofReal_sum]

example : (0 : ℕ) < 3 ∧ 3 * 3 * 3 < 2 ^ 64 := by norm_num

end Verif.ComplexStep
