import Verif.Concurrent.LagrangeLemmas
import Verif.Legendre.ElementTheorems

/-!
# The evaluation methods of `LegendreElement` as programs

Same routines as in `Verif/Legendre/Element.lean`, with every access to the members `ijk` and `C` of object `o` as a step of its own.
-/

namespace Verif.Concurrent.Leg
open Verif.Legendre Verif.LegendreElement
open Prog Finset

/-- `LegendreElement::eval_basis`, elements/legendre_element.cpp:30-41. -/
noncomputable def evalBasisP (o N I : ℕ) (X : ℕ → ℝ) : Prog ℝ (List ℝ) := do
  digitsP o N I
  let i ← rdI o 0
  let Pi := eval i (X 0)
  let j ← rdI o 1
  let Pj := eval j (X 1)
  let k ← rdI o 2
  let Pk := eval k (X 2)
  pure [Pi * Pj * Pk]

/-- `LegendreElement::eval_grad_basis`, elements/legendre_element.cpp:56-77. -/
noncomputable def evalGradBasisP (o N I : ℕ) (X : ℕ → ℝ) : Prog ℝ (List ℝ) := do
  digitsP o N I
  let i ← rdI o 0
  let Pi := eval i (X 0)
  let j ← rdI o 1
  let Pj := eval j (X 1)
  let k ← rdI o 2
  let Pk := eval k (X 2)
  let i ← rdI o 0
  let dPi := derReal i (X 0)
  let j ← rdI o 1
  let dPj := derReal j (X 1)
  let k ← rdI o 2
  let dPk := derReal k (X 2)
  pure [dPi * Pj * Pk, Pi * dPj * Pk, Pi * Pj * dPk]

/-- `legendre::eval_approx` and `legendre::eval_der_approx` with `k = 1` and the coefficients read by `rd`,
elements/legendre_polynomials.cpp:49-56 and 70-78. -/
noncomputable def lineP (d : Bool) (rd : ℕ → Prog ℝ ℝ) (N : ℕ) (x : ℝ) : Prog ℝ ℝ :=
  loopP N (fun j s => do
    let c ← rd j
    pure (s + c * if d then derReal j x else eval j x)) 0

/-- `LegendreElement::eval_approx`, elements/legendre_element.cpp:101-115. -/
noncomputable def evalApproxP (o N : ℕ) (c X : ℕ → ℝ) : Prog ℝ (List ℝ) := do
  loopP N (fun k _ => do
    loopP N (fun j _ => do
      let v ← lineP false (fun m => pure (c (j * N + k * N * N + m))) N (X 0)
      wrC o j v) ()
    let v ← lineP false (rdC o) N (X 1)
    wrC o (N + k) v) ()
  let v ← lineP false (fun m => rdC o (N + m)) N (X 2)
  pure [v]

/-- `LegendreElement::eval_grad_approx`, elements/legendre_element.cpp:132-161. -/
noncomputable def evalGradApproxP (o N : ℕ) (c X : ℕ → ℝ) : Prog ℝ (List ℝ) :=
  loopP 3 (fun l g => do
    loopP N (fun k _ => do
      loopP N (fun j _ => do
        let v ← lineP (l == 0) (fun m => pure (c (j * N + k * N * N + m))) N (X 0)
        wrC o j v) ()
      let v ← lineP (l == 1) (rdC o) N (X 1)
      wrC o (N + k) v) ()
    let v ← lineP (l == 2) (fun m => rdC o (N + m)) N (X 2)
    pure (g ++ [v])) []

/-! ### Alone -/

theorem run_lineP {rd : ℕ → Prog ℝ ℝ} {m : Mem ℝ} {o N : ℕ} {C a : ℕ → ℝ} (hr : ∀ j < N, (rd j).run (put m o C) = (a j, put m o C))
    (d : Bool) (x : ℝ) : (lineP d rd N x).run (put m o C) = (lineEvalAt derReal d N a x, put m o C) := by
  have key : ∀ s : ℝ, (loopP N (fun j s => do
    let c ← rd j
    pure (s + c * if d then derReal j x else eval j x)) s).run (put m o C) =
    (loop N (fun j s => s + a j * if d then derReal j x else eval j x) s, put m o C) := by
    intro s
    induction N with
    | zero => rfl
    | succ N ih =>
      rw [loopP, run_bind', ih fun j hj => hr j (by omega), loop_succ]
      simp [hr N (by omega)]
  refine (key 0).trans ?_
  unfold lineEvalAt evalDerApproxAt Legendre.evalApprox
  cases d <;> rfl

/-- One pass over the three directions, with derivatives in the directions of `b0`, `b1`, `b2`. -/
noncomputable def passP (b0 b1 b2 : Bool) (o N : ℕ) (c X : ℕ → ℝ) : Prog ℝ ℝ := do
  loopP N (fun k _ => do
    loopP N (fun j _ => do
      let v ← lineP b0 (fun m => pure (c (j * N + k * N * N + m))) N (X 0)
      wrC o j v) ()
    let v ← lineP b1 (rdC o) N (X 1)
    wrC o (N + k) v) ()
  lineP b2 (fun m => rdC o (N + m)) N (X 2)

theorem run_passP (b0 b1 b2 : Bool) (o N : ℕ) (c X : ℕ → ℝ) (m : Mem ℝ) : ((passP b0 b1 b2 o N c X).run m).1 =
    ∑ I ∈ range (N * N * N), c I * (bas derReal b0 (I % N) (X 0) * bas derReal b1 (I / N % N) (X 1) *
      bas derReal b2 (I / N / N) (X 2)) := by
  refine run_as_put (o := o) (fun m C => ?_) m
  rw [← nest derReal b0 b1 b2 N C c X]
  unfold passP
  rw [run_bind, run_loopU (f := fun k C =>
      let C := loop N (fun j C =>
        store C j (lineEvalAt derReal b0 N (fun m => c (j * N + k * N * N + m)) (X 0))) C
      store C (N + k) (lineEvalAt derReal b1 N C (X 1))) (fun k _ C => by
    rw [run_bind, run_loopU (f := fun j C => store C j (lineEvalAt derReal b0 N (fun m => c (j * N + k * N * N + m)) (X 0)))
        (fun j _ C => by rw [run_bind, run_lineP (fun _ _ => rfl), run_wrC]),
      run_bind, run_lineP (fun j _ => run_rdC m o j _), run_wrC]),
    run_lineP (fun j _ => run_rdC m o (N + j) _)]

theorem evalApproxP_eq (o N : ℕ) (c X : ℕ → ℝ) : evalApproxP o N c X = (passP false false false o N c X).bind fun v => .ret [v] := by
  unfold evalApproxP passP
  simp only [bind_def, bind_assoc']
  rfl

theorem evalGradApproxP_eq (o N : ℕ) (c X : ℕ → ℝ) : evalGradApproxP o N c X =
    loopP 3 (fun l g => (passP (l == 0) (l == 1) (l == 2) o N c X).bind fun v => .ret (g ++ [v])) [] := by
  unfold evalGradApproxP passP
  simp only [bind_def, bind_assoc']
  rfl

/-- Basis function number `I` and its partial derivatives. -/
noncomputable def phi (N I : ℕ) (X : ℕ → ℝ) : ℝ := eval (I % N) (X 0) * eval (I / N % N) (X 1) * eval (I / N / N) (X 2)
/-- Partial derivative in direction `d`. -/
noncomputable def dphi (N d I : ℕ) (X : ℕ → ℝ) : ℝ :=
  (if d = 0 then dLeg (I % N) (X 0) else eval (I % N) (X 0)) *
  (if d = 1 then dLeg (I / N % N) (X 1) else eval (I / N % N) (X 1)) *
  (if d = 2 then dLeg (I / N / N) (X 2) else eval (I / N / N) (X 2))

theorem run_evalApproxP (o N : ℕ) (c X : ℕ → ℝ) (m : Mem ℝ) :
    ((evalApproxP o N c X).run m).1 = [∑ I ∈ range (N * N * N), c I * phi N I X] := by
  rw [evalApproxP_eq, run_bind', run_ret, run_passP]
  rfl

theorem bas_dphi (N l I : ℕ) (X : ℕ → ℝ) : bas derReal (l == 0) (I % N) (X 0) * bas derReal (l == 1) (I / N % N) (X 1) *
    bas derReal (l == 2) (I / N / N) (X 2) = dphi N l I X := by
  simp only [bas, dphi, derReal, evalDer_one, beq_iff_eq]

theorem run_evalGradApproxP (o N : ℕ) (c X : ℕ → ℝ) (m : Mem ℝ) : ((evalGradApproxP o N c X).run m).1 =
    [∑ I ∈ range (N * N * N), c I * dphi N 0 I X, ∑ I ∈ range (N * N * N), c I * dphi N 1 I X,
      ∑ I ∈ range (N * N * N), c I * dphi N 2 I X] := by
  rw [evalGradApproxP_eq]
  simp only [loopP, Prog.bind, run_bind', run_ret, run_passP, bas_dphi]
  rfl

theorem run_evalBasisP {N I : ℕ} (h : 0 < N) (hI : I < N * N * N) (o : ℕ) (X : ℕ → ℝ) (m : Mem ℝ) :
    ((evalBasisP o N I X).run m).1 = [phi N I X] := by
  obtain ⟨l0, l1, l2, l3⟩ := dig_lt h hI
  obtain ⟨d0, d1, d2⟩ := run_digitsP o N I m
  unfold evalBasisP
  simp only [run_bind, run_rdI, run_pure, d0, d1, d2, l3]
  rfl

theorem run_evalGradBasisP {N I : ℕ} (h : 0 < N) (hI : I < N * N * N) (o : ℕ) (X : ℕ → ℝ) (m : Mem ℝ) :
    ((evalGradBasisP o N I X).run m).1 = [dphi N 0 I X, dphi N 1 I X, dphi N 2 I X] := by
  obtain ⟨l0, l1, l2, l3⟩ := dig_lt h hI
  obtain ⟨d0, d1, d2⟩ := run_digitsP o N I m
  unfold evalGradBasisP
  simp only [run_bind, run_rdI, run_pure, d0, d1, d2, l3, derReal, evalDer_one]
  simp [dphi]

/-! ### Accesses -/

/-- The work array of a `LegendreElement` has `2*N` entries, elements/legendre_element.cpp:14. -/
def WorkAddr (o N : ℕ) (a : Addr) : Prop := a.1 = true ∧ a.2.1 = o ∧ a.2.2 < 2 * N

theorem within_work {o N i : ℕ} (hi : i < 2 * N) : WorkAddr o N (true, o, i) := ⟨rfl, rfl, hi⟩

theorem within_evalBasisP (o N I : ℕ) (X : ℕ → ℝ) : (evalBasisP o N I X).Within (DigAddr o) := by
  unfold evalBasisP
  refine within_bind (within_digitsP o N I) fun _ => ?_
  refine within_bind (within_rdI ⟨rfl, rfl, by simp⟩) fun _ => ?_
  refine within_bind (within_rdI ⟨rfl, rfl, by simp⟩) fun _ => ?_
  exact within_bind (within_rdI ⟨rfl, rfl, by simp⟩) fun _ => trivial

theorem within_evalGradBasisP (o N I : ℕ) (X : ℕ → ℝ) : (evalGradBasisP o N I X).Within (DigAddr o) := by
  unfold evalGradBasisP
  have rd : ∀ i < 3, (rdI o i : Prog ℝ ℕ).Within (DigAddr o) := fun i hi => within_rdI ⟨rfl, rfl, hi⟩
  refine within_bind (within_digitsP o N I) fun _ => ?_
  refine within_bind (rd 0 (by omega)) fun _ => within_bind (rd 1 (by omega)) fun _ => within_bind (rd 2 (by omega)) fun _ => ?_
  exact within_bind (rd 0 (by omega)) fun _ => within_bind (rd 1 (by omega)) fun _ => within_bind (rd 2 (by omega)) fun _ => trivial

theorem within_lineP {A : Addr → Prop} {rd : ℕ → Prog ℝ ℝ} {N : ℕ} (h : ∀ i < N, (rd i).Within A) (d : Bool) (x : ℝ) :
    (lineP d rd N x).Within A :=
  within_loopP (fun i hi _ => within_bind (h i hi) fun _ => within_pure) _

theorem within_passP (b0 b1 b2 : Bool) (o N : ℕ) (c X : ℕ → ℝ) : (passP b0 b1 b2 o N c X).Within (WorkAddr o N) := by
  unfold passP
  refine within_bind (within_loopP (fun k hk _ => ?_) _) fun _ => ?_
  · refine within_bind (within_loopP (fun j hj _ => ?_) _) fun _ => ?_
    · exact within_bind (within_lineP (fun _ _ => within_pure) _ _) fun _ => within_wrC (within_work (by omega))
    · exact within_bind (within_lineP (fun i hi => within_rdC (within_work (by omega))) _ _) fun _ =>
        within_wrC (within_work (by omega))
  · exact within_lineP (fun i hi => within_rdC (within_work (by omega))) _ _

theorem within_evalApproxP (o N : ℕ) (c X : ℕ → ℝ) : (evalApproxP o N c X).Within (WorkAddr o N) := by
  rw [evalApproxP_eq]
  exact within_bind' (within_passP _ _ _ o N c X) fun _ => within_pure

theorem within_evalGradApproxP (o N : ℕ) (c X : ℕ → ℝ) : (evalGradApproxP o N c X).Within (WorkAddr o N) := by
  rw [evalGradApproxP_eq]
  exact within_loopP (fun l _ g => within_bind' (within_passP _ _ _ o N c X) fun _ => within_pure) _

end Verif.Concurrent.Leg
