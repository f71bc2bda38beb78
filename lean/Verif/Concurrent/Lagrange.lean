import Verif.Concurrent.Prog
import Verif.LagrangeElement.Gen

/-!
# The evaluation methods of `LagrangeElement` as programs

Same routines as in `Verif/LagrangeElement/Model.lean`, with every access to the members `ijk` and `C` of object `o` as a step of its
own, in the order of the source.  `ijk` is computed with natural numbers (`SizeType` holds the radices and `I < N^3`).  The output
array `grad_f` belongs to the caller; it is the list the program returns.
-/

set_option linter.unusedSectionVars false

namespace Verif.Concurrent
open Verif.Lagrange Verif.LagrangeElement
open Prog
variable {K : Type} [Field K]

def rdI (o i : ℕ) : Prog K ℕ := .readI o i .ret
def wrI (o i v : ℕ) : Prog K Unit := .writeI o i v (.ret ())
def rdC (o i : ℕ) : Prog K K := .readC o i .ret
def wrC (o i : ℕ) (v : K) : Prog K Unit := .writeC o i v (.ret ())

/-- `common::base_10_to_mixed_radix(Nd, rad, I, ijk)` with `rad = {N, N, N}`, common/common.cpp:17-23. -/
def digitsP (o N I : ℕ) : Prog K Unit := do
  let _ ← loopP 3 (fun i x => do
    wrI o i (x % N)
    pure (x / N)) I
  pure ()

/-- `LagrangeElement::eval_basis`, elements/lagrange_element.cpp:37-53. -/
def evalBasisP (fnd : K → ℕ) (o N : ℕ) (Z : ℕ → K) (I : ℕ) (X : ℕ → K) : Prog K (List K) := do
  digitsP o N I
  let w := weights N Z
  let i ← rdI o 0
  let li := eval N i (fnd (X 0)) Z w (X 0)
  let j ← rdI o 1
  let lj := eval N j (fnd (X 1)) Z w (X 1)
  let k ← rdI o 2
  let lk := eval N k (fnd (X 2)) Z w (X 2)
  pure [li * lj * lk]

/-- The loop of `eval_interp` and `eval_der_interp` with the coefficients read by `rd`,
elements/lagrange_polynomials.cpp:155-163 and 203-211; state `(p, L)`. -/
def sumP (rd : ℕ → Prog K K) (N : ℕ) (Z w : ℕ → K) (x : K) : Prog K (K × K) :=
  loopP N (fun j s => do
    let c ← rd j
    pure (s.1 + w j * c / (x - Z j), s.2 * (x - Z j))) (0, 1)

/-- `lagrange::eval_interp`, elements/lagrange_polynomials.cpp:147-171. -/
def interpP (rd : ℕ → Prog K K) (N ic : ℕ) (Z w : ℕ → K) (x : K) : Prog K K :=
  if ic < N then rd ic
  else do
    let s ← sumP rd N Z w x
    pure (s.1 * s.2)

/-- `lagrange::eval_der_interp` with `n = 1` on the first line of `C`, elements/lagrange_polynomials.cpp:193-260. -/
def derInterpP (o N ic : ℕ) (Z w : ℕ → K) (x : K) : Prog K K :=
  if ic < N then do
    let p ← rdC o ic
    let d ← loopP N (fun j d => do
      let c ← rdC o j
      wrC o j (1 / (Z ic - Z j) * (p - c))
      if j ≠ ic then do
        let c ← rdC o j
        pure (d + w j * c)
      else pure d) 0
    pure (d * (-(1 * (1 : ℕ)) / w ic))
  else do
    let s ← sumP (rdC o) N Z w x
    let d ← loopP N (fun j d => do
      let c ← rdC o j
      wrC o j (1 / (x - Z j) * (s.1 * s.2 - c))
      let c ← rdC o j
      pure (d + w j * c / (x - Z j))) 0
    pure (d * (s.2 * (1 * (1 : ℕ))))

/-- `lagrange::eval_der` with `n = 1` and the work array `C`, elements/lagrange_polynomials.cpp:114-126. -/
def derP (o N i ic : ℕ) (Z w : ℕ → K) (x : K) : Prog K K := do
  loopP N (fun j _ => wrC o j (if j ≠ i then 0 else 1)) ()
  derInterpP o N ic Z w x

/-- `LagrangeElement::eval_grad_basis`, elements/lagrange_element.cpp:68-94. -/
def evalGradBasisP (fnd : K → ℕ) (o N : ℕ) (Z : ℕ → K) (I : ℕ) (X : ℕ → K) : Prog K (List K) := do
  digitsP o N I
  let w := weights N Z
  let i ← rdI o 0
  let li := eval N i (fnd (X 0)) Z w (X 0)
  let j ← rdI o 1
  let lj := eval N j (fnd (X 1)) Z w (X 1)
  let k ← rdI o 2
  let lk := eval N k (fnd (X 2)) Z w (X 2)
  let i ← rdI o 0
  let dli ← derP o N i (fnd (X 0)) Z w (X 0)
  let j ← rdI o 1
  let dlj ← derP o N j (fnd (X 1)) Z w (X 1)
  let k ← rdI o 2
  let dlk ← derP o N k (fnd (X 2)) Z w (X 2)
  pure [dli * lj * lk, li * dlj * lk, li * lj * dlk]

/-- `LagrangeElement::eval_approx`, elements/lagrange_element.cpp:120-139. -/
def evalApproxP (fnd : K → ℕ) (o N : ℕ) (Z c X : ℕ → K) : Prog K (List K) := do
  let w := weights N Z
  loopP N (fun k _ => do
    loopP N (fun j _ => do
      let v ← interpP (fun m => pure (c (j * N + k * N * N + m))) N (fnd (X 0)) Z w (X 0)
      wrC o j v) ()
    let v ← interpP (rdC o) N (fnd (X 1)) Z w (X 1)
    wrC o (N + k) v) ()
  let v ← interpP (fun m => rdC o (N + m)) N (fnd (X 2)) Z w (X 2)
  pure [v]

/-- `std::copy` to the first line of `C`. -/
def copyP (o N : ℕ) (rd : ℕ → Prog K K) : Prog K Unit :=
  loopP N (fun m _ => do
    let v ← rd m
    wrC o m v) ()

/-- Derivative or value of the interpolant of the first line, lines 178-182, 187-191 and 196-200 of
elements/lagrange_element.cpp. -/
def lineP (der : Bool) (o N ic : ℕ) (Z w : ℕ → K) (x : K) : Prog K K :=
  if der then derInterpP o N ic Z w x else interpP (rdC o) N ic Z w x

/-- `LagrangeElement::eval_grad_approx`, elements/lagrange_element.cpp:164-202. -/
def evalGradApproxP (fnd : K → ℕ) (o N : ℕ) (Z c X : ℕ → K) : Prog K (List K) := do
  let w := weights N Z
  loopP 3 (fun l g => do
    loopP N (fun k _ => do
      loopP N (fun j _ => do
        copyP o N fun m => pure (c (j * N + k * N * N + m))
        let v ← lineP (l == 0) o N (fnd (X 0)) Z w (X 0)
        wrC o (N + j) v) ()
      copyP o N fun m => rdC o (N + m)
      let v ← lineP (l == 1) o N (fnd (X 1)) Z w (X 1)
      wrC o (2 * N + k) v) ()
    copyP o N fun m => rdC o (2 * N + m)
    let v ← lineP (l == 2) o N (fnd (X 2)) Z w (X 2)
    pure (g ++ [v])) []

/-! ### A program running alone does what the sequential model does -/

/-- Memory with `C` as work array of object `o`. -/
def put (m : Mem K) (o : ℕ) (C : ℕ → K) : Mem K := { m with C := fun o' i => if o' = o then C i else m.C o' i }

theorem put_self (m : Mem K) (o : ℕ) : put m o (m.C o) = m := by
  unfold put
  congr
  funext o' i
  split
  · next h => rw [h]
  · rfl

@[simp] theorem run_rdC (m : Mem K) (o i : ℕ) (C : ℕ → K) : (rdC o i).run (put m o C) = (C i, put m o C) := by
  simp [rdC, Prog.run, put]

@[simp] theorem run_wrC (m : Mem K) (o i : ℕ) (v : K) (C : ℕ → K) : (wrC o i v).run (put m o C) = ((), put m o (store C i v)) := by
  simp only [wrC, Prog.run, Mem.setC, put, Prod.mk.injEq, true_and]
  congr
  funext o' j
  simp only [store2, store]
  by_cases h : o' = o <;> simp [h]

theorem loop_sim {σ τ : Type} {n : ℕ} {f : ℕ → σ → σ} {g : ℕ → τ → τ} {s : σ} {t : τ} {R : σ → τ → Prop} (h0 : R s t)
    (h : ∀ i s t, i < n → R s t → R (f i s) (g i t)) : R (loop n f s) (loop n g t) := by
  induction n with
  | zero => exact h0
  | succ n ih => exact h n _ _ (by omega) (ih fun i s t hi => h i s t (by omega))

/-- Loops, when the body does not change the other parts of the memory. -/
theorem run_loopP {R : Type} {m : Mem K} {o n : ℕ} {b : ℕ → R → Prog K R} {f : ℕ → R × (ℕ → K) → R × (ℕ → K)}
    (h : ∀ i < n, ∀ s C, (b i s).run (put m o C) = ((f i (s, C)).1, put m o (f i (s, C)).2)) (s : R) (C : ℕ → K) :
    (loopP n b s).run (put m o C) = ((loop n f (s, C)).1, put m o (loop n f (s, C)).2) := by
  induction n with
  | zero => rfl
  | succ n ih =>
    rw [loopP, run_bind', ih fun i hi => h i (by omega), loop_succ]
    exact h n (by omega) _ _

/-- Loops without a state of their own. -/
theorem run_loopU {m : Mem K} {o n : ℕ} {b : ℕ → Unit → Prog K Unit} {f : ℕ → (ℕ → K) → ℕ → K}
    (h : ∀ i < n, ∀ C, (b i ()).run (put m o C) = ((), put m o (f i C))) (C : ℕ → K) :
    (loopP n b ()).run (put m o C) = ((), put m o (loop n f C)) := by
  induction n with
  | zero => rfl
  | succ n ih =>
    rw [loopP, run_bind', ih fun i hi => h i (by omega), loop_succ]
    exact h n (by omega) _

theorem run_sumP {rd : ℕ → Prog K K} {m : Mem K} {o N : ℕ} {C a : ℕ → K} (hr : ∀ j < N, (rd j).run (put m o C) = (a j, put m o C))
    (Z w : ℕ → K) (x : K) : (sumP rd N Z w x).run (put m o C) =
      (loop N (fun j s => (s.1 + w j * a j / (x - Z j), s.2 * (x - Z j))) ((0 : K), (1 : K)), put m o C) := by
  unfold sumP
  generalize ((0 : K), (1 : K)) = s
  induction N with
  | zero => rfl
  | succ N ih =>
    rw [loopP, run_bind', ih fun j hj => hr j (by omega), loop_succ]
    simp [hr N (by omega)]

theorem run_interpP {rd : ℕ → Prog K K} {m : Mem K} {o N : ℕ} {C a : ℕ → K} (hr : ∀ j < N, (rd j).run (put m o C) = (a j, put m o C))
    (ic : ℕ) (Z w : ℕ → K) (x : K) : (interpP rd N ic Z w x).run (put m o C) = (evalInterp N ic Z w x a, put m o C) := by
  unfold interpP evalInterp
  split
  · next h => exact hr ic h
  · rw [run_bind, run_sumP hr]; rfl

theorem run_derInterpP (m : Mem K) (o N ic : ℕ) (Z w : ℕ → K) (x : K) (C : ℕ → K) :
    (derInterpP o N ic Z w x).run (put m o C) = (evalDerInterp N 1 ic Z w x C, put m o (evalDerRun N 1 ic Z w x C).c) := by
  unfold derInterpP evalDerInterp evalDerRun
  split
  · rw [run_bind, run_rdC, run_bind, run_loopP (f := fun j (t : K × (ℕ → K)) =>
      (if j ≠ ic then t.1 + w j * (1 / (Z ic - Z j) * (C ic - t.2 j)) else t.1, store t.2 j (1 / (Z ic - Z j) * (C ic - t.2 j))))
      (fun j _ s C' => by
        rw [run_bind, run_rdC, run_bind, run_wrC]
        dsimp only
        split
        · rw [run_bind, run_rdC]; simp
        · simp)]
    have hswap := loop_sim (n := N) (R := fun (s : K × (ℕ → K)) (t : (ℕ → K) × K) => s.1 = t.2 ∧ s.2 = t.1)
      (f := fun j (t : K × (ℕ → K)) =>
      (if j ≠ ic then t.1 + w j * (1 / (Z ic - Z j) * (C ic - t.2 j)) else t.1, store t.2 j (1 / (Z ic - Z j) * (C ic - t.2 j))))
      (g := fun j (t : (ℕ → K) × K) =>
      let cj := 1 / (Z ic - Z j) * (C ic - t.1 j)
      (store t.1 j cj, if j ≠ ic then t.2 + w j * cj else t.2)) (s := (0, C)) (t := (C, 0)) ⟨rfl, rfl⟩
      (by rintro j ⟨a, b⟩ ⟨c, d⟩ - ⟨h1, h2⟩; dsimp only at h1 h2; subst h1 h2; exact ⟨rfl, rfl⟩)
    simp only [loop_succ, loop_zero, derStepCoincident, zero_add]
    rw [hswap.1, hswap.2]
    rfl
  · rw [run_bind, run_sumP (a := C) (fun j _ => run_rdC m o j C), run_bind]
    generalize hs : loop N (fun j (s : K × K) => (s.1 + w j * C j / (x - Z j), s.2 * (x - Z j))) ((0 : K), (1 : K)) = s
    dsimp only
    rw [run_loopP (f := fun j (t : K × (ℕ → K)) =>
      (t.1 + w j * (1 / (x - Z j) * (s.1 * s.2 - t.2 j)) / (x - Z j), store t.2 j (1 / (x - Z j) * (s.1 * s.2 - t.2 j))))
      (fun j _ s C' => by
        rw [run_bind, run_rdC, run_bind, run_wrC]
        dsimp only
        rw [run_bind, run_rdC]; simp)]
    have hswap := loop_sim (n := N) (R := fun (s : K × (ℕ → K)) (t : (ℕ → K) × K) => s.1 = t.2 ∧ s.2 = t.1)
      (f := fun j (t : K × (ℕ → K)) =>
      (t.1 + w j * (1 / (x - Z j) * (s.1 * s.2 - t.2 j)) / (x - Z j), store t.2 j (1 / (x - Z j) * (s.1 * s.2 - t.2 j))))
      (g := fun j (t : (ℕ → K) × K) =>
      let cj := 1 / (x - Z j) * (s.1 * s.2 - t.1 j)
      (store t.1 j cj, t.2 + w j * cj / (x - Z j))) (s := (0, C)) (t := (C, 0)) ⟨rfl, rfl⟩
      (by rintro j ⟨a, b⟩ ⟨c, d⟩ - ⟨h1, h2⟩; dsimp only at h1 h2; subst h1 h2; exact ⟨rfl, rfl⟩)
    simp only [loop_succ, loop_zero, derStepNonCoincident, zero_add]
    rw [hswap.1, hswap.2]
    rfl

end Verif.Concurrent
