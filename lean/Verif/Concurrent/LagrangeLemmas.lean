import Verif.Concurrent.Lagrange

/-!
# What the programs return when they run alone, and what they access
-/

set_option linter.unusedSectionVars false

namespace Verif.Concurrent
open Verif.Lagrange Verif.LagrangeElement Verif.LagrangeElement.Spec
open Prog Finset
variable {K : Type} [Field K]

theorem run_as_put {R : Type} {p : Prog K R} {o : ℕ} {r : R} (h : ∀ (m : Mem K) C, ((p.run (put m o C)).1 = r)) (m : Mem K) :
    (p.run m).1 = r := by
  have := h m (m.C o)
  rwa [put_self] at this

theorem run_copyP {m : Mem K} {o N : ℕ} {rd : ℕ → Prog K K} {src : (ℕ → K) → ℕ → K}
    (h : ∀ i < N, ∀ C, (rd i).run (put m o C) = (src C i, put m o C)) (C : ℕ → K) :
    (copyP o N rd).run (put m o C) = ((), put m o (copyTo N src C)) := by
  unfold copyP copyTo
  exact run_loopU (f := fun i C => store C i (src C i)) (fun i hi C => by rw [run_bind, h i hi, run_wrC]) C

theorem run_lineP (m : Mem K) (o : ℕ) (der : Bool) (N ic : ℕ) (Z w : ℕ → K) (x : K) (C : ℕ → K) :
    (lineP der o N ic Z w x).run (put m o C) = ((lineEval der N ic Z w x C).1, put m o (lineEval der N ic Z w x C).2) := by
  unfold lineP lineEval
  cases der
  · exact run_interpP (fun j _ => run_rdC m o j C) ic Z w x
  · exact run_derInterpP m o N ic Z w x C

theorem run_evalApproxP (m : Mem K) (fnd : K → ℕ) (o N : ℕ) (Z c X : ℕ → K) (C : ℕ → K) :
    ((evalApproxP fnd o N Z c X).run (put m o C)).1 = [evalApproxAt fnd N Z C c X] := by
  unfold evalApproxP evalApproxAt
  dsimp only
  rw [run_bind, run_loopU (f := fun k C => store (loop N (fun j C => store C j (evalInterp N (fnd (X 0)) Z (weights N Z) (X 0)
      (fun m => c (j * N + k * N * N + m)))) C) (N + k) (evalInterp N (fnd (X 1)) Z (weights N Z) (X 1) (loop N (fun j C =>
      store C j (evalInterp N (fnd (X 0)) Z (weights N Z) (X 0) (fun m => c (j * N + k * N * N + m)))) C))) (fun k _ C => by
    rw [run_bind, run_loopU (f := fun j C => store C j (evalInterp N (fnd (X 0)) Z (weights N Z) (X 0)
      (fun m => c (j * N + k * N * N + m)))) (fun j _ C => by
        rw [run_bind, run_interpP (fun _ _ => rfl), run_wrC]), run_bind, run_interpP (fun j _ => run_rdC m o j _), run_wrC]),
    run_bind, run_interpP (fun j _ => run_rdC m o (N + j) _), run_pure]

/-- One direction of `eval_grad_approx`. -/
def dirP (fnd : K → ℕ) (o N : ℕ) (Z c X : ℕ → K) (l : ℕ) : Prog K K := do
  let w := weights N Z
  loopP N (fun k _ => do
    loopP N (fun j _ => do
      copyP o N fun m => pure (c (j * N + k * N * N + m))
      let v ← lineP (l == 0) o N (fnd (X 0)) Z w (X 0)
      wrC o (N + j) v) ()
    copyP o N fun m => rdC o (N + m)
    let v ← lineP (l == 1) o N (fnd (X 1)) Z w (X 1)
    wrC o (2 * N + k) v) ()
  copyP o N fun m => rdC o (2 * N + m)
  lineP (l == 2) o N (fnd (X 2)) Z w (X 2)

variable {fnd : K → ℕ} {N : ℕ} {Z X : ℕ → K}

theorem run_dirP (h : Verts N Z) (hX : ∀ d < 3, Hits N Z (X d) (fnd (X d))) (o : ℕ) (c : ℕ → K) (l : ℕ) (m : Mem K) :
    ((dirP fnd o N Z c X l).run m).1 = ∑ I ∈ range (N * N * N), c I * dphi N Z l I X := by
  refine run_as_put (o := o) (fun m C => ?_) m
  refine Eq.trans ?_ (grad_dirAt h hX l c C)
  unfold dirP
  dsimp only
  rw [run_bind, run_loopU (f := fun k C =>
      let C := loop N (fun j C =>
        let C := copyTo N (fun _ m => c (j * N + k * N * N + m)) C
        let r := lineEval (l == 0) N (fnd (X 0)) Z (weights N Z) (X 0) C
        store r.2 (N + j) r.1) C
      let C := copyTo N (fun C m => C (N + m)) C
      let r := lineEval (l == 1) N (fnd (X 1)) Z (weights N Z) (X 1) C
      store r.2 (2 * N + k) r.1) (fun k _ C => by
    rw [run_bind, run_loopU (f := fun j C =>
        let C := copyTo N (fun _ m => c (j * N + k * N * N + m)) C
        let r := lineEval (l == 0) N (fnd (X 0)) Z (weights N Z) (X 0) C
        store r.2 (N + j) r.1) (fun j _ C => by
          rw [run_bind, run_copyP (src := fun _ m => c (j * N + k * N * N + m)) (fun _ _ _ => rfl), run_bind, run_lineP, run_wrC]),
      run_bind, run_copyP (src := fun C m => C (N + m)) (fun i _ C => run_rdC m o (N + i) C), run_bind, run_lineP, run_wrC]),
    run_bind, run_copyP (src := fun C m => C (2 * N + m)) (fun i _ C => run_rdC m o (2 * N + i) C), run_lineP]

theorem bind_assoc' {R S T : Type} (p : Prog K R) (f : R → Prog K S) (g : S → Prog K T) :
    (p.bind f).bind g = p.bind fun r => (f r).bind g := by
  induction p with
  | ret r => rfl
  | readI o i k ih => simp only [Prog.bind, ih]
  | writeI o i v k ih => simp only [Prog.bind, ih]
  | readC o i k ih => simp only [Prog.bind, ih]
  | writeC o i v k ih => simp only [Prog.bind, ih]

theorem evalGradApproxP_eq (o : ℕ) (c : ℕ → K) : evalGradApproxP fnd o N Z c X =
    loopP 3 (fun l g => (dirP fnd o N Z c X l).bind fun v => .ret (g ++ [v])) [] := by
  unfold evalGradApproxP dirP
  simp only [bind_def, bind_assoc']
  rfl

theorem run_evalGradApproxP (h : Verts N Z) (hX : ∀ d < 3, Hits N Z (X d) (fnd (X d))) (o : ℕ) (c : ℕ → K) (m : Mem K) :
    ((evalGradApproxP fnd o N Z c X).run m).1 = [∑ I ∈ range (N * N * N), c I * dphi N Z 0 I X,
      ∑ I ∈ range (N * N * N), c I * dphi N Z 1 I X, ∑ I ∈ range (N * N * N), c I * dphi N Z 2 I X] := by
  rw [evalGradApproxP_eq]
  simp only [loopP, Prog.bind, run_bind', run_ret, run_dirP h hX]
  rfl

/-! ### `ijk` -/

/-- Digits of `I` in `ijk` of object `o`. -/
def Dig (N I o : ℕ) (m : Mem K) : Prop := m.ijk o 0 = I % N ∧ m.ijk o 1 = I / N % N ∧ m.ijk o 2 = I / N / N % N

theorem run_digitsP (o N I : ℕ) (m : Mem K) : Dig N I o ((digitsP o N I).run m).2 := by
  refine ⟨?_, ?_, ?_⟩ <;> simp [digitsP, loopP, bind_def, Prog.bind, wrI, Prog.run, Mem.setI, store2, pure]

theorem dig_lt {I : ℕ} (h : 0 < N) (hI : I < N * N * N) : I % N < N ∧ I / N % N < N ∧ I / N / N < N ∧ I / N / N % N = I / N / N := by
  have h2 : I / N / N < N := by
    rw [Nat.div_div_eq_div_mul]
    exact Nat.div_lt_of_lt_mul (by linarith [hI, Nat.mul_comm (N * N) N])
  exact ⟨Nat.mod_lt _ h, Nat.mod_lt _ h, h2, Nat.mod_eq_of_lt h2⟩

theorem run_rdI (m : Mem K) (o i : ℕ) : (rdI o i).run m = (m.ijk o i, m) := rfl

theorem run_evalBasisP (h : Verts N Z) (hX : ∀ d < 3, Hits N Z (X d) (fnd (X d))) (o : ℕ) {I : ℕ} (hI : I < N * N * N) (m : Mem K) :
    ((evalBasisP fnd o N Z I X).run m).1 = [phi N Z I X] := by
  obtain ⟨l0, l1, l2, l3⟩ := dig_lt h.pos hI
  obtain ⟨d0, d1, d2⟩ := run_digitsP o N I m
  unfold evalBasisP
  simp only [run_bind, run_rdI, run_pure, d0, d1, d2, l3]
  rw [eval_ellAt h (hX 0 (by omega)) l0, eval_ellAt h (hX 1 (by omega)) l1, eval_ellAt h (hX 2 (by omega)) l2]
  rfl

theorem run_derP (m : Mem K) (o N i ic : ℕ) (Z w : ℕ → K) (x : K) :
    ∃ C C' : ℕ → K, (derP o N i ic Z w x).run m = (evalDer N 1 i ic Z w x C, put m o C') := by
  refine ⟨m.C o, (evalDerRun N 1 ic Z w x (loop N (fun j c => store c j (if j ≠ i then 0 else 1)) (m.C o))).c, ?_⟩
  conv_lhs => rw [← put_self m o]
  unfold derP evalDer
  rw [run_bind, run_loopU (f := fun j c => store c j (if j ≠ i then 0 else 1)) (fun j _ C => by rw [run_wrC]), run_derInterpP]

theorem run_evalGradBasisP (h : Verts N Z) (hX : ∀ d < 3, Hits N Z (X d) (fnd (X d))) (o : ℕ) {I : ℕ} (hI : I < N * N * N)
    (m : Mem K) : ((evalGradBasisP fnd o N Z I X).run m).1 = [dphi N Z 0 I X, dphi N Z 1 I X, dphi N Z 2 I X] := by
  obtain ⟨l0, l1, l2, l3⟩ := dig_lt h.pos hI
  obtain ⟨d0, d1, d2⟩ := run_digitsP o N I m
  unfold evalGradBasisP
  simp only [run_bind, run_rdI]
  generalize ((digitsP o N I).run m).2 = m0 at *
  obtain ⟨C1, C1', e1⟩ := run_derP m0 o N (m0.ijk o 0) (fnd (X 0)) Z (weights N Z) (X 0)
  rw [e1]
  obtain ⟨C2, C2', e2⟩ := run_derP (put m0 o C1') o N (m0.ijk o 1) (fnd (X 1)) Z (weights N Z) (X 1)
  simp only [show (put m0 o C1').ijk = m0.ijk from rfl]
  rw [e2]
  obtain ⟨C3, C3', e3⟩ := run_derP (put (put m0 o C1') o C2') o N (m0.ijk o 2) (fnd (X 2)) Z (weights N Z) (X 2)
  simp only [show (put (put m0 o C1') o C2').ijk = m0.ijk from rfl]
  rw [e3]
  simp only [run_pure, d0, d1, d2, l3]
  rw [eval_ellAt h (hX 0 (by omega)) l0, eval_ellAt h (hX 1 (by omega)) l1, eval_ellAt h (hX 2 (by omega)) l2,
    der_dellAt h (hX 0 (by omega)) _ l0, der_dellAt h (hX 1 (by omega)) _ l1, der_dellAt h (hX 2 (by omega)) _ l2]
  simp [dphi]

/-! ### Accesses -/

theorem within_rdI {A : Addr → Prop} {o i : ℕ} (h : A (false, o, i)) : (rdI o i : Prog K ℕ).Within A := ⟨h, fun _ => trivial⟩
theorem within_wrI {A : Addr → Prop} {o i v : ℕ} (h : A (false, o, i)) : (wrI o i v : Prog K Unit).Within A := ⟨h, trivial⟩
theorem within_rdC {A : Addr → Prop} {o i : ℕ} (h : A (true, o, i)) : (rdC o i : Prog K K).Within A := ⟨h, fun _ => trivial⟩
theorem within_wrC {A : Addr → Prop} {o i : ℕ} {v : K} (h : A (true, o, i)) : (wrC o i v).Within A := ⟨h, trivial⟩
theorem within_pure {R : Type} {A : Addr → Prop} {r : R} : (pure r : Prog K R).Within A := trivial

/-- The digits of object `o`. -/
def DigAddr (o : ℕ) (a : Addr) : Prop := a.1 = false ∧ a.2.1 = o ∧ a.2.2 < 3
/-- The work array of object `o`. -/
def WorkAddr (o N : ℕ) (a : Addr) : Prop := a.1 = true ∧ a.2.1 = o ∧ a.2.2 < 3 * N

theorem within_digitsP (o N I : ℕ) : (digitsP o N I : Prog K Unit).Within (DigAddr o) :=
  within_bind (within_loopP (fun _ hi _ => within_bind (within_wrI ⟨rfl, rfl, hi⟩) fun _ => within_pure) _) fun _ => within_pure

theorem within_evalBasisP (o I : ℕ) : (evalBasisP fnd o N Z I X).Within (DigAddr o) := by
  unfold evalBasisP
  refine within_bind (within_digitsP o N I) fun _ => ?_
  refine within_bind (within_rdI ⟨rfl, rfl, by simp⟩) fun _ => ?_
  refine within_bind (within_rdI ⟨rfl, rfl, by simp⟩) fun _ => ?_
  exact within_bind (within_rdI ⟨rfl, rfl, by simp⟩) fun _ => trivial

theorem within_sumP {A : Addr → Prop} {rd : ℕ → Prog K K} (h : ∀ i < N, (rd i).Within A) (w : ℕ → K) (x : K) :
    (sumP rd N Z w x).Within A :=
  within_loopP (fun i hi _ => within_bind (h i hi) fun _ => within_pure) _

theorem within_interpP {A : Addr → Prop} {rd : ℕ → Prog K K} (h : ∀ i < N, (rd i).Within A) (ic : ℕ) (w : ℕ → K) (x : K) :
    (interpP rd N ic Z w x).Within A := by
  unfold interpP
  split
  · next hi => exact h _ hi
  · exact within_bind (within_sumP h w x) fun _ => trivial

theorem within_work {o i : ℕ} (hi : i < 3 * N) : WorkAddr o N (true, o, i) := ⟨rfl, rfl, hi⟩

theorem within_derInterpP (o ic : ℕ) (w : ℕ → K) (x : K) : (derInterpP o N ic Z w x).Within (WorkAddr o N) := by
  unfold derInterpP
  split
  · next hic =>
    refine within_bind (within_rdC (within_work (by omega))) fun _ => within_bind (within_loopP (fun i hi s => ?_) _) fun _ => trivial
    refine within_bind (within_rdC (within_work (by omega))) fun _ => within_bind (within_wrC (within_work (by omega))) fun _ => ?_
    split
    · exact within_bind (within_rdC (within_work (by omega))) fun _ => trivial
    · trivial
  · refine within_bind (within_sumP (fun i hi => within_rdC (within_work (by omega))) w x) fun _ =>
      within_bind (within_loopP (fun i hi s => ?_) _) fun _ => trivial
    refine within_bind (within_rdC (within_work (by omega))) fun _ => within_bind (within_wrC (within_work (by omega))) fun _ => ?_
    exact within_bind (within_rdC (within_work (by omega))) fun _ => trivial

theorem within_derP (o i ic : ℕ) (w : ℕ → K) (x : K) : (derP o N i ic Z w x).Within (WorkAddr o N) :=
  within_bind (within_loopP (fun _ hi _ => within_wrC (within_work (by omega))) _) fun _ => within_derInterpP o ic w x

theorem within_evalGradBasisP (o I : ℕ) : (evalGradBasisP fnd o N Z I X).Within (fun a => DigAddr o a ∨ WorkAddr o N a) := by
  unfold evalGradBasisP
  have rd : ∀ i < 3, (rdI o i : Prog K ℕ).Within (fun a => DigAddr o a ∨ WorkAddr o N a) :=
    fun i hi => within_rdI (.inl ⟨rfl, rfl, hi⟩)
  have dr : ∀ i ic w x, (derP o N i ic Z w x).Within (fun a => DigAddr o a ∨ WorkAddr o N a) :=
    fun i ic w x => within_mono (within_derP o i ic w x) fun _ => .inr
  refine within_bind (within_mono (within_digitsP o N I) fun _ => .inl) fun _ => ?_
  refine within_bind (rd 0 (by omega)) fun _ => within_bind (rd 1 (by omega)) fun _ => within_bind (rd 2 (by omega)) fun _ => ?_
  refine within_bind (rd 0 (by omega)) fun _ => within_bind (dr _ _ _ _) fun _ => ?_
  refine within_bind (rd 1 (by omega)) fun _ => within_bind (dr _ _ _ _) fun _ => ?_
  exact within_bind (rd 2 (by omega)) fun _ => within_bind (dr _ _ _ _) fun _ => trivial

theorem within_evalApproxP (o : ℕ) (c : ℕ → K) : (evalApproxP fnd o N Z c X).Within (WorkAddr o N) := by
  unfold evalApproxP
  refine within_bind (within_loopP (fun k hk _ => ?_) _) fun _ => ?_
  · refine within_bind (within_loopP (fun j hj _ => ?_) _) fun _ => ?_
    · exact within_bind (within_interpP (fun _ _ => within_pure) _ _ _) fun _ => within_wrC (within_work (by omega))
    · exact within_bind (within_interpP (fun i hi => within_rdC (within_work (by omega))) _ _ _) fun _ =>
        within_wrC (within_work (by omega))
  · exact within_bind (within_interpP (fun i hi => within_rdC (within_work (by omega))) _ _ _) fun _ => trivial

theorem within_copyP {A : Addr → Prop} {o : ℕ} {rd : ℕ → Prog K K} (h : ∀ i < N, (rd i).Within A)
    (hw : ∀ i < N, A (true, o, i)) : (copyP o N rd).Within A :=
  within_loopP (fun i hi _ => within_bind (h i hi) fun _ => within_wrC (hw i hi)) _

theorem within_lineP (o : ℕ) (der : Bool) (ic : ℕ) (w : ℕ → K) (x : K) : (lineP der o N ic Z w x).Within (WorkAddr o N) := by
  unfold lineP
  cases der
  · exact within_interpP (fun i hi => within_rdC (within_work (by omega))) _ _ _
  · exact within_derInterpP o ic w x

theorem within_evalGradApproxP (o : ℕ) (c : ℕ → K) : (evalGradApproxP fnd o N Z c X).Within (WorkAddr o N) := by
  unfold evalGradApproxP
  refine within_loopP (fun l _ g => ?_) _
  refine within_bind (within_loopP (fun k hk _ => ?_) _) fun _ => ?_
  · refine within_bind (within_loopP (fun j hj _ => ?_) _) fun _ => ?_
    · exact within_bind (within_copyP (fun _ _ => within_pure) fun i hi => within_work (by omega)) fun _ =>
        within_bind (within_lineP _ _ _ _ _) fun _ => within_wrC (within_work (by omega))
    · exact within_bind (within_copyP (fun i hi => within_rdC (within_work (by omega))) fun i hi => within_work (by omega)) fun _ =>
        within_bind (within_lineP _ _ _ _ _) fun _ => within_wrC (within_work (by omega))
  · exact within_bind (within_copyP (fun i hi => within_rdC (within_work (by omega))) fun i hi => within_work (by omega)) fun _ =>
      within_bind (within_lineP _ _ _ _ _) fun _ => trivial

end Verif.Concurrent
