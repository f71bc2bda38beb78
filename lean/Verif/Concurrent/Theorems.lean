import Verif.Concurrent.Legendre
import Verif.LagrangeElement.Lemmas

/-!
# C113: several threads evaluate elements

Specification: `Object.value` is what the documentation promises for a call (basis functions, their partial derivatives, expansions),
without reference to any memory.
-/

namespace Verif.Concurrent
open Verif.LagrangeElement Verif.LagrangeElement.Spec
open Prog Finset

/-- An element object: `LagrangeElement<Real>` with `N` vertices `Z` per direction, or `LegendreElement<Real>` with `N` functions per
direction. -/
inductive Object where
  | lagrange (N : ℕ) (Z : ℕ → ℝ)
  | legendre (N : ℕ)

/-- A call of one of the four evaluation methods. -/
inductive Call where
  | basis (I : ℕ) (X : ℕ → ℝ)
  | gradBasis (I : ℕ) (X : ℕ → ℝ)
  | approx (c X : ℕ → ℝ)
  | gradApprox (c X : ℕ → ℝ)

/-- What the call should return. -/
noncomputable def Object.value : Object → Call → List ℝ
  | .lagrange N Z, .basis I X => [phi N Z I X]
  | .lagrange N Z, .gradBasis I X => [dphi N Z 0 I X, dphi N Z 1 I X, dphi N Z 2 I X]
  | .lagrange N Z, .approx c X => [∑ I ∈ range (N * N * N), c I * phi N Z I X]
  | .lagrange N Z, .gradApprox c X => [∑ I ∈ range (N * N * N), c I * dphi N Z 0 I X, ∑ I ∈ range (N * N * N), c I * dphi N Z 1 I X,
      ∑ I ∈ range (N * N * N), c I * dphi N Z 2 I X]
  | .legendre N, .basis I X => [Leg.phi N I X]
  | .legendre N, .gradBasis I X => [Leg.dphi N 0 I X, Leg.dphi N 1 I X, Leg.dphi N 2 I X]
  | .legendre N, .approx c X => [∑ I ∈ range (N * N * N), c I * Leg.phi N I X]
  | .legendre N, .gradApprox c X => [∑ I ∈ range (N * N * N), c I * Leg.dphi N 0 I X, ∑ I ∈ range (N * N * N), c I * Leg.dphi N 1 I X,
      ∑ I ∈ range (N * N * N), c I * Leg.dphi N 2 I X]

/-- The method of the object at address `o`. -/
noncomputable def Object.method (tol : ℝ) (o : ℕ) : Object → Call → Prog ℝ (List ℝ)
  | .lagrange N Z, .basis I X => evalBasisP (find tol N Z) o N Z I X
  | .lagrange N Z, .gradBasis I X => evalGradBasisP (find tol N Z) o N Z I X
  | .lagrange N Z, .approx c X => evalApproxP (find tol N Z) o N Z c X
  | .lagrange N Z, .gradApprox c X => evalGradApproxP (find tol N Z) o N Z c X
  | .legendre N, .basis I X => Leg.evalBasisP o N I X
  | .legendre N, .gradBasis I X => Leg.evalGradBasisP o N I X
  | .legendre N, .approx c X => Leg.evalApproxP o N c X
  | .legendre N, .gradApprox c X => Leg.evalGradApproxP o N c X

/-- Functions per direction. -/
def Object.N : Object → ℕ
  | .lagrange N _ => N
  | .legendre N => N

/-- Vertices apart (`Separated`, as in C09), respectively at least one function. -/
def Object.OK (tol : ℝ) : Object → Prop
  | .lagrange N Z => Separated tol N Z
  | .legendre N => 0 < N

/-- The point is a vertex or not within the tolerance of one (`Resolved`, as in C09). -/
def Object.PointOK (tol : ℝ) (X : ℕ → ℝ) : Object → Prop
  | .lagrange N Z => ∀ d < 3, Resolved tol N Z (X d)
  | .legendre _ => True

/-- The index is that of a basis function, the point is resolved. -/
def Object.CallOK (tol : ℝ) (E : Object) : Call → Prop
  | .basis I X => I < E.N * E.N * E.N ∧ E.PointOK tol X
  | .gradBasis I X => I < E.N * E.N * E.N ∧ E.PointOK tol X
  | .approx _ X => E.PointOK tol X
  | .gradApprox _ X => E.PointOK tol X

/-- The call uses the member `ijk`. -/
def Call.usesDigits : Call → Bool
  | .basis _ _ => true
  | .gradBasis _ _ => true
  | _ => false

/-- The call uses the work array `C`. -/
def Object.usesWork : Object → Call → Bool
  | _, .approx _ _ => true
  | _, .gradApprox _ _ => true
  | .lagrange _ _, .gradBasis _ _ => true
  | _, _ => false

/-- Entries of `C`, elements/lagrange_element.cpp:19, elements/legendre_element.cpp:14. -/
def Object.workSize : Object → ℕ
  | .lagrange N _ => 3 * N
  | .legendre N => 2 * N

/-- A thread: the object it uses and the calls it makes, one after the other. -/
structure Thread where
  obj : ℕ
  calls : List Call

/-- The calls one after the other; the list of what they return. -/
noncomputable def callsP (tol : ℝ) (o : ℕ) (E : Object) : List Call → Prog ℝ (List (List ℝ))
  | [] => .ret []
  | c :: cs => (E.method tol o c).bind fun r => (callsP tol o E cs).bind fun rs => .ret (r :: rs)

/-- All threads at their beginning, with any contents of the arrays `ijk` and `C`. -/
noncomputable def start (tol : ℝ) (E : ℕ → Object) (T : ℕ → Thread) (m : Mem ℝ) : State ℝ (List (List ℝ)) :=
  ⟨fun t => callsP tol (T t).obj (E (T t).obj) (T t).calls, m⟩

/-- Two threads may run at the same time: they use different objects, or one makes only calls that use `ijk` and the other only calls
that use `C`. -/
def Apart (E : ℕ → Object) (T T' : Thread) : Prop :=
  T.obj = T'.obj → ∀ c ∈ T.calls, ∀ c' ∈ T'.calls, ¬ (c.usesDigits ∧ c'.usesDigits) ∧
    ¬ ((E T.obj).usesWork c ∧ (E T.obj).usesWork c')

/-- What a method accesses. -/
def Object.Uses (o : ℕ) (E : Object) (c : Call) (a : Addr) : Prop :=
  (a.1 = false ∧ a.2.1 = o ∧ a.2.2 < 3 ∧ c.usesDigits = true) ∨ (a.1 = true ∧ a.2.1 = o ∧ a.2.2 < E.workSize ∧ E.usesWork c = true)

theorem method_within (tol : ℝ) (o : ℕ) (E : Object) (c : Call) : (E.method tol o c).Within (E.Uses o c) := by
  cases E <;> cases c
  · exact within_mono (within_evalBasisP _ _) fun a h => .inl ⟨h.1, h.2.1, h.2.2, rfl⟩
  · exact within_mono (within_evalGradBasisP _ _) fun a h =>
      h.elim (fun h => .inl ⟨h.1, h.2.1, h.2.2, rfl⟩) fun h => .inr ⟨h.1, h.2.1, h.2.2, rfl⟩
  · exact within_mono (within_evalApproxP _ _) fun a h => .inr ⟨h.1, h.2.1, h.2.2, rfl⟩
  · exact within_mono (within_evalGradApproxP _ _) fun a h => .inr ⟨h.1, h.2.1, h.2.2, rfl⟩
  · exact within_mono (Leg.within_evalBasisP _ _ _ _) fun a h => .inl ⟨h.1, h.2.1, h.2.2, rfl⟩
  · exact within_mono (Leg.within_evalGradBasisP _ _ _ _) fun a h => .inl ⟨h.1, h.2.1, h.2.2, rfl⟩
  · exact within_mono (Leg.within_evalApproxP _ _ _ _) fun a h => .inr ⟨h.1, h.2.1, h.2.2, rfl⟩
  · exact within_mono (Leg.within_evalGradApproxP _ _ _ _) fun a h => .inr ⟨h.1, h.2.1, h.2.2, rfl⟩

theorem method_run {tol : ℝ} {E : Object} (hE : E.OK tol) {c : Call} (hc : E.CallOK tol c) (o : ℕ) (m : Mem ℝ) :
    ((E.method tol o c).run m).1 = E.value c := by
  cases E with
  | lagrange N Z =>
    have hE : Separated tol N Z := hE
    have hh : ∀ X, Object.PointOK tol X (.lagrange N Z) → ∀ d < 3, Hits N Z (X d) (find tol N Z (X d)) :=
      fun X h d hd => hits hE (h d hd)
    cases c with
    | basis I X => exact run_evalBasisP hE.verts (hh X hc.2) o hc.1 m
    | gradBasis I X => exact run_evalGradBasisP hE.verts (hh X hc.2) o hc.1 m
    | approx c X =>
      refine (run_as_put (o := o) (fun m C => run_evalApproxP m (find tol N Z) o N Z c X C |>.trans ?_) m)
      rw [approxAt hE.verts (hh X hc)]
      refine congrArg (fun x => [x]) (sum_congr rfl fun I hI => ?_)
      rw [basisAt hE.verts (hh X hc) (mem_range.1 hI)]
      rfl
    | gradApprox c X => exact run_evalGradApproxP hE.verts (hh X hc) o c m
  | legendre N =>
    cases c with
    | basis I X => exact Leg.run_evalBasisP hE hc.1 o X m
    | gradBasis I X => exact Leg.run_evalGradBasisP hE hc.1 o X m
    | approx c X => exact Leg.run_evalApproxP o N c X m
    | gradApprox c X => exact Leg.run_evalGradApproxP o N c X m

theorem callsP_within (tol : ℝ) (o : ℕ) (E : Object) (l : List Call) :
    (callsP tol o E l).Within (fun a => ∃ c ∈ l, E.Uses o c a) := by
  induction l with
  | nil => trivial
  | cons c l ih =>
    refine within_bind' (within_mono (method_within tol o E c) fun a h => ⟨c, by simp, h⟩) fun r => ?_
    refine within_bind' (within_mono ih fun a ⟨c', h, h'⟩ => ⟨c', by simp [h], h'⟩) fun _ => within_pure

theorem callsP_run {tol : ℝ} {E : Object} (hE : E.OK tol) {l : List Call} (hl : ∀ c ∈ l, E.CallOK tol c) (o : ℕ) (m : Mem ℝ) :
    ((callsP tol o E l).run m).1 = l.map E.value := by
  induction l generalizing m with
  | nil => rfl
  | cons c l ih =>
    rw [callsP, run_bind', run_bind', run_ret, ih fun c' h => hl c' (by simp [h]), method_run hE (hl c (by simp))]
    rfl

/-- **C113 (schedules).**  Any number of threads make any sequences of calls on Lagrange and Legendre elements, in a program in
which two threads that use the same object do not both use its `ijk` nor both its work array.  Whatever the arrays contain at the
start, and whatever the order in which the accesses of the threads follow each other:
a thread that has returned has returned the values it should; a thread that has made its own number of accesses has returned; and
no two threads are ever about to access the same entry of an array, nor is any thread about to leave its arrays. -/
theorem C113_schedule_partial (tol : ℝ) (E : ℕ → Object) (T : ℕ → Thread) (hE : ∀ t, (E (T t).obj).OK tol)
    (hc : ∀ t, ∀ c ∈ (T t).calls, (E (T t).obj).CallOK tol c) (hT : ∀ t u, t ≠ u → Apart E (T t) (T u)) (m : Mem ℝ) :
    (∀ (l : List ℕ) t r, (exec l (start tol E T m)).thread t = .ret r → r = (T t).calls.map (E (T t).obj).value) ∧
    (∀ t, ∃ n, ∀ l : List ℕ, n ≤ l.count t →
      (exec l (start tol E T m)).thread t = .ret ((T t).calls.map (E (T t).obj).value)) ∧
    (∀ (l : List ℕ) t a w, ((exec l (start tol E T m)).thread t).next = some (a, w) →
      a.2.1 = (T t).obj ∧ (a.2.2 < if a.1 then (E (T t).obj).workSize else 3) ∧
      ∀ u, u ≠ t → ∀ b w', ((exec l (start tol E T m)).thread u).next = some (b, w') → a ≠ b) := by
  have hdis : ∀ t u, t ≠ u → ∀ a, (∃ c ∈ (T t).calls, (E (T t).obj).Uses (T t).obj c a) →
      ¬ ∃ c ∈ (T u).calls, (E (T u).obj).Uses (T u).obj c a := by
    rintro t u htu a ⟨c, h1, h2⟩ ⟨c', h3, h4⟩
    have hobj : (T t).obj = (T u).obj := by
      rcases h2 with h | h <;> rcases h4 with h' | h' <;> exact h.2.1.symm.trans h'.2.1
    obtain ⟨x, y⟩ := hT t u htu hobj c h1 c' h3
    rw [← hobj] at h4
    rcases h2 with h | h <;> rcases h4 with h' | h'
    · exact x ⟨h.2.2.2, h'.2.2.2⟩
    · exact absurd (h.1.symm.trans h'.1) (by decide)
    · exact absurd (h.1.symm.trans h'.1) (by decide)
    · exact y ⟨h.2.2.2, h'.2.2.2⟩
  have hex := fun l t => exec_alone (A := fun t a => ∃ c ∈ (T t).calls, (E (T t).obj).Uses (T t).obj c a) hdis l (start tol E T m)
    (fun t => callsP_within tol _ _ _) t
  have hval : ∀ t, (((start tol E T m).thread t).run m).1 = (T t).calls.map (E (T t).obj).value :=
    fun t => callsP_run (hE t) (hc t) _ m
  refine ⟨fun l t r hr => ?_, fun t => ⟨((start tol E T m).thread t).len m, fun l hl => ?_⟩, fun l t a w ha => ?_⟩
  · have := (hex l t).1
    rw [hr] at this
    exact this.trans (hval t)
  · have h0 : ((exec l (start tol E T m)).thread t).len (exec l (start tol E T m)).mem = 0 := by
      rw [(hex l t).2.1]; exact Nat.sub_eq_zero_of_le hl
    rw [len_zero h0, (hex l t).1]
    exact congrArg _ (hval t)
  · have hw := next_within (hex l t).2.2 ha
    obtain ⟨c, hc1, hc2⟩ := hw
    refine ⟨by rcases hc2 with h | h <;> exact h.2.1, ?_, fun u hu b w' hb hab => ?_⟩
    · rcases hc2 with h | h
      · rw [h.1]; exact h.2.2.1
      · rw [h.1]; exact h.2.2.1
    · subst hab
      exact hdis t u (Ne.symm hu) a ⟨c, hc1, hc2⟩ (next_within (hex l u).2.2 hb)

/-- **C113 (histories).**  One thread, any sequence of calls on one object: every call returns what it should, whatever earlier
calls have left in `ijk` and `C`. -/
theorem C113_history (tol : ℝ) (E : Object) (hE : E.OK tol) (l : List Call) (hl : ∀ c ∈ l, E.CallOK tol c) (o : ℕ) (m : Mem ℝ) :
    ((callsP tol o E l).run m).1 = l.map E.value := callsP_run hE hl o m

/-- **C113 is false for threads that share an object.**  On every Lagrange element with at least two vertices per direction two threads that
each evaluate one basis function at a vertex can follow each other such that the first, which asked for the function that is 1
there, is given 0. -/
theorem C113_shared_negation (tol : ℝ) (N : ℕ) (Z : ℕ → ℝ) (h : Separated tol N Z) (hN : 2 ≤ N) (m : Mem ℝ) :
    ∃ (X : ℕ → ℝ) (l : List ℕ), (∀ d < 3, Resolved tol N Z (X d)) ∧
      (exec l (start tol (fun _ => .lagrange N Z) (fun t => ⟨0, if t = 0 then [.basis 0 X] else if t = 1 then [.basis 1 X] else []⟩)
        m)).thread 0 = .ret [[0]] ∧ (Object.lagrange N Z).value (.basis 0 X) = [1] := by
  have hres : Resolved tol N Z (Z 0) := by
    intro j hj
    by_cases h0 : j = 0
    · left; rw [h0]
    · right
      have := h.sep j hj 0 (by omega) h0
      have := h.tol_pos
      linarith
  have hf : find tol N Z (Z 0) = 0 := by
    rcases hits h hres with ⟨h1, h2⟩ | ⟨-, h2⟩
    · by_contra h0
      have h3 := h.sep _ h1 0 (by omega) h0
      have := h.tol_pos
      rw [← h2, sub_self, abs_zero] at h3
      linarith
    · exact absurd rfl (h2 0 (by omega))
  refine ⟨fun _ => Z 0, [0, 0, 0, 1, 1, 1, 0, 0, 0], fun d _ => hres, ?_, ?_⟩
  · have h1 : 1 % N = 1 := Nat.mod_eq_of_lt (by omega)
    have h2 : 1 / N = 0 := Nat.div_eq_of_lt (by omega)
    have hpos : 0 < N := by omega
    simp [exec, start, State.step, callsP, Object.method, evalBasisP, digitsP, loopP, bind_def, Prog.bind, wrI, rdI, Prog.step,
      store, Mem.setI, store2, pure, hf, Lagrange.eval, h1, h2, hpos]
  · have := run_evalBasisP (fnd := find tol N Z) h.verts (X := fun _ => Z 0) (fun d _ => hits h hres) 0 (I := 0)
      (by have := h.pos; positivity) m
    rw [Object.value, ← this]
    have hpos : 0 < N := by omega
    simp [evalBasisP, digitsP, loopP, bind_def, Prog.bind, wrI, rdI, Prog.run, Mem.setI, store2, pure, hf, Lagrange.eval, hpos]

/-- The same for the work array, on a Legendre element: two threads that evaluate the constants 1 and 2 can both be given 2. -/
theorem C113_work_negation (tol : ℝ) (m : Mem ℝ) (X : ℕ → ℝ) : ∃ l : List ℕ,
    (exec l (start tol (fun _ => .legendre 1) (fun t => ⟨0, if t = 0 then [.approx (fun _ => 1) X] else
      if t = 1 then [.approx (fun _ => 2) X] else []⟩) m)).thread 0 = .ret [[2]] ∧
      (Object.legendre 1).value (.approx (fun _ => 1) X) = [1] := by
  have e0 : ∀ x : ℝ, Legendre.eval 0 x = 1 := fun x => rfl
  refine ⟨[0, 1, 0, 0, 0], ?_, ?_⟩
  · simp [exec, start, State.step, callsP, Object.method, Leg.evalApproxP, Leg.lineP, loopP, bind_def, Prog.bind, wrC, rdC, Prog.step,
      store, Mem.setC, store2, pure, e0]
  · simp [Object.value, Leg.phi, e0]

/-- The hypotheses of `C113_schedule_partial`: an element of each kind and three threads, two of which share the Lagrange element, one for
basis functions, the other for expansions. -/
example (X : ℕ → ℝ) (hX : ∀ d < 3, X d = 0) : ∃ (E : ℕ → Object) (T : ℕ → Thread), (∀ t, (E (T t).obj).OK (1 / 4)) ∧
    (∀ t, ∀ c ∈ (T t).calls, (E (T t).obj).CallOK (1 / 4) c) ∧ (∀ t u, t ≠ u → Apart E (T t) (T u)) ∧
    (T 0).calls = [.basis 7 X, .basis 3 X] ∧ (T 1).calls = [.gradApprox X X] ∧ (T 2).calls = [.gradBasis 1 X, .approx X X] := by
  have sep : Separated (1 / 4 : ℝ) 2 (fun i => (i : ℝ)) := by
    refine ⟨by norm_num, by norm_num, by norm_num, fun j hj k hk hjk => ?_⟩
    interval_cases j <;> interval_cases k <;> first | exact absurd rfl hjk | norm_num
  have res : ∀ d < 3, Resolved (1 / 4 : ℝ) 2 (fun i => (i : ℝ)) (X d) := by
    intro d hd j hj
    rw [hX d hd]
    interval_cases j
    · left; simp
    · right; norm_num
  refine ⟨fun o => if o = 0 then .lagrange 2 fun i => (i : ℝ) else .legendre 2, fun t => if t = 0 then ⟨0, [.basis 7 X, .basis 3 X]⟩ else
    if t = 1 then ⟨0, [.gradApprox X X]⟩ else if t = 2 then ⟨1, [.gradBasis 1 X, .approx X X]⟩ else ⟨1, []⟩, ?_, ?_, ?_,
    rfl, rfl, rfl⟩
  · intro t
    by_cases h0 : t = 0
    · simpa [h0, Object.OK] using sep
    by_cases h1 : t = 1
    · simpa [h1, Object.OK] using sep
    by_cases h2 : t = 2 <;> simp [h0, h1, h2, Object.OK]
  · intro t
    by_cases h0 : t = 0
    · simpa [h0, Object.CallOK, Object.PointOK, Object.N] using res
    by_cases h1 : t = 1
    · simpa [h1, Object.CallOK, Object.PointOK, Object.N] using res
    by_cases h2 : t = 2 <;> simp [h0, h1, h2, Object.CallOK, Object.PointOK, Object.N]
  · intro t u htu
    by_cases h0 : t = 0 <;> by_cases h1 : t = 1 <;> by_cases h2 : t = 2 <;> by_cases g0 : u = 0 <;> by_cases g1 : u = 1 <;>
      by_cases g2 : u = 2 <;> simp_all [Apart, Call.usesDigits, Object.usesWork]

end Verif.Concurrent
