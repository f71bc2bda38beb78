import Verif.LagrangeElement.Model
import Verif.LagrangeElement.Spec
import Verif.Lagrange.Theorems
import Verif.Common.Theorems
import Verif.TensorSum
import Mathlib.LinearAlgebra.Matrix.Determinant.Basic
import Mathlib.LinearAlgebra.Matrix.Notation
import Mathlib.Tactic.FinCases

/-!
# `LagrangeElement` over any field, for a correct vertex search
-/

namespace Verif.LagrangeElement
open Verif.Lagrange Spec Polynomial Finset
variable {K : Type*} [Field K]

theorem digits_eq {N I : ℕ} (hN : 0 < N) (hfit : N * N * N < 2 ^ 64) (hI : I < N * N * N) :
    digits N I = some (I % N, I / N % N, I / N / N) := by
  have hNlt : N < 2 ^ 64 := by
    have : N ≤ N * N * N := by
      calc N = N * 1 * 1 := by ring
        _ ≤ N * N * N := Nat.mul_le_mul (Nat.mul_le_mul_left N hN) hN
    omega
  have tN : (UInt64.ofNat N).toNat = N := by simpa using hNlt
  have tI : (UInt64.ofNat I).toNat = I := by
    have : I < 2 ^ 64 := by omega
    simpa using this
  have hne : UInt64.ofNat N ≠ 0 := by
    intro h
    have := congrArg UInt64.toNat h
    rw [tN] at this
    simp at this; omega
  unfold digits
  simp only [Common.base10ToMixedRadix, hne, if_false]
  have : I / N / N < N := by
    rw [Nat.div_div_eq_div_mul]
    exact Nat.div_lt_of_lt_mul (by linarith [hI, Nat.mul_comm (N * N) N])
  simp only [UInt64.toNat_mod, UInt64.toNat_div, tN, tI]
  rw [Nat.mod_eq_of_lt this]

variable {N : ℕ} {Z : ℕ → K} {fnd : K → ℕ}

theorem eval_ellAt (h : Verts N Z) {x : K} {ic : ℕ} (hx : Hits N Z x ic) {i : ℕ} (hi : i < N) :
    eval N i ic Z (weights N Z) x = ell N Z i x := by
  unfold ell weights
  rcases hx with ⟨hj, rfl⟩ | ⟨hj, hne⟩
  · rw [Verif.Lagrange.eval, if_pos hj]
    by_cases hij : i = ic
    · subst hij; rw [if_pos rfl, Lagrange.eval_basis_self h.inj (mem_range.2 hi)]
    · rw [if_neg hij, Lagrange.eval_basis_of_ne hij (mem_range.2 hj)]
  · rw [Verif.Lagrange.eval, if_neg hj, nodal_loop, weights_eq N Z 0 i hi,
      Lagrange.eval_basis_not_at_node (mem_range.2 hi) (hne i hi), div_eq_mul_inv]
    ring

theorem interp_ellAt (h : Verts N Z) {x : K} {ic : ℕ} (hx : Hits N Z x ic) (c : ℕ → K) :
    evalInterp N ic Z (weights N Z) x c = ∑ i ∈ range N, c i * ell N Z i x := by
  have e : evalInterp N ic Z (weights N Z) x c = (Lagrange.interpolate (range N) Z c).eval x := by
    rcases hx with ⟨hj, rfl⟩ | ⟨hj, hne⟩
    · rw [evalInterp, if_pos hj, Lagrange.eval_interpolate_at_node c h.inj (mem_range.2 hj)]
    · rw [evalInterp, if_neg hj, pL_loop]
      exact interp_nonco N Z _ c x (fun j hj => weights_eq N Z 0 j hj) hne
  rw [e, Lagrange.interpolate_apply, eval_finsetSum]
  exact sum_congr rfl fun i _ => by rw [eval_mul, eval_C, ell]

theorem derInterp_dellAt (h : Verts N Z) {x : K} {ic : ℕ} (hx : Hits N Z x ic) (c : ℕ → K) :
    evalDerInterp N 1 ic Z (weights N Z) x c = ∑ i ∈ range N, c i * dell N Z i x := by
  rw [weights, der_core h.inj 0 c ic x hx 1 (Or.inl rfl),
    Lagrange.interpolate_apply, Function.iterate_one, derivative_sum, eval_finsetSum]
  exact sum_congr rfl fun i _ => by rw [derivative_C_mul, eval_mul, eval_C, dell]

theorem der_dellAt (h : Verts N Z) {x : K} {ic : ℕ} (hx : Hits N Z x ic) (c : ℕ → K) {i : ℕ}
    (hi : i < N) : evalDer N 1 i ic Z (weights N Z) x c = dell N Z i x := by
  unfold evalDer
  rw [loop_store, derInterp_dellAt h hx, sum_eq_single i]
  · simp [hi]
  · intro j hj hji
    simp [mem_range.1 hj, hji]
  · intro hn; exact absurd (mem_range.2 hi) hn

/-- The derivative routine only writes the first `N` entries of its work array. -/
theorem derRun_frame (n ic : ℕ) (w : ℕ → K) (x : K) (C : ℕ → K) {m : ℕ} (hm : N ≤ m) :
    (evalDerRun N n ic Z w x C).c m = C m := by
  have hm' : ¬ m < N := by omega
  unfold evalDerRun
  split
  · refine loop_inv (I := fun _ (s : DerState K) => s.c m = C m) rfl ?_
    intro k s _ hs
    unfold derStepCoincident
    rw [costep_loop]
    simp only [hm', if_false, hs]
  · refine loop_inv (I := fun _ (s : DerState K) => s.c m = C m) rfl ?_
    intro k s _ hs
    unfold derStepNonCoincident
    rw [noncostep_loop]
    simp only [hm', if_false, hs]

/-- Basis value or derivative. -/
noncomputable def bas (der : Bool) (N : ℕ) (Z : ℕ → K) (i : ℕ) (x : K) : K :=
  if der then dell N Z i x else ell N Z i x

theorem lineEval_specAt (h : Verts N Z) {x : K} (hx : Hits N Z x (fnd x)) (der : Bool)
    (C : ℕ → K) :
    (lineEval der N (fnd x) Z (weights N Z) x C).1 =
      ∑ i ∈ range N, C i * bas der N Z i x ∧
    ∀ m, N ≤ m → (lineEval der N (fnd x) Z (weights N Z) x C).2 m = C m := by
  cases der
  · exact ⟨interp_ellAt h hx C, fun m _ => rfl⟩
  · exact ⟨derInterp_dellAt h hx C, fun m hm => derRun_frame 1 _ _ x C hm⟩

omit [Field K] in
theorem copyTo_const (N : ℕ) (f : ℕ → K) (C : ℕ → K) :
    copyTo N (fun _ m => f m) C = fun m => if m < N then f m else C m := by
  unfold copyTo; rw [loop_store]

omit [Field K] in
/-- Copying from later entries of the same array. -/
theorem copyTo_self (N a : ℕ) (C : ℕ → K) :
    copyTo N (fun C m => C (a + m)) C = fun m => if m < N then C (a + m) else C m := by
  unfold copyTo
  have := loop_inv (n := N) (body := fun m (D : ℕ → K) => store D m (D (a + m))) (s := C)
    (I := fun n (D : ℕ → K) => D = fun m => if m < n then C (a + m) else C m) (by simp) ?_
  · exact this
  · intro i D hi hD
    subst hD
    funext m
    by_cases h : m = i
    · subst h
      have h1 : ¬ a + m < m := by omega
      simp [h1]
    · rw [store_ne _ _ h]
      by_cases h2 : m < i
      · have h3 : m < i + 1 := by omega
        simp [h2, h3]
      · have h3 : ¬ m < i + 1 := by omega
        simp [h2, h3]

/-- The flat, specification-side gradient contraction. -/
theorem grad_flat (l : ℕ) (c X : ℕ → K) :
    ∑ k ∈ range N, (∑ j ∈ range N, (∑ i ∈ range N, c (i + j * N + k * N * N) *
      bas (l == 0) N Z i (X 0)) * bas (l == 1) N Z j (X 1)) * bas (l == 2) N Z k (X 2) =
      ∑ I ∈ range (N * N * N), c I * dphi N Z l I X := by
  rw [tensor_sum N c (fun i => bas (l == 0) N Z i (X 0)) (fun i => bas (l == 1) N Z i (X 1))
    (fun i => bas (l == 2) N Z i (X 2))]
  refine sum_congr rfl fun I _ => ?_
  simp only [bas, dphi, beq_iff_eq]

/-- One direction `l` of the gradient evaluation: value and independence of the work array. -/
theorem grad_dirAt (h : Verts N Z) {X : ℕ → K} (hX : ∀ d < 3, Hits N Z (X d) (fnd (X d)))
    (l : ℕ) (c C : ℕ → K) :
    let w := weights N Z
    let C1 := loop N (fun k C =>
      let C := loop N (fun j C =>
        let C := copyTo N (fun _ m => c (j * N + k * N * N + m)) C
        let r := lineEval (l == 0) N (fnd (X 0)) Z w (X 0) C
        store r.2 (N + j) r.1) C
      let C := copyTo N (fun C m => C (N + m)) C
      let r := lineEval (l == 1) N (fnd (X 1)) Z w (X 1) C
      store r.2 (2 * N + k) r.1) C
    let C2 := copyTo N (fun C m => C (2 * N + m)) C1
    (lineEval (l == 2) N (fnd (X 2)) Z w (X 2) C2).1 =
      ∑ I ∈ range (N * N * N), c I * dphi N Z l I X := by
  intro w C1 C2
  -- inner loop over j
  have inner : ∀ k C, ∀ n ≤ N,
      let D := loop n (fun j C =>
        let C := copyTo N (fun _ m => c (j * N + k * N * N + m)) C
        let r := lineEval (l == 0) N (fnd (X 0)) Z w (X 0) C
        store r.2 (N + j) r.1) C
      (∀ j < n, D (N + j) = ∑ i ∈ range N, c (i + j * N + k * N * N) *
        bas (l == 0) N Z i (X 0)) ∧ ∀ m, 2 * N ≤ m → D m = C m := by
    intro k C n hn D
    refine loop_inv (I := fun n (D : ℕ → K) => (∀ j < n, D (N + j) =
      ∑ i ∈ range N, c (i + j * N + k * N * N) * bas (l == 0) N Z i (X 0)) ∧
      ∀ m, 2 * N ≤ m → D m = C m) ?_ ?_
    · exact ⟨by simp, fun m _ => rfl⟩
    · intro j D hj ⟨h1, h2⟩
      rw [copyTo_const]
      obtain ⟨s1, s2⟩ := lineEval_specAt h (hX 0 (by omega)) (l == 0)
        (fun m => if m < N then c (j * N + k * N * N + m) else D m)
      refine ⟨?_, ?_⟩
      · intro j' hj'
        by_cases hjj : j' = j
        · subst hjj
          rw [store_same, s1]
          refine sum_congr rfl fun i hi => ?_
          rw [if_pos (mem_range.1 hi)]
          congr 2; ring
        · rw [store_ne _ _ (by omega), s2 _ (by omega), if_neg (by omega)]
          exact h1 j' (by omega)
      · intro m hm
        rw [store_ne _ _ (by omega), s2 _ (by omega), if_neg (by omega)]
        exact h2 m hm
  have outer : ∀ k < N, C1 (2 * N + k) = ∑ j ∈ range N, (∑ i ∈ range N,
      c (i + j * N + k * N * N) * bas (l == 0) N Z i (X 0)) * bas (l == 1) N Z j (X 1) := by
    refine loop_inv (I := fun n (D : ℕ → K) => ∀ k < n, D (2 * N + k) = ∑ j ∈ range N, (∑ i ∈ range N,
      c (i + j * N + k * N * N) * bas (l == 0) N Z i (X 0)) * bas (l == 1) N Z j (X 1))
      (by simp) ?_
    intro k D hk hD k' hk'
    simp only []
    rw [copyTo_self N N]
    obtain ⟨i1, i2⟩ := inner k D N le_rfl
    obtain ⟨s1, s2⟩ := lineEval_specAt h (hX 1 (by omega)) (l == 1)
      (fun m => if m < N then (loop N (fun j C =>
        let C := copyTo N (fun _ m => c (j * N + k * N * N + m)) C
        let r := lineEval (l == 0) N (fnd (X 0)) Z w (X 0) C
        store r.2 (N + j) r.1) D) (N + m) else (loop N (fun j C =>
        let C := copyTo N (fun _ m => c (j * N + k * N * N + m)) C
        let r := lineEval (l == 0) N (fnd (X 0)) Z w (X 0) C
        store r.2 (N + j) r.1) D) m)
    by_cases hkk : k' = k
    · subst hkk
      rw [store_same, s1]
      refine sum_congr rfl fun j hj => ?_
      rw [if_pos (mem_range.1 hj), i1 j (mem_range.1 hj)]
    · rw [store_ne _ _ (by omega), s2 _ (by omega), if_neg (by omega), i2 _ (by omega)]
      exact hD k' (by omega)
  rw [(lineEval_specAt h (hX 2 (by omega)) (l == 2) C2).1, ← grad_flat]
  refine sum_congr rfl fun k hk => ?_
  have : C2 k = C1 (2 * N + k) := by
    show copyTo N (fun C m => C (2 * N + m)) C1 k = _
    rw [copyTo_self N (2 * N)]; exact if_pos (mem_range.1 hk)
  rw [this, outer k (mem_range.1 hk)]

/-- Entries written by the gradient routine and frame. -/
theorem gradApprox_specAt (h : Verts N Z) {X : ℕ → K}
    (hX : ∀ d < 3, Hits N Z (X d) (fnd (X d))) (c C : ℕ → K) (off : ℕ) (g : ℕ → K) :
    (∀ l < 3, (evalGradApproxAt fnd N Z C c X off g).2 (off + l) =
      ∑ I ∈ range (N * N * N), c I * dphi N Z l I X) ∧
    ∀ m, (m < off ∨ off + 3 ≤ m) → (evalGradApproxAt fnd N Z C c X off g).2 m = g m := by
  unfold evalGradApproxAt
  refine loop_inv (n := 3) (I := fun n (s : (ℕ → K) × (ℕ → K)) => (∀ l < n, s.2 (off + l) =
      ∑ I ∈ range (N * N * N), c I * dphi N Z l I X) ∧
    ∀ m, (m < off ∨ off + 3 ≤ m) → s.2 m = g m) ⟨by simp, fun _ _ => rfl⟩ ?_
  intro l s hl ⟨h1, h2⟩
  have hd := grad_dirAt h hX l c s.1
  refine ⟨?_, ?_⟩
  · intro l' hl'
    by_cases hll : l' = l
    · subst hll
      simp only [store_same]
      exact hd
    · simp only []
      rw [store_ne _ _ (by omega)]
      exact h1 l' (by omega)
  · intro m hm
    simp only []
    rw [store_ne _ _ (by omega)]
    exact h2 m hm

/-- `eval_basis(I, X)` is the product of the three one-dimensional Lagrange basis
polynomials selected by the digits of `I`. -/
theorem basisAt (h : Verts N Z) {X : ℕ → K} (hX : ∀ d < 3, Hits N Z (X d) (fnd (X d)))
    {I : ℕ} (hI : I < N * N * N) : evalBasisAt fnd N Z I X = some (phi N Z I X) := by
  unfold evalBasisAt
  rw [digits_eq h.pos h.fits hI]
  have h0 : I % N < N := Nat.mod_lt _ h.pos
  have h1 : I / N % N < N := Nat.mod_lt _ h.pos
  have h2 : I / N / N < N := by
    rw [Nat.div_div_eq_div_mul]
    exact Nat.div_lt_of_lt_mul (by linarith [hI, Nat.mul_comm (N * N) N])
  simp only [eval_ellAt h (hX 0 (by omega)) h0, eval_ellAt h (hX 1 (by omega)) h1,
    eval_ellAt h (hX 2 (by omega)) h2, phi]

/-- (gradient of a basis function), whatever the work array contains. -/
theorem gradBasisAt (h : Verts N Z) {X : ℕ → K} (hX : ∀ d < 3, Hits N Z (X d) (fnd (X d)))
    (C : ℕ → K) {I : ℕ} (hI : I < N * N * N) :
    evalGradBasisAt fnd N Z C I X = some (dphi N Z 0 I X, dphi N Z 1 I X, dphi N Z 2 I X) := by
  unfold evalGradBasisAt
  rw [digits_eq h.pos h.fits hI]
  have h0 : I % N < N := Nat.mod_lt _ h.pos
  have h1 : I / N % N < N := Nat.mod_lt _ h.pos
  have h2 : I / N / N < N := by
    rw [Nat.div_div_eq_div_mul]
    exact Nat.div_lt_of_lt_mul (by linarith [hI, Nat.mul_comm (N * N) N])
  simp only [eval_ellAt h (hX 0 (by omega)) h0, eval_ellAt h (hX 1 (by omega)) h1,
    eval_ellAt h (hX 2 (by omega)) h2, der_dellAt h (hX 0 (by omega)) _ h0,
    der_dellAt h (hX 1 (by omega)) _ h1, der_dellAt h (hX 2 (by omega)) _ h2]
  simp [dphi]

/-- The sum-factorised evaluation equals the expansion in the basis functions, for every
coefficient array and every initial content `C` of the work array. -/
theorem approxAt (h : Verts N Z) {X : ℕ → K} (hX : ∀ d < 3, Hits N Z (X d) (fnd (X d)))
    (C c : ℕ → K) :
    evalApproxAt fnd N Z C c X =
      ∑ I ∈ range (N * N * N), c I * (evalBasisAt fnd N Z I X).getD 0 := by
  have hr : ∀ I ∈ range (N * N * N), c I * (evalBasisAt fnd N Z I X).getD 0 =
      c I * (ell N Z (I % N) (X 0) * ell N Z (I / N % N) (X 1) * ell N Z (I / N / N) (X 2)) := by
    intro I hI
    rw [basisAt h hX (mem_range.1 hI)]; rfl
  rw [sum_congr rfl hr, ← tensor_sum N c (fun i => ell N Z i (X 0)) (fun i => ell N Z i (X 1))
    (fun i => ell N Z i (X 2))]
  unfold evalApproxAt
  simp only []
  rw [interp_ellAt h (hX 2 (by omega))]
  refine sum_congr rfl fun k hk => ?_
  congr 1
  have key := loop_inv (n := N) (s := C) (body := fun k C =>
      let C := loop N (fun j C => store C j (evalInterp N (fnd (X 0)) Z (weights N Z) (X 0)
        (fun m => c (j * N + k * N * N + m)))) C
      store C (N + k) (evalInterp N (fnd (X 1)) Z (weights N Z) (X 1) C))
    (I := fun n (D : ℕ → K) => ∀ k < n, D (N + k) = ∑ j ∈ range N, (∑ i ∈ range N,
      c (i + j * N + k * N * N) * ell N Z i (X 0)) * ell N Z j (X 1)) (by simp) ?_
  · exact key k (mem_range.1 hk)
  · intro k D hk hD k' hk'
    simp only []
    rw [loop_store, interp_ellAt h (hX 1 (by omega))]
    by_cases hkk : k' = k
    · subst hkk
      rw [store_same]
      refine sum_congr rfl fun j hj => ?_
      rw [if_pos (mem_range.1 hj), interp_ellAt h (hX 0 (by omega))]
      congr 1
      refine sum_congr rfl fun i _ => ?_
      congr 2; ring
    · rw [store_ne _ _ (by omega), if_neg (by omega)]
      exact hD k' (by omega)

/-- The 3x3 matrix stored in nine consecutive entries, `J[3*a + d]`. -/
def mat9 (J : ℕ → K) : Matrix (Fin 3) (Fin 3) K := fun a d => J (3 * a + d)

/-- (Jacobian). Entry `3*a + d` is the derivative in direction `d` of physical coordinate
`a`, as expanded in the basis. -/
theorem jacAt (h : Verts N Z) {X : ℕ → K} (hX : ∀ d < 3, Hits N Z (X d) (fnd (X d)))
    (C x y z J0 : ℕ → K) (a d : Fin 3) :
    mat9 (evalJacAt fnd N Z C x y z X J0).2 a d =
      ∑ I ∈ range (N * N * N), (![x, y, z] a) I * dphi N Z d I X := by
  unfold evalJacAt
  simp only []
  set s0 := evalGradApproxAt fnd N Z C x X 0 J0 with hs0
  set s1 := evalGradApproxAt fnd N Z s0.1 y X 3 s0.2 with hs1
  obtain ⟨a0, -⟩ := gradApprox_specAt h hX x C 0 J0
  obtain ⟨a1, f1⟩ := gradApprox_specAt h hX y s0.1 3 s0.2
  obtain ⟨a2, f2⟩ := gradApprox_specAt h hX z s1.1 6 s1.2
  rw [← hs0] at a0
  rw [← hs1] at a1 f1
  have hd : (d : ℕ) < 3 := d.2
  unfold mat9
  fin_cases a
  · show _ = ∑ I ∈ range (N * N * N), x I * _
    have := a0 d hd
    rw [Nat.zero_add] at this
    rw [← this]
    show (evalGradApproxAt fnd N Z s1.1 z X 6 s1.2).2 (3 * 0 + d) = _
    rw [f2 _ (by omega), f1 _ (by omega), Nat.mul_zero, Nat.zero_add]
  · show _ = ∑ I ∈ range (N * N * N), y I * _
    rw [← a1 d hd]
    show (evalGradApproxAt fnd N Z s1.1 z X 6 s1.2).2 (3 * 1 + d) = _
    rw [f2 _ (by omega)]
  · show _ = ∑ I ∈ range (N * N * N), z I * _
    rw [← a2 d hd]
    rfl

theorem det9_eq (J : ℕ → K) : det9 J = (mat9 J).det := by
  rw [Matrix.det_fin_three]
  simp only [det9, mat9]
  norm_num
  ring

/-- The Jacobian does not depend on uninitialised memory or on the work array. -/
theorem jac_indepAt (h : Verts N Z) {X : ℕ → K} (hX : ∀ d < 3, Hits N Z (X d) (fnd (X d)))
    (C C' x y z J0 J0' : ℕ → K) :
    mat9 (evalJacAt fnd N Z C x y z X J0).2 = mat9 (evalJacAt fnd N Z C' x y z X J0').2 := by
  ext a d
  rw [jacAt h hX, jacAt h hX]

/-- (determinant). `eval_det_jac` is the determinant of the matrix filled by `eval_jac`,
for all vertex coordinates and all initial memory contents. -/
theorem detAt (h : Verts N Z) {X : ℕ → K} (hX : ∀ d < 3, Hits N Z (X d) (fnd (X d)))
    (C C' x y z J0 J0' : ℕ → K) :
    (evalDetJacAt fnd N Z C' x y z X J0').1 = (mat9 (evalJacAt fnd N Z C x y z X J0).2).det := by
  rw [jac_indepAt h hX C C' x y z J0 J0']
  exact det9_eq _

theorem adj9 (J : ℕ → K) (d : K) (hd : d * det9 J = 1) (M : ℕ → K)
    (h0 : M 0 = d * (J 4 * J 8 - J 5 * J 7)) (h1 : M 1 = -d * (J 1 * J 8 - J 2 * J 7))
    (h2 : M 2 = d * (J 1 * J 5 - J 2 * J 4)) (h3 : M 3 = -d * (J 3 * J 8 - J 5 * J 6))
    (h4 : M 4 = d * (J 0 * J 8 - J 2 * J 6)) (h5 : M 5 = -d * (J 0 * J 5 - J 2 * J 3))
    (h6 : M 6 = d * (J 3 * J 7 - J 4 * J 6)) (h7 : M 7 = -d * (J 0 * J 7 - J 1 * J 6))
    (h8 : M 8 = d * (J 0 * J 4 - J 1 * J 3)) : mat9 M * mat9 J = 1 := by
  unfold det9 at hd
  ext a b
  rw [Matrix.mul_apply, Fin.sum_univ_three, Matrix.one_apply]
  fin_cases a <;> fin_cases b <;>
    simp only [mat9, Fin.zero_eta, Fin.mk_one, Fin.reduceFinMk, Fin.val_zero, Fin.val_one, Fin.val_two,
      Nat.mul_zero, Nat.zero_add, Nat.add_zero, Nat.mul_one, Nat.reduceMul, Nat.reduceAdd, h0, h1,
      h2, h3, h4, h5, h6, h7, h8, if_true, Fin.reduceEq, if_false] <;>
    first
      | linear_combination hd
      | ring

/-- (inverse). When the Jacobian determinant is non-zero, `eval_inv_jac` fills the two-sided
inverse of the matrix filled by `eval_jac`. -/
theorem invAt (h : Verts N Z) {X : ℕ → K} (hX : ∀ d < 3, Hits N Z (X d) (fnd (X d)))
    (C C' x y z J0 J0' J0'' Jinv : ℕ → K)
    (hdet : (mat9 (evalJacAt fnd N Z C x y z X J0).2).det ≠ 0) :
    mat9 (evalInvJacAt fnd N Z C' x y z X J0' J0'' Jinv) *
        mat9 (evalJacAt fnd N Z C x y z X J0).2 = 1 ∧
      mat9 (evalJacAt fnd N Z C x y z X J0).2 *
        mat9 (evalInvJacAt fnd N Z C' x y z X J0' J0'' Jinv) = 1 := by
  rw [jac_indepAt h hX C C' x y z J0 J0'] at hdet ⊢
  have main : mat9 (evalInvJacAt fnd N Z C' x y z X J0' J0'' Jinv) *
      mat9 (evalJacAt fnd N Z C' x y z X J0').2 = 1 := by
    refine adj9 _ (1 / (evalDetJacAt fnd N Z (evalJacAt fnd N Z C' x y z X J0').1 x y z X J0'').1) ?_ _
      ?_ ?_ ?_ ?_ ?_ ?_ ?_ ?_ ?_
    · rw [detAt h hX C' _ x y z J0' J0'', det9_eq, one_div, inv_mul_cancel₀ hdet]
    all_goals simp [evalInvJacAt, store]
  exact ⟨main, mul_eq_one_comm.1 main⟩

end Verif.LagrangeElement
