import Verif.HexN.Lemmas
import Mathlib.Analysis.Calculus.Deriv.Polynomial
import Mathlib.Analysis.Calculus.Deriv.Mul
import Mathlib.Tactic.NormNum
import Mathlib.Tactic.LinearCombination

/-!
# Theorems on `QuadN` and `HexN` (C28, C29, C60, C61)
-/

set_option linter.unusedSectionVars false

namespace Verif.HexN
open Finset Polynomial
variable {K : Type*} [Field K]

/-! ### C28: the one-dimensional interpolants -/

/-- C28: for every number `n` of vertices, every vertex position, every evaluation point and whatever
the output arrays contained, `HexN::lagrange_basis_1D`, `HexN::lagrange_derivative_1D` and
`QuadN::lagrange_1D` store the values and the first derivatives of the `n` Lagrange basis polynomials
(Mathlib's `Lagrange.basis`, characterised by `C28_delta`). -/
theorem C28_values (n : ℕ) (z : ℕ → K) (x : K) (a b : ℕ → K) (i : ℕ) (hi : i < n) :
    lagrangeBasis1D n z x a i = (Lagrange.basis (range n) z i).eval x ∧
    lagrangeDerivative1D n z x b i = (derivative (Lagrange.basis (range n) z i)).eval x ∧
    (quadLagrange1D n z x a b).1 i = (Lagrange.basis (range n) z i).eval x ∧
    (quadLagrange1D n z x a b).2 i = (derivative (Lagrange.basis (range n) z i)).eval x :=
  ⟨lagrangeBasis1D_eq n z x a i hi, lagrangeDerivative1D_eq n z x b i hi,
    (quadLagrange1D_eq n z x a b i hi).1, (quadLagrange1D_eq n z x a b i hi).2⟩

/-- C28: with pairwise distinct vertices the interpolants are 1 at their own vertex and 0 at the other
vertices, and the derivatives are derivatives in the sense of analysis (over the reals). -/
theorem C28_delta (n : ℕ) (z : ℕ → K) (hz : Set.InjOn z (range n : Set ℕ)) (a : ℕ → K) (i j : ℕ)
    (hi : i < n) (hj : j < n) : lagrangeBasis1D n z (z j) a i = if i = j then 1 else 0 := by
  rw [lagrangeBasis1D_eq n z _ a i hi, L]
  by_cases h : i = j
  · subst h
    rw [if_pos rfl, Lagrange.eval_basis_self hz (by simpa using hi)]
  · rw [if_neg h, Lagrange.eval_basis_of_ne h (by simpa using hj)]

theorem C28_hasDerivAt (n : ℕ) (z : ℕ → ℝ) (x : ℝ) (a b : ℕ → ℝ) (i : ℕ) (hi : i < n) :
    HasDerivAt (fun y => lagrangeBasis1D n z y a i) (lagrangeDerivative1D n z x b i) x ∧
    HasDerivAt (fun y => (quadLagrange1D n z y a b).1 i) ((quadLagrange1D n z x a b).2 i) x := by
  have e : (fun y => lagrangeBasis1D n z y a i) = fun y => (Lagrange.basis (range n) z i).eval y :=
    funext fun y => lagrangeBasis1D_eq n z y a i hi
  have e2 : (fun y => (quadLagrange1D n z y a b).1 i) =
      fun y => (Lagrange.basis (range n) z i).eval y :=
    funext fun y => (quadLagrange1D_eq n z y a b i hi).1
  rw [e, e2, lagrangeDerivative1D_eq n z x b i hi, (quadLagrange1D_eq n z x a b i hi).2]
  exact ⟨Polynomial.hasDerivAt _ x, Polynomial.hasDerivAt _ x⟩

/-- Non-vacuity: three distinct vertices. -/
example : Set.InjOn (fun i : ℕ => (i : ℚ)) (range 3 : Set ℕ) := fun a _ b _ (h : (a : ℚ) = b) => by exact_mod_cast h

/-! ### C29: HexN tensor-product basis -/

/-- C29: `HexN::basis` stores at the lexicographic id of vertex `(i,j,k)` the product of the 1-D
interpolants, and the three partials replace the factor of their direction by its derivative; nothing
beyond the `n³` vertices is written. For every `n`, vertex positions, point and previous contents. -/
theorem C29_hexn (n : ℕ) (z pt v dv : ℕ → K) (t dt : ℕ → ℕ → K) (b : ℕ → K) (i j k : ℕ)
    (hi : i < n) (hj : j < n) (hk : k < n) :
    basis n z pt v t b (i + j * n + k * n * n) = L n z i (pt 0) * L n z j (pt 1) * L n z k (pt 2) ∧
    partialXi n z pt v dv t dt b (i + j * n + k * n * n) =
      dL n z i (pt 0) * L n z j (pt 1) * L n z k (pt 2) ∧
    partialEta n z pt v dv t dt b (i + j * n + k * n * n) =
      L n z i (pt 0) * dL n z j (pt 1) * L n z k (pt 2) ∧
    partialMu n z pt v dv t dt b (i + j * n + k * n * n) =
      L n z i (pt 0) * L n z j (pt 1) * dL n z k (pt 2) := by
  have T := fun f => tensor_eq n f b i j k hi hj hk
  unfold rid at T
  unfold basis partialXi partialEta partialMu
  refine ⟨?_, ?_, ?_, ?_⟩ <;>
  · rw [T]
    simp [saveColumn_eq, saveColumnOther_eq, hi, hj, hk, lagrangeBasis1D_eq, lagrangeDerivative1D_eq]

theorem C29_hexn_frame (n : ℕ) (z pt v dv : ℕ → K) (t dt : ℕ → ℕ → K) (b : ℕ → K) (p : ℕ)
    (hp : n * n * n ≤ p) :
    basis n z pt v t b p = b p ∧ partialXi n z pt v dv t dt b p = b p ∧
    partialEta n z pt v dv t dt b p = b p ∧ partialMu n z pt v dv t dt b p = b p := by
  unfold basis partialXi partialEta partialMu
  exact ⟨tensor_outside _ _ _ _ hp, tensor_outside _ _ _ _ hp, tensor_outside _ _ _ _ hp,
    tensor_outside _ _ _ _ hp⟩

theorem sum_L (n : ℕ) (z : ℕ → K) (hz : Set.InjOn z (range n : Set ℕ)) (hn : 0 < n) (x : K) :
    ∑ i ∈ range n, L n z i x = 1 := by
  have := Lagrange.sum_basis hz ⟨0, by simpa using hn⟩
  have := congrArg (Polynomial.eval x) this
  rw [eval_finsetSum, eval_one] at this
  exact this

theorem sum_dL (n : ℕ) (z : ℕ → K) (hz : Set.InjOn z (range n : Set ℕ)) (hn : 0 < n) (x : K) :
    ∑ i ∈ range n, dL n z i x = 0 := by
  have := Lagrange.sum_basis hz ⟨0, by simpa using hn⟩
  have := congrArg (fun p => (derivative p).eval x) this
  simp only [derivative_sum, eval_finsetSum, derivative_one, eval_zero] at this
  exact this

theorem sum_triple (n : ℕ) (f : ℕ → K) (a b c : ℕ → K)
    (h : ∀ i < n, ∀ j < n, ∀ k < n, f (i + j * n + k * n * n) = a i * b j * c k) :
    ∑ p ∈ range (n * n * n), f p =
      (∑ i ∈ range n, a i) * (∑ j ∈ range n, b j) * ∑ k ∈ range n, c k := by
  rw [sum_range_cube, mul_sum]
  refine sum_congr rfl fun k hk => ?_
  rw [mul_sum, sum_mul]
  refine sum_congr rfl fun j hj => ?_
  rw [sum_mul, sum_mul]
  refine sum_congr rfl fun i hi => ?_
  exact h i (mem_range.1 hi) j (mem_range.1 hj) k (mem_range.1 hk)

/-- C29: the `n³` values of `HexN::basis` sum to 1 and each partial sums to 0, at every point. -/
theorem C29_hexn_sums (n : ℕ) (hn : 0 < n) (z pt v dv : ℕ → K) (t dt : ℕ → ℕ → K) (b : ℕ → K)
    (hz : Set.InjOn z (range n : Set ℕ)) :
    ∑ p ∈ range (n * n * n), basis n z pt v t b p = 1 ∧
    ∑ p ∈ range (n * n * n), partialXi n z pt v dv t dt b p = 0 ∧
    ∑ p ∈ range (n * n * n), partialEta n z pt v dv t dt b p = 0 ∧
    ∑ p ∈ range (n * n * n), partialMu n z pt v dv t dt b p = 0 := by
  have H := fun i hi j hj k hk => C29_hexn n z pt v dv t dt b i j k hi hj hk
  rw [sum_triple n _ _ _ _ fun i hi j hj k hk => (H i hi j hj k hk).1,
    sum_triple n _ _ _ _ fun i hi j hj k hk => (H i hi j hj k hk).2.1,
    sum_triple n _ _ _ _ fun i hi j hj k hk => (H i hi j hj k hk).2.2.1,
    sum_triple n _ _ _ _ fun i hi j hj k hk => (H i hi j hj k hk).2.2.2]
  simp [sum_L n z hz hn, sum_dL n z hz hn]

/-- C29: nodality: at the reference position of vertex `(i',j',k')` the basis is 1 for that vertex and
0 for all the others. -/
theorem C29_hexn_nodal (n : ℕ) (z v : ℕ → K) (t : ℕ → ℕ → K) (b : ℕ → K)
    (hz : Set.InjOn z (range n : Set ℕ)) (pt : ℕ → K) (i j k i' j' k' : ℕ)
    (hi : i < n) (hj : j < n) (hk : k < n) (hi' : i' < n) (hj' : j' < n) (hk' : k' < n)
    (h0 : pt 0 = z i') (h1 : pt 1 = z j') (h2 : pt 2 = z k') :
    basis n z pt v t b (i + j * n + k * n * n) = if i = i' ∧ j = j' ∧ k = k' then 1 else 0 := by
  have D := fun i j hi hj => C28_delta n z hz (fun _ => 0) i j hi hj
  rw [(C29_hexn n z pt v v t t b i j k hi hj hk).1, h0, h1, h2]
  simp only [← lagrangeBasis1D_eq n z _ (fun _ => 0) _ hi, ← lagrangeBasis1D_eq n z _ (fun _ => 0) _ hj,
    ← lagrangeBasis1D_eq n z _ (fun _ => 0) _ hk]
  rw [D i i' hi hi', D j j' hj hj', D k k' hk hk']
  by_cases a : i = i' <;> by_cases b : j = j' <;> by_cases c : k = k' <;> simp [a, b, c]

/-- C29: the partials are the partial derivatives of the basis (over the reals): perturbing one
coordinate of the point. -/
theorem C29_hexn_hasDerivAt (n : ℕ) (z pt v dv : ℕ → ℝ) (t dt : ℕ → ℕ → ℝ) (b : ℕ → ℝ) (p : ℕ)
    (hp : p < n * n * n) :
    HasDerivAt (fun y => basis n z (store pt 0 y) v t b p) (partialXi n z pt v dv t dt b p) (pt 0) ∧
    HasDerivAt (fun y => basis n z (store pt 1 y) v t b p) (partialEta n z pt v dv t dt b p) (pt 1) ∧
    HasDerivAt (fun y => basis n z (store pt 2 y) v t b p) (partialMu n z pt v dv t dt b p) (pt 2) := by
  obtain ⟨hi, hj, hk, e⟩ := lex3_surj hp
  obtain ⟨i, hi'⟩ : ∃ i, i = p % n := ⟨_, rfl⟩
  obtain ⟨j, hj'⟩ : ∃ j, j = p / n % n := ⟨_, rfl⟩
  obtain ⟨k, hk'⟩ : ∃ k, k = p / n / n := ⟨_, rfl⟩
  rw [← hi', ← hj', ← hk'] at e
  rw [← hi'] at hi; rw [← hj'] at hj; rw [← hk'] at hk
  clear hi' hj' hk'
  subst e
  have HB := fun q => (C29_hexn n z q v dv t dt b i j k hi hj hk).1
  have HP := C29_hexn n z pt v dv t dt b i j k hi hj hk
  have D : ∀ i x, HasDerivAt (fun y => L n z i y) (dL n z i x) x := fun i x =>
    Polynomial.hasDerivAt _ x
  simp only [HB, HP.2.1, HP.2.2.1, HP.2.2.2]
  refine ⟨?_, ?_, ?_⟩
  · simpa [store] using ((D i (pt 0)).mul_const (L n z j (pt 1))).mul_const (L n z k (pt 2))
  · simpa [store] using ((D j (pt 1)).const_mul (L n z i (pt 0))).mul_const (L n z k (pt 2))
  · simpa [store] using (D k (pt 2)).const_mul (L n z i (pt 0) * L n z j (pt 1))

/-! ### C29: QuadN -/

theorem quadBody_spec (n : ℕ) (hn : 0 < n) (z pt : ℕ → K) (m : ℕ) (hm : m < n * n) (s : QuadState K) :
    (quadBody n z pt m s).nodes = store2 (store2 s.nodes m 0 (z (m % n))) m 1 (z (m / n)) ∧
    (quadBody n z pt m s).basis = store s.basis m (L n z (m % n) (pt 0) * L n z (m / n) (pt 1)) ∧
    (quadBody n z pt m s).part = store2 (store2 s.part m 0 (dL n z (m % n) (pt 0) * L n z (m / n) (pt 1)))
      m 1 (L n z (m % n) (pt 0) * dL n z (m / n) (pt 1)) := by
  have e1 : m / n + 1 - 1 = m / n := Nat.add_sub_cancel _ _
  have e2 : (m + 1) - n * (m / n) - 1 = m % n := by
    have := Nat.mod_add_div m n; omega
  have h1 : m % n < n := Nat.mod_lt _ hn
  have h2 : m / n < n := Nat.div_lt_of_lt_mul hm
  unfold quadBody
  simp only [e1, e2]
  refine ⟨trivial, ?_, ?_⟩
  · simp [store2, (quadLagrange1D_eq n z _ _ _ _ h1).1, (quadLagrange1D_eq n z _ _ _ _ h2).1]
  · simp [store2, (quadLagrange1D_eq n z _ _ _ _ h1).1, (quadLagrange1D_eq n z _ _ _ _ h2).1,
      (quadLagrange1D_eq n z _ _ _ _ h1).2, (quadLagrange1D_eq n z _ _ _ _ h2).2]

/-- C29: `QuadN::basis_partials` fills, at the lexicographic id `i + n*j`, the vertex position
`(z i, z j)`, the product basis value and its two partials; for every order, point and previous array
contents. -/
theorem C29_quadn (n : ℕ) (z pt : ℕ → K) (s : QuadState K) (i j : ℕ) (hi : i < n) (hj : j < n) :
    let r := quadBasisPartials n z pt s
    r.nodes (i + n * j) 0 = z i ∧ r.nodes (i + n * j) 1 = z j ∧
    r.basis (i + n * j) = L n z i (pt 0) * L n z j (pt 1) ∧
    r.part (i + n * j) 0 = dL n z i (pt 0) * L n z j (pt 1) ∧
    r.part (i + n * j) 1 = L n z i (pt 0) * dL n z j (pt 1) := by
  have hn : 0 < n := by omega
  have key := loop_inv (n := n * n) (body := quadBody n z pt) (s := s)
    (fun m r => ∀ p < m, r.nodes p 0 = z (p % n) ∧ r.nodes p 1 = z (p / n) ∧
      r.basis p = L n z (p % n) (pt 0) * L n z (p / n) (pt 1) ∧
      r.part p 0 = dL n z (p % n) (pt 0) * L n z (p / n) (pt 1) ∧
      r.part p 1 = L n z (p % n) (pt 0) * dL n z (p / n) (pt 1))
    (fun p hp => absurd hp (Nat.not_lt_zero _))
    (by
      intro m r hm ih p hp
      obtain ⟨h1, h2, h3⟩ := quadBody_spec n hn z pt m hm r
      rw [h1, h2, h3]
      by_cases h : p = m
      · subst h; simp [store2, store]
      · have := ih p (by omega)
        simp only [store2, store, h, false_and, if_false]
        exact this)
  have hp : i + n * j < n * n := by
    calc i + n * j < n + n * j := by omega
      _ = n * (j + 1) := by ring
      _ ≤ n * n := Nat.mul_le_mul_left _ (by omega)
  have := key _ hp
  rw [Nat.add_mul_mod_self_left, Nat.mod_eq_of_lt hi, Nat.add_mul_div_left _ _ hn,
    Nat.div_eq_of_lt hi, Nat.zero_add] at this
  exact this

/-- C29: the `n²` QuadN basis values sum to 1 and both partials sum to 0. -/
theorem C29_quadn_sums (n : ℕ) (hn : 0 < n) (z pt : ℕ → K) (s : QuadState K)
    (hz : Set.InjOn z (range n : Set ℕ)) :
    ∑ p ∈ range (n * n), (quadBasisPartials n z pt s).basis p = 1 ∧
    ∑ p ∈ range (n * n), (quadBasisPartials n z pt s).part p 0 = 0 ∧
    ∑ p ∈ range (n * n), (quadBasisPartials n z pt s).part p 1 = 0 := by
  have H := fun i hi j hj => C29_quadn n z pt s i j hi hj
  have S : ∀ f a b : ℕ → K, (∀ i < n, ∀ j < n, f (i + n * j) = a i * b j) →
      ∑ p ∈ range (n * n), f p = (∑ i ∈ range n, a i) * ∑ j ∈ range n, b j := by
    intro f a b h
    rw [sum_range_mul, mul_sum]
    refine sum_congr rfl fun j hj => ?_
    rw [sum_mul]
    exact sum_congr rfl fun i hi => h i (mem_range.1 hi) j (mem_range.1 hj)
  rw [S _ _ _ fun i hi j hj => (H i hi j hj).2.2.1, S _ _ _ fun i hi j hj => (H i hi j hj).2.2.2.1,
    S _ _ _ fun i hi j hj => (H i hi j hj).2.2.2.2]
  simp [sum_L n z hz hn, sum_dL n z hz hn]

/-- C29: nodality of the QuadN basis: at vertex `(i', j')` the basis value of vertex `(i, j)` is 1 if they
agree and 0 otherwise. -/
theorem C29_quadn_nodal (n : ℕ) (z pt : ℕ → K) (s : QuadState K)
    (hz : Set.InjOn z (range n : Set ℕ)) (i j i' j' : ℕ) (hi : i < n) (hj : j < n) (hi' : i' < n)
    (hj' : j' < n) (h0 : pt 0 = z i') (h1 : pt 1 = z j') :
    (quadBasisPartials n z pt s).basis (i + n * j) = if i = i' ∧ j = j' then 1 else 0 := by
  have D := fun i j hi hj => C28_delta n z hz (fun _ => 0) i j hi hj
  rw [(C29_quadn n z pt s i j hi hj).2.2.1, h0, h1]
  simp only [← lagrangeBasis1D_eq n z _ (fun _ => 0) _ hi, ← lagrangeBasis1D_eq n z _ (fun _ => 0) _ hj]
  rw [D i i' hi hi', D j j' hj hj']
  by_cases a : i = i' <;> by_cases b : j = j' <;> simp [a, b]

/-- Non-vacuity: a quadratic element with vertices 0, 1, 2 has distinct positions, and its middle basis
function at `1/2`, evaluated by the model, has value `3/4` and derivative 1. -/
example : Set.InjOn (fun i : ℕ => (i : ℚ)) (range 3 : Set ℕ) ∧
    lagrangeBasis1D 3 (fun i : ℕ => (i : ℚ)) (1/2) (fun _ => 7) 1 = 3/4 ∧
    lagrangeDerivative1D 3 (fun i : ℕ => (i : ℚ)) (1/2) (fun _ => 7) 1 = 1 :=
  ⟨fun a _ b _ (h : (a : ℚ) = b) => by exact_mod_cast h, by decide +kernel, by decide +kernel⟩

/-! ### C60: node/vertex tables of HexN -/

/-- Stride from vertices to nodes. -/
def stride (order : ℕ) : ℕ := if order = 0 then 1 else 2

theorem trips_eq (order : ℕ) :
    (numNodes1d order + stride order - 1) / stride order = numVerts1d order ∧
    ∀ a < numVerts1d order, stride order * a < numNodes1d order := by
  unfold numNodes1d numVerts1d stride
  by_cases h : order = 0
  · subst h; simp
  · simp only [h, if_false]
    exact ⟨by omega, fun a ha => by omega⟩

theorem vertNodeLoop_eq (n st T : ℕ) (hT : (n + st - 1) / st = T) (m : ℕ → ℕ) (a b c : ℕ)
    (ha : a < T) (hb : b < T) (hc : c < T) :
    (vertNodeLoop n st m).1 (rid T a b c) = rid n (st * a) (st * b) (st * c) := by
  unfold vertNodeLoop
  simp only [hT]
  have hT0 : 0 < T := by omega
  have inner : ∀ j k (m : ℕ → ℕ) c, loop T (fun i s =>
      (store s.1 s.2 (rid n (st * i) (st * j) (st * k)), s.2 + 1)) (m, c) = _ := fun j k m c =>
    loop_push T (fun i => rid n (st * i) (st * j) (st * k)) m c
  have mid : ∀ k (m : ℕ → ℕ) c, loop T (fun j s => loop T (fun i s =>
      (store s.1 s.2 (rid n (st * i) (st * j) (st * k)), s.2 + 1)) s) (m, c) = _ := fun k m c =>
    loop_append T T hT0 (fun j p => rid n (st * p) (st * j) (st * k)) _
      (fun j _ m c => inner j k m c) m c
  have outer := loop_append T (T * T) (Nat.mul_pos hT0 hT0)
      (fun k p => rid n (st * (p % T)) (st * (p / T)) (st * k))
      (fun k s => loop T (fun j s => loop T (fun i s =>
      (store s.1 s.2 (rid n (st * i) (st * j) (st * k)), s.2 + 1)) s) s)
      (fun k _ m c => mid k m c) m 0
  have outer1 := congrArg Prod.fst outer
  rw [show (loop T (fun k s => loop T (fun j s => loop T (fun i s =>
      (store s.1 s.2 (rid n (st * i) (st * j) (st * k)), s.2 + 1)) s) s) (m, 0)).1 = _ from outer1]
  have hlt : rid T a b c < T * (T * T) := by
    have := lex3_lt ha hb hc
    unfold rid; rw [← Nat.mul_assoc]; exact this
  simp only [Nat.zero_le, Nat.zero_add, true_and, if_pos hlt, Nat.sub_zero]
  obtain ⟨h1, h2, h3⟩ := lex3_mod (k := c) ha hb
  have e1 : rid T a b c / (T * T) = c := by rw [← Nat.div_div_eq_div_mul]; exact h3
  have e2 : rid T a b c % (T * T) = a + b * T := by
    have hab : a + b * T < T * T := by
      calc a + b * T < T + b * T := by omega
        _ = (b + 1) * T := by ring
        _ ≤ T * T := Nat.mul_le_mul_right _ (by omega)
    have : rid T a b c = (a + b * T) + (T * T) * c := by unfold rid; ring
    rw [this, Nat.add_mul_mod_self_left, Nat.mod_eq_of_lt hab]
  have e3 : (a + b * T) % T = a := by rw [Nat.add_mul_mod_self_right, Nat.mod_eq_of_lt ha]
  have e4 : (a + b * T) / T = b := by
    rw [Nat.add_mul_div_right _ _ hT0, Nat.div_eq_of_lt ha, Nat.zero_add]
  rw [e1, e2, e3, e4]

theorem nodeCoords_eq (n : ℕ) (nodes : ℕ → K) (c : ℕ → ℕ → K) (i j k : ℕ) (hi : i < n) (hj : j < n)
    (hk : k < n) :
    nodeCoords n nodes c (rid n i j k) 0 = nodes i ∧ nodeCoords n nodes c (rid n i j k) 1 = nodes j ∧
    nodeCoords n nodes c (rid n i j k) 2 = nodes k := by
  have h : Fills2 (nodeCoords n nodes) (fun p d => ∃ k < n, ∃ j < n, ∃ i < n,
      ((p = rid n i j k ∧ d = 0) ∨ (p = rid n i j k ∧ d = 1)) ∨ (p = rid n i j k ∧ d = 2))
      (fun p d => if d = 0 then nodes (p % n) else if d = 1 then nodes (p / n % n)
        else nodes (p / n / n)) := by
    unfold nodeCoords
    refine Fills2.loop fun k hk => Fills2.loop fun j hj => Fills2.loop fun i hi => ?_
    obtain ⟨h1, h2, h3⟩ := lex3_mod (k := k) hi hj
    refine Fills2.comp (Fills2.comp (Fills2.store ?_) (Fills2.store ?_)) (Fills2.store ?_)
    · simp [rid, h1]
    · simp [rid, h2]
    · simp [rid, h3]
  obtain ⟨h1, h2, h3⟩ := lex3_mod (k := k) hi hj
  refine ⟨?_, ?_, ?_⟩
  · rw [(h c _ 0).1 ⟨k, hk, j, hj, i, hi, Or.inl (Or.inl ⟨rfl, rfl⟩)⟩]; simp [rid, h1]
  · rw [(h c _ 1).1 ⟨k, hk, j, hj, i, hi, Or.inl (Or.inr ⟨rfl, rfl⟩)⟩]; simp [rid, h2]
  · rw [(h c _ 2).1 ⟨k, hk, j, hj, i, hi, Or.inr ⟨rfl, rfl⟩⟩]; simp [rid, h3]

/-- C60: after `setup_HexN(order)`, for every order and every 1-D node table `nodes`: the number of nodes
per direction is `2*order+1` (2 for order 0) and of vertices `order+1` (2); the vertex with lattice
coordinates `(a,b,c)` is mapped to the node with lattice coordinates `st*(a,b,c)`; and the coordinates
stored for that node are exactly the 1-D vertex positions `HexN_Verts_1d_(a), (b), (c)`, so that the basis
(which uses the vertex positions) is nodal at the mapped nodes. -/
theorem C60_setup (order : ℕ) (nodes w : ℕ → K) (m : ℕ → ℕ) (cc : ℕ → ℕ → K) (a b c : ℕ)
    (ha : a < numVerts1d order) (hb : b < numVerts1d order) (hc : c < numVerts1d order) :
    let nn := numNodes1d order
    let nv := numVerts1d order
    let st := if order = 0 then 1 else 2
    let node := vertNodeMap order m (a + b * nv + c * nv * nv)
    node = st * a + st * b * nn + st * c * nn * nn ∧ node < nn * nn * nn ∧
    nodeCoords nn nodes cc node 0 = verts1d order nodes w a ∧
    nodeCoords nn nodes cc node 1 = verts1d order nodes w b ∧
    nodeCoords nn nodes cc node 2 = verts1d order nodes w c ∧
    verts1d order nodes w a = nodes (st * a) := by
  simp only []
  obtain ⟨hT, hlt⟩ := trips_eq order
  have hst : stride order = if order = 0 then 1 else 2 := rfl
  have V : ∀ a < numVerts1d order, verts1d order nodes w a = nodes (stride order * a) := by
    intro a ha
    unfold verts1d
    simp only [← hst, hT]
    rw [loop_push (numVerts1d order) (fun i => nodes (stride order * i))]
    simp [ha]
  have N := vertNodeLoop_eq (numNodes1d order) (stride order) _ hT m a b c ha hb hc
  have e : vertNodeMap order m (a + b * numVerts1d order + c * numVerts1d order * numVerts1d order) =
      rid (numNodes1d order) (stride order * a) (stride order * b) (stride order * c) := N
  have C := nodeCoords_eq (numNodes1d order) nodes cc _ _ _ (hlt a ha) (hlt b hb) (hlt c hc)
  rw [e, ← hst, V a ha, V b hb, V c hc]
  exact ⟨rfl, lex3_lt (hlt a ha) (hlt b hb) (hlt c hc), C.1, C.2.1, C.2.2, rfl⟩

/-- Non-vacuity: order 3, vertex (1,2,3). -/
example : (1 < numVerts1d 3 ∧ 2 < numVerts1d 3 ∧ 3 < numVerts1d 3) ∧
    vertNodeMap 3 (fun _ => 0) (1 + 2 * 4 + 3 * 4 * 4) = 2 + 4 * 7 + 6 * 7 * 7 := by decide +kernel

/-! ### C61: QuadN physical position and corners -/

/-- What `QuadN::physical_position` computes: it adds the interpolated position to whatever the output
array contained. -/
theorem C61_position (n : ℕ) (nodes : ℕ → ℕ → K) (b x0 : ℕ → K) (d : ℕ) (hd : d < 2) :
    quadPhysicalPosition n nodes b x0 d = x0 d + ∑ v ∈ range (n * n), nodes v d * b v := by
  have key : ∀ m, loop m (fun v p => loop 2 (fun d p => store p d (p d + nodes v d * b v)) p) x0 =
      fun d => if d < 2 then x0 d + ∑ v ∈ range m, nodes v d * b v else x0 d := by
    intro m
    induction m with
    | zero => funext d; simp
    | succ m ih =>
      rw [loop_succ, ih]
      funext d
      show store (store _ 0 _) 1 _ d = _
      by_cases h0 : d = 0
      · subst h0; simp [store, loop, sum_range_succ, add_assoc]
      · by_cases h1 : d = 1
        · subst h1; simp [store, loop, sum_range_succ, add_assoc]
        · have : ¬ d < 2 := by omega
          simp [store, loop, h0, h1, show ¬ d ≤ 1 by omega]
  unfold quadPhysicalPosition
  rw [key]
  simp [hd]

/-- C61 (partial): with a cleared output array, the basis values of `basis_partials` and pairwise distinct
vertices, `physical_position` maps an affine image of the reference vertices to the image of the
point: if `lag_nodes(i + n*j, d) = A + B*z_i + C*z_j` the result is `A + B*ξ + C*η`.
Missing: a non-zero previous output, for which the claim is false (`C61_negation`). -/
theorem C61_affine_partial (n : ℕ) (hn : 1 < n) (z pt : ℕ → K) (hz : Set.InjOn z (range n : Set ℕ))
    (s : QuadState K) (nodes : ℕ → ℕ → K) (d : ℕ) (hd : d < 2) (A B C : K)
    (hA : ∀ i < n, ∀ j < n, nodes (i + n * j) d = A + B * z i + C * z j)
    (x0 : ℕ → K) (h0 : x0 d = 0) :
    quadPhysicalPosition n nodes (quadBasisPartials n z pt s).basis x0 d = A + B * pt 0 + C * pt 1 := by
  rw [C61_position _ _ _ _ _ hd, h0, zero_add]
  have hzL : ∀ x, ∑ i ∈ range n, z i * L n z i x = x := by
    intro x
    have h := Lagrange.eq_interpolate_of_eval_eq (s := range n) (v := z) (r := z) (f := X) hz
      (by rw [degree_X, card_range]; exact_mod_cast hn) (fun i _ => by simp)
    have h2 := congrArg (Polynomial.eval x) h
    rw [eval_X, Lagrange.interpolate_apply, eval_finsetSum] at h2
    rw [h2]
    refine sum_congr rfl fun i _ => ?_
    rw [eval_mul, eval_C]; rw [← h2]; rfl
  have h1 : ∀ x, ∑ i ∈ range n, L n z i x = 1 := sum_L n z hz (by omega)
  rw [sum_range_mul]
  have step : ∀ j ∈ range n, ∑ i ∈ range n, nodes (i + n * j) d *
      (quadBasisPartials n z pt s).basis (i + n * j) =
      (A + C * z j + B * pt 0) * L n z j (pt 1) := by
    intro j hj
    have : ∀ i ∈ range n, nodes (i + n * j) d * (quadBasisPartials n z pt s).basis (i + n * j) =
        (A + C * z j) * L n z j (pt 1) * L n z i (pt 0) +
          B * L n z j (pt 1) * (z i * L n z i (pt 0)) := by
      intro i hi
      rw [hA i (mem_range.1 hi) j (mem_range.1 hj),
        (C29_quadn n z pt s i j (mem_range.1 hi) (mem_range.1 hj)).2.2.1]
      ring
    rw [sum_congr rfl this, sum_add_distrib, ← mul_sum, ← mul_sum, h1, hzL]
    ring
  rw [sum_congr rfl step]
  have : ∀ j ∈ range n, (A + C * z j + B * pt 0) * L n z j (pt 1) =
      (A + B * pt 0) * L n z j (pt 1) + C * (z j * L n z j (pt 1)) := fun j _ => by ring
  rw [sum_congr rfl this, sum_add_distrib, ← mul_sum, ← mul_sum, h1, hzL]
  ring

/-- C61 negation: calling `physical_position` twice with the same arguments, the second time into the same
output array, does not return the position of the point: the bilinear element with vertices at its own
reference positions gives `(2,2)` instead of `(1,1)` at the vertex `(1,1)`. -/
theorem C61_negation :
    ∃ (n : ℕ) (z pt : ℕ → ℚ) (s : QuadState ℚ) (x0 : ℕ → ℚ),
      let r := quadBasisPartials n z pt s
      let once := quadPhysicalPosition n r.nodes r.basis x0
      let twice := quadPhysicalPosition n r.nodes r.basis once
      (once 0 = pt 0 ∧ once 1 = pt 1) ∧ twice 0 ≠ pt 0 := by
  refine ⟨2, fun i => 2 * i - 1, fun _ => 1, ⟨fun _ _ => 0, fun _ => 0, fun _ => 0, fun _ _ => 0,
    fun _ _ => 0, fun _ => 0, fun _ _ => 0⟩, fun _ => 0, ?_⟩
  decide +kernel

/-- C61: `QuadN::corners` copies the four lattice corners A, B, C, D = (0,0), (N-1,0), (0,N-1),
(N-1,N-1) of the nodes filled by `basis_partials`. -/
theorem C61_corners (n : ℕ) (hn : 0 < n) (nodes c : ℕ → ℕ → K) (k d : ℕ) (hk : k < 4) (hd : d < 2) :
    quadCorners n nodes c k d =
      nodes ((if k % 2 = 0 then 0 else n - 1) + n * (if k / 2 = 0 then 0 else n - 1)) d := by
  have key : quadCorners n nodes c k d = nodes (if k = 0 then 0 else if k = 1 then n - 1 else
    if k = 2 then n * n - n else n * n - 1) d := by
    unfold quadCorners
    rw [show (loop 4 (fun k c => loop 2 (fun d c => store2 c k d (nodes (if k = 0 then 0 else
      if k = 1 then n - 1 else if k = 2 then n * n - n else n * n - 1) d)) c) c) = _ from
      loop_store2 4 2 (fun k d _ => nodes (if k = 0 then 0 else
      if k = 1 then n - 1 else if k = 2 then n * n - n else n * n - 1) d) c]
    simp [hk, hd]
  rw [key]
  have e1 : n * (n - 1) = n * n - n := by rw [Nat.mul_sub, Nat.mul_one]
  have e2 : n - 1 + (n * n - n) = n * n - 1 := by
    have : n ≤ n * n := Nat.le_mul_of_pos_left n hn
    omega
  have : k = 0 ∨ k = 1 ∨ k = 2 ∨ k = 3 := by omega
  rcases this with rfl | rfl | rfl | rfl <;> simp [e1, e2]

/-- Non-vacuity of `C61_affine_partial`: the bilinear element with vertices ±1. -/
example : Set.InjOn (fun i : ℕ => (2 * i - 1 : ℚ)) (range 2 : Set ℕ) :=
  fun a _ b _ h => by
    have : (2 * a - 1 : ℚ) = 2 * b - 1 := h
    have : (a : ℚ) = b := by linear_combination this / 2
    exact_mod_cast this

end Verif.HexN
