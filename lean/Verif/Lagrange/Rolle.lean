import Mathlib.LinearAlgebra.Lagrange
import Mathlib.Analysis.Calculus.LocalExtr.Rolle
import Mathlib.Analysis.Calculus.IteratedDeriv.Lemmas
import Mathlib.Analysis.Calculus.ContDiff.Deriv
import Mathlib.Analysis.Calculus.ContDiff.Polynomial
import Mathlib.Analysis.Calculus.Deriv.Polynomial
import Mathlib.Tactic.Linarith

/-!
# The error of polynomial interpolation

General analysis, used by C71 and C72: Rolle's theorem for many zeros, and the classical expressions of the error of the interpolant and of
its derivative at a node.
-/

namespace Verif.Lagrange
open Finset Polynomial

/-- Between the zeros of `g` there are zeros of its derivative: one less, and none of them a zero of the list. -/
theorem rolle_finset {g : ℝ → ℝ} (hg : Continuous g) (s : Finset ℝ) (hs : ∀ x ∈ s, g x = 0) :
    ∃ t : Finset ℝ, t.card = s.card - 1 ∧ ∀ x ∈ t, deriv g x = 0 ∧ x ∉ s ∧ (∃ y ∈ s, y < x) ∧ ∃ y ∈ s, x < y := by
  induction s using Finset.induction_on_max with
  | empty => exact ⟨∅, rfl, fun x hx => absurd hx (by simp)⟩
  | insert a s ha ih =>
    obtain ⟨t, ht1, ht2⟩ := ih fun x hx => hs x (mem_insert_of_mem hx)
    have hna : a ∉ s := fun h => lt_irrefl a (ha a h)
    rcases s.eq_empty_or_nonempty with rfl | hne
    · exact ⟨∅, rfl, fun x hx => absurd hx (by simp)⟩
    · set b := s.max' hne with hb
      have hbs : b ∈ s := s.max'_mem hne
      obtain ⟨c, hc, hc0⟩ := exists_deriv_eq_zero (ha b hbs) hg.continuousOn
        ((hs b (mem_insert_of_mem hbs)).trans (hs a (mem_insert_self a s)).symm)
      have hct : c ∉ t := by
        intro h
        obtain ⟨-, -, -, y, hy, hcy⟩ := ht2 c h
        have := s.le_max' y hy
        linarith [hc.1]
      refine ⟨insert c t, ?_, ?_⟩
      · rw [card_insert_of_notMem hct, card_insert_of_notMem hna, ht1]
        have := hne.card_pos
        omega
      · intro x hx
        rcases mem_insert.1 hx with rfl | hx
        · refine ⟨hc0, ?_, ⟨b, mem_insert_of_mem hbs, hc.1⟩, ⟨a, mem_insert_self a s, hc.2⟩⟩
          intro h
          rcases mem_insert.1 h with h | h
          · exact absurd hc.2 (by rw [h]; exact lt_irrefl a)
          · have := s.le_max' x h
            linarith [hc.1]
        · obtain ⟨h1, h2, ⟨y, hy, hyx⟩, ⟨z, hz, hxz⟩⟩ := ht2 x hx
          refine ⟨h1, ?_, ⟨y, mem_insert_of_mem hy, hyx⟩, ⟨z, mem_insert_of_mem hz, hxz⟩⟩
          intro h
          rcases mem_insert.1 h with h | h
          · have := ha z hz
            linarith
          · exact h2 h

/-- A function with `n + 1` zeros in an interval has a zero of its `n`-th derivative there. -/
theorem rolle_iter (n : ℕ) : ∀ {g : ℝ → ℝ}, ContDiff ℝ n g → ∀ {a b : ℝ} (s : Finset ℝ), s.card = n + 1 →
    (∀ x ∈ s, g x = 0 ∧ a ≤ x ∧ x ≤ b) → ∃ c, a ≤ c ∧ c ≤ b ∧ iteratedDeriv n g c = 0 := by
  induction n with
  | zero =>
    intro g hg a b s hc hs
    obtain ⟨x, hx⟩ := card_pos.1 (by omega : 0 < s.card)
    exact ⟨x, (hs x hx).2.1, (hs x hx).2.2, by rw [iteratedDeriv_zero]; exact (hs x hx).1⟩
  | succ n ih =>
    intro g hg a b s hc hs
    obtain ⟨t, ht1, ht2⟩ := rolle_finset hg.continuous s fun x hx => (hs x hx).1
    have hg' : ContDiff ℝ n (deriv g) := by
      have : ContDiff ℝ ((n : WithTop ℕ∞) + 1) g := by exact_mod_cast hg
      exact (contDiff_succ_iff_deriv.1 this).2.2
    obtain ⟨c, h1, h2, h3⟩ := ih hg' t (by omega) (a := a) (b := b) (by
      intro x hx
      obtain ⟨h1, -, ⟨y, hy, hyx⟩, ⟨z, hz, hxz⟩⟩ := ht2 x hx
      exact ⟨h1, le_trans (hs y hy).2.1 hyx.le, le_trans hxz.le (hs z hz).2.2⟩)
    exact ⟨c, h1, h2, by rw [iteratedDeriv_succ']; exact h3⟩

theorem poly_contDiff {n : WithTop ℕ∞} (Q : ℝ[X]) : ContDiff ℝ n fun x => Q.eval x := by
  simpa only [Polynomial.coe_aeval_eq_eval] using Q.contDiff_aeval (𝕜 := ℝ) n

theorem iteratedDeriv_poly (n : ℕ) : ∀ Q : ℝ[X], iteratedDeriv n (fun x => Q.eval x) = fun x => (derivative^[n] Q).eval x := by
  induction n with
  | zero => intro Q; rw [iteratedDeriv_zero]; rfl
  | succ n ih =>
    intro Q
    rw [iteratedDeriv_succ']
    have : deriv (fun x => Q.eval x) = fun x => (derivative Q).eval x := by funext x; exact Q.deriv
    rw [this, ih]
    rfl

/-- The `n`-th derivative of a polynomial of degree at most `n`. -/
theorem top_deriv {n : ℕ} {Q : ℝ[X]} (hQ : Q.natDegree ≤ n) (x : ℝ) : (derivative^[n] Q).eval x = n.factorial * Q.coeff n := by
  have : derivative^[n] Q = C ((n.factorial : ℝ) * Q.coeff n) := by
    ext m
    rw [coeff_iterate_derivative, coeff_C]
    by_cases h : m = 0
    · subst h
      rw [if_pos rfl, Nat.zero_add, Nat.descFactorial_self, nsmul_eq_mul]
    · rw [if_neg h, coeff_eq_zero_of_natDegree_lt (by omega), smul_zero]
  rw [this, eval_C]

section
variable {N : ℕ} {Z : ℕ → ℝ} {f : ℝ → ℝ} {a b : ℝ}

/-- `P + K ω`, where `P` interpolates `f` and `ω` vanishes at the nodes. -/
noncomputable def bent (N : ℕ) (Z : ℕ → ℝ) (f : ℝ → ℝ) (K : ℝ) : ℝ[X] :=
  Lagrange.interpolate (range N) Z (fun j => f (Z j)) + C K * Lagrange.nodal (range N) Z

theorem bent_top (hZ : Set.InjOn Z (range N)) (K x : ℝ) : (derivative^[N] (bent N Z f K)).eval x = N.factorial * K := by
  have hP : (Lagrange.interpolate (range N) Z fun j => f (Z j)).degree < (N : WithBot ℕ) := by
    have := Lagrange.degree_interpolate_lt (fun j => f (Z j)) hZ
    rwa [card_range] at this
  have hn : (Lagrange.nodal (range N) Z).natDegree = N := by rw [Lagrange.natDegree_nodal, card_range]
  have hd : (bent N Z f K).natDegree ≤ N := by
    unfold bent
    refine (natDegree_add_le _ _).trans (max_le (natDegree_le_of_degree_le hP.le) ?_)
    exact (natDegree_C_mul_le _ _).trans hn.le
  rw [top_deriv hd]
  congr 1
  unfold bent
  rw [coeff_add, coeff_eq_zero_of_degree_lt hP, zero_add, coeff_C_mul]
  have h1 : (Lagrange.nodal (range N) Z).coeff N = 1 := by
    have := (Lagrange.nodal_monic (s := range N) (v := Z)).coeff_natDegree
    rwa [hn] at this
  rw [h1, mul_one]

theorem bent_node (hZ : Set.InjOn Z (range N)) (K : ℝ) {j : ℕ} (hj : j < N) : (bent N Z f K).eval (Z j) = f (Z j) := by
  unfold bent
  rw [eval_add, eval_mul, Lagrange.eval_interpolate_at_node _ hZ (mem_range.2 hj), Lagrange.eval_nodal_at_node (mem_range.2 hj), mul_zero,
    add_zero]

theorem bent_deriv (hf : ContDiff ℝ N f) (hZ : Set.InjOn Z (range N)) (K x : ℝ) :
    iteratedDeriv N (fun x => f x - (bent N Z f K).eval x) x = iteratedDeriv N f x - N.factorial * K := by
  rw [iteratedDeriv_fun_sub hf.contDiffAt (poly_contDiff _).contDiffAt, iteratedDeriv_poly]
  simp only [bent_top hZ]

/-- Error of the interpolant of `f` at the `N` distinct points `Z 0, …, Z (N - 1)` of `[a, b]`. -/
theorem interpolate_error (hf : ContDiff ℝ N f) (hZ : Set.InjOn Z (range N)) (hab : ∀ j < N, a ≤ Z j ∧ Z j ≤ b) {x : ℝ} (ha : a ≤ x) (hb : x ≤ b) :
    ∃ c, a ≤ c ∧ c ≤ b ∧ f x - (Lagrange.interpolate (range N) Z fun j => f (Z j)).eval x =
      iteratedDeriv N f c / N.factorial * ∏ j ∈ range N, (x - Z j) := by
  by_cases hx : ∃ j < N, x = Z j
  · obtain ⟨j, hj, rfl⟩ := hx
    refine ⟨Z j, ha, hb, ?_⟩
    rw [Lagrange.eval_interpolate_at_node _ hZ (mem_range.2 hj), sub_self, prod_eq_zero (mem_range.2 hj) (sub_self _), mul_zero]
  · have hw : ∏ j ∈ range N, (x - Z j) ≠ 0 := by
      rw [prod_ne_zero_iff]
      intro j hj h
      exact hx ⟨j, mem_range.1 hj, by linarith⟩
    set w := ∏ j ∈ range N, (x - Z j) with hwd
    set K := (f x - (Lagrange.interpolate (range N) Z fun j => f (Z j)).eval x) / w with hK
    have hbx : (bent N Z f K).eval x = f x := by
      unfold bent
      rw [eval_add, eval_mul, eval_C, Lagrange.eval_nodal, ← hwd, hK, div_mul_cancel₀ _ hw]
      ring
    have hxs : x ∉ (range N).image Z := by
      intro h
      obtain ⟨j, hj, h⟩ := mem_image.1 h
      exact hx ⟨j, mem_range.1 hj, h.symm⟩
    obtain ⟨c, h1, h2, h3⟩ := rolle_iter N (g := fun x => f x - (bent N Z f K).eval x) (hf.sub (poly_contDiff _)) (a := a) (b := b)
      (insert x ((range N).image Z)) (by rw [card_insert_of_notMem hxs, card_image_of_injOn hZ, card_range]) (by
        intro y hy
        rcases mem_insert.1 hy with rfl | hy
        · exact ⟨by simp only [hbx, sub_self], ha, hb⟩
        · obtain ⟨j, hj, rfl⟩ := mem_image.1 hy
          have hj := mem_range.1 hj
          exact ⟨by simp only [bent_node hZ K hj, sub_self], hab j hj⟩)
    refine ⟨c, h1, h2, ?_⟩
    rw [bent_deriv hf hZ] at h3
    have hfac : (N.factorial : ℝ) ≠ 0 := by exact_mod_cast N.factorial_ne_zero
    have : iteratedDeriv N f c / N.factorial = K := by
      rw [div_eq_iff hfac]; linarith
    rw [this, hK, div_mul_cancel₀ _ hw]

/-- Error of the derivative of the interpolant at a node. -/
theorem interpolate_deriv_error (hf : ContDiff ℝ N f) (hZ : Set.InjOn Z (range N)) (hab : ∀ j < N, a ≤ Z j ∧ Z j ≤ b) {i : ℕ} (hi : i < N) :
    ∃ c, a ≤ c ∧ c ≤ b ∧ deriv f (Z i) - (derivative (Lagrange.interpolate (range N) Z fun j => f (Z j))).eval (Z i) =
      iteratedDeriv N f c / N.factorial * ∏ j ∈ (range N).erase i, (Z i - Z j) := by
  obtain ⟨n, rfl⟩ : ∃ n, N = n + 1 := ⟨N - 1, by omega⟩
  have hw : ∏ j ∈ (range (n + 1)).erase i, (Z i - Z j) ≠ 0 := by
    rw [prod_ne_zero_iff]
    intro j hj h
    have hj := mem_erase.1 hj
    exact hj.1 (hZ hj.2 (mem_range.2 hi) (by linarith))
  set w := ∏ j ∈ (range (n + 1)).erase i, (Z i - Z j) with hwd
  set P := Lagrange.interpolate (range (n + 1)) Z fun j => f (Z j) with hP
  set K := (deriv f (Z i) - (derivative P).eval (Z i)) / w with hK
  set g : ℝ → ℝ := fun x => f x - (bent (n + 1) Z f K).eval x with hg
  have hdf : ContDiff ℝ ((n : WithTop ℕ∞) + 1) f := by exact_mod_cast hf
  have hgc : ContDiff ℝ ((n : WithTop ℕ∞) + 1) g := hdf.sub (poly_contDiff _)
  have hgd := contDiff_succ_iff_deriv.1 hgc
  have hderiv : ∀ x, deriv g x = deriv f x - (derivative (bent (n + 1) Z f K)).eval x := by
    intro x
    have h1 := (contDiff_succ_iff_deriv.1 hdf).1 x
    exact (h1.hasDerivAt.sub ((bent (n + 1) Z f K).hasDerivAt x)).deriv
  have hgi : deriv g (Z i) = 0 := by
    rw [hderiv]
    unfold bent
    rw [derivative_add, derivative_C_mul, eval_add, eval_mul, eval_C, Lagrange.eval_nodal_derivative_eval_node_eq (mem_range.2 hi),
      Lagrange.eval_nodal, ← hwd, hK, div_mul_cancel₀ _ hw]
    ring
  have hz : ∀ x ∈ (range (n + 1)).image Z, g x = 0 ∧ a ≤ x ∧ x ≤ b := by
    intro x hx
    obtain ⟨j, hj, rfl⟩ := mem_image.1 hx
    have hj := mem_range.1 hj
    exact ⟨by simp only [hg, bent_node hZ K hj, sub_self], hab j hj⟩
  have hcard : ((range (n + 1)).image Z).card = n + 1 := by rw [card_image_of_injOn hZ, card_range]
  obtain ⟨t, ht1, ht2⟩ := rolle_finset hgd.1.continuous ((range (n + 1)).image Z) fun x hx => (hz x hx).1
  have hmem : Z i ∈ (range (n + 1)).image Z := mem_image_of_mem _ (mem_range.2 hi)
  have hit : Z i ∉ t := fun h => (ht2 _ h).2.1 hmem
  obtain ⟨c, h1, h2, h3⟩ := rolle_iter n hgd.2.2 (a := a) (b := b) (insert (Z i) t)
    (by rw [card_insert_of_notMem hit, ht1, hcard]; omega) (by
      intro y hy
      rcases mem_insert.1 hy with rfl | hy
      · exact ⟨hgi, hab i hi⟩
      · obtain ⟨h1, -, ⟨u, hu, huy⟩, ⟨v, hv, hyv⟩⟩ := ht2 y hy
        exact ⟨h1, le_trans (hz u hu).2.1 huy.le, le_trans hyv.le (hz v hv).2.2⟩)
  refine ⟨c, h1, h2, ?_⟩
  rw [← iteratedDeriv_succ', hg, bent_deriv hf hZ] at h3
  have hfac : (((n + 1).factorial : ℕ) : ℝ) ≠ 0 := by exact_mod_cast (n + 1).factorial_ne_zero
  have : iteratedDeriv (n + 1) f c / (n + 1).factorial = K := by
    rw [div_eq_iff hfac]; linarith
  rw [this, hK, div_mul_cancel₀ _ hw]

end

end Verif.Lagrange
