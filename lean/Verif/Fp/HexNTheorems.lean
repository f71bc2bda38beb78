import Verif.Fp.HexNLemmas
import Verif.Fp.LagrangeDerTheorems
import Verif.Fp.Eval64
import Verif.HexN.Theorems

/-!
# C107: the arbitrary-order elements `HexN` and `QuadN` in rounded arithmetic

The specification is Mathlib's `Lagrange.basis` and its derivative, the constant `gam k = k u / (1 - k u)`, and two quantities of
the literature: the Lebesgue function `Leb` (the sum of the absolute values of the basis functions) and `dAbs` (the sum of the
absolute values of the terms of the product rule).
-/

namespace Verif.Fp.HexN
open Verif.Fp Finset
open Verif.Fp.Interp (gam)
open Verif.HexN (L dL QuadState)

/-- The `i`-th Lagrange basis polynomial on `z 0, ..., z (n-1)` at `x`. -/
noncomputable def ell (n : ℕ) (z : ℕ → ℝ) (i : ℕ) (x : ℝ) : ℝ := (Lagrange.basis (range n) z i).eval x
/-- Its derivative. -/
noncomputable def dell (n : ℕ) (z : ℕ → ℝ) (i : ℕ) (x : ℝ) : ℝ :=
  (Polynomial.derivative (Lagrange.basis (range n) z i)).eval x
/-- The terms of the product rule for `dell`, in absolute value. -/
noncomputable def dAbs (n : ℕ) (z : ℕ → ℝ) (i : ℕ) (x : ℝ) : ℝ :=
  ∑ j ∈ (range n).erase i, |(∏ N ∈ ((range n).erase i).erase j, (x - z N)) / ∏ j ∈ (range n).erase i, (z i - z j)|
/-- The Lebesgue function. -/
noncomputable def Leb (n : ℕ) (z : ℕ → ℝ) (x : ℝ) : ℝ := ∑ i ∈ range n, |ell n z i x|

variable {R : Rounding}

/-! ### One dimension -/

/-- **C107** (1-D values). Every stored value of a 1-D basis function has a small relative error, at every point, for every
distribution of the vertices. -/
theorem C107_basis1d (hu : R.u < 1) (n : ℕ) (z : ℕ → ℝ) (x : ℝ) (a b : ℕ → ℝ) {i : ℕ} (hi : i < n)
    (hk : (4 * n + 1 : ℕ) * R.u < 1) :
    |lagrangeBasis1D R n z x a i - ell n z i x| ≤ gam R (4 * n + 1) * |ell n z i x| ∧
    |(quadLagrange1D R n z x a b).1 i - ell n z i x| ≤ gam R (4 * n + 1) * |ell n z i x| := by
  rw [lagrangeBasis1D_eq n z x a i hi, (quadLagrange1D_eq n z x a b i hi).1]
  exact ⟨(lF_rel hu n z x i).err hu hk, (lF_rel hu n z x i).err hu hk⟩

/-- **C107** (1-D values at the vertices). At the vertices the values are 0 and 1, without any error. -/
theorem C107_nodal1d (hu : R.u < 1) (n : ℕ) (z : ℕ → ℝ) (hz : Set.InjOn z (range n : Set ℕ)) (a b : ℕ → ℝ) {i j : ℕ}
    (hi : i < n) (hj : j < n) :
    lagrangeBasis1D R n z (z j) a i = (if i = j then 1 else 0) ∧
    (quadLagrange1D R n z (z j) a b).1 i = if i = j then 1 else 0 := by
  rw [lagrangeBasis1D_eq n z _ a i hi, (quadLagrange1D_eq n z _ a b i hi).1, and_self]
  by_cases h : i = j
  · subst h; rw [if_pos rfl, lF_self hu n z hz hi]
  · rw [if_neg h, lF_other hu n z hj h]

/-- **C107** (1-D derivatives). The error of a stored derivative is small compared with the sum of the absolute values of the
terms of the product rule. -/
theorem C107_der1d (hu : R.u < 1) (n : ℕ) (z : ℕ → ℝ) (x : ℝ) (a b : ℕ → ℝ) {i : ℕ} (hi : i < n)
    (hk : (5 * n + 1 : ℕ) * R.u < 1) :
    |lagrangeDerivative1D R n z x a i - dell n z i x| ≤ gam R (5 * n + 1) * dAbs n z i x ∧
    |(quadLagrange1D R n z x b a).2 i - dell n z i x| ≤ gam R (5 * n + 1) * dAbs n z i x := by
  rw [lagrangeDerivative1D_eq n z x a i hi, (quadLagrange1D_eq n z x b a i hi).2, and_self]
  have h := (dF_acc hu n z x i).err hu hk
  rw [sum_terms] at h
  exact h

/-- **C107** (differentiation matrix). At the other vertices the derivative of a basis function has a small *relative* error. -/
theorem C107_der1d_vertex (hu : R.u < 1) (n : ℕ) (z : ℕ → ℝ) (a : ℕ → ℝ) {i j : ℕ} (hi : i < n) (hj : j < n) (hij : i ≠ j)
    (hk : (5 * n + 1 : ℕ) * R.u < 1) :
    |lagrangeDerivative1D R n z (z j) a i - dell n z i (z j)| ≤ gam R (5 * n + 1) * |dell n z i (z j)| := by
  have h := (C107_der1d hu n z (z j) a a hi hk).1
  have hj' : j ∈ (range n).erase i := mem_erase.2 ⟨hij.symm, mem_range.2 hj⟩
  have hz : ∀ b ∈ (range n).erase i, b ≠ j → ∏ N ∈ ((range n).erase i).erase b, (z j - z N) = 0 := fun b hb hbj =>
    prod_eq_zero (mem_erase.2 ⟨hbj.symm, hj'⟩) (sub_self _)
  have e : dAbs n z i (z j) = |dell n z i (z j)| := by
    show _ = |dL n z i (z j)|
    rw [← sum_terms]
    unfold dAbs
    rw [sum_eq_single_of_mem j hj' fun b hb hbj => by rw [hz b hb hbj, zero_div, abs_zero],
      sum_eq_single_of_mem j hj' fun b hb hbj => by rw [hz b hb hbj, zero_div]]
  rwa [e] at h

/-! ### HexN -/

theorem hexn_eq (n : ℕ) (z pt v dv : ℕ → ℝ) (t dt : ℕ → ℕ → ℝ) (b : ℕ → ℝ) {i j k : ℕ} (hi : i < n) (hj : j < n) (hk : k < n) :
    basis R n z pt v t b (i + j * n + k * n * n) =
      R.fl (R.fl (lF R n z (pt 0) i * lF R n z (pt 1) j) * lF R n z (pt 2) k) ∧
    partialXi R n z pt v dv t dt b (i + j * n + k * n * n) =
      R.fl (R.fl (dF R n z (pt 0) i * lF R n z (pt 1) j) * lF R n z (pt 2) k) ∧
    partialEta R n z pt v dv t dt b (i + j * n + k * n * n) =
      R.fl (R.fl (lF R n z (pt 0) i * dF R n z (pt 1) j) * lF R n z (pt 2) k) ∧
    partialMu R n z pt v dv t dt b (i + j * n + k * n * n) =
      R.fl (R.fl (lF R n z (pt 0) i * lF R n z (pt 1) j) * dF R n z (pt 2) k) := by
  have T := fun f => Verif.HexN.tensor_eq n f b i j k hi hj hk
  unfold Verif.HexN.rid at T
  unfold basis partialXi partialEta partialMu
  refine ⟨?_, ?_, ?_, ?_⟩ <;>
  · rw [T]
    simp [Verif.HexN.saveColumn_eq, Verif.HexN.saveColumnOther_eq, hi, hj, hk, lagrangeBasis1D_eq, lagrangeDerivative1D_eq]

/-- **C107** (HexN basis). Every value of `HexN::basis` has a small relative error. -/
theorem C107_hexn_basis (hu : R.u < 1) (n : ℕ) (z pt v : ℕ → ℝ) (t : ℕ → ℕ → ℝ) (b : ℕ → ℝ) {i j k : ℕ} (hi : i < n) (hj : j < n)
    (hk : k < n) (hs : (12 * n + 5 : ℕ) * R.u < 1) :
    |basis R n z pt v t b (i + j * n + k * n * n) - ell n z i (pt 0) * ell n z j (pt 1) * ell n z k (pt 2)| ≤
      gam R (12 * n + 5) * |ell n z i (pt 0) * ell n z j (pt 1) * ell n z k (pt 2)| := by
  rw [(hexn_eq n z pt v v t t b hi hj hk).1]
  exact ((((lF_rel hu n z (pt 0) i).flmul hu (lF_rel hu n z (pt 1) j)).flmul hu (lF_rel hu n z (pt 2) k)).mono hu
    (by omega)).err hu hs

/-- **C107** (HexN at its vertices). At the reference position of a vertex the basis is 1 for this vertex and 0 for the others,
without any error. -/
theorem C107_hexn_nodal (hu : R.u < 1) (n : ℕ) (z v : ℕ → ℝ) (t : ℕ → ℕ → ℝ) (b : ℕ → ℝ) (hz : Set.InjOn z (range n : Set ℕ))
    (pt : ℕ → ℝ) {i j k i' j' k' : ℕ} (hi : i < n) (hj : j < n) (hk : k < n) (hi' : i' < n) (hj' : j' < n) (hk' : k' < n)
    (h0 : pt 0 = z i') (h1 : pt 1 = z j') (h2 : pt 2 = z k') :
    basis R n z pt v t b (i + j * n + k * n * n) = if i = i' ∧ j = j' ∧ k = k' then 1 else 0 := by
  have D : ∀ i i', i < n → i' < n → lF R n z (z i') i = if i = i' then 1 else 0 := fun i i' hi hi' => by
    rw [← lagrangeBasis1D_eq n z _ 0 i hi]
    exact (C107_nodal1d hu n z hz 0 0 hi hi').1
  rw [(hexn_eq n z pt v v t t b hi hj hk).1, h0, h1, h2, D i i' hi hi', D j j' hj hj', D k k' hk hk']
  by_cases a : i = i' <;> by_cases b : j = j' <;> by_cases c : k = k' <;> simp [a, b, c, fl_zero, fl_one]

/-- **C107** (HexN partials). The error of each partial is small compared with the terms of the product rule. -/
theorem C107_hexn_partials (hu : R.u < 1) (n : ℕ) (z pt v dv : ℕ → ℝ) (t dt : ℕ → ℕ → ℝ) (b : ℕ → ℝ) {i j k : ℕ} (hi : i < n)
    (hj : j < n) (hk : k < n) (hs : (13 * n + 5 : ℕ) * R.u < 1) :
    |partialXi R n z pt v dv t dt b (i + j * n + k * n * n) - dell n z i (pt 0) * ell n z j (pt 1) * ell n z k (pt 2)| ≤
      gam R (13 * n + 5) * (dAbs n z i (pt 0) * |ell n z j (pt 1)| * |ell n z k (pt 2)|) ∧
    |partialEta R n z pt v dv t dt b (i + j * n + k * n * n) - ell n z i (pt 0) * dell n z j (pt 1) * ell n z k (pt 2)| ≤
      gam R (13 * n + 5) * (|ell n z i (pt 0)| * dAbs n z j (pt 1) * |ell n z k (pt 2)|) ∧
    |partialMu R n z pt v dv t dt b (i + j * n + k * n * n) - ell n z i (pt 0) * ell n z j (pt 1) * dell n z k (pt 2)| ≤
      gam R (13 * n + 5) * (|ell n z i (pt 0)| * |ell n z j (pt 1)| * dAbs n z k (pt 2)) := by
  obtain ⟨-, e1, e2, e3⟩ := hexn_eq (R := R) n z pt v dv t dt b hi hj hk
  have S : ∀ (m : ℕ) (x c : ℝ), ∑ l ∈ (range n).erase m,
      (∏ N ∈ ((range n).erase m).erase l, (x - z N)) / (∏ l ∈ (range n).erase m, (z m - z l)) * c = dell n z m x * c :=
    fun m x c => by rw [← sum_mul, sum_terms]; rfl
  have A : ∀ (m : ℕ) (x c : ℝ), ∑ l ∈ (range n).erase m,
      |(∏ N ∈ ((range n).erase m).erase l, (x - z N)) / (∏ l ∈ (range n).erase m, (z m - z l)) * c| = dAbs n z m x * |c| :=
    fun m x c => by simp only [abs_mul]; rw [← sum_mul]; rfl
  refine ⟨?_, ?_, ?_⟩
  · rw [e1]
    have h := (((((dF_acc hu n z (pt 0) i).mul hu (lF_rel hu n z (pt 1) j)).fl hu).mul hu (lF_rel hu n z (pt 2) k)).fl hu
      |>.mono hu (show _ ≤ 13 * n + 5 by omega)).err hu hs
    simp only [mul_assoc] at h
    rw [S, A, abs_mul] at h
    rw [mul_assoc, mul_assoc]
    exact h
  · rw [e2]
    have h := (((((dF_acc hu n z (pt 1) j).mul hu (lF_rel hu n z (pt 0) i)).fl hu).mul hu (lF_rel hu n z (pt 2) k)).fl hu
      |>.mono hu (show _ ≤ 13 * n + 5 by omega)).err hu hs
    simp only [mul_assoc] at h
    rw [S, A, abs_mul] at h
    rw [mul_comm (lF R n z (pt 0) i), mul_comm (ell n z i (pt 0)), mul_comm |ell n z i (pt 0)|, mul_assoc, mul_assoc]
    exact h
  · rw [e3]
    have h := (((dF_acc hu n z (pt 2) k).mul hu ((lF_rel hu n z (pt 0) i).flmul hu (lF_rel hu n z (pt 1) j))).fl hu
      |>.mono hu (show _ ≤ 13 * n + 5 by omega)).err hu hs
    rw [S, A, abs_mul] at h
    rw [mul_comm _ (dF R n z (pt 2) k), mul_comm _ (dell n z k (pt 2)), mul_comm _ (dAbs n z k (pt 2))]
    exact h

theorem ell_sum (n : ℕ) (hn : 0 < n) (z : ℕ → ℝ) (hz : Set.InjOn z (range n : Set ℕ)) (x : ℝ) : ∑ i ∈ range n, ell n z i x = 1 :=
  Verif.HexN.sum_L n z hz hn x

/-- **C107** (HexN partition of unity). The values of `HexN::basis` add up to one up to a small multiple of the Lebesgue
functions. -/
theorem C107_hexn_sum (hu : R.u < 1) (n : ℕ) (hn : 0 < n) (z pt v : ℕ → ℝ) (t : ℕ → ℕ → ℝ) (b : ℕ → ℝ)
    (hz : Set.InjOn z (range n : Set ℕ)) (hs : (12 * n + 5 : ℕ) * R.u < 1) :
    |∑ p ∈ range (n * n * n), basis R n z pt v t b p - 1| ≤
      gam R (12 * n + 5) * (Leb n z (pt 0) * Leb n z (pt 1) * Leb n z (pt 2)) := by
  have e1 : ∑ p ∈ range (n * n * n), Verif.HexN.basis n z pt v t b p = 1 := (Verif.HexN.C29_hexn_sums n hn z pt v v t t b hz).1
  have e2 : ∑ p ∈ range (n * n * n), |Verif.HexN.basis n z pt v t b p| = Leb n z (pt 0) * Leb n z (pt 1) * Leb n z (pt 2) :=
    Verif.HexN.sum_triple n _ _ _ _ fun i hi j hj k hk => by
      rw [(Verif.HexN.C29_hexn n z pt v v t t b i j k hi hj hk).1, abs_mul, abs_mul]; rfl
  rw [← e1, ← sum_sub_distrib, ← e2, mul_sum]
  refine (abs_sum_le_sum_abs _ _).trans (sum_le_sum fun p hp => ?_)
  obtain ⟨hi, hj, hk, e⟩ := lex3_surj (mem_range.1 hp)
  have h := C107_hexn_basis hu n z pt v t b hi hj hk hs
  have h' := (Verif.HexN.C29_hexn n z pt v v t t b _ _ _ hi hj hk).1
  rw [e] at h h'
  rw [h']
  exact h

/-- **C107** (HexN gradient of constants). Each partial adds up to zero over the vertices, up to a small multiple of the terms that
are added. -/
theorem C107_hexn_partial_sums (hu : R.u < 1) (n : ℕ) (hn : 0 < n) (z pt v dv : ℕ → ℝ) (t dt : ℕ → ℕ → ℝ) (b : ℕ → ℝ)
    (hz : Set.InjOn z (range n : Set ℕ)) (hs : (13 * n + 5 : ℕ) * R.u < 1) :
    |∑ p ∈ range (n * n * n), partialXi R n z pt v dv t dt b p| ≤
      gam R (13 * n + 5) * ((∑ i ∈ range n, dAbs n z i (pt 0)) * Leb n z (pt 1) * Leb n z (pt 2)) ∧
    |∑ p ∈ range (n * n * n), partialEta R n z pt v dv t dt b p| ≤
      gam R (13 * n + 5) * (Leb n z (pt 0) * (∑ i ∈ range n, dAbs n z i (pt 1)) * Leb n z (pt 2)) ∧
    |∑ p ∈ range (n * n * n), partialMu R n z pt v dv t dt b p| ≤
      gam R (13 * n + 5) * (Leb n z (pt 0) * Leb n z (pt 1) * ∑ i ∈ range n, dAbs n z i (pt 2)) := by
  have main : ∀ (f g : ℕ → ℝ) (α β γ : ℕ → ℝ), ∑ p ∈ range (n * n * n), g p = 0 →
      (∀ i < n, ∀ j < n, ∀ k < n, |f (i + j * n + k * n * n) - g (i + j * n + k * n * n)| ≤
        gam R (13 * n + 5) * (α i * β j * γ k)) →
      |∑ p ∈ range (n * n * n), f p| ≤
        gam R (13 * n + 5) * ((∑ i ∈ range n, α i) * (∑ i ∈ range n, β i) * ∑ i ∈ range n, γ i) := by
    intro f g α β γ hg h
    have e := Verif.HexN.sum_triple n (fun p => α (p % n) * β (p / n % n) * γ (p / n / n)) α β γ (fun i hi j hj k hk => by
      obtain ⟨h1, h2, h3⟩ := lex3_mod (k := k) hi hj
      simp only [h1, h2, h3])
    rw [← sub_zero (∑ p ∈ range (n * n * n), f p), ← hg, ← sum_sub_distrib, ← e, mul_sum]
    refine (abs_sum_le_sum_abs _ _).trans (sum_le_sum fun p hp => ?_)
    obtain ⟨hi, hj, hk, e⟩ := lex3_surj (mem_range.1 hp)
    have := h _ hi _ hj _ hk
    rw [e] at this
    exact this
  obtain ⟨-, z1, z2, z3⟩ := Verif.HexN.C29_hexn_sums n hn z pt v dv t dt b hz
  refine ⟨main _ _ _ _ _ z1 fun i hi j hj k hk => ?_, main _ _ _ _ _ z2 fun i hi j hj k hk => ?_,
    main _ _ _ _ _ z3 fun i hi j hj k hk => ?_⟩
  · rw [(Verif.HexN.C29_hexn n z pt v dv t dt b i j k hi hj hk).2.1]
    exact (C107_hexn_partials hu n z pt v dv t dt b hi hj hk hs).1
  · rw [(Verif.HexN.C29_hexn n z pt v dv t dt b i j k hi hj hk).2.2.1]
    exact (C107_hexn_partials hu n z pt v dv t dt b hi hj hk hs).2.1
  · rw [(Verif.HexN.C29_hexn n z pt v dv t dt b i j k hi hj hk).2.2.2]
    exact (C107_hexn_partials hu n z pt v dv t dt b hi hj hk hs).2.2

/-! ### QuadN -/

theorem quadBody_spec (n : ℕ) (hn : 0 < n) (z pt : ℕ → ℝ) (m : ℕ) (hm : m < n * n) (s : QuadState ℝ) :
    (quadBody R n z pt m s).nodes = store2 (store2 s.nodes m 0 (z (m % n))) m 1 (z (m / n)) ∧
    (quadBody R n z pt m s).basis = store s.basis m (R.fl (lF R n z (pt 0) (m % n) * lF R n z (pt 1) (m / n))) ∧
    (quadBody R n z pt m s).part = store2 (store2 s.part m 0 (R.fl (dF R n z (pt 0) (m % n) * lF R n z (pt 1) (m / n))))
      m 1 (R.fl (lF R n z (pt 0) (m % n) * dF R n z (pt 1) (m / n))) := by
  have e1 : m / n + 1 - 1 = m / n := Nat.add_sub_cancel _ _
  have e2 : (m + 1) - n * (m / n) - 1 = m % n := by
    have := Nat.mod_add_div m n; omega
  have h1 : m % n < n := Nat.mod_lt _ hn
  have h2 : m / n < n := Nat.div_lt_of_lt_mul hm
  unfold quadBody
  simp only [e1, e2]
  refine ⟨trivial, ?_, ?_⟩
  · simp [store2, (quadLagrange1D_eq n z _ _ _ _ h1).1, (quadLagrange1D_eq n z _ _ _ _ h2).1]
  · simp [store2, (quadLagrange1D_eq n z _ _ _ _ h1).1, (quadLagrange1D_eq n z _ _ _ _ h2).1,
      (quadLagrange1D_eq n z _ _ _ _ h1).2, (quadLagrange1D_eq n z _ _ _ _ h2).2]

theorem quadn_eq (n : ℕ) (z pt : ℕ → ℝ) (s : QuadState ℝ) {i j : ℕ} (hi : i < n) (hj : j < n) :
    (quadBasisPartials R n z pt s).nodes (i + n * j) 0 = z i ∧ (quadBasisPartials R n z pt s).nodes (i + n * j) 1 = z j ∧
    (quadBasisPartials R n z pt s).basis (i + n * j) = R.fl (lF R n z (pt 0) i * lF R n z (pt 1) j) ∧
    (quadBasisPartials R n z pt s).part (i + n * j) 0 = R.fl (dF R n z (pt 0) i * lF R n z (pt 1) j) ∧
    (quadBasisPartials R n z pt s).part (i + n * j) 1 = R.fl (lF R n z (pt 0) i * dF R n z (pt 1) j) := by
  have hn : 0 < n := by omega
  have key := loop_inv (n := n * n) (body := quadBody R n z pt) (s := s)
    (fun m r => ∀ p < m, r.nodes p 0 = z (p % n) ∧ r.nodes p 1 = z (p / n) ∧
      r.basis p = R.fl (lF R n z (pt 0) (p % n) * lF R n z (pt 1) (p / n)) ∧
      r.part p 0 = R.fl (dF R n z (pt 0) (p % n) * lF R n z (pt 1) (p / n)) ∧
      r.part p 1 = R.fl (lF R n z (pt 0) (p % n) * dF R n z (pt 1) (p / n)))
    (fun p hp => absurd hp (Nat.not_lt_zero _))
    (by
      intro m r hm ih p hp
      obtain ⟨h1, h2, h3⟩ := quadBody_spec (R := R) n hn z pt m hm r
      rw [h1, h2, h3]
      by_cases h : p = m
      · subst h; simp [store2, store]
      · have := ih p (by omega)
        simp only [store2, store, h, false_and, if_false]
        exact this)
  have hp : i + n * j < n * n := by
    calc i + n * j < n + n * j := by omega
      _ = n * (j + 1) := by ring
      _ ≤ n * n := Nat.mul_le_mul_left _ (by omega)
  have := key _ hp
  rw [Nat.add_mul_mod_self_left, Nat.mod_eq_of_lt hi, Nat.add_mul_div_left _ _ hn,
    Nat.div_eq_of_lt hi, Nat.zero_add] at this
  exact this

/-- **C107** (QuadN). `QuadN::basis_partials` stores the vertex positions unchanged, basis values with a small relative error, and
partials whose error is small compared with the terms of the product rule. -/
theorem C107_quadn (hu : R.u < 1) (n : ℕ) (z pt : ℕ → ℝ) (s : QuadState ℝ) {i j : ℕ} (hi : i < n) (hj : j < n)
    (hs : (9 * n + 3 : ℕ) * R.u < 1) :
    let r := quadBasisPartials R n z pt s
    r.nodes (i + n * j) 0 = z i ∧ r.nodes (i + n * j) 1 = z j ∧
    |r.basis (i + n * j) - ell n z i (pt 0) * ell n z j (pt 1)| ≤ gam R (9 * n + 3) * |ell n z i (pt 0) * ell n z j (pt 1)| ∧
    |r.part (i + n * j) 0 - dell n z i (pt 0) * ell n z j (pt 1)| ≤
      gam R (9 * n + 3) * (dAbs n z i (pt 0) * |ell n z j (pt 1)|) ∧
    |r.part (i + n * j) 1 - ell n z i (pt 0) * dell n z j (pt 1)| ≤
      gam R (9 * n + 3) * (|ell n z i (pt 0)| * dAbs n z j (pt 1)) := by
  obtain ⟨e0, e1, e2, e3, e4⟩ := quadn_eq (R := R) n z pt s hi hj
  have S : ∀ (m : ℕ) (x c : ℝ), ∑ l ∈ (range n).erase m,
      (∏ N ∈ ((range n).erase m).erase l, (x - z N)) / (∏ l ∈ (range n).erase m, (z m - z l)) * c = dell n z m x * c :=
    fun m x c => by rw [← sum_mul, sum_terms]; rfl
  have A : ∀ (m : ℕ) (x c : ℝ), ∑ l ∈ (range n).erase m,
      |(∏ N ∈ ((range n).erase m).erase l, (x - z N)) / (∏ l ∈ (range n).erase m, (z m - z l)) * c| = dAbs n z m x * |c| :=
    fun m x c => by simp only [abs_mul]; rw [← sum_mul]; rfl
  refine ⟨e0, e1, ?_, ?_, ?_⟩
  · rw [e2]
    exact (((lF_rel hu n z (pt 0) i).flmul hu (lF_rel hu n z (pt 1) j)).mono hu (by omega)).err hu hs
  · rw [e3]
    have h := (((dF_acc hu n z (pt 0) i).mul hu (lF_rel hu n z (pt 1) j)).fl hu
      |>.mono hu (show _ ≤ 9 * n + 3 by omega)).err hu hs
    rw [S, A] at h
    exact h
  · rw [e4]
    have h := (((dF_acc hu n z (pt 1) j).mul hu (lF_rel hu n z (pt 0) i)).fl hu
      |>.mono hu (show _ ≤ 9 * n + 3 by omega)).err hu hs
    rw [S, A] at h
    rw [mul_comm (lF R n z (pt 0) i), mul_comm (ell n z i (pt 0)), mul_comm |ell n z i (pt 0)|]
    exact h

/-- **C107** (QuadN at its vertices). -/
theorem C107_quadn_nodal (hu : R.u < 1) (n : ℕ) (z pt : ℕ → ℝ) (s : QuadState ℝ) (hz : Set.InjOn z (range n : Set ℕ))
    {i j i' j' : ℕ} (hi : i < n) (hj : j < n) (hi' : i' < n) (hj' : j' < n) (h0 : pt 0 = z i') (h1 : pt 1 = z j') :
    (quadBasisPartials R n z pt s).basis (i + n * j) = if i = i' ∧ j = j' then 1 else 0 := by
  have D : ∀ i i', i < n → i' < n → lF R n z (z i') i = if i = i' then 1 else 0 := fun i i' hi hi' => by
    rw [← lagrangeBasis1D_eq n z _ 0 i hi]
    exact (C107_nodal1d hu n z hz 0 0 hi hi').1
  rw [(quadn_eq n z pt s hi hj).2.2.1, h0, h1, D i i' hi hi', D j j' hj hj']
  by_cases a : i = i' <;> by_cases b : j = j' <;> simp [a, b, fl_zero, fl_one]

theorem position_loop (n : ℕ) (nodes : ℕ → ℕ → ℝ) (b x0 : ℕ → ℝ) (d : ℕ) (hd : d < 2) :
    quadPhysicalPosition R n nodes b x0 d = loop (n * n) (fun v p => R.fl (p + R.fl (nodes v d * b v))) (x0 d) := by
  unfold quadPhysicalPosition
  have : ∀ m, loop m (fun v p => loop 2 (fun d p => store p d (R.fl (p d + R.fl (nodes v d * b v)))) p) x0 d =
      loop m (fun v p => R.fl (p + R.fl (nodes v d * b v))) (x0 d) := by
    intro m
    induction m with
    | zero => rfl
    | succ m ih =>
      rw [loop_succ]
      conv_rhs => rw [loop_succ, ← ih]
      have : d = 0 ∨ d = 1 := by omega
      rcases this with rfl | rfl <;> simp [loop_succ, loop_zero, store]
  exact this _

/-- **C107** (QuadN position). With a cleared output array, `QuadN::physical_position` returns the position that is interpolated
from the nodes given, up to a small multiple of the terms that are added. -/
theorem C107_quadn_position (hu : R.u < 1) (n : ℕ) (z pt : ℕ → ℝ) (s : QuadState ℝ) (nodes : ℕ → ℕ → ℝ) (x0 : ℕ → ℝ) {d : ℕ}
    (hd : d < 2) (h0 : x0 d = 0) (hs : (n * n + 8 * n + 4 : ℕ) * R.u < 1) :
    |quadPhysicalPosition R n nodes (quadBasisPartials R n z pt s).basis x0 d -
        ∑ j ∈ range n, ∑ i ∈ range n, nodes (i + n * j) d * (ell n z i (pt 0) * ell n z j (pt 1))| ≤
      gam R (n * n + 8 * n + 4) *
        ∑ j ∈ range n, ∑ i ∈ range n, |nodes (i + n * j) d * (ell n z i (pt 0) * ell n z j (pt 1))| := by
  rcases Nat.eq_zero_or_pos n with rfl | hn
  · rw [position_loop _ _ _ _ _ hd]
    simp [h0]
  rw [position_loop _ _ _ _ _ hd, h0]
  let f : ℕ → ℝ := fun v => nodes v d * (ell n z (v % n) (pt 0) * ell n z (v / n) (pt 1))
  have hr : ∀ v < n * n, Rel R (8 * n + 4) (R.fl (nodes v d * (quadBasisPartials R n z pt s).basis v)) (f v) := by
    intro v hv
    have h1 : v % n < n := Nat.mod_lt _ hn
    have h2 : v / n < n := Nat.div_lt_of_lt_mul hv
    have e := (quadn_eq (R := R) n z pt s h1 h2).2.2.1
    rw [Nat.mod_add_div] at e
    rw [e]
    exact ((Rel.refl hu 0 _).flmul hu ((lF_rel hu n z (pt 0) _).flmul hu (lF_rel hu n z (pt 1) _))).mono hu (by omega)
  have h := loop_sum_filter hu (n * n) (fun _ => True) _ f hr
  simp only [if_true, filter_true] at h
  have h := (h.mono hu (show _ ≤ n * n + 8 * n + 4 by omega)).err hu hs
  have ev : ∀ i < n, ∀ j, f (i + n * j) = nodes (i + n * j) d * (ell n z i (pt 0) * ell n z j (pt 1)) := fun i hi j => by
    show nodes _ d * _ = _
    rw [Nat.add_mul_mod_self_left, Nat.mod_eq_of_lt hi, Nat.add_mul_div_left _ _ hn, Nat.div_eq_of_lt hi, Nat.zero_add]
  rw [sum_range_mul, sum_range_mul] at h
  have c1 : ∑ j ∈ range n, ∑ i ∈ range n, f (i + n * j) =
      ∑ j ∈ range n, ∑ i ∈ range n, nodes (i + n * j) d * (ell n z i (pt 0) * ell n z j (pt 1)) :=
    sum_congr rfl fun j _ => sum_congr rfl fun i hi => ev i (mem_range.1 hi) j
  have c2 : ∑ j ∈ range n, ∑ i ∈ range n, |f (i + n * j)| =
      ∑ j ∈ range n, ∑ i ∈ range n, |nodes (i + n * j) d * (ell n z i (pt 0) * ell n z j (pt 1))| :=
    sum_congr rfl fun j _ => sum_congr rfl fun i hi => by rw [ev i (mem_range.1 hi) j]
  rw [c1, c2] at h
  exact h

/-- **C107** (QuadN position of a vertex). At the reference position of a vertex the position returned is that of the vertex,
without any error, if it is a machine number. -/
theorem C107_quadn_position_vertex (hu : R.u < 1) (n : ℕ) (z pt : ℕ → ℝ) (s : QuadState ℝ) (hz : Set.InjOn z (range n : Set ℕ))
    (nodes : ℕ → ℕ → ℝ) (x0 : ℕ → ℝ) {d i j : ℕ} (hd : d < 2) (h0 : x0 d = 0) (hi : i < n) (hj : j < n) (hp0 : pt 0 = z i)
    (hp1 : pt 1 = z j) (hm : R.fl (nodes (i + n * j) d) = nodes (i + n * j) d) :
    quadPhysicalPosition R n nodes (quadBasisPartials R n z pt s).basis x0 d = nodes (i + n * j) d := by
  have hn : 0 < n := by omega
  rw [position_loop _ _ _ _ _ hd, h0]
  have B : ∀ v < n * n, (quadBasisPartials R n z pt s).basis v = if v = i + n * j then 1 else 0 := by
    intro v hv
    have h1 : v % n < n := Nat.mod_lt _ hn
    have h2 : v / n < n := Nat.div_lt_of_lt_mul hv
    have e := C107_quadn_nodal hu n z pt s hz h1 h2 hi hj hp0 hp1
    rw [Nat.mod_add_div] at e
    rw [e]
    refine if_congr ⟨fun ⟨a, b⟩ => ?_, fun h => ?_⟩ rfl rfl
    · rw [← a, ← b, Nat.mod_add_div]
    · rw [h, Nat.add_mul_mod_self_left, Nat.mod_eq_of_lt hi, Nat.add_mul_div_left _ _ hn, Nat.div_eq_of_lt hi, Nat.zero_add]
      exact ⟨rfl, rfl⟩
  have hv : i + n * j < n * n := by
    calc i + n * j < n + n * j := by omega
      _ = n * (j + 1) := by ring
      _ ≤ n * n := Nat.mul_le_mul_left _ (by omega)
  have key : ∀ m ≤ n * n, loop m (fun v p => R.fl (p + R.fl (nodes v d * (quadBasisPartials R n z pt s).basis v))) 0 =
      if i + n * j < m then nodes (i + n * j) d else 0 := by
    intro m
    induction m with
    | zero => intro _; simp
    | succ m ih =>
      intro hm'
      rw [loop_succ, ih (by omega), B m (by omega)]
      rcases lt_trichotomy m (i + n * j) with h | h | h
      · rw [if_neg (by omega), if_neg (by omega), if_neg (by omega), mul_zero, fl_zero, add_zero, fl_zero]
      · subst h
        rw [if_neg (by omega), if_pos rfl, if_pos (by omega), mul_one, hm, zero_add, hm]
      · rw [if_pos h, if_neg (by omega), if_pos (by omega), mul_zero, fl_zero, add_zero, hm]
  rw [key _ le_rfl, if_pos hv]

/-! ### What does not hold, and concrete cases -/

/-- Vertices -1 and 1. -/
theorem inj2 : Set.InjOn (fun i : ℕ => (2 * i - 1 : ℝ)) (range 2 : Set ℕ) := fun a _ b _ h => by
  have : (2 * a - 1 : ℝ) = 2 * b - 1 := h
  have : (a : ℝ) = b := by linarith
  exact_mod_cast this

/-- **C107** (negation). The partition of unity is not exact: in double precision the two basis values of the linear element at
`2^-53` do not add up to one. -/
theorem C107_sum_negation : ∃ (z : ℕ → ℝ) (x : ℝ), Set.InjOn z (range 2 : Set ℕ) ∧
    lagrangeBasis1D .binary64 2 z x (fun _ => 0) 0 + lagrangeBasis1D .binary64 2 z x (fun _ => 0) 1 ≠ 1 := by
  refine ⟨fun i => 2 * i - 1, 1 / 2 ^ 53, inj2, ?_⟩
  rw [lagrangeBasis1D_eq 2 _ _ _ 0 (by norm_num), lagrangeBasis1D_eq 2 _ _ _ 1 (by norm_num)]
  simp only [lF, num, loop_succ, loop_zero]
  norm_num
  have e1 : Rounding.binary64.fl (-(9007199254740991 / 9007199254740992)) = -(9007199254740991 / 9007199254740992) :=
    Rounding.binary64_rep (-9007199254740991) (-53) (by norm_num) (by norm_num)
  have e2 : Rounding.binary64.fl (-2) = -2 := Rounding.binary64_rep (-2) 0 (by norm_num) (by norm_num)
  have e3 : Rounding.binary64.fl 2 = 2 := Rounding.binary64_rep 2 0 (by norm_num) (by norm_num)
  have e4 : Rounding.binary64.fl (9007199254740993 / 9007199254740992) = 1 := by
    rw [Rounding.binary64_round 0 (2 ^ 52) (1 / 2 ^ 52) (by norm_num) (by norm_num) (by norm_num)
      (Or.inr ⟨by decide, by norm_num [abs_le]⟩)]
    norm_num
  have e5 : Rounding.binary64.fl (9007199254740991 / 18014398509481984) = 9007199254740991 / 18014398509481984 :=
    Rounding.binary64_rep 9007199254740991 (-54) (by norm_num) (by norm_num)
  have e6 : Rounding.binary64.fl (1 / 2) = 1 / 2 := Rounding.binary64_rep 1 (-1) (by norm_num) (by norm_num)
  rw [e1, e1, e2, e2, e3, e3, e4, fl_one, e6, show -(9007199254740991 / 9007199254740992 : ℝ) / -2 =
    9007199254740991 / 18014398509481984 by norm_num, e5]
  norm_num

/-- **C107** (negation). The relative error of a derivative is not small: in double precision the derivative of the middle basis
function of the quadratic element is computed as zero at `2^-60`, where it is not zero. -/
theorem C107_der1d_negation : ∃ (z : ℕ → ℝ) (x : ℝ), Set.InjOn z (range 3 : Set ℕ) ∧
    lagrangeDerivative1D .binary64 3 z x (fun _ => 0) 1 = 0 ∧ dell 3 z 1 x ≠ 0 := by
  refine ⟨fun i => i - 1, 1 / 2 ^ 60, ?_, ?_, ?_⟩
  · intro a _ b _ h
    have : (a - 1 : ℝ) = b - 1 := h
    have : (a : ℝ) = b := by linarith
    exact_mod_cast this
  · rw [lagrangeDerivative1D_eq 3 _ _ _ 1 (by norm_num)]
    simp only [dF, num, productGradient, loop_succ, loop_zero]
    norm_num
    have e1 : Rounding.binary64.fl (-(1152921504606846975 / 1152921504606846976)) = -1 := by
      rw [Rounding.binary64_neg, Rounding.binary64_round (-1) (2 ^ 53) (1 / 2 ^ 53) (by norm_num) (by norm_num) (by norm_num)
        (Or.inl (by norm_num [abs_lt]))]
      norm_num
    have e2 : Rounding.binary64.fl (1152921504606846977 / 1152921504606846976) = 1 := by
      rw [Rounding.binary64_round 0 (2 ^ 52) (1 / 2 ^ 52) (by norm_num) (by norm_num) (by norm_num)
        (Or.inl (by norm_num [abs_lt]))]
      norm_num
    have e3 : Rounding.binary64.fl (-1) = -1 := Rounding.binary64_rep (-1) 0 (by norm_num) (by norm_num)
    rw [e1, e2, e3, fl_one, e3, neg_add_cancel, fl_zero, zero_div, fl_zero]
  · show dL 3 _ 1 _ ≠ 0
    rw [Verif.HexN.dL_eq]
    rw [show (range 3).erase 1 = {0, 2} by decide, sum_pair (by decide), show ({0, 2} : Finset ℕ).erase 0 = {2} by decide,
      show ({0, 2} : Finset ℕ).erase 2 = {0} by decide]
    simp
    norm_num

/-- Concrete case: the quadratic element on -1, 0, 1 in double precision at an arbitrary point. -/
theorem inj3 : Set.InjOn (fun i : ℕ => (i - 1 : ℝ)) (range 3 : Set ℕ) := fun a _ b _ h => by
  have : (a - 1 : ℝ) = b - 1 := h
  have : (a : ℝ) = b := by linarith
  exact_mod_cast this

theorem u64 : Rounding.binary64.u < 1 := by rw [Rounding.binary64_u]; norm_num

example (pt v b : ℕ → ℝ) (t : ℕ → ℕ → ℝ) :
    |basis .binary64 3 (fun i => i - 1) pt v t b (2 + 1 * 3 + 0 * 3 * 3) -
      ell 3 (fun i => i - 1) 2 (pt 0) * ell 3 (fun i => i - 1) 1 (pt 1) * ell 3 (fun i => i - 1) 0 (pt 2)| ≤
      5 / 10 ^ 15 * |ell 3 (fun i => i - 1) 2 (pt 0) * ell 3 (fun i => i - 1) 1 (pt 1) * ell 3 (fun i => i - 1) 0 (pt 2)| := by
  refine (C107_hexn_basis u64 3 _ pt v t b (by norm_num) (by norm_num) (by norm_num)
    (by rw [Rounding.binary64_u]; norm_num)).trans (mul_le_mul_of_nonneg_right ?_ (abs_nonneg _))
  unfold gam
  rw [Rounding.binary64_u]; norm_num

example (pt v b : ℕ → ℝ) (t : ℕ → ℕ → ℝ) (h0 : pt 0 = 1) (h1 : pt 1 = 0) (h2 : pt 2 = -1) :
    basis .binary64 3 (fun i => i - 1) pt v t b (2 + 1 * 3 + 0 * 3 * 3) = 1 :=
  C107_hexn_nodal u64 3 (fun i => i - 1) v t b inj3 pt (i := 2) (j := 1) (k := 0) (i' := 2) (j' := 1) (k' := 0) (by norm_num)
    (by norm_num) (by norm_num) (by norm_num) (by norm_num) (by norm_num) (by rw [h0]; norm_num) (by rw [h1]; norm_num)
    (by rw [h2]; norm_num)

/-- The hypotheses of all the theorems hold for it. -/
example : Set.InjOn (fun i : ℕ => (i - 1 : ℝ)) (range 3 : Set ℕ) ∧ Rounding.binary64.u < 1 ∧
    (4 * 3 + 1 : ℕ) * Rounding.binary64.u < 1 ∧ (5 * 3 + 1 : ℕ) * Rounding.binary64.u < 1 ∧
    (12 * 3 + 5 : ℕ) * Rounding.binary64.u < 1 ∧ (13 * 3 + 5 : ℕ) * Rounding.binary64.u < 1 ∧
    (9 * 3 + 3 : ℕ) * Rounding.binary64.u < 1 ∧ (3 * 3 + 8 * 3 + 4 : ℕ) * Rounding.binary64.u < 1 := by
  rw [Rounding.binary64_u]
  exact ⟨inj3, by norm_num, by norm_num, by norm_num, by norm_num, by norm_num, by norm_num, by norm_num⟩

/-- The derivative of the left basis function at the right vertex. -/
example (a : ℕ → ℝ) : |lagrangeDerivative1D .binary64 3 (fun i => i - 1) ((fun i : ℕ => (i - 1 : ℝ)) 2) a 0 -
      dell 3 (fun i => i - 1) 0 ((fun i : ℕ => (i - 1 : ℝ)) 2)| ≤
    2 / 10 ^ 15 * |dell 3 (fun i => i - 1) 0 ((fun i : ℕ => (i - 1 : ℝ)) 2)| := by
  refine (C107_der1d_vertex u64 3 (fun i => i - 1) a (i := 0) (j := 2) (by norm_num) (by norm_num) (by norm_num)
    (by rw [Rounding.binary64_u]; norm_num)).trans (mul_le_mul_of_nonneg_right ?_ (abs_nonneg _))
  unfold gam
  rw [Rounding.binary64_u]; norm_num

example (s : QuadState ℝ) :
    quadPhysicalPosition .binary64 3 (fun v d => v + d) (quadBasisPartials .binary64 3 (fun i => i - 1) (fun d => 1 - d) s).basis
      (fun _ => 0) 1 = 6 := by
  rw [C107_quadn_position_vertex u64 3 (fun i => i - 1) (fun d => 1 - d) s inj3 (fun v d => v + d) (fun _ => 0) (d := 1)
    (i := 2) (j := 1) (by norm_num) rfl (by norm_num) (by norm_num) (by norm_num) (by norm_num)
    (Rounding.binary64_rep 6 0 (by norm_num) (by norm_num))]
  norm_num

end Verif.Fp.HexN
