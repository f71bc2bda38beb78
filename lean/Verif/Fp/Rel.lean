import Verif.Fp.Arith
import Verif.Loop
import Mathlib.Algebra.BigOperators.Group.Finset.Basic
import Mathlib.Algebra.BigOperators.Ring.Finset
import Mathlib.Algebra.Order.BigOperators.Group.Finset
import Mathlib.Tactic.Linarith

/-!
# Relative perturbations

`Rel R k a b`: `a` is `b` times a factor between `(1 - u)^k` and its inverse, which is what `k` roundings, multiplications and
divisions can do to a quantity.  `Pert R k` is the set of these factors.
-/

namespace Verif.Fp
open Finset

/-- The factors that `k` relative errors can produce. -/
def Pert (R : Rounding) (k : ℕ) (t : ℝ) : Prop := (1 - R.u) ^ k ≤ t ∧ t ≤ ((1 - R.u) ^ k)⁻¹

/-- `a` is `b` up to `k` relative errors. -/
def Rel (R : Rounding) (k : ℕ) (a b : ℝ) : Prop := ∃ t, Pert R k t ∧ a = b * t

variable {R : Rounding}

section
variable (hu : R.u < 1)
include hu

theorem q_pos (k : ℕ) : 0 < (1 - R.u) ^ k := pow_pos (by linarith) k

theorem q_le_one (k : ℕ) : (1 - R.u) ^ k ≤ 1 := pow_le_one₀ (by linarith) (by linarith [R.u_nonneg])

theorem Pert.pos {k : ℕ} {t : ℝ} (h : Pert R k t) : 0 < t := (q_pos hu k).trans_le h.1

theorem Pert.one (k : ℕ) : Pert R k 1 :=
  ⟨q_le_one hu k, (one_le_inv₀ (q_pos hu k)).2 (q_le_one hu k)⟩

theorem Pert.mul {k l : ℕ} {s t : ℝ} (hs : Pert R k s) (ht : Pert R l t) : Pert R (k + l) (s * t) := by
  have p := q_pos hu k
  have p' := q_pos hu l
  unfold Pert
  rw [pow_add, mul_inv]
  exact ⟨mul_le_mul hs.1 ht.1 p'.le (hs.pos hu).le, mul_le_mul hs.2 ht.2 (ht.pos hu).le (inv_pos.2 p).le⟩

theorem Pert.inv {k : ℕ} {t : ℝ} (h : Pert R k t) : Pert R k t⁻¹ := by
  have p := q_pos hu k
  refine ⟨?_, inv_anti₀ p h.1⟩
  have := inv_anti₀ (h.pos hu) h.2
  rwa [inv_inv] at this

theorem Pert.mono {k l : ℕ} (hkl : k ≤ l) {t : ℝ} (h : Pert R k t) : Pert R l t := by
  have p := q_pos hu l
  have : (1 - R.u) ^ l ≤ (1 - R.u) ^ k := pow_le_pow_of_le_one (by linarith) (by linarith [R.u_nonneg]) hkl
  exact ⟨this.trans h.1, h.2.trans (inv_anti₀ p this)⟩

/-- A factor of `k` relative errors differs from one by at most `k u / (1 - k u)`. -/
theorem Pert.err {k : ℕ} {t : ℝ} (h : Pert R k t) (hk : k * R.u < 1) : |t - 1| ≤ k * R.u / (1 - k * R.u) := by
  have hb : 1 - k * R.u ≤ (1 - R.u) ^ k := by
    have := one_add_mul_le_pow (a := -R.u) (by linarith) k
    calc 1 - k * R.u = 1 + k * -R.u := by ring
      _ ≤ (1 + -R.u) ^ k := this
      _ = _ := by ring
  have hp : 0 < 1 - k * R.u := by linarith
  have hk0 : 0 ≤ k * R.u := mul_nonneg (Nat.cast_nonneg k) R.u_nonneg
  have h2 : t ≤ (1 - k * R.u)⁻¹ := h.2.trans (inv_anti₀ hp hb)
  have h1 : 1 - k * R.u ≤ t := hb.trans h.1
  have e : k * R.u / (1 - k * R.u) = (1 - k * R.u)⁻¹ - 1 := by
    rw [eq_sub_iff_add_eq, div_eq_mul_inv]; field_simp; ring
  have h3 : k * R.u ≤ k * R.u / (1 - k * R.u) := by
    rw [le_div_iff₀ hp]; nlinarith
  rw [abs_le]
  constructor
  · linarith
  · rw [e]; linarith

theorem Pert.fl (x : ℝ) : ∃ t, Pert R 1 t ∧ R.fl x = x * t := by
  by_cases hx : x = 0
  · subst hx
    have := R.err 0
    refine ⟨1, Pert.one hu 1, ?_⟩
    simpa using this
  · refine ⟨R.fl x / x, ?_, by field_simp⟩
    have h := R.err x
    have hd : |R.fl x / x - 1| ≤ R.u := by
      rw [show R.fl x / x - 1 = (R.fl x - x) / x by field_simp, abs_div, div_le_iff₀ (abs_pos.2 hx)]
      exact h
    rw [abs_le] at hd
    have hq : (0 : ℝ) < 1 - R.u := by linarith
    refine ⟨by rw [pow_one]; linarith [hd.1], ?_⟩
    rw [pow_one, le_inv_comm₀ (by linarith [hd.1]) hq]
    refine le_trans ?_ (inv_anti₀ (by linarith [hd.1]) (show R.fl x / x ≤ 1 + R.u by linarith [hd.2]))
    rw [le_inv_comm₀ hq (by linarith [R.u_nonneg]), le_inv_comm₀ (by linarith [R.u_nonneg]) hq]
    have : (1 - R.u) * (1 + R.u) ≤ 1 := by nlinarith [R.u_nonneg]
    rw [← one_div, le_div_iff₀ (by linarith [R.u_nonneg])]
    exact this

theorem Rel.refl (k : ℕ) (a : ℝ) : Rel R k a a := ⟨1, Pert.one hu k, by ring⟩

theorem Rel.fl (x : ℝ) : Rel R 1 (R.fl x) x := by
  obtain ⟨t, ht, e⟩ := Pert.fl hu x
  exact ⟨t, ht, e⟩

theorem Rel.mono {k l : ℕ} (hkl : k ≤ l) {a b : ℝ} (h : Rel R k a b) : Rel R l a b := by
  obtain ⟨t, ht, e⟩ := h
  exact ⟨t, ht.mono hu hkl, e⟩

theorem Rel.trans {k l : ℕ} {a b c : ℝ} (h : Rel R k a b) (h' : Rel R l b c) : Rel R (k + l) a c := by
  obtain ⟨s, hs, rfl⟩ := h
  obtain ⟨t, ht, rfl⟩ := h'
  exact ⟨s * t, hs.mul hu ht, by ring⟩

theorem Rel.mul {k l : ℕ} {a b c d : ℝ} (h : Rel R k a b) (h' : Rel R l c d) : Rel R (k + l) (a * c) (b * d) := by
  obtain ⟨s, hs, rfl⟩ := h
  obtain ⟨t, ht, rfl⟩ := h'
  exact ⟨s * t, hs.mul hu ht, by ring⟩

theorem Rel.div {k l : ℕ} {a b c d : ℝ} (h : Rel R k a b) (h' : Rel R l c d) : Rel R (k + l) (a / c) (b / d) := by
  obtain ⟨s, hs, rfl⟩ := h
  obtain ⟨t, ht, rfl⟩ := h'
  refine ⟨s * t⁻¹, hs.mul hu (ht.inv hu), ?_⟩
  rw [div_eq_mul_inv, mul_inv, div_eq_mul_inv]; ring

/-- A rounded product. -/
theorem Rel.flmul {k l : ℕ} {a b c d : ℝ} (h : Rel R k a b) (h' : Rel R l c d) :
    Rel R (k + l + 1) (R.fl (a * c)) (b * d) :=
  ((Rel.fl hu _).trans hu (h.mul hu h')).mono hu (by omega)

/-- A rounded quotient. -/
theorem Rel.fldiv {k l : ℕ} {a b c d : ℝ} (h : Rel R k a b) (h' : Rel R l c d) :
    Rel R (k + l + 1) (R.fl (a / c)) (b / d) :=
  ((Rel.fl hu _).trans hu (h.div hu h')).mono hu (by omega)

theorem Rel.err {k : ℕ} {a b : ℝ} (h : Rel R k a b) (hk : k * R.u < 1) :
    |a - b| ≤ k * R.u / (1 - k * R.u) * |b| := by
  obtain ⟨t, ht, rfl⟩ := h
  rw [show b * t - b = (t - 1) * b by ring, abs_mul]
  exact mul_le_mul_of_nonneg_right (ht.err hu hk) (abs_nonneg b)

/-- A running product. -/
theorem Rel.loop_prod {k : ℕ} (n : ℕ) (a b : ℕ → ℝ) (h : ∀ j < n, Rel R k (a j) (b j)) :
    Rel R (n * (k + 1)) (loop n (fun j L => R.fl (L * a j)) 1) (∏ j ∈ range n, b j) := by
  induction n with
  | zero => rw [loop_zero, range_zero, prod_empty]; exact Rel.refl hu _ _
  | succ n ih =>
    rw [loop_succ, prod_range_succ]
    exact ((ih fun j hj => h j (by omega)).flmul hu (h n (by omega))).mono hu (by ring_nf; omega)

/-- A running sum: each term picks up a factor of its own. -/
theorem Rel.loop_sum {k : ℕ} (n : ℕ) (a b : ℕ → ℝ) (h : ∀ j < n, Rel R k (a j) (b j)) :
    ∃ t : ℕ → ℝ, (∀ j < n, Pert R (k + n) (t j)) ∧
      loop n (fun j p => R.fl (p + a j)) 0 = ∑ j ∈ range n, b j * t j := by
  induction n with
  | zero => exact ⟨fun _ => 1, fun j hj => absurd hj (Nat.not_lt_zero j), by rw [loop_zero]; simp⟩
  | succ n ih =>
    obtain ⟨t, ht, e⟩ := ih fun j hj => h j (by omega)
    obtain ⟨s, hs, es⟩ := h n (by omega)
    obtain ⟨r, hr, er⟩ := Pert.fl hu (loop n (fun j p => R.fl (p + a j)) 0 + a n)
    refine ⟨fun j => if j = n then s * r else t j * r, fun j hj => ?_, ?_⟩
    · by_cases hjn : j = n
      · simp only [if_pos hjn]
        exact (hs.mul hu hr).mono hu (by omega)
      · simp only [if_neg hjn]
        exact ((ht j (by omega)).mul hu hr).mono hu (by omega)
    · rw [loop_succ, er, e, es, sum_range_succ]
      simp only [if_true, add_mul, sum_mul]
      congr 1
      · refine sum_congr rfl fun j hj => ?_
        rw [if_neg (by have := mem_range.1 hj; omega)]; ring
      · ring

end

end Verif.Fp
