import Verif.Blas.Theorems
import Mathlib.LinearAlgebra.Matrix.NonsingularInverse
import Mathlib.LinearAlgebra.Matrix.ToLinearEquiv

/-!
# C66 (inversion)
-/

namespace Verif.Blas
open Finset

/-- The column-major array `a` holds a nonsingular matrix of order `n`. -/
def Nonsing (n : ℕ) (a : ℕ → ℝ) : Prop :=
  ∀ v : ℕ → ℝ, (∀ i < n, ∑ j ∈ range n, a (i + n * j) * v j = 0) → ∀ j < n, v j = 0

/-- The documented contract of `getrf`/`getrs`, in exact arithmetic: a nonsingular matrix is factored with `info = 0`, and the factors
then solve `a x = b` for every right-hand side. -/
def Lapack.Correct (K : Lapack) : Prop :=
  ∀ n a, Nonsing n a → (K.getrf n a).2.2 = 0 ∧
    ∀ b, (K.getrs n (K.getrf n a).1 (K.getrf n a).2.1 b).2 = 0 ∧
      ∀ c < n, ∀ i < n, ∑ l ∈ range n, a (i + n * l) * (K.getrs n (K.getrf n a).1 (K.getrf n a).2.1 b).1 (l + n * c) = b (i + n * c)

/-- `A` is nonsingular. -/
def Mat.Regular (A : Mat) : Prop :=
  ∀ v : ℕ → ℝ, (∀ i < A.rows, ∑ j ∈ range A.cols, A.val i j * v j = 0) → ∀ j < A.cols, v j = 0

/-- `A B = I` for matrices of order `n`. -/
def ProdOne (n : ℕ) (A B : Mat) : Prop :=
  ∀ i < n, ∀ j < n, ∑ l ∈ range n, A.val i l * B.val l j = if i = j then 1 else 0

/-- Every call on square matrices of the same order returns, whatever LAPACK does. -/
theorem invert_run (K : Lapack) {A B : Mat} (ja jb : ℕ → ℝ) (hA : A.Ok) (hB : B.Ok) (h1 : B.rows = A.rows) (h2 : B.cols = A.cols)
    (h3 : A.rows = A.cols) :
    ∃ (C : Mat) (a b : ℕ → ℝ), (∀ i < A.cols, ∀ j < A.cols, a (i + A.cols * j) = A.val i j) ∧
      (∀ i < A.cols, ∀ j < A.cols, b (i + A.cols * j) = if i = j then 1 else 0) ∧ C.rows = A.cols ∧ C.cols = A.cols ∧
      (∀ i < A.cols, ∀ j < A.cols,
        C.val i j = (K.getrs A.cols (K.getrf A.cols a).1 (K.getrf A.cols a).2.1 b).1 (i + A.cols * j)) ∧
      invert K A B ja jb =
        some (C, (K.getrf A.cols a).2.2, (K.getrs A.cols (K.getrf A.cols a).1 (K.getrf A.cols a).2.1 b).2) := by
  obtain ⟨a, ea, -, va⟩ := pack_good hA ja (Or.inl h3)
  have hin : ∀ i < A.cols, ∀ j < A.cols, i + A.cols * j < A.rows * A.cols := by
    intro i hi j hj
    have := idx_lt hj hi
    rw [mul_comm j] at this
    rw [h3]; omega
  obtain ⟨b, eb, sb, -, vb⟩ := scatter2 (n := A.cols) (w := A.cols)
    (body := fun j i (b : Arr ℝ) => b.set (i + A.cols * j) (if i = j then 1 else 0))
    (fun j i => i + A.cols * j) (fun j i => if i = j then 1 else 0) ⟨A.rows * A.cols, jb⟩ (by
      intro j i b hj hi hb
      have : i + A.cols * j < b.size := by rw [hb]; exact hin i hi j hj
      rw [Arr.set_lt _ this, hb])
  have vb' : ∀ i < A.cols, ∀ j < A.cols, b.val (i + A.cols * j) = if i = j then 1 else 0 := by
    intro i hi j hj
    refine vb j hj i hi ?_
    intro c' hc' l' hl' h he
    have he : l' + A.cols * c' = i + A.cols * j := he
    have e2 : A.cols * c' + l' = A.cols * j + i := by omega
    omega
  obtain ⟨C, eC, r1, r2, -, vC⟩ := unpack_spec (m := A.rows) (n := A.cols)
    (c := ⟨A.rows * A.cols, (K.getrs A.cols (K.getrf A.cols a.val).1 (K.getrf A.cols a.val).2.1 b.val).1⟩) hB h1 h2 (by
      intro i hi j hj
      exact hin i (by omega) j hj)
  refine ⟨C, a.val, b.val, fun i hi j hj => by have := va i (by omega) j hj; rwa [h3] at this, vb', by omega, r2, fun i hi j hj => vC i (by omega) j hj, ?_⟩
  unfold invert
  rw [if_pos ⟨h1.symm, h2.symm, h3⟩]
  show (pack A ja).bind _ = _
  rw [ea, Option.bind_some]
  show (loopM _ _ _).bind _ = _
  rw [eb, Option.bind_some]
  show (loopM _ _ _).bind _ = _
  rw [eC]; rfl

theorem prodOne_comm {n : ℕ} {A B : Mat} (h : ProdOne n A B) : ProdOne n B A := by
  let M : Matrix (Fin n) (Fin n) ℝ := fun i j => A.val i j
  let N : Matrix (Fin n) (Fin n) ℝ := fun i j => B.val i j
  have e : M * N = 1 := by
    ext i j
    rw [Matrix.mul_apply, Matrix.one_apply]
    have := h i i.2 j j.2
    rw [← Fin.sum_univ_eq_sum_range (fun l => A.val i l * B.val l j)] at this
    simp only [Fin.ext_iff]
    exact this
  have e2 : N * M = 1 := mul_eq_one_comm.1 e
  intro i hi j hj
  have := congrFun (congrFun e2 ⟨i, hi⟩) ⟨j, hj⟩
  rw [Matrix.mul_apply, Matrix.one_apply] at this
  rw [← Fin.sum_univ_eq_sum_range (fun l => B.val i l * A.val l j)]
  simpa only [Fin.ext_iff] using this

/-- **C66 (inversion, nonsingular).**  With a LAPACK that meets its contract, `invert` fills the two-sided inverse of every nonsingular
matrix of every order and prints nothing. -/
theorem C66_invert (K : Lapack) (hK : K.Correct) (A B : Mat) (ja jb : ℕ → ℝ) (hA : A.Ok) (hB : B.Ok) (h1 : B.rows = A.rows)
    (h2 : B.cols = A.cols) (h3 : A.rows = A.cols) (hr : A.Regular) :
    ∃ C, invert K A B ja jb = some (C, 0, 0) ∧ C.rows = A.cols ∧ C.cols = A.cols ∧ ProdOne A.cols A C ∧ ProdOne A.cols C A := by
  obtain ⟨C, a, b, ha, hb, r1, r2, hC, e⟩ := invert_run K ja jb hA hB h1 h2 h3
  have hns : Nonsing A.cols a := by
    intro v hv
    refine hr v ?_
    intro i hi
    rw [← hv i (by omega)]
    refine sum_congr rfl fun j hj => ?_
    rw [ha i (by omega) j (mem_range.1 hj)]
  obtain ⟨k1, k2⟩ := hK A.cols a hns
  obtain ⟨k3, k4⟩ := k2 b
  have hp : ProdOne A.cols A C := by
    intro i hi j hj
    rw [← hb i hi j hj, ← k4 j hj i hi]
    refine sum_congr rfl fun l hl => ?_
    rw [ha i hi l (mem_range.1 hl), hC l (mem_range.1 hl) j hj]
  refine ⟨C, ?_, r1, r2, hp, prodOne_comm hp⟩
  rw [e, k1, k3]

/-- **C66 (inversion, singular).**  For a singular matrix, whatever LAPACK returns, `invert` still returns normally, with contents that
are not an inverse on either side: its caller gets no failure. -/
theorem C66_invert_singular (K : Lapack) (A B : Mat) (ja jb : ℕ → ℝ) (hA : A.Ok) (hB : B.Ok) (h1 : B.rows = A.rows)
    (h2 : B.cols = A.cols) (h3 : A.rows = A.cols) (hr : ¬ A.Regular) :
    ∃ C i1 i2, invert K A B ja jb = some (C, i1, i2) ∧ ¬ ProdOne A.cols A C ∧ ¬ ProdOne A.cols C A := by
  obtain ⟨C, a, b, -, -, -, -, -, e⟩ := invert_run K ja jb hA hB h1 h2 h3
  have key : ¬ ProdOne A.cols C A := by
    intro hp
    apply hr
    intro v hv j hj
    have : ∑ l ∈ range A.cols, C.val j l * ∑ k ∈ range A.cols, A.val l k * v k = v j := by
      calc _ = ∑ k ∈ range A.cols, (∑ l ∈ range A.cols, C.val j l * A.val l k) * v k := by
            simp only [mul_sum, sum_mul, mul_assoc]
            exact sum_comm
        _ = ∑ k ∈ range A.cols, (if j = k then 1 else 0) * v k := sum_congr rfl fun k hk => by rw [hp j hj k (mem_range.1 hk)]
        _ = v j := by simp [hj]
    rw [← this]
    refine sum_eq_zero fun l hl => ?_
    rw [hv l (by have := mem_range.1 hl; omega), mul_zero]
  exact ⟨C, _, _, e, fun hp => key (prodOne_comm hp), key⟩

/-- **C66 (shapes).**  Matrices that are not square or not of the same shape fail the assertions. -/
theorem C66_invert_shape (K : Lapack) (A B : Mat) (ja jb : ℕ → ℝ)
    (h : A.rows ≠ B.rows ∨ A.cols ≠ B.cols ∨ A.rows ≠ A.cols) : invert K A B ja jb = none := by
  unfold invert
  rw [if_neg]
  rintro ⟨h1, h2, h3⟩
  rcases h with h | h | h
  exacts [h h1, h h2, h h3]

/-- A LAPACK meeting the contract exists. -/
example : ∃ K : Lapack, K.Correct := by
  classical
  have sol : ∀ n a, Nonsing n a → ∀ b : ℕ → ℝ, ∃ x : ℕ → ℝ, ∀ c < n, ∀ i < n, ∑ l ∈ range n, a (i + n * l) * x (l + n * c) = b (i + n * c) := by
    intro n a hns b
    rcases Nat.eq_zero_or_pos n with rfl | hn
    · exact ⟨b, fun c hc => absurd hc (by omega)⟩
    let M : Matrix (Fin n) (Fin n) ℝ := fun i j => a (i + n * j)
    have hdet : IsUnit M.det := by
      rw [isUnit_iff_ne_zero]
      intro h0
      obtain ⟨v, hv, hm⟩ := Matrix.exists_mulVec_eq_zero_iff.2 h0
      apply hv
      funext j
      have := hns (fun k => if h : k < n then v ⟨k, h⟩ else 0) (by
        intro i hi
        have := congrFun hm ⟨i, hi⟩
        rw [Matrix.mulVec, dotProduct] at this
        rw [← Fin.sum_univ_eq_sum_range (fun j => a (i + n * j) * (if h : j < n then v ⟨j, h⟩ else 0))]
        simpa using this) j j.2
      simpa using this
    let R : Matrix (Fin n) (Fin n) ℝ := fun i c => b (i + n * c)
    let X : Matrix (Fin n) (Fin n) ℝ := M⁻¹ * R
    have hX : M * X = R := by
      show M * (M⁻¹ * _) = _
      rw [← Matrix.mul_assoc, Matrix.mul_nonsing_inv _ hdet, Matrix.one_mul]
    refine ⟨fun p => X ⟨p % n, Nat.mod_lt _ hn⟩ ⟨p / n % n, Nat.mod_lt _ hn⟩, ?_⟩
    intro c hc i hi
    have := congrFun (congrFun hX ⟨i, hi⟩) ⟨c, hc⟩
    rw [Matrix.mul_apply] at this
    have hb : b (i + n * c) = R ⟨i, hi⟩ ⟨c, hc⟩ := rfl
    rw [hb, ← this, Finset.sum_range]
    refine sum_congr rfl fun l _ => ?_
    have e1 : ((l : ℕ) + n * c) % n = l := by rw [Nat.add_mul_mod_self_left, Nat.mod_eq_of_lt l.2]
    have e2 : ((l : ℕ) + n * c) / n % n = c := by
      rw [Nat.add_mul_div_left _ _ hn, Nat.div_eq_of_lt l.2, zero_add, Nat.mod_eq_of_lt hc]
    simp only [e1, e2]
    rfl
  refine ⟨⟨fun n a => (a, fun _ => 0, 0), fun n lu _ b => (if h : Nonsing n lu then (sol n lu h b).choose else b, 0)⟩, ?_⟩
  intro n a hns
  refine ⟨rfl, fun b => ⟨rfl, ?_⟩⟩
  simp only [hns, dif_pos]
  exact (sol n a hns b).choose_spec

/-- A regular and a singular matrix of order two. -/
example : (Mat.mk 2 2 ⟨4, fun p => p⟩).Ok ∧ (Mat.mk 2 2 ⟨4, fun p => p⟩).Regular ∧ ¬ (Mat.mk 2 2 ⟨4, fun _ => 1⟩).Regular := by
  refine ⟨rfl, ?_, ?_⟩
  · intro v hv
    have h0 := hv 0 (by norm_num)
    have h1 := hv 1 (by norm_num)
    simp [Mat.val, sum_range_succ] at h0 h1
    intro j hj
    simp only [] at hj
    interval_cases j
    · linarith
    · linarith
  · intro h
    have := h (fun j => if j = 0 then 1 else -1) (by
      intro i hi
      simp [Mat.val, sum_range_succ]) 0 (by norm_num)
    norm_num at this

end Verif.Blas
