import Mathlib.Algebra.BigOperators.Group.Finset.Basic
import Mathlib.Algebra.BigOperators.Ring.Finset

/-!
# C-style counting loops

`loop n body s` is the state after running `for (i = 0; i < n; i++) s = body(i, s)`.
-/

namespace Verif

/-- `for (i = 0; i < n; i++) s = body i s`, iterations in increasing order of `i`. -/
def loop {σ : Type*} : (n : ℕ) → (body : ℕ → σ → σ) → σ → σ
  | 0, _, s => s
  | n + 1, body, s => body n (loop n body s)

/-- Array store `a[i] = v` for arrays modelled as functions of the index. -/
def store {α : Type*} (a : ℕ → α) (i : ℕ) (v : α) : ℕ → α := fun j => if j = i then v else a j

/-- Matrix store `a(i,j) = v` for two-dimensional arrays. -/
def store2 {α : Type*} (a : ℕ → ℕ → α) (i j : ℕ) (v : α) : ℕ → ℕ → α :=
  fun i' j' => if i' = i ∧ j' = j then v else a i' j'

section
variable {σ α : Type*}

@[simp] theorem loop_zero (body : ℕ → σ → σ) (s : σ) : loop 0 body s = s := rfl
theorem loop_succ (n : ℕ) (body : ℕ → σ → σ) (s : σ) :
    loop (n + 1) body s = body n (loop n body s) := rfl

@[simp] theorem store_same (a : ℕ → α) (i : ℕ) (v : α) : store a i v i = v := by simp [store]
theorem store_ne (a : ℕ → α) {i j : ℕ} (v : α) (h : j ≠ i) : store a i v j = a j := by
  simp [store, h]

/-- Invariant rule. -/
theorem loop_inv {n : ℕ} {body : ℕ → σ → σ} {s : σ} (I : ℕ → σ → Prop) (h0 : I 0 s)
    (hs : ∀ i s, i < n → I i s → I (i + 1) (body i s)) : I n (loop n body s) := by
  have : ∀ m, m ≤ n → I m (loop m body s) := by
    intro m
    induction m with
    | zero => intro _; exact h0
    | succ m ih => intro hm; exact hs m _ (by omega) (ih (by omega))
  exact this n le_rfl

theorem loop_congr {n : ℕ} {f g : ℕ → σ → σ} {s : σ} (h : ∀ i s, i < n → f i s = g i s) :
    loop n f s = loop n g s := by
  induction n with
  | zero => rfl
  | succ n ih => rw [loop_succ, loop_succ, ih (fun i s hi => h i s (by omega)), h n _ (by omega)]

theorem loop_add [AddCommMonoid α] (n : ℕ) (f : ℕ → α) (s : α) :
    loop n (fun i s => s + f i) s = s + ∑ i ∈ Finset.range n, f i := by
  induction n with
  | zero => simp
  | succ n ih => rw [loop_succ, ih, Finset.sum_range_succ, add_assoc]

theorem loop_mul [CommMonoid α] (n : ℕ) (f : ℕ → α) (s : α) :
    loop n (fun i s => s * f i) s = s * ∏ i ∈ Finset.range n, f i := by
  induction n with
  | zero => simp
  | succ n ih => rw [loop_succ, ih, Finset.prod_range_succ, mul_assoc]

/-- Filling `a[0..n)`. -/
theorem loop_store (n : ℕ) (f : ℕ → α) (a : ℕ → α) :
    loop n (fun i a => store a i (f i)) a = fun j => if j < n then f j else a j := by
  induction n with
  | zero => simp
  | succ n ih =>
    rw [loop_succ, ih]
    funext j
    by_cases h : j = n
    · subst h; simp
    · rw [store_ne _ _ h]
      by_cases h2 : j < n
      · simp [h2, Nat.lt_succ_of_lt h2]
      · have : ¬ j < n + 1 := by omega
        simp [h2, this]

theorem store2_eq (a : ℕ → ℕ → α) (i j : ℕ) (v : α) : store2 a i j v i j = v := by simp [store2]

theorem store2_ne (a : ℕ → ℕ → α) {i j i' j' : ℕ} (v : α) (h : ¬ (i' = i ∧ j' = j)) :
    store2 a i j v i' j' = a i' j' := by simp [store2, h]

/-- Updating one entry repeatedly. -/
theorem loop_store2_acc [AddCommMonoid α] (n i j : ℕ) (f : ℕ → α) (a : ℕ → ℕ → α) :
    loop n (fun k a => store2 a i j (a i j + f k)) a =
      fun i' j' => if i' = i ∧ j' = j then a i j + ∑ k ∈ Finset.range n, f k else a i' j' := by
  induction n with
  | zero =>
    funext i' j'
    by_cases h : i' = i ∧ j' = j
    · obtain ⟨rfl, rfl⟩ := h; simp
    · simp [h]
  | succ n ih =>
    rw [loop_succ, ih]
    funext i' j'
    by_cases h : i' = i ∧ j' = j
    · obtain ⟨rfl, rfl⟩ := h
      simp [store2, Finset.sum_range_succ, add_assoc]
    · simp [store2, h]

/-- Updating each entry of a row. -/
theorem loop_store2_row (n i : ℕ) (g : ℕ → α → α) (a : ℕ → ℕ → α) :
    loop n (fun k a => store2 a i k (g k (a i k))) a =
      fun i' j' => if i' = i ∧ j' < n then g j' (a i' j') else a i' j' := by
  induction n with
  | zero => simp
  | succ n ih =>
    rw [loop_succ, ih]
    funext i' j'
    by_cases h : i' = i
    · subst h
      by_cases h2 : j' = n
      · subst h2; simp [store2]
      · by_cases h3 : j' < n
        · simp [store2, h2, h3, Nat.lt_succ_of_lt h3]
        · simp [store2, h2, h3, show ¬ j' < n + 1 by omega]
    · simp [store2, h]

/-- Updating each entry of a leading block. -/
theorem loop_store2 (m n : ℕ) (g : ℕ → ℕ → α → α) (a : ℕ → ℕ → α) :
    loop m (fun i a => loop n (fun k a => store2 a i k (g i k (a i k))) a) a =
      fun i' j' => if i' < m ∧ j' < n then g i' j' (a i' j') else a i' j' := by
  induction m with
  | zero => simp
  | succ m ih =>
    rw [loop_succ, ih, loop_store2_row]
    funext i' j'
    by_cases h : i' = m
    · subst h; simp
    · by_cases h2 : i' < m
      · simp [h, h2, Nat.lt_succ_of_lt h2]
      · simp [h, h2, show ¬ i' < m + 1 by omega]

end
end Verif
