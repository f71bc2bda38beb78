import Verif.Loop
import Mathlib.Tactic.Ring

/-!
# Reasoning about nested filling loops

`Fills body S val`: running `body` on any array sets exactly the positions in `S`, position `p` to
`val p`, and leaves every other position alone.  Nested loops compose without any disjointness
condition because the value is a function of the position.
-/

namespace Verif

variable {α : Type*}

/-- See the header. -/
def Fills (body : (ℕ → α) → (ℕ → α)) (S : ℕ → Prop) (val : ℕ → α) : Prop :=
  ∀ a p, (S p → body a p = val p) ∧ (¬ S p → body a p = a p)

/-- The same for two-dimensional arrays. -/
def Fills2 (body : (ℕ → ℕ → α) → (ℕ → ℕ → α)) (S : ℕ → ℕ → Prop) (val : ℕ → ℕ → α) : Prop :=
  ∀ a p q, (S p q → body a p q = val p q) ∧ (¬ S p q → body a p q = a p q)

theorem Fills.store {p : ℕ} {v : α} {val : ℕ → α} (h : val p = v) :
    Fills (fun a => store a p v) (fun q => q = p) val := by
  intro a q
  constructor
  · rintro rfl; show Verif.store a q v q = _; rw [store_same, h]
  · intro hq; exact store_ne _ _ hq

theorem Fills2.store {p q : ℕ} {v : α} {val : ℕ → ℕ → α} (h : val p q = v) :
    Fills2 (fun a => store2 a p q v) (fun p' q' => p' = p ∧ q' = q) val := by
  intro a p' q'
  constructor
  · rintro ⟨rfl, rfl⟩; show store2 a p' q' v p' q' = _; rw [store2_eq, h]
  · intro hq; exact store2_ne _ _ hq

theorem Fills.loop {n : ℕ} {body : ℕ → (ℕ → α) → (ℕ → α)} {S : ℕ → ℕ → Prop} {val : ℕ → α}
    (h : ∀ i < n, Fills (body i) (S i) val) :
    Fills (loop n body) (fun p => ∃ i < n, S i p) val := by
  induction n with
  | zero => intro a p; exact ⟨fun ⟨i, hi, _⟩ => absurd hi (Nat.not_lt_zero _), fun _ => rfl⟩
  | succ n ih =>
    intro a p
    have ih := ih (fun i hi => h i (by omega)) a p
    have hn := h n (by omega) (Verif.loop n body a) p
    rw [loop_succ]
    constructor
    · rintro ⟨i, hi, hS⟩
      by_cases hp : S n p
      · exact hn.1 hp
      · rw [hn.2 hp]
        have : i ≠ n := by rintro rfl; exact hp hS
        exact ih.1 ⟨i, by omega, hS⟩
    · intro hno
      rw [hn.2 (fun hp => hno ⟨n, by omega, hp⟩)]
      exact ih.2 (fun ⟨i, hi, hS⟩ => hno ⟨i, by omega, hS⟩)

theorem Fills2.loop {n : ℕ} {body : ℕ → (ℕ → ℕ → α) → (ℕ → ℕ → α)} {S : ℕ → ℕ → ℕ → Prop}
    {val : ℕ → ℕ → α} (h : ∀ i < n, Fills2 (body i) (S i) val) :
    Fills2 (loop n body) (fun p q => ∃ i < n, S i p q) val := by
  induction n with
  | zero => intro a p q; exact ⟨fun ⟨i, hi, _⟩ => absurd hi (Nat.not_lt_zero _), fun _ => rfl⟩
  | succ n ih =>
    intro a p q
    have ih := ih (fun i hi => h i (by omega)) a p q
    have hn := h n (by omega) (Verif.loop n body a) p q
    rw [loop_succ]
    constructor
    · rintro ⟨i, hi, hS⟩
      by_cases hp : S n p q
      · exact hn.1 hp
      · rw [hn.2 hp]
        have : i ≠ n := by rintro rfl; exact hp hS
        exact ih.1 ⟨i, by omega, hS⟩
    · intro hno
      rw [hn.2 (fun hp => hno ⟨n, by omega, hp⟩)]
      exact ih.2 (fun ⟨i, hi, hS⟩ => hno ⟨i, by omega, hS⟩)

/-- Sequential composition. -/
theorem Fills.comp {f g : (ℕ → α) → (ℕ → α)} {S T : ℕ → Prop} {val : ℕ → α}
    (hf : Fills f S val) (hg : Fills g T val) :
    Fills (fun a => g (f a)) (fun p => S p ∨ T p) val := by
  intro a p
  have h1 := hf a p; have h2 := hg (f a) p
  constructor
  · rintro hp
    by_cases hT : T p
    · exact h2.1 hT
    · show g (f a) p = _
      rw [h2.2 hT]; exact h1.1 (hp.resolve_right hT)
  · intro hp
    show g (f a) p = _
    rw [h2.2 (fun h => hp (Or.inr h)), h1.2 (fun h => hp (Or.inl h))]

theorem Fills2.comp {f g : (ℕ → ℕ → α) → (ℕ → ℕ → α)} {S T : ℕ → ℕ → Prop} {val : ℕ → ℕ → α}
    (hf : Fills2 f S val) (hg : Fills2 g T val) :
    Fills2 (fun a => g (f a)) (fun p q => S p q ∨ T p q) val := by
  intro a p q
  have h1 := hf a p q; have h2 := hg (f a) p q
  constructor
  · rintro hp
    by_cases hT : T p q
    · exact h2.1 hT
    · show g (f a) p q = _
      rw [h2.2 hT]; exact h1.1 (hp.resolve_right hT)
  · intro hp
    show g (f a) p q = _
    rw [h2.2 (fun h => hp (Or.inr h)), h1.2 (fun h => hp (Or.inl h))]

theorem Fills.congr {f g : (ℕ → α) → (ℕ → α)} {S T : ℕ → Prop} {val : ℕ → α}
    (hf : Fills f S val) (hfg : ∀ a, g a = f a) (hST : ∀ p, T p ↔ S p) : Fills g T val := by
  intro a p; rw [hfg, hST]; exact hf a p

/-- Index arithmetic of a three-dimensional lexicographic numbering. -/
theorem lex3_mod {i j k n m : ℕ} (hi : i < n) (hj : j < m) :
    (i + j * n + k * n * m) % n = i ∧ (i + j * n + k * n * m) / n % m = j ∧
      (i + j * n + k * n * m) / n / m = k := by
  have hn : 0 < n := by omega
  have hm : 0 < m := by omega
  have e : i + j * n + k * n * m = i + n * (j + m * k) := by ring
  rw [e, Nat.add_mul_mod_self_left, Nat.mod_eq_of_lt hi, Nat.add_mul_div_left _ _ hn,
    Nat.div_eq_of_lt hi, Nat.zero_add, Nat.add_mul_mod_self_left, Nat.mod_eq_of_lt hj,
    Nat.add_mul_div_left _ _ hm, Nat.div_eq_of_lt hj, Nat.zero_add]
  exact ⟨rfl, rfl, rfl⟩

theorem lex3_lt {i j k n m l : ℕ} (hi : i < n) (hj : j < m) (hk : k < l) :
    i + j * n + k * n * m < n * m * l := by
  have h1 : i + j * n < n * m := by
    calc i + j * n < n + j * n := by omega
      _ = (j + 1) * n := by ring
      _ ≤ m * n := Nat.mul_le_mul_right _ (by omega)
      _ = n * m := by ring
  calc i + j * n + k * n * m < n * m + k * n * m := by omega
    _ = (k + 1) * (n * m) := by ring
    _ ≤ l * (n * m) := Nat.mul_le_mul_right _ (by omega)
    _ = n * m * l := by ring

theorem lex3_surj {p n m l : ℕ} (hp : p < n * m * l) :
    p % n < n ∧ p / n % m < m ∧ p / n / m < l ∧
      p % n + (p / n % m) * n + (p / n / m) * n * m = p := by
  have hn : 0 < n := by rcases Nat.eq_zero_or_pos n with h | h; · subst h; simp at hp
                        · exact h
  have hm : 0 < m := by rcases Nat.eq_zero_or_pos m with h | h; · subst h; simp at hp
                        · exact h
  refine ⟨Nat.mod_lt _ hn, Nat.mod_lt _ hm, ?_, ?_⟩
  · rw [Nat.div_div_eq_div_mul]; exact Nat.div_lt_of_lt_mul hp
  · have h1 := Nat.mod_add_div p n
    have h2 := Nat.mod_add_div (p / n) m
    calc p % n + (p / n % m) * n + (p / n / m) * n * m
        = p % n + n * (p / n % m + m * (p / n / m)) := by ring
      _ = p := by rw [h2, h1]

/-! ### Loops that append to an array through a running counter -/

/-- `a[cnt++] = f(i)` for `i = 0 .. T-1`. -/
theorem loop_push (T : ℕ) (f : ℕ → α) (m : ℕ → α) (c : ℕ) :
    loop T (fun i (s : (ℕ → α) × ℕ) => (store s.1 s.2 (f i), s.2 + 1)) (m, c) =
      (fun p => if c ≤ p ∧ p < c + T then f (p - c) else m p, c + T) := by
  induction T with
  | zero =>
    refine Prod.ext ?_ rfl
    funext p; simp only [loop_zero]; rw [if_neg (by omega)]
  | succ T ih =>
    rw [loop_succ, ih]
    refine Prod.ext ?_ (by simp only []; omega)
    funext p
    by_cases h : p = c + T
    · subst h
      simp
    · simp only [store_ne _ _ h]
      by_cases h2 : c ≤ p ∧ p < c + T
      · rw [if_pos h2, if_pos (by omega)]
      · rw [if_neg h2, if_neg (by omega)]

/-- An outer loop whose body appends `w` entries. -/
theorem loop_append (T w : ℕ) (hw : 0 < w) (g : ℕ → ℕ → α)
    (body : ℕ → (ℕ → α) × ℕ → (ℕ → α) × ℕ)
    (hb : ∀ j < T, ∀ m c, body j (m, c) =
      (fun p => if c ≤ p ∧ p < c + w then g j (p - c) else m p, c + w)) (m : ℕ → α) (c : ℕ) :
    loop T body (m, c) =
      (fun p => if c ≤ p ∧ p < c + T * w then g ((p - c) / w) ((p - c) % w) else m p, c + T * w) := by
  induction T with
  | zero =>
    refine Prod.ext ?_ (by simp)
    funext p; simp only [loop_zero, Nat.zero_mul]; rw [if_neg (by omega)]
  | succ T ih =>
    rw [loop_succ, ih (fun j hj => hb j (by omega)), hb T (by omega)]
    have e : c + T * w + w = c + (T + 1) * w := by rw [Nat.add_mul]; omega
    refine Prod.ext ?_ e
    funext p
    have e' : (T + 1) * w = T * w + w := by rw [Nat.add_mul]; omega
    by_cases h : c + T * w ≤ p ∧ p < c + T * w + w
    · have h1 : (p - c) / w = T := by
        rw [Nat.div_eq_iff hw]; constructor
        · omega
        · omega
      have h2 : (p - c) % w = p - (c + T * w) := by
        have := Nat.mod_add_div (p - c) w
        rw [h1, Nat.mul_comm] at this; omega
      simp only [if_pos h, if_pos (show c ≤ p ∧ p < c + (T + 1) * w by omega), h1, h2]
    · simp only [if_neg h]
      by_cases h2 : c ≤ p ∧ p < c + T * w
      · rw [if_pos h2, if_pos (by omega)]
      · rw [if_neg h2, if_neg (by omega)]

end Verif
