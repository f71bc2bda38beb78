import Verif.Loop
import Mathlib.Data.Nat.Count
import Mathlib.Algebra.BigOperators.Intervals
import Mathlib.Tactic.Ring

/-!
# Arrays with bounds and loops that may fail

`Arr α` is an allocated array: a size and contents.  Reading or writing outside `[0, size)` is undefined
behaviour in the code (MATAR's release accessors do not check) and gives `none` here, so that a result
`some r` means that no access was out of bounds.  Newly allocated arrays have arbitrary contents, which
are arguments of the model.
-/

namespace Verif

/-- An allocated array. -/
structure Arr (α : Type*) where
  /-- number of entries -/
  size : ℕ
  /-- contents (only positions below `size` are accessible) -/
  val : ℕ → α

namespace Arr
variable {α : Type*}

/-- Read `a(i)`. -/
def get (a : Arr α) (i : ℕ) : Option α := if i < a.size then some (a.val i) else none
/-- Write `a(i) = v`. -/
def set (a : Arr α) (i : ℕ) (v : α) : Option (Arr α) :=
  if i < a.size then some ⟨a.size, store a.val i v⟩ else none

theorem get_lt {a : Arr α} {i : ℕ} (h : i < a.size) : a.get i = some (a.val i) := if_pos h
theorem set_lt {a : Arr α} {i : ℕ} (v : α) (h : i < a.size) :
    a.set i v = some ⟨a.size, store a.val i v⟩ := if_pos h
theorem get_ge {a : Arr α} {i : ℕ} (h : a.size ≤ i) : a.get i = none := if_neg (by omega)
theorem set_ge {a : Arr α} {i : ℕ} (v : α) (h : a.size ≤ i) : a.set i v = none := if_neg (by omega)
theorem get_eq_some {a : Arr α} {i : ℕ} {v : α} (h : a.get i = some v) : i < a.size ∧ a.val i = v := by
  unfold get at h; split at h
  · exact ⟨‹_›, by simpa using h⟩
  · simp at h
end Arr

section
variable {σ : Type*}

/-- `for (i = 0; i < n; i++) s = body(i, s)` where the body may be undefined. -/
def loopM : (n : ℕ) → (body : ℕ → σ → Option σ) → σ → Option σ
  | 0, _, s => some s
  | n + 1, body, s => (loopM n body s).bind (body n)

@[simp] theorem loopM_zero (body : ℕ → σ → Option σ) (s : σ) : loopM 0 body s = some s := rfl
theorem loopM_succ (n : ℕ) (body : ℕ → σ → Option σ) (s : σ) :
    loopM (n + 1) body s = (loopM n body s).bind (body n) := rfl

/-- Total-correctness rule. -/
theorem loopM_spec {n : ℕ} {body : ℕ → σ → Option σ} {s : σ} (I : ℕ → σ → Prop) (h0 : I 0 s)
    (hs : ∀ i s, i < n → I i s → ∃ s', body i s = some s' ∧ I (i + 1) s') :
    ∃ s', loopM n body s = some s' ∧ I n s' := by
  have : ∀ m, m ≤ n → ∃ s', loopM m body s = some s' ∧ I m s' := by
    intro m
    induction m with
    | zero => intro _; exact ⟨s, rfl, h0⟩
    | succ m ih =>
      intro hm
      obtain ⟨s', h1, h2⟩ := ih (by omega)
      obtain ⟨s'', h3, h4⟩ := hs m s' (by omega) h2
      exact ⟨s'', by rw [loopM_succ, h1]; exact h3, h4⟩
  exact this n le_rfl

/-- Partial-correctness rule. -/
theorem loopM_inv {n : ℕ} {body : ℕ → σ → Option σ} {s r : σ} (hr : loopM n body s = some r)
    (I : ℕ → σ → Prop) (h0 : I 0 s)
    (hs : ∀ i s s', i < n → I i s → body i s = some s' → I (i + 1) s') : I n r := by
  have : ∀ m r, m ≤ n → loopM m body s = some r → I m r := by
    intro m
    induction m with
    | zero => intro r _ h; simp at h; exact h ▸ h0
    | succ m ih =>
      intro r hm h
      rw [loopM_succ] at h
      obtain ⟨t, ht, h2⟩ := Option.bind_eq_some_iff.1 h
      exact hs m t r (by omega) (ih t (by omega) ht) h2
  exact this n r le_rfl hr

/-- If some iteration is undefined in every state it can be reached in, the loop is undefined. -/
theorem loopM_none {n : ℕ} {body : ℕ → σ → Option σ} {s : σ} (I : ℕ → σ → Prop) (h0 : I 0 s)
    (hs : ∀ i s s', i < n → I i s → body i s = some s' → I (i + 1) s')
    {i : ℕ} (hi : i < n) (hb : ∀ s, I i s → body i s = none) : loopM n body s = none := by
  by_contra hne
  obtain ⟨r, hr⟩ := Option.ne_none_iff_exists'.1 hne
  have key : ∀ m r, m ≤ n → loopM m body s = some r → I m r ∧ ¬ i < m := by
    intro m
    induction m with
    | zero => intro r _ h; simp at h; exact ⟨h ▸ h0, by omega⟩
    | succ m ih =>
      intro r hm h
      rw [loopM_succ] at h
      obtain ⟨t, ht, h2⟩ := Option.bind_eq_some_iff.1 h
      obtain ⟨hI, hlt⟩ := ih t (by omega) ht
      refine ⟨hs m t r (by omega) hI h2, ?_⟩
      intro hlt2
      have : i = m := by omega
      subst this
      rw [hb t hI] at h2; cases h2
  exact (key n r le_rfl hr).2 hi

theorem loopM_congr {n : ℕ} {f g : ℕ → σ → Option σ} {s : σ} (h : ∀ i s, i < n → f i s = g i s) :
    loopM n f s = loopM n g s := by
  induction n with
  | zero => rfl
  | succ n ih =>
    rw [loopM_succ, loopM_succ, ih (fun i s hi => h i s (by omega))]
    cases loopM n g s with
    | none => rfl
    | some t => exact h n t (by omega)

/-- Rule for two nested loops with a common flat invariant `I (w * c + l)`. -/
theorem loopM2_spec {n w : ℕ} {body : ℕ → ℕ → σ → Option σ} {s : σ} (I : ℕ → σ → Prop) (h0 : I 0 s)
    (hs : ∀ c l s, c < n → l < w → I (w * c + l) s → ∃ s', body c l s = some s' ∧ I (w * c + l + 1) s') :
    ∃ s', loopM n (fun c => loopM w (body c)) s = some s' ∧ I (w * n) s' := by
  have := loopM_spec (n := n) (body := fun c => loopM w (body c)) (s := s) (fun c s => I (w * c) s)
    (by simpa using h0)
    (fun c s hc hI => by
      obtain ⟨s', h1, h2⟩ := loopM_spec (n := w) (body := body c) (s := s) (fun l s => I (w * c + l) s)
        (by simpa using hI) (fun l s hl hI => hs c l s hc hl hI)
      exact ⟨s', h1, by rw [Nat.mul_succ]; exact h2⟩)
  exact this

/-- Rule for four nested loops `e < n`, `k, j, i < w` with a flat invariant. -/
theorem loopM4_spec {n w : ℕ} {body : ℕ → ℕ → ℕ → ℕ → σ → Option σ} {s : σ} (I : ℕ → σ → Prop) (h0 : I 0 s)
    (hs : ∀ e k j i s, e < n → k < w → j < w → i < w → I (i + j * w + k * w * w + w * w * w * e) s →
      ∃ s', body e k j i s = some s' ∧ I (i + j * w + k * w * w + w * w * w * e + 1) s') :
    ∃ s', loopM n (fun e => loopM w fun k => loopM w fun j => loopM w fun i => body e k j i) s = some s' ∧
      I (w * w * w * n) s' := by
  refine loopM_spec (fun e s => I (w * w * w * e) s) (by simpa using h0) ?_
  intro e s he hI
  obtain ⟨s', h1, h2⟩ := loopM_spec (n := w) (body := fun k => loopM w fun j => loopM w fun i => body e k j i) (s := s)
    (fun k s => I (k * w * w + w * w * w * e) s) (by simpa using hI)
    (fun k s hk hI => by
      obtain ⟨s', h1, h2⟩ := loopM_spec (n := w) (body := fun j => loopM w fun i => body e k j i) (s := s)
        (fun j s => I (j * w + k * w * w + w * w * w * e) s) (by simpa using hI)
        (fun j s hj hI => by
          obtain ⟨s', h1, h2⟩ := loopM_spec (n := w) (body := fun i => body e k j i) (s := s)
            (fun i s => I (i + j * w + k * w * w + w * w * w * e) s) (by simpa using hI)
            (fun i s hi hI => by
              obtain ⟨s', h1, h2⟩ := hs e k j i s he hk hj hi hI
              exact ⟨s', h1, by
                rw [show i + 1 + j * w + k * w * w + w * w * w * e = i + j * w + k * w * w + w * w * w * e + 1 by ring]
                exact h2⟩)
          exact ⟨s', h1, by
            rw [show (j + 1) * w + k * w * w + w * w * w * e = w + j * w + k * w * w + w * w * w * e by ring]
            exact h2⟩)
      exact ⟨s', h1, by
        rw [show (k + 1) * w * w + w * w * w * e = w * w + k * w * w + w * w * w * e by ring]
        exact h2⟩)
  exact ⟨s', h1, by
    rw [show w * w * w * (e + 1) = w * w * w + w * w * w * e by ring]
    exact h2⟩

end
end Verif
