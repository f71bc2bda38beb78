import Verif.Swage.NodeCell
import Mathlib.Algebra.Order.BigOperators.Group.Finset

/-!
Ragged lists built by counting, prefix sums and filling: the positions written are a bijection.
-/

namespace Verif.Swage
open Finset

/-- Number of incidences `e < m` with key `n`. -/
def cnt (key : ℕ → ℕ) (m n : ℕ) : ℕ := Nat.count (fun e => key e = n) m
/-- Start of the list of `n` when there are `K` incidences. -/
def st (key : ℕ → ℕ) (K n : ℕ) : ℕ := ∑ i ∈ range n, cnt key K i
/-- Position of incidence `e`. -/
def pos (key : ℕ → ℕ) (K e : ℕ) : ℕ := st key K (key e) + cnt key e (key e)

variable {key : ℕ → ℕ} {K N : ℕ}

@[simp] theorem cnt_zero (n : ℕ) : cnt key 0 n = 0 := by simp [cnt]
theorem cnt_succ (m n : ℕ) : cnt key (m + 1) n = cnt key m n + if key m = n then 1 else 0 := by
  unfold cnt; rw [Nat.count_succ]
theorem cnt_mono {a b : ℕ} (h : a ≤ b) (n : ℕ) : cnt key a n ≤ cnt key b n := Nat.count_monotone _ h
theorem cnt_lt {e m : ℕ} (h : e < m) : cnt key e (key e) < cnt key m (key e) := by
  have h1 : cnt key (e + 1) (key e) ≤ cnt key m (key e) := cnt_mono h _
  rw [cnt_succ, if_pos rfl] at h1; omega

theorem st_succ (n : ℕ) : st key K (n + 1) = st key K n + cnt key K n := by
  unfold st; rw [sum_range_succ]
theorem st_mono {a b : ℕ} (h : a ≤ b) : st key K a ≤ st key K b := by
  unfold st; exact Finset.sum_le_sum_of_subset (range_mono h)

theorem st_total (h : ∀ e < K, key e < N) : st key K N = K := by
  unfold st
  induction K with
  | zero => simp
  | succ K ih =>
    simp only [cnt_succ]
    rw [sum_add_distrib, ih (fun e he => h e (by omega)), sum_ite_eq, if_pos (by
      simpa using h K (by omega))]

theorem pos_lt_next {e : ℕ} (he : e < K) : pos key K e < st key K (key e + 1) := by
  have := cnt_lt (key := key) he
  rw [st_succ]; unfold pos; omega

theorem pos_lt (h : ∀ e < K, key e < N) {e : ℕ} (he : e < K) : pos key K e < K := by
  have h1 := pos_lt_next (key := key) he
  have h2 : st key K (key e + 1) ≤ st key K N := st_mono (h e he)
  rw [st_total h] at h2; omega

theorem pos_inj {a b : ℕ} (ha : a < K) (hb : b < K) (h : pos key K a = pos key K b) : a = b := by
  rcases Nat.lt_trichotomy (key a) (key b) with hk | hk | hk
  · have h1 := pos_lt_next (key := key) ha
    have h2 : st key K (key a + 1) ≤ st key K (key b) := st_mono hk
    have h3 : st key K (key b) ≤ pos key K b := Nat.le_add_right _ _
    omega
  · unfold pos at h
    rw [hk] at h
    rcases Nat.lt_trichotomy a b with hab | hab | hab
    · have := cnt_lt (key := key) hab; rw [hk] at this; omega
    · exact hab
    · have := cnt_lt (key := key) hab; rw [← hk] at this; rw [hk] at this; omega
  · have h1 := pos_lt_next (key := key) hb
    have h2 : st key K (key b + 1) ≤ st key K (key a) := st_mono hk
    have h3 : st key K (key a) ≤ pos key K a := Nat.le_add_right _ _
    omega

/-- The entries `[st n, st n + cnt n)` list the incidences of `n` in increasing order. -/
theorem list_eq {α : Type*} (L : ℕ → α) (val : ℕ → α) (hL : ∀ e < K, L (pos key K e) = val e) (n : ℕ) :
    (List.range (cnt key K n)).map (fun l => L (st key K n + l)) =
      ((List.range K).filter (fun e => key e = n)).map val := by
  have : ∀ m ≤ K, (List.range (cnt key m n)).map (fun l => L (st key K n + l)) =
      ((List.range m).filter (fun e => key e = n)).map val := by
    intro m
    induction m with
    | zero => intro _; simp
    | succ m ih =>
      intro hm
      rw [cnt_succ, List.range_succ (n := m), List.filter_append, List.map_append, ← ih (by omega)]
      by_cases h : key m = n
      · rw [if_pos h, List.range_succ, List.map_append]
        congr 1
        have := hL m (by omega)
        unfold pos at this; rw [h] at this
        simp [h, this]
      · rw [if_neg h]; simp [h]
  exact this K le_rfl

/-- Flat list of incidences = per-cell list. -/
theorem filter_flat (w C n : ℕ) (hw : 0 < w) (key : ℕ → ℕ → ℕ) :
    ((List.range (w * C)).filter (fun e => key (e / w) (e % w) = n)) =
      (List.range C).flatMap (fun c => ((List.range w).filter (fun l => key c l = n)).map
        (fun l => w * c + l)) := by
  induction C with
  | zero => simp
  | succ C ih =>
    rw [Nat.mul_succ, List.range_add, List.filter_append, ih, List.range_succ, List.flatMap_append]
    congr 1
    simp only [List.flatMap_cons, List.flatMap_nil, List.append_nil, List.filter_map]
    congr 1
    refine List.filter_congr fun l hl => ?_
    have hl : l < w := by simpa using hl
    have h1 : (w * C + l) / w = C := by
      rw [Nat.mul_add_div hw, Nat.div_eq_of_lt hl, Nat.add_zero]
    have h2 : (w * C + l) % w = l := by rw [Nat.mul_add_mod, Nat.mod_eq_of_lt hl]
    simp [h1, h2]

/-! ### The loops -/

theorem clear2_spec (n : ℕ) (a b : Arr ℕ) (ha : n ≤ a.size) (hb : n ≤ b.size) :
    ∃ r, clear2 n a b = some r ∧ r.1.size = a.size ∧ r.2.size = b.size ∧
      (∀ i < n, r.1.val i = 0) ∧ (∀ i < n, r.2.val i = 0) := by
  obtain ⟨r, h1, h2⟩ := loopM_spec (n := n) (body := fun i (s : Arr ℕ × Arr ℕ) => (do
    let a ← s.1.set i 0
    let b ← s.2.set i 0
    pure (a, b))) (s := (a, b))
    (fun m s => s.1.size = a.size ∧ s.2.size = b.size ∧ (∀ i < m, s.1.val i = 0) ∧
      (∀ i < m, s.2.val i = 0))
    ⟨rfl, rfl, fun i h => absurd h (Nat.not_lt_zero _), fun i h => absurd h (Nat.not_lt_zero _)⟩
    (by
      rintro i ⟨s1, s2⟩ hi ⟨h1, h2, h3, h4⟩
      refine ⟨(⟨s1.size, store s1.val i 0⟩, ⟨s2.size, store s2.val i 0⟩), by
        rw [Arr.set_lt _ (by simp only [] at h1 ⊢; omega)]
        simp only [Option.bind_eq_bind, Option.bind_some]
        rw [Arr.set_lt _ (by simp only [] at h2 ⊢; omega)]
        rfl, h1, h2, ?_, ?_⟩
      · intro j hj
        by_cases h : j = i
        · subst h; simp
        · simp only []; rw [store_ne _ _ h]; exact h3 j (by omega)
      · intro j hj
        by_cases h : j = i
        · subst h; simp
        · simp only []; rw [store_ne _ _ h]; exact h4 j (by omega))
  exact ⟨r, h1, h2⟩

theorem flat_div {w c l : ℕ} (hl : l < w) : (w * c + l) / w = c := by
  rw [Nat.mul_add_div (by omega), Nat.div_eq_of_lt hl, Nat.add_zero]
theorem flat_mod {w c l : ℕ} (hl : l < w) : (w * c + l) % w = l := by
  rw [Nat.mul_add_mod, Nat.mod_eq_of_lt hl]
theorem flat_lt2 {w C c l : ℕ} (hc : c < C) (hl : l < w) : w * c + l < w * C := by
  calc w * c + l < w * c + w := by omega
    _ = w * (c + 1) := by ring
    _ ≤ w * C := Nat.mul_le_mul_left _ hc

/-- Key of a flat incidence. -/
def flat (w : ℕ) (key : ℕ → ℕ → ℕ) (e : ℕ) : ℕ := key (e / w) (e % w)

theorem flat_eq {w c l : ℕ} (hl : l < w) (key : ℕ → ℕ → ℕ) : flat w key (w * c + l) = key c l := by
  unfold flat; rw [flat_div hl, flat_mod hl]

theorem flat_valid {w C N : ℕ} {key : ℕ → ℕ → ℕ} (h : ∀ c < C, ∀ l < w, key c l < N) :
    ∀ e < w * C, flat w key e < N := by
  intro e he
  have hw : 0 < w := by
    rcases Nat.eq_zero_or_pos w with h | h
    · subst h; simp at he
    · exact h
  exact h _ (Nat.div_lt_of_lt_mul he) _ (Nat.mod_lt _ hw)

theorem countLoop_spec (C w N : ℕ) (key : ℕ → ℕ → ℕ) (num : Arr ℕ) (hs : num.size = N)
    (h0 : ∀ i < N, num.val i = 0) (hk : ∀ c < C, ∀ l < w, key c l < N) :
    ∃ r, countLoop C w key num = some r ∧ r.1 = w * C ∧ r.2.size = N ∧
      ∀ n < N, r.2.val n = cnt (flat w key) (w * C) n := by
  obtain ⟨r, h1, h2⟩ := loopM2_spec (n := C) (w := w) (body := fun c l (s : ℕ × Arr ℕ) => (do
    let v ← s.2.get (key c l)
    let num ← s.2.set (key c l) (v + 1)
    pure (s.1 + 1, num))) (s := (0, num))
    (fun e s => s.1 = e ∧ s.2.size = N ∧ ∀ n < N, s.2.val n = cnt (flat w key) e n)
    ⟨rfl, hs, fun n hn => by simp [h0 n hn]⟩
    (by
      rintro c l ⟨s1, s2⟩ hc hl ⟨e1, e2, e3⟩
      simp only [] at e1 e2 e3
      have hlt : key c l < s2.size := by rw [e2]; exact hk c hc l hl
      refine ⟨(s1 + 1, ⟨s2.size, store s2.val (key c l) (s2.val (key c l) + 1)⟩), by
        rw [Arr.get_lt hlt]
        simp only [Option.bind_eq_bind, Option.bind_some]
        rw [Arr.set_lt _ hlt]; rfl, ?_, e2, ?_⟩
      · simp only [e1]
      · intro n hn
        simp only []
        rw [cnt_succ, flat_eq hl]
        by_cases h : n = key c l
        · subst h; rw [store_same, e3 _ hn, if_pos rfl]
        · rw [store_ne _ _ h, if_neg (fun h' => h h'.symm), e3 _ hn, Nat.add_zero])
  exact ⟨r, h1, h2⟩

theorem startLoop_spec (N : ℕ) (num start : Arr ℕ) (hs : start.size = N + 1) (hn : num.size = N) :
    ∃ r, startLoop N num start = some r ∧ r.size = N + 1 ∧
      ∀ n ≤ N, r.val n = ∑ i ∈ range n, num.val i := by
  unfold startLoop
  rw [Arr.set_lt _ (by omega)]
  simp only [Option.bind_eq_bind, Option.bind_some]
  obtain ⟨r, h1, h2⟩ := loopM_spec (n := N) (body := fun n (start : Arr ℕ) => (do
    let a ← start.get n
    let b ← num.get n
    start.set (n + 1) (a + b))) (s := ⟨start.size, store start.val 0 0⟩)
    (fun m s => s.size = N + 1 ∧ ∀ n ≤ m, s.val n = ∑ i ∈ range n, num.val i)
    ⟨hs, fun n hn => by have : n = 0 := by omega
                        subst this; simp⟩
    (by
      rintro m ⟨ss, sv⟩ hm ⟨e1, e2⟩
      simp only [] at e1 e2
      refine ⟨⟨ss, store sv (m + 1) (sv m + num.val m)⟩, by
        rw [Arr.get_lt (by simp only []; omega), Arr.get_lt (by omega)]
        simp only [Option.bind_eq_bind, Option.bind_some]
        rw [Arr.set_lt _ (by simp only []; omega)], e1, ?_⟩
      intro n hn
      by_cases h : n = m + 1
      · subst h; simp only [store_same]; rw [e2 m le_rfl, sum_range_succ]
      · simp only []; rw [store_ne _ _ h]; exact e2 n (by omega))
  exact ⟨r, h1, h2⟩

theorem store_pos {L : ℕ → ℕ} {val : ℕ → ℕ} {m : ℕ} (hm : m < K)
    (h : ∀ e < m, L (pos key K e) = val e) (v : ℕ) (hv : v = val m) :
    ∀ e < m + 1, store L (pos key K m) v (pos key K e) = val e := by
  intro e he
  by_cases hem : e = m
  · subst hem; rw [store_same, hv]
  · rw [store_ne _ _ (fun h' => hem (pos_inj (by omega) hm h'))]
    exact h e (by omega)

theorem placeLoop_spec (C w N : ℕ) (key : ℕ → ℕ → ℕ) (start list saved : Arr ℕ)
    (hk : ∀ c < C, ∀ l < w, key c l < N)
    (hst : N ≤ start.size) (hsv : ∀ n < N, start.val n = st (flat w key) (w * C) n)
    (hl : w * C ≤ list.size) (hss : N ≤ saved.size) (hs0 : ∀ n < N, saved.val n = 0) :
    ∃ r, placeLoop C w key start list saved = some r ∧ r.1.size = list.size ∧
      (∀ e < w * C, r.1.val (pos (flat w key) (w * C) e) = e / w) ∧
      ∀ n < N, r.2.val n = cnt (flat w key) (w * C) n := by
  obtain ⟨r, h1, h2⟩ := loopM2_spec (n := C) (w := w) (body := fun c l (s : Arr ℕ × Arr ℕ) => (do
    let i ← start.get (key c l)
    let k ← s.2.get (key c l)
    let list ← s.1.set (i + k) c
    let saved ← s.2.set (key c l) (k + 1)
    pure (list, saved))) (s := (list, saved))
    (fun m s => s.1.size = list.size ∧ s.2.size = saved.size ∧
      (∀ n < N, s.2.val n = cnt (flat w key) m n) ∧
      ∀ e < m, s.1.val (pos (flat w key) (w * C) e) = e / w)
    ⟨rfl, rfl, fun n hn => by simp [hs0 n hn], fun e h => absurd h (Nat.not_lt_zero _)⟩
    (by
      rintro c l ⟨⟨ls, lv⟩, ⟨ss, sv⟩⟩ hc hl' ⟨e1, e2, e3, e4⟩
      simp only [] at e1 e2 e3 e4
      have hlt := hk c hc l hl'
      have hm := flat_lt2 hc hl'
      have hp : start.val (key c l) + sv (key c l) = pos (flat w key) (w * C) (w * c + l) := by
        unfold pos; rw [flat_eq hl', hsv _ hlt, e3 _ hlt]
      have hb := pos_lt (flat_valid hk) hm
      refine ⟨(⟨ls, store lv (pos (flat w key) (w * C) (w * c + l)) c⟩,
          ⟨ss, store sv (key c l) (sv (key c l) + 1)⟩), by
        rw [Arr.get_lt (by omega), Arr.get_lt (by simp only []; omega)]
        simp only [Option.bind_eq_bind, Option.bind_some]
        rw [hp, Arr.set_lt _ (by simp only []; omega)]
        simp only [Option.bind_some]
        rw [Arr.set_lt _ (by simp only []; omega)]
        rfl, e1, e2, ?_, ?_⟩
      · intro n hn
        simp only []
        rw [cnt_succ, flat_eq hl']
        by_cases h : n = key c l
        · subst h; rw [store_same, e3 _ hn, if_pos rfl]
        · rw [store_ne _ _ h, if_neg (fun h' => h h'.symm), e3 _ hn, Nat.add_zero]
      · exact store_pos hm e4 c (flat_div hl').symm)
  exact ⟨r, h1, h2.1, h2.2.2.2, h2.2.2.1⟩

end Verif.Swage
