import Verif.MeshBox.Lemmas
import Mathlib.Data.Nat.Count
import Mathlib.Tactic.IntervalCases
import Mathlib.Tactic.LinearCombination

/-!
# The face loop of the box mesh creator
-/

namespace Verif.MeshBox
open Finset

/-- `(d, i, j, k)` names a face: the one with normal in direction `d` and first point `(i, j, k)`. -/
def IsFace (b : Box) (d i j k : ℕ) : Prop :=
  d < 3 ∧ i < b.pi ∧ j < b.pj ∧ k < b.pk ∧ (d ≠ 0 → i < b.ci) ∧ (d ≠ 1 → j < b.cj) ∧ (d ≠ 2 → k < b.ck)

instance (b : Box) (d i j k : ℕ) : Decidable (IsFace b d i j k) := by unfold IsFace; infer_instance

/-- Position of `(d, i, j, k)` in the order of the loop. -/
def pos (b : Box) (d i j k : ℕ) : ℕ := 3 * nid i j k b.pi b.pj + d

/-- The position is that of a face. -/
def P (b : Box) (s : ℕ) : Prop := IsFace b (s % 3) (s / 3 % b.pi) (s / 3 / b.pi % b.pj) (s / 3 / b.pi / b.pj)

instance (b : Box) : DecidablePred (P b) := fun s => by unfold P; infer_instance

theorem P_pos {b : Box} {d i j k : ℕ} (hd : d < 3) (hi : i < b.pi) (hj : j < b.pj) :
    P b (pos b d i j k) ↔ IsFace b d i j k := by
  unfold P pos
  rw [show (3 * nid i j k b.pi b.pj + d) % 3 = d by omega, show (3 * nid i j k b.pi b.pj + d) / 3 = nid i j k b.pi b.pj by omega]
  obtain ⟨a, c, e⟩ := lex3_mod (k := k) hi hj
  unfold nid
  rw [a, c, e]

theorem P_face {b : Box} {d i j k : ℕ} (h : IsFace b d i j k) : P b (pos b d i j k) := (P_pos h.1 h.2.1 h.2.2.1).2 h

theorem pos_inj {b : Box} {d i j k d' i' j' k' : ℕ} (hd : d < 3) (hd' : d' < 3) (hi : i < b.pi) (hj : j < b.pj)
    (hi' : i' < b.pi) (hj' : j' < b.pj) (h : pos b d i j k = pos b d' i' j' k') : d = d' ∧ i = i' ∧ j = j' ∧ k = k' := by
  unfold pos at h
  obtain ⟨a, c, e⟩ := nid_inj hi hj hi' hj' (show nid i j k b.pi b.pj = nid i' j' k' b.pi b.pj by omega)
  exact ⟨by omega, a, c, e⟩

theorem pos_lt {b : Box} {d i j k : ℕ} (h : IsFace b d i j k) : pos b d i j k < 3 * b.points := by
  have := nid_lt h.2.1 h.2.2.1 h.2.2.2.1
  have hd := h.1
  unfold pos Box.points
  omega

/-- The number of the face. -/
def fid (b : Box) (d i j k : ℕ) : ℕ := Nat.count (P b) (pos b d i j k)

theorem fid_inj {b : Box} {d i j k d' i' j' k' : ℕ} (h : IsFace b d i j k) (h' : IsFace b d' i' j' k')
    (e : fid b d i j k = fid b d' i' j' k') : d = d' ∧ i = i' ∧ j = j' ∧ k = k' :=
  pos_inj h.1 h'.1 h.2.1 h.2.2.1 h'.2.1 h'.2.2.1 (Nat.count_injective (P_face h) (P_face h') e)

/-- The total number of faces. -/
theorem count_total (b : Box) : Nat.count (P b) (3 * b.points) = b.faces := by
  have step : ∀ n, Nat.count (P b) (3 * n) = ∑ t ∈ range n,
      ((if IsFace b 0 (t % b.pi) (t / b.pi % b.pj) (t / b.pi / b.pj) then 1 else 0) +
       (if IsFace b 1 (t % b.pi) (t / b.pi % b.pj) (t / b.pi / b.pj) then 1 else 0) +
       (if IsFace b 2 (t % b.pi) (t / b.pi % b.pj) (t / b.pi / b.pj) then 1 else 0)) := by
    intro n
    induction n with
    | zero => simp
    | succ n ih =>
      rw [show 3 * (n + 1) = 3 * n + 1 + 1 + 1 by ring, Nat.count_succ, Nat.count_succ, Nat.count_succ, ih, sum_range_succ]
      have e0 : P b (3 * n) ↔ IsFace b 0 (n % b.pi) (n / b.pi % b.pj) (n / b.pi / b.pj) := by
        unfold P; rw [show 3 * n % 3 = 0 by omega, show 3 * n / 3 = n by omega]
      have e1 : P b (3 * n + 1) ↔ IsFace b 1 (n % b.pi) (n / b.pi % b.pj) (n / b.pi / b.pj) := by
        unfold P; rw [show (3 * n + 1) % 3 = 1 by omega, show (3 * n + 1) / 3 = n by omega]
      have e2 : P b (3 * n + 1 + 1) ↔ IsFace b 2 (n % b.pi) (n / b.pi % b.pj) (n / b.pi / b.pj) := by
        unfold P; rw [show (3 * n + 1 + 1) % 3 = 2 by omega, show (3 * n + 1 + 1) / 3 = n by omega]
      simp only [e0, e1, e2]
      ring
  rw [step, Box.points, sum_lex3 b.pi b.pj b.pk (fun i j k => (if IsFace b 0 i j k then 1 else 0) +
    (if IsFace b 1 i j k then 1 else 0) + (if IsFace b 2 i j k then 1 else 0))]
  have ind : ∀ n, ∑ i ∈ range (n + 1), (if i < n then 1 else 0) = n := by
    intro n
    rw [sum_range_succ, if_neg (lt_irrefl n), add_zero, sum_congr rfl (fun i hi => if_pos (mem_range.1 hi))]
    simp
  have split : ∀ k < b.pk, ∀ j < b.pj, ∀ i < b.pi, (if IsFace b 0 i j k then 1 else 0) +
      (if IsFace b 1 i j k then 1 else 0) + (if IsFace b 2 i j k then 1 else 0) =
      (if j < b.cj then 1 else 0) * (if k < b.ck then 1 else 0) + (if i < b.ci then 1 else 0) * (if k < b.ck then 1 else 0) +
      (if i < b.ci then 1 else 0) * (if j < b.cj then 1 else 0) := by
    intro k hk j hj i hi
    unfold IsFace
    by_cases h1 : i < b.ci <;> by_cases h2 : j < b.cj <;> by_cases h3 : k < b.ck <;> simp [hi, hj, hk, h1, h2, h3]
  rw [sum_congr rfl fun k hk => sum_congr rfl fun j hj => sum_congr rfl fun i hi =>
    split k (mem_range.1 hk) j (mem_range.1 hj) i (mem_range.1 hi)]
  have hI : ∑ i ∈ range b.pi, (if i < b.ci then 1 else 0) = b.ci := ind b.ci
  have hJ : ∑ i ∈ range b.pj, (if i < b.cj then 1 else 0) = b.cj := ind b.cj
  have hK : ∑ i ∈ range b.pk, (if i < b.ck then 1 else 0) = b.ck := ind b.ck
  simp only [sum_add_distrib, ← sum_mul, ← mul_sum, hI, hJ, hK, sum_const, card_range, smul_eq_mul]
  unfold Box.faces Box.pi Box.pj Box.pk
  simp only [Nat.add_sub_cancel]
  ring

theorem fid_lt {b : Box} {d i j k : ℕ} (h : IsFace b d i j k) : fid b d i j k < b.faces := by
  rw [← count_total]
  exact Nat.count_strict_mono (P_face h) (pos_lt h)

theorem fid_surj {b : Box} {f : ℕ} (hf : f < b.faces) : ∃ d i j k, IsFace b d i j k ∧ fid b d i j k = f := by
  rw [← count_total] at hf
  have : ∀ n, f < Nat.count (P b) n → ∃ s < n, P b s ∧ Nat.count (P b) s = f := by
    intro n
    induction n with
    | zero => simp
    | succ n ih =>
      intro h
      rw [Nat.count_succ] at h
      by_cases hp : P b n
      · rw [if_pos hp] at h
        by_cases he : Nat.count (P b) n = f
        · exact ⟨n, by omega, hp, he⟩
        · obtain ⟨s, h1, h2⟩ := ih (by omega)
          exact ⟨s, by omega, h2⟩
      · rw [if_neg hp] at h
        obtain ⟨s, h1, h2⟩ := ih (by omega)
        exact ⟨s, by omega, h2⟩
  obtain ⟨s, hs, hp, hc⟩ := this _ hf
  have hs3 : s / 3 < b.pi * b.pj * b.pk := by unfold Box.points at hs; omega
  obtain ⟨-, -, -, e⟩ := lex3_surj hs3
  refine ⟨s % 3, s / 3 % b.pi, s / 3 / b.pi % b.pj, s / 3 / b.pi / b.pj, hp, ?_⟩
  unfold fid pos nid
  rw [e, Nat.div_add_mod, hc]

/-! ### The blocks -/

theorem faceOfCell_spec {x : ℤ} {n : ℕ} {c : ℤ} {f : ℕ} {s : Faces}
    (h : 0 ≤ x ∧ x < n → 0 ≤ c ∧ c * 6 + f < s.ofCell.size) :
    ∃ a, faceOfCell x n c f s = some a ∧ a.size = s.ofCell.size ∧
      ∀ t : ℕ, a.val t = if (0 ≤ x ∧ x < n) ∧ (t : ℤ) = c * 6 + f then (s.id : ℤ) else s.ofCell.val t := by
  unfold faceOfCell
  by_cases hx : 0 ≤ x ∧ x < n
  · rw [if_pos hx]
    obtain ⟨h1, h2⟩ := h hx
    have e : c * 6 + f = ((c.toNat * 6 + f : ℕ) : ℤ) := by push_cast; omega
    rw [e] at h2 ⊢
    refine ⟨_, setZ_nat (by omega) _, rfl, fun t => ?_⟩
    simp only [hx, true_and]
    by_cases ht : t = c.toNat * 6 + f
    · subst ht; simp
    · rw [store_ne _ _ ht, if_neg (by omega)]
  · rw [if_neg hx]
    exact ⟨_, rfl, rfl, fun t => by rw [if_neg (by tauto)]⟩

/-- What a block writes. -/
theorem faceBlock_spec {p : ℕ → ℤ} {x n : ℕ} {c c2 : ℤ} {f : ℕ} {s : Faces} {N : ℕ} (hid : s.id < N) (hp : s.points.size = N * 4)
    (hq : s.cell.size = N * 2) (h1 : x < n → 0 ≤ c ∧ c * 6 + f < s.ofCell.size)
    (h2 : 1 ≤ x → x ≤ n → 0 ≤ c2 ∧ c2 * 6 + faceFace f < s.ofCell.size) :
    ∃ s', faceBlock (p 0) (p 1) (p 2) (p 3) x n c c2 f s = some s' ∧ s'.points.size = N * 4 ∧ s'.cell.size = N * 2 ∧
      s'.ofCell.size = s.ofCell.size ∧ s'.id = s.id + 1 ∧
      (∀ l < 4, s'.points.val (s.id * 4 + l) = p l) ∧ (∀ t, t / 4 ≠ s.id → s'.points.val t = s.points.val t) ∧
      s'.cell.val (s.id * 2 + 1) = c ∧ s'.cell.val (s.id * 2) = c2 ∧ (∀ t, t / 2 ≠ s.id → s'.cell.val t = s.cell.val t) ∧
      ∀ t : ℕ, s'.ofCell.val t = if (1 ≤ x ∧ x ≤ n) ∧ (t : ℤ) = c2 * 6 + faceFace f then (s.id : ℤ) else
        if x < n ∧ (t : ℤ) = c * 6 + f then (s.id : ℤ) else s.ofCell.val t := by
  obtain ⟨a, a1, a2, a3⟩ := faceOfCell_spec (x := x) (n := n) (c := c) (f := f) (s := s) (fun h => h1 (by omega))
  obtain ⟨a', b1, b2, b3⟩ := faceOfCell_spec (x := (x : ℤ) - 1) (n := n) (c := c2) (f := faceFace f) (s := { s with ofCell := a })
    (fun h => by rw [a2]; exact h2 (by omega) (by omega))
  simp only [] at b2 b3
  refine ⟨⟨⟨N * 4, store (store (store (store s.points.val (s.id * 4 + 0) (p 0)) (s.id * 4 + 1) (p 1)) (s.id * 4 + 2) (p 2))
    (s.id * 4 + 3) (p 3)⟩, ⟨N * 2, store (store s.cell.val (s.id * 2 + 1) c) (s.id * 2 + 0) c2⟩, a', s.id + 1⟩, ?_, rfl, rfl,
    by rw [b2, a2], rfl, ?_, ?_, ?_, ?_, ?_, ?_⟩
  · unfold faceBlock
    simp only [Option.bind_eq_bind]
    rw [Arr.set_lt _ (by omega), Option.bind_some, Arr.set_lt _ (by simp only []; omega), Option.bind_some,
      Arr.set_lt _ (by simp only []; omega), Option.bind_some, Arr.set_lt _ (by simp only []; omega), Option.bind_some,
      Arr.set_lt _ (by omega), Option.bind_some, Arr.set_lt _ (by simp only []; omega), Option.bind_some, a1, Option.bind_some,
      b1, Option.bind_some, hp, hq]
    rfl
  · intro l hl
    interval_cases l <;> simp [store]
  · intro t ht
    simp only []
    rw [store_ne _ _ (by omega), store_ne _ _ (by omega), store_ne _ _ (by omega), store_ne _ _ (by omega)]
  · simp [store]
  · simp [store]
  · intro t ht
    simp only []
    rw [store_ne _ _ (by omega), store_ne _ _ (by omega)]
  · intro t
    simp only []
    rw [b3 t, a3 t]
    have e1 : ((0:ℤ) ≤ (x:ℤ) - 1 ∧ (x:ℤ) - 1 < n) ↔ (1 ≤ x ∧ x ≤ n) := by omega
    have e2 : ((0:ℤ) ≤ (x:ℤ) ∧ (x:ℤ) < n) ↔ x < n := by omega
    rw [if_congr (and_congr e1 Iff.rfl) rfl rfl]
    congr 1
    rw [if_congr (and_congr e2 Iff.rfl) rfl rfl]

end Verif.MeshBox
