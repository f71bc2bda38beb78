import Verif.RefElem.Lemmas

/-!
# Surface and inside nodes
-/

namespace Verif.RefElem
open scoped Classical

/-- Node `m` of the `n × n × n` lattice has no coordinate on the boundary. -/
def Inner (n m : ℕ) : Prop := ∃ i j k, m = rid n (i + 1) (j + 1) (k + 1) ∧ i + 2 < n ∧ j + 2 < n ∧ k + 2 < n

theorem inner_iff {n i j k : ℕ} (hi : i < n) (hj : j < n) : Inner n (rid n i j k) ↔
    (0 < i ∧ i < n - 1 ∧ 0 < j ∧ j < n - 1 ∧ 0 < k ∧ k < n - 1) := by
  constructor
  · rintro ⟨a, b, c, e, h1, h2, h3⟩
    obtain ⟨rfl, rfl, rfl⟩ := rid_inj hi hj (by omega) (by omega) e
    omega
  · rintro ⟨h1, h2, h3, h4, h5, h6⟩
    refine ⟨i - 1, j - 1, k - 1, ?_, by omega, by omega, by omega⟩
    rw [Nat.sub_add_cancel h1, Nat.sub_add_cancel h3, Nat.sub_add_cancel h5]

theorem count_inner (n : ℕ) : Nat.count (Inner n) (n * n * n) = (n - 2) * (n - 2) * (n - 2) := by
  rw [Nat.count_eq_card_filter_range]
  have : (Finset.range (n * n * n)).filter (Inner n) =
      ((Finset.range ((n - 2) * (n - 2) * (n - 2))).image fun m =>
        rid n (m % (n - 2) + 1) (m / (n - 2) % (n - 2) + 1) (m / (n - 2) / (n - 2) + 1)) := by
    ext m
    simp only [Finset.mem_filter, Finset.mem_range, Finset.mem_image]
    constructor
    · rintro ⟨-, i, j, k, rfl, hi, hj, hk⟩
      have := lex3_mod (i := i) (j := j) (k := k) (n := n - 2) (m := n - 2) (by omega) (by omega)
      refine ⟨i + j * (n - 2) + k * (n - 2) * (n - 2), lex3_lt (by omega) (by omega) (by omega), ?_⟩
      rw [this.1, this.2.1, this.2.2]
    · rintro ⟨m, hm, rfl⟩
      obtain ⟨h1, h2, h3, -⟩ := lex3_surj hm
      exact ⟨rid_lt (by omega) (by omega) (by omega), _, _, _, rfl, by omega, by omega, by omega⟩
  rw [this, Finset.card_image_of_injOn, Finset.card_range]
  intro a ha b hb h
  simp only [Finset.coe_range, Set.mem_Iio] at ha hb
  obtain ⟨h1, h2, h3, e⟩ := lex3_surj ha
  obtain ⟨h1', h2', h3', e'⟩ := lex3_surj hb
  obtain ⟨f1, f2, f3⟩ := rid_inj (by omega) (by omega) (by omega) (by omega) h
  rw [← e, ← e']
  rw [show a % (n - 2) = b % (n - 2) by omega, show a / (n - 2) % (n - 2) = b / (n - 2) % (n - 2) by omega,
    show a / (n - 2) / (n - 2) = b / (n - 2) / (n - 2) by omega]

theorem count_not (P : ℕ → Prop) (m : ℕ) : Nat.count P m + Nat.count (fun x => ¬ P x) m = m := by
  induction m with
  | zero => simp
  | succ m ih =>
    rw [Nat.count_succ, Nat.count_succ]
    by_cases h : P m
    · rw [if_pos h, if_neg (not_not.2 h)]; omega
    · rw [if_neg h, if_pos h]; omega

theorem count_push {P : ℕ → Prop} [DecidablePred P] {v : ℕ → ℕ} {m : ℕ} (hm : P m)
    (h : ∀ p < m, P p → v (Nat.count P p) = p) (p : ℕ) (hp : p < m + 1) (hP : P p) :
    store v (Nat.count P m) m (Nat.count P p) = p := by
  by_cases e : p = m
  · subst e; rw [store_same]
  · have : Nat.count P p < Nat.count P m := Nat.count_strict_mono hP (by omega)
    rw [store_ne _ _ (by omega)]
    exact h p (by omega) hP

theorem splitLoop_spec (n : ℕ) (a b : ℕ → ℕ) :
    ∃ r, splitLoop n ⟨⟨(n - 2) * (n - 2) * (n - 2), a⟩, 0, ⟨n * n * n - (n - 2) * (n - 2) * (n - 2), b⟩, 0⟩ = some r ∧
      r.inside.size = (n - 2) * (n - 2) * (n - 2) ∧ r.surf.size = n * n * n - (n - 2) * (n - 2) * (n - 2) ∧
      r.numIn = (n - 2) * (n - 2) * (n - 2) ∧ r.numSurf = n * n * n - (n - 2) * (n - 2) * (n - 2) ∧
      (∀ p < n * n * n, Inner n p → r.inside.val (Nat.count (Inner n) p) = p) ∧
      (∀ p < n * n * n, ¬ Inner n p → r.surf.val (Nat.count (fun x => ¬ Inner n x) p) = p) := by
  have c1 := count_inner n
  have c2 := count_not (Inner n) (n * n * n)
  unfold splitLoop
  obtain ⟨r, e, h1, h2, h3, h4, h5, h6⟩ := loop3_spec (w := n) (body := fun k j i (s : Split) =>
    if 0 < i ∧ i < n - 1 ∧ 0 < j ∧ j < n - 1 ∧ 0 < k ∧ k < n - 1 then do
      let a ← s.inside.set s.numIn (rid n i j k)
      pure { s with inside := a, numIn := s.numIn + 1 }
    else do
      let a ← s.surf.set s.numSurf (rid n i j k)
      pure { s with surf := a, numSurf := s.numSurf + 1 })
    (s := ⟨⟨(n - 2) * (n - 2) * (n - 2), a⟩, 0, ⟨n * n * n - (n - 2) * (n - 2) * (n - 2), b⟩, 0⟩)
    (fun m r => r.inside.size = (n - 2) * (n - 2) * (n - 2) ∧ r.surf.size = n * n * n - (n - 2) * (n - 2) * (n - 2) ∧
      r.numIn = Nat.count (Inner n) m ∧ r.numSurf = Nat.count (fun x => ¬ Inner n x) m ∧
      (∀ p < m, Inner n p → r.inside.val (Nat.count (Inner n) p) = p) ∧
      (∀ p < m, ¬ Inner n p → r.surf.val (Nat.count (fun x => ¬ Inner n x) p) = p))
    ⟨rfl, rfl, by simp, by simp, fun _ h => by omega, fun _ h => by omega⟩
    (by
      rintro k j i ⟨⟨z1, v1⟩, c, ⟨z2, v2⟩, d⟩ hk hj hi ⟨h1, h2, h3, h4, h5, h6⟩
      simp only [] at h1 h2 h3 h4 h5 h6
      have hlt := rid_lt hi hj hk
      by_cases hin : Inner n (rid n i j k)
      · have hc : Nat.count (Inner n) (rid n i j k) < Nat.count (Inner n) (n * n * n) :=
          Nat.count_strict_mono hin hlt
        refine ⟨⟨⟨z1, store v1 c (rid n i j k)⟩, c + 1, ⟨z2, v2⟩, d⟩, ?_, h1, h2, ?_, ?_, ?_, ?_⟩
        · simp only [Option.bind_eq_bind]
          rw [if_pos ((inner_iff hi hj).1 hin), Arr.set_lt _ (show c < z1 by omega), Option.bind_some]; rfl
        · simp only [Nat.count_succ, if_pos hin, h3]
        · simp only [Nat.count_succ, if_neg (not_not.2 hin), h4]; rfl
        · subst h3; exact count_push hin h5
        · intro p hp hn
          exact h6 p (by have : p ≠ rid n i j k := by rintro rfl; exact hn hin
                         omega) hn
      · have hc : Nat.count (fun x => ¬ Inner n x) (rid n i j k) < Nat.count (fun x => ¬ Inner n x) (n * n * n) :=
          Nat.count_strict_mono hin hlt
        refine ⟨⟨⟨z1, v1⟩, c, ⟨z2, store v2 d (rid n i j k)⟩, d + 1⟩, ?_, h1, h2, ?_, ?_, ?_, ?_⟩
        · simp only [Option.bind_eq_bind]
          rw [if_neg (fun h => hin ((inner_iff hi hj).2 h)), Arr.set_lt _ (show d < z2 by omega), Option.bind_some]; rfl
        · simp only [Nat.count_succ, if_neg hin, h3]; rfl
        · simp only [Nat.count_succ, if_pos hin, h4]
        · intro p hp hn
          exact h5 p (by have : p ≠ rid n i j k := by rintro rfl; exact hin hn
                         omega) hn
        · subst h4; exact count_push (P := fun x => ¬ Inner n x) hin h6)
  exact ⟨r, e, h1, h2, by rw [h3, c1], by rw [h4]; omega, h5, h6⟩

end Verif.RefElem
