import Verif.Swage.Refine
import Verif.Swage.PatchLemmas
import Verif.Swage.PatchKeyLemmas
import Verif.TensorSum
import Verif.Quad.Theorems
import Mathlib.Tactic.Ring
import Mathlib.Tactic.Linarith

/-! Lemmas on `refine_mesh`. -/

namespace Verif.Swage.Refine
open Verif.Swage

theorem zeroTable_spec (K S : ℕ) (keys : ℕ → ℕ) (hS : ∀ e < K, keys e < S) (jt : ℕ → ℤ) :
    ∃ t, zeroTable K ⟨K, keys⟩ ⟨S, jt⟩ = some t ∧ t.size = S ∧ ∀ e < K, t.val (keys e) = 0 := by
  unfold zeroTable
  obtain ⟨t, h1, h2, h3⟩ := loopM_spec (n := K) (body := fun e (t : Arr ℤ) => (do
    let k ← (⟨K, keys⟩ : Arr ℕ).get e
    t.set k 0)) (s := ⟨S, jt⟩) (fun m t => t.size = S ∧ ∀ e < m, t.val (keys e) = 0)
    ⟨rfl, fun e he => absurd he (Nat.not_lt_zero _)⟩
    (by
      rintro i ⟨z, v⟩ hi ⟨e1, e2⟩
      simp only [] at e1 e2
      subst e1
      refine ⟨⟨z, store v (keys i) 0⟩, ?_, rfl, ?_⟩
      · simp only [Option.bind_eq_bind]
        rw [Arr.get_lt (by exact hi)]
        simp only [Option.bind_some]
        rw [Arr.set_lt _ (by exact hS i hi)]
      · intro e he
        by_cases hk : keys e = keys i
        · simp only [hk, store_same]
        · simp only []
          rw [store_ne _ _ hk]
          exact e2 e (by
            rcases Nat.lt_succ_iff_lt_or_eq.1 he with h | h
            · exact h
            · subst h; exact absurd rfl hk))
  exact ⟨t, h1, h2, h3⟩

/-- The keys as the walk treats them: the first Gauss point has a key of its own. -/
def sep (keys : ℕ → ℕ) (e : ℕ) : ℕ := if e = 0 then 0 else keys e + 1

theorem sep_eq_iff {keys : ℕ → ℕ} {d e : ℕ} :
    sep keys d = sep keys e ↔ d = e ∨ (d ≠ 0 ∧ e ≠ 0 ∧ keys d = keys e) := by
  unfold sep
  by_cases hd : d = 0 <;> by_cases he : e = 0 <;> simp [hd, he] <;> try omega
  intro h; rw [h]

theorem sep_first_pos {keys : ℕ → ℕ} {e : ℕ} (h : e ≠ 0) : firstOf (sep keys) e ≠ 0 := by
  intro h0
  have := first_key (keys := sep keys) e
  rw [h0] at this
  rcases sep_eq_iff.1 this with h1 | h1
  · exact h h1.symm
  · exact h1.1 rfl

theorem rank_one (keys : ℕ → ℕ) : rank keys 1 = 1 := by
  rw [rank_succ, if_pos (by intro d hd; omega)]; simp [rank]

theorem sep_id_pos {keys : ℕ → ℕ} {e : ℕ} (h : e ≠ 0) : 0 < idOf (sep keys) e := by
  have h1 := sep_first_pos (keys := keys) h
  have := rank_mono (keys := sep keys) (show 1 ≤ firstOf (sep keys) e by omega)
  rw [rank_one] at this
  exact this

theorem sep_id_zero (keys : ℕ → ℕ) : idOf (sep keys) 0 = 0 := by
  unfold idOf
  have : firstOf (sep keys) 0 = 0 := by have := first_le (keys := sep keys) 0; omega
  rw [this]; simp [rank]

/-- Invariant of the walk. -/
def WalkInv (K S : ℕ) (keys : ℕ → ℕ) (m : ℕ) (s : Walk) : Prop :=
  s.table.size = S ∧ s.ntg.size = K ∧ s.nig.size = K ∧ s.numNodes = rank (sep keys) m ∧
  s.gid = rank (sep keys) m ∧
  (∀ e < K, e ≠ 0 ∨ m = 0 → s.table.val (keys e) = if firstOf (sep keys) e < m then (idOf (sep keys) e : ℤ) else 0) ∧
  (∀ e < m, s.nig.val e = (idOf (sep keys) e : ℤ)) ∧
  (∀ f < m, IsNew (sep keys) f → s.ntg.val (rank (sep keys) f) = f)

theorem rank_le_self (keys : ℕ → ℕ) (m : ℕ) : rank keys m ≤ m := Nat.count_le _

theorem walkStep_new {K S : ℕ} {keys : ℕ → ℕ} (hS : ∀ e < K, keys e < S) {g : ℕ} (hg : g < K)
    {t : ℕ → ℤ} {ntg : ℕ → ℕ} {M G : ℕ} {nig : ℕ → ℤ} (hv : t (keys g) = 0) (hM : M < K) :
    walkStep ⟨K, keys⟩ g ⟨⟨S, t⟩, ⟨K, ntg⟩, M, G, ⟨K, nig⟩⟩ =
      some ⟨⟨S, store (store t (keys g) (-1)) (keys g) (G : ℤ)⟩, ⟨K, store ntg M g⟩, M + 1, G + 1, ⟨K, store nig g (G : ℤ)⟩⟩ := by
  unfold walkStep
  simp only [Option.bind_eq_bind]
  rw [Arr.get_lt (by exact hg)]
  simp only [Option.bind_some]
  rw [Arr.get_lt (by exact hS g hg)]
  simp only [Option.bind_some, hv]
  rw [if_pos (le_refl 0), Arr.set_lt _ (by exact hS g hg)]
  simp only [Option.bind_some]
  rw [Arr.get_lt (by exact hS g hg)]
  simp only [Option.bind_some, store_same]
  rw [if_pos (by norm_num), Arr.set_lt _ (by exact hM)]
  simp only [Option.bind_some, pure]
  rw [if_pos (by norm_num), Arr.set_lt _ (by exact hS g hg)]
  simp only [Option.bind_some]
  rw [Arr.set_lt _ (by exact hg)]
  simp

theorem walkStep_old {K S : ℕ} {keys : ℕ → ℕ} (hS : ∀ e < K, keys e < S) {g : ℕ} (hg : g < K)
    {t : ℕ → ℤ} {ntg : ℕ → ℕ} {M G : ℕ} {nig : ℕ → ℤ} (hv : 0 < t (keys g)) :
    walkStep ⟨K, keys⟩ g ⟨⟨S, t⟩, ⟨K, ntg⟩, M, G, ⟨K, nig⟩⟩ =
      some ⟨⟨S, t⟩, ⟨K, ntg⟩, M, G, ⟨K, store nig g (t (keys g))⟩⟩ := by
  unfold walkStep
  simp only [Option.bind_eq_bind]
  rw [Arr.get_lt (by exact hg)]
  simp only [Option.bind_some]
  rw [Arr.get_lt (by exact hS g hg)]
  simp only [Option.bind_some]
  rw [if_neg (show ¬ t (keys g) ≤ 0 by omega)]
  rw [if_neg (show ¬ t (keys g) = -1 by omega)]
  rw [if_neg (show ¬ t (keys g) ≤ -1 by omega), Arr.set_lt _ (by exact hg)]
  simp

theorem walk_inv (K S : ℕ) (keys : ℕ → ℕ) (hS : ∀ e < K, keys e < S) (t : Arr ℤ) (hz : t.size = S)
    (ht : ∀ e < K, t.val (keys e) = 0) (jn : ℕ → ℕ) (jg : ℕ → ℤ) :
    ∃ s, walk K ⟨K, keys⟩ ⟨t, ⟨K, jn⟩, 0, 0, ⟨K, jg⟩⟩ = some s ∧ WalkInv K S keys K s := by
  unfold walk
  apply loopM_spec (WalkInv K S keys)
  · exact ⟨hz, rfl, rfl, by simp [rank], by simp [rank], fun e he _ => by simpa using ht e he, by simp, by simp⟩
  · rintro g ⟨⟨z, v⟩, ⟨zn, ntg⟩, M, G, ⟨zg, nig⟩⟩ hg ⟨e1, e2, e3, e4, e5, e6, e7, e8⟩
    simp only [] at e1 e2 e3 e4 e5 e6 e7 e8
    subst e1 e2 e3 e4 e5
    have hv := e6 g hg (by omega)
    by_cases hn : IsNew (sep keys) g
    · have hf := first_of_new hn
      rw [if_neg (by omega)] at hv
      have hid : idOf (sep keys) g = rank (sep keys) g := by unfold idOf; rw [hf]
      refine ⟨_, walkStep_new hS hg hv (lt_of_le_of_lt (rank_le_self _ _) hg), rfl, rfl, rfl, ?_, ?_, ?_, ?_, ?_⟩
      · simp only [rank_succ, if_pos hn]
      · simp only [rank_succ, if_pos hn]
      · intro e he hne
        simp only []
        by_cases hk : keys e = keys g
        · rw [hk, store_same]
          by_cases he0 : e = 0
          · omega
          by_cases hg0 : g = 0
          · subst hg0
            have := sep_first_pos (keys := keys) he0
            rw [if_neg (by omega)]; simp [rank]
          · have h1 : sep keys e = sep keys g := sep_eq_iff.2 (Or.inr ⟨he0, hg0, hk⟩)
            rw [first_congr h1, hf, if_pos (by omega), idOf_eq_iff.2 h1, hid]
        · rw [store_ne _ _ hk, store_ne _ _ hk, e6 e he (by omega)]
          have : firstOf (sep keys) e ≠ g := by
            intro h
            have h2 := first_key (keys := sep keys) e
            rw [h] at h2
            rcases sep_eq_iff.1 h2 with h3 | h3
            · exact hk (by rw [h3])
            · exact hk h3.2.2.symm
          by_cases h3 : firstOf (sep keys) e < g
          · rw [if_pos h3, if_pos (by omega)]
          · rw [if_neg h3, if_neg (by omega)]
      · intro e he
        simp only []
        by_cases heg : e = g
        · subst heg; rw [store_same, hid]
        · rw [store_ne _ _ heg]; exact e7 e (by omega)
      · intro f hf1 hfn
        simp only []
        by_cases hfg : f = g
        · subst hfg; rw [store_same]
        · have : rank (sep keys) f < rank (sep keys) g := rank_lt hfn (by omega)
          rw [store_ne _ _ (by omega)]; exact e8 f (by omega) hfn
    · have hf : firstOf (sep keys) g < g := by
        have h1 := first_le (keys := sep keys) g
        have h2 : firstOf (sep keys) g ≠ g := fun h => hn (new_iff.2 h)
        omega
      have hg0 : g ≠ 0 := by omega
      rw [if_pos hf] at hv
      have hpos := sep_id_pos (keys := keys) hg0
      refine ⟨_, walkStep_old hS hg (by rw [hv]; exact_mod_cast hpos), rfl, rfl, rfl, ?_, ?_, ?_, ?_, ?_⟩
      · simp only [rank_succ, if_neg hn, Nat.add_zero]
      · simp only [rank_succ, if_neg hn, Nat.add_zero]
      · intro e he hne
        simp only []
        rw [e6 e he (by omega)]
        have : firstOf (sep keys) e ≠ g := by
          intro h; exact hn (h ▸ first_new e)
        by_cases h3 : firstOf (sep keys) e < g
        · rw [if_pos h3, if_pos (by omega)]
        · rw [if_neg h3, if_neg (by omega)]
      · intro e he
        simp only []
        by_cases heg : e = g
        · subst heg; rw [store_same, hv]
        · rw [store_ne _ _ heg]; exact e7 e (by omega)
      · intro f hf1 hfn
        simp only []
        exact e8 f (by
          rcases Nat.lt_succ_iff_lt_or_eq.1 hf1 with h | h
          · exact h
          · subst h; exact absurd hfn hn) hfn

/-- Result of the walk, in terms of the keys only. -/
structure Numbering (K : ℕ) (keys : ℕ → ℕ) (s : Walk) : Prop where
  sizes : s.ntg.size = K ∧ s.nig.size = K
  range : ∀ e < K, 0 ≤ s.nig.val e ∧ s.nig.val e < s.numNodes
  eq_iff : ∀ d < K, ∀ e < K, s.nig.val d = s.nig.val e ↔ d = e ∨ (d ≠ 0 ∧ e ≠ 0 ∧ keys d = keys e)
  first : ∀ m < s.numNodes, s.ntg.val m < K ∧ s.nig.val (s.ntg.val m) = m ∧ ∀ e < K, s.nig.val e = m → s.ntg.val m ≤ e

theorem walk_numbering {K S : ℕ} {keys : ℕ → ℕ} {s : Walk} (h : WalkInv K S keys K s) : Numbering K keys s := by
  obtain ⟨e1, e2, e3, e4, e5, e6, e7, e8⟩ := h
  refine ⟨⟨e2, e3⟩, ?_, ?_, ?_⟩
  · intro e he
    rw [e7 e he, e4]
    exact ⟨by positivity, by exact_mod_cast idOf_lt he⟩
  · intro d hd e he
    rw [e7 d hd, e7 e he]
    rw [← sep_eq_iff, ← idOf_eq_iff]
    exact Nat.cast_inj
  · intro m hm
    rw [e4] at hm
    obtain ⟨f, hf, hfn, hfr⟩ := idOf_surj hm
    have h1 := e8 f hf hfn
    rw [hfr] at h1
    rw [h1]
    refine ⟨hf, ?_, ?_⟩
    · rw [e7 f hf]
      unfold idOf
      rw [first_of_new hfn, hfr]
    · intro e he hem
      rw [e7 e he] at hem
      have h2 : idOf (sep keys) e = idOf (sep keys) f := by
        have : idOf (sep keys) f = m := by unfold idOf; rw [first_of_new hfn, hfr]
        rw [this]; exact_mod_cast hem
      have h3 := first_congr (idOf_eq_iff.1 h2)
      have := first_le (keys := sep keys) e
      rw [h3, first_of_new hfn] at this
      exact this

theorem writeCoords_spec (M : ℕ) (ntg : Arr ℕ) (g : Arr (ℕ → ℝ)) (jc : ℕ → ℕ → ℝ) (hM : M ≤ ntg.size)
    (hg : ∀ m < M, ntg.val m < g.size) :
    ∃ c, writeCoords M ntg g ⟨M, jc⟩ = some c ∧ c.size = M ∧ ∀ m < M, c.val m = g.val (ntg.val m) := by
  unfold writeCoords
  obtain ⟨c, h1, h2, h3⟩ := loopM_spec (n := M) (body := fun m (c : Arr (ℕ → ℝ)) => (do
    let q ← ntg.get m
    let r ← g.get q
    c.set m r)) (s := ⟨M, jc⟩) (fun i c => c.size = M ∧ ∀ m < i, c.val m = g.val (ntg.val m))
    ⟨rfl, fun e he => absurd he (Nat.not_lt_zero _)⟩
    (by
      rintro i ⟨z, v⟩ hi ⟨e1, e2⟩
      simp only [] at e1 e2
      subst e1
      refine ⟨⟨z, store v i (g.val (ntg.val i))⟩, ?_, rfl, ?_⟩
      · simp only [Option.bind_eq_bind]
        rw [Arr.get_lt (by omega)]
        simp only [Option.bind_some]
        rw [Arr.get_lt (hg i hi)]
        simp only [Option.bind_some]
        rw [Arr.set_lt _ (by exact hi)]
      · intro m hm
        simp only []
        by_cases h : m = i
        · subst h; rw [store_same]
        · rw [store_ne _ _ h]; exact e2 m (by omega))
  exact ⟨c, h1, h2, h3⟩

/-! ### Cells -/

theorem row_write {α : Type} (w c : ℕ) (v : ℕ → α) (a : Arr α) (h : c * w + w ≤ a.size) :
    ∃ b, loopM w (fun l a => a.set (c * w + l) (v l)) a = some b ∧ b.size = a.size ∧
      (∀ l < w, b.val (c * w + l) = v l) ∧ ∀ q, q < c * w ∨ c * w + w ≤ q → b.val q = a.val q := by
  obtain ⟨b, h1, h2, h3, h4⟩ := loopM_spec (n := w) (body := fun l (a : Arr α) => a.set (c * w + l) (v l)) (s := a)
    (fun m b => b.size = a.size ∧ (∀ l < m, b.val (c * w + l) = v l) ∧
      ∀ q, q < c * w ∨ c * w + w ≤ q → b.val q = a.val q)
    ⟨rfl, fun _ h => absurd h (Nat.not_lt_zero _), fun _ _ => rfl⟩
    (by
      rintro l ⟨z, u⟩ hl ⟨e1, e2, e3⟩
      simp only [] at e1 e2 e3
      refine ⟨⟨z, store u (c * w + l) (v l)⟩, Arr.set_lt _ (by show c * w + l < z; omega), e1, ?_, ?_⟩
      · intro m hm
        simp only []
        by_cases h : m = l
        · subst h; rw [store_same]
        · rw [store_ne _ _ (by omega)]; exact e2 m (by omega)
      · intro q hq
        simp only []
        rw [store_ne _ _ (by omega)]; exact e3 q hq)
  exact ⟨b, h1, h2, h3, h4⟩

/-- Flat id of sub-cell `(i, j, k)` of element `e`. -/
def cellId (S e k j i : ℕ) : ℕ := i + j * S + k * S * S + S * S * S * e

theorem cellId_lt {S E e k j i : ℕ} (he : e < E) (hk : k < S) (hj : j < S) (hi : i < S) :
    cellId S e k j i < S * S * S * E := by
  have h1 := flat_lt hi hj hk
  have h2 : S * S * S * (e + 1) ≤ S * S * S * E := Nat.mul_le_mul_left _ he
  unfold cellId
  have : S ^ 3 = S * S * S := by ring
  have : S * S * S * (e + 1) = S * S * S * e + S * S * S := by ring
  omega

theorem cellId_inj {S e k j i e' k' j' i' : ℕ} (hk : k < S) (hj : j < S) (hi : i < S) (hk' : k' < S)
    (hj' : j' < S) (hi' : i' < S) (h : cellId S e k j i = cellId S e' k' j' i') :
    e = e' ∧ k = k' ∧ j = j' ∧ i = i' := by
  have h1 := flat_lt hi hj hk
  have h2 := flat_lt hi' hj' hk'
  have h3 : S ^ 3 = S * S * S := by ring
  unfold cellId at h
  have he : e = e' := by
    have a1 : (i + j * S + k * S * S + S * S * S * e) / (S * S * S) = e := by
      rw [Nat.add_mul_div_left _ _ (by omega), Nat.div_eq_of_lt (by omega), zero_add]
    have a2 : (i' + j' * S + k' * S * S + S * S * S * e') / (S * S * S) = e' := by
      rw [Nat.add_mul_div_left _ _ (by omega), Nat.div_eq_of_lt (by omega), zero_add]
    rw [← a1, ← a2, h]
  subst he
  have h : i + j * S + k * S * S = i' + j' * S + k' * S * S := by omega
  refine ⟨rfl, ?_, ?_, ?_⟩
  · rw [← digit2 (N := S) (k := k) hi hj, h, digit2 hi' hj']
  · rw [← digit1 (N := S) (k := k) hi hj, h, digit1 hi' hj']
  · rw [← digit0 (N := S) (j := j) (k := k) hi, h, digit0 hi']

theorem cellId_surj {S E c : ℕ} (h : c < S * S * S * E) :
    ∃ e k j i, e < E ∧ k < S ∧ j < S ∧ i < S ∧ cellId S e k j i = c := by
  have hS : 0 < S := by rcases Nat.eq_zero_or_pos S with h0 | h0; · subst h0; simp at h
                        · exact h0
  have hS3 : 0 < S * S * S := by positivity
  refine ⟨c / (S * S * S), c % (S * S * S) / (S * S), c % (S * S * S) / S % S, c % (S * S * S) % S,
    (Nat.div_lt_iff_lt_mul hS3).2 (by rw [Nat.mul_comm]; exact h), ?_, Nat.mod_lt _ hS, Nat.mod_lt _ hS, ?_⟩
  · exact (Nat.div_lt_iff_lt_mul (by positivity)).2 (by
      have := Nat.mod_lt c hS3
      calc _ < S * S * S := this
        _ = S * (S * S) := by ring)
  · unfold cellId
    set r := c % (S * S * S)
    have h1 : r / (S * S) = r / S / S := by rw [Nat.div_div_eq_div_mul]
    have h2 := Nat.div_add_mod r S
    have h3 := Nat.div_add_mod (r / S) S
    have h4 := Nat.div_add_mod c (S * S * S)
    rw [h1]
    calc r % S + r / S % S * S + r / S / S * S * S + S * S * S * (c / (S * S * S))
        = r % S + (S * (r / S / S) + r / S % S) * S + S * S * S * (c / (S * S * S)) := by ring
      _ = r % S + (r / S) * S + S * S * S * (c / (S * S * S)) := by rw [h3]
      _ = (S * (r / S) + r % S) + S * S * S * (c / (S * S * S)) := by ring
      _ = r + S * S * S * (c / (S * S * S)) := by rw [h2]
      _ = c := by rw [add_comm]; exact h4

theorem cellLoop_spec (E S n : ℕ) (g0 c0 e0 : ℕ → ℕ) :
    ∃ s, cellLoop E S n (S ^ 3) ⟨⟨E * S ^ 3 * 8, g0⟩, ⟨E * S ^ 3, c0⟩, ⟨E * S ^ 3, e0⟩⟩ = some s ∧
      s.gauss.size = E * S ^ 3 * 8 ∧ s.inElem.size = E * S ^ 3 ∧ s.elem.size = E * S ^ 3 ∧
      ∀ e k j i, e < E → k < S → j < S → i < S →
        (∀ l < 8, s.gauss.val (cellId S e k j i * 8 + l) = corner n e k j i l) ∧
        s.inElem.val (e * S ^ 3 + (i + j * S + k * S * S)) = cellId S e k j i ∧
        s.elem.val (cellId S e k j i) = e := by
  unfold cellLoop
  have hE : E * S ^ 3 = S * S * S * E := by ring
  obtain ⟨s, h1, h2, h3, h4, h5⟩ := loopM4_spec (n := E) (w := S) (σ := Cells)
    (body := fun e k j i s => (do
      let lid := i + j * S + k * S * S
      let gid := lid + S * S * S * e
      let gauss ← loopM 8 (fun l a => a.set (gid * 8 + l) (corner n e k j i l)) s.gauss
      let inElem ← s.inElem.set (e * S ^ 3 + lid) gid
      let elem ← s.elem.set gid e
      pure ⟨gauss, inElem, elem⟩))
    (s := ⟨⟨E * S ^ 3 * 8, g0⟩, ⟨E * S ^ 3, c0⟩, ⟨E * S ^ 3, e0⟩⟩)
    (fun m s => s.gauss.size = E * S ^ 3 * 8 ∧ s.inElem.size = E * S ^ 3 ∧ s.elem.size = E * S ^ 3 ∧
      ∀ e k j i, e < E → k < S → j < S → i < S → cellId S e k j i < m →
        (∀ l < 8, s.gauss.val (cellId S e k j i * 8 + l) = corner n e k j i l) ∧
        s.inElem.val (cellId S e k j i) = cellId S e k j i ∧
        s.elem.val (cellId S e k j i) = e)
    ⟨rfl, rfl, rfl, fun e k j i _ _ _ _ h => absurd h (Nat.not_lt_zero _)⟩
    (by
      rintro e k j i ⟨a, ⟨zc, vc⟩, ⟨ze, ve⟩⟩ he hk hj hi ⟨e1, e2, e3, e4⟩
      simp only [] at e1 e2 e3 e4
      subst e2 e3
      have hlt := cellId_lt he hk hj hi
      have hc : i + j * S + k * S * S + S * S * S * e = cellId S e k j i := rfl
      rw [hc] at e4 ⊢
      have hidx : e * S ^ 3 + (i + j * S + k * S * S) = cellId S e k j i := by unfold cellId; ring
      obtain ⟨b, b1, b2, b3, b4⟩ := row_write 8 (cellId S e k j i) (corner n e k j i) a (by rw [e1, hE]; omega)
      refine ⟨⟨b, ⟨E * S ^ 3, store vc (cellId S e k j i) (cellId S e k j i)⟩,
        ⟨E * S ^ 3, store ve (cellId S e k j i) e⟩⟩, ?_, b2.trans e1, rfl, rfl, ?_⟩
      · simp only [Option.bind_eq_bind, hc]
        rw [b1]
        simp only [Option.bind_some, hidx]
        rw [Arr.set_lt _ (by show _ < E * S ^ 3; rw [hE]; exact hlt)]
        simp only [Option.bind_some]
        rw [Arr.set_lt _ (by show _ < E * S ^ 3; rw [hE]; exact hlt)]
        rfl
      · intro e' k' j' i' he' hk' hj' hi' hm
        simp only []
        by_cases hq : cellId S e' k' j' i' = cellId S e k j i
        · obtain ⟨q1, q2, q3, q4⟩ := cellId_inj hk' hj' hi' hk hj hi hq
          subst q1 q2 q3 q4
          exact ⟨b3, store_same _ _ _, store_same _ _ _⟩
        · obtain ⟨r1, r2, r3⟩ := e4 e' k' j' i' he' hk' hj' hi' (by omega)
          refine ⟨fun l hl => ?_, ?_, ?_⟩
          · rw [b4 _ (by omega)]; exact r1 l hl
          · rw [store_ne _ _ hq]; exact r2
          · rw [store_ne _ _ hq]; exact r3)
  refine ⟨s, h1, h2, h3, h4, ?_⟩
  intro e k j i he hk hj hi
  obtain ⟨r1, r2, r3⟩ := h5 e k j i he hk hj hi (cellId_lt he hk hj hi)
  refine ⟨r1, ?_, r3⟩
  rw [show e * S ^ 3 + (i + j * S + k * S * S) = cellId S e k j i by unfold cellId; ring]; exact r2

theorem corner_eq (n e k j i l : ℕ) (hl : l < 8) :
    corner n e k j i l = cellId n e (k + l / 4) (j + l / 2 % 2) (i + l % 2) := by
  unfold corner cellId
  have h : l = 0 ∨ l = 1 ∨ l = 2 ∨ l = 3 ∨ l = 4 ∨ l = 5 ∨ l = 6 ∨ l = 7 := by omega
  rcases h with h | h | h | h | h | h | h | h <;> subst h <;> rfl

theorem corner_lt {n S E e k j i l : ℕ} (hn : S + 1 = n) (he : e < E) (hk : k < S) (hj : j < S) (hi : i < S)
    (hl : l < 8) : corner n e k j i l < n * n * n * E := by
  rw [corner_eq n e k j i l hl]
  exact cellId_lt he (by omega) (by omega) (by omega)

theorem nodeLoop_spec (E S n : ℕ) (hn : S + 1 = n) (nig : Arr ℤ) (hg : nig.size = n * n * n * E) (j0 : ℕ → ℤ) :
    ∃ r, nodeLoop E S n nig (0, ⟨E * S ^ 3 * 8, j0⟩) = some r ∧ r.1 = E * S ^ 3 ∧ r.2.size = E * S ^ 3 * 8 ∧
      ∀ e k j i, e < E → k < S → j < S → i < S →
        ∀ l < 8, r.2.val (cellId S e k j i * 8 + l) = nig.val (corner n e k j i l) := by
  unfold nodeLoop
  have hE : E * S ^ 3 = S * S * S * E := by ring
  obtain ⟨s, h1, h2, h3, h4⟩ := loopM4_spec (n := E) (w := S) (σ := ℕ × Arr ℤ)
    (body := fun e k j i s => (do
      let a ← loopM 8 (fun l a => do
        let v ← nig.get (corner n e k j i l)
        a.set (s.1 * 8 + l) v) s.2
      pure (s.1 + 1, a)))
    (s := (0, ⟨E * S ^ 3 * 8, j0⟩))
    (fun m s => s.1 = m ∧ s.2.size = E * S ^ 3 * 8 ∧
      ∀ e k j i, e < E → k < S → j < S → i < S → cellId S e k j i < m →
        ∀ l < 8, s.2.val (cellId S e k j i * 8 + l) = nig.val (corner n e k j i l))
    ⟨rfl, rfl, fun e k j i _ _ _ _ h => absurd h (Nat.not_lt_zero _)⟩
    (by
      rintro e k j i ⟨c, a⟩ he hk hj hi ⟨e1, e2, e3⟩
      simp only [] at e1 e2 e3
      have hc : i + j * S + k * S * S + S * S * S * e = cellId S e k j i := rfl
      rw [hc] at e1 e3 ⊢
      subst e1
      have hlt := cellId_lt he hk hj hi
      obtain ⟨b, b1, b2, b3, b4⟩ := row_write 8 (cellId S e k j i) (fun l => nig.val (corner n e k j i l)) a
        (by rw [e2, hE]; omega)
      refine ⟨(cellId S e k j i + 1, b), ?_, rfl, b2.trans e2, ?_⟩
      · simp only [Option.bind_eq_bind]
        have : loopM 8 (fun l (a : Arr ℤ) => (nig.get (corner n e k j i l)).bind fun v =>
            a.set (cellId S e k j i * 8 + l) v) a = some b := by
          rw [← b1]
          apply loopM_congr
          intro l s hl
          rw [Arr.get_lt (by rw [hg]; exact corner_lt hn he hk hj hi hl)]
          rfl
        rw [this]
        rfl
      · intro e' k' j' i' he' hk' hj' hi' hm l hl
        simp only []
        by_cases hq : cellId S e' k' j' i' = cellId S e k j i
        · obtain ⟨q1, q2, q3, q4⟩ := cellId_inj hk' hj' hi' hk hj hi hq
          subst q1 q2 q3 q4
          exact b3 l hl
        · rw [b4 _ (by omega)]; exact e3 e' k' j' i' he' hk' hj' hi' (by omega) l hl)
  exact ⟨s, h1, by rw [h2, hE], h3, fun e k j i he hk hj hi => h4 e k j i he hk hj hi (cellId_lt he hk hj hi)⟩

/-! ### Gauss points -/

theorem gaussPoints_spec (E n : ℕ) (nodes : ℕ → ℕ → ℕ) (x : ℕ → ℕ → ℝ) (L : ℕ → ℝ) (j0 : ℕ → ℕ → ℝ) :
    ∃ r, gaussPoints E n nodes x L ⟨E * n ^ 3, j0⟩ = some r ∧ r.2.size = E * n ^ 3 ∧
      ∀ e k j i, e < E → k < n → j < n → i < n →
        r.2.val (cellId n e k j i) = fun d => gPoint (basis L i j k) (fun v => x (nodes e v) d) := by
  unfold gaussPoints
  have hE : E * n ^ 3 = n * n * n * E := by ring
  obtain ⟨s, h1, -, h3, h4⟩ := loopM4_spec (n := E) (w := n) (σ := ℕ × Arr (ℕ → ℝ))
    (body := fun e k j i s => (do
      let a ← s.2.set s.1 (fun d => gPoint (basis L i j k) (fun v => x (nodes e v) d))
      pure (s.1 + 1, a)))
    (s := (0, ⟨E * n ^ 3, j0⟩))
    (fun m s => s.1 = m ∧ s.2.size = E * n ^ 3 ∧
      ∀ e k j i, e < E → k < n → j < n → i < n → cellId n e k j i < m →
        s.2.val (cellId n e k j i) = fun d => gPoint (basis L i j k) (fun v => x (nodes e v) d))
    ⟨rfl, rfl, fun e k j i _ _ _ _ h => absurd h (Nat.not_lt_zero _)⟩
    (by
      rintro e k j i ⟨c, ⟨z, u⟩⟩ he hk hj hi ⟨e1, e2, e3⟩
      simp only [] at e1 e2 e3
      have hc : i + j * n + k * n * n + n * n * n * e = cellId n e k j i := rfl
      rw [hc] at e1 e3 ⊢
      subst e1 e2
      have hlt := cellId_lt he hk hj hi
      refine ⟨(cellId n e k j i + 1, ⟨E * n ^ 3, store u (cellId n e k j i)
        (fun d => gPoint (basis L i j k) (fun v => x (nodes e v) d))⟩), ?_, rfl, rfl, ?_⟩
      · simp only [Option.bind_eq_bind]
        rw [Arr.set_lt _ (by show _ < E * n ^ 3; rw [hE]; exact hlt)]
        rfl
      · intro e' k' j' i' he' hk' hj' hi' hm
        simp only []
        by_cases hq : cellId n e' k' j' i' = cellId n e k j i
        · obtain ⟨q1, q2, q3, q4⟩ := cellId_inj hk' hj' hi' hk hj hi hq
          subst q1 q2 q3 q4
          rw [store_same]
        · rw [store_ne _ _ hq]; exact e3 e' k' j' i' he' hk' hj' hi' (by omega))
  exact ⟨s, h1, h3, fun e k j i he hk hj hi => h4 e k j i he hk hj hi (cellId_lt he hk hj hi)⟩

end Verif.Swage.Refine
