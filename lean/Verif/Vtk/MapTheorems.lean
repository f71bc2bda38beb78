import Verif.Vtk.Model
import Verif.Loop3
import Verif.Common.Lemmas
import Mathlib.Data.Fintype.EquivFin
import Mathlib.Tactic.IntervalCases

/-!
# C51: the two vertex maps
-/

namespace Verif.Vtk
open Verif.Common Verif.Common.Spec

/-- What is asked of VTK for elements of order `p`: `PointIndexFromIJK` numbers the `(p + 1)^3` points of the lattice from `0` on, without
repetition. -/
structure Numbering (V : PointIndex) (p : ℕ) : Prop where
  lt : ∀ I J K, I ≤ p → J ≤ p → K ≤ p → V p I J K < (p + 1) ^ 3
  inj : ∀ I J K I' J' K', I ≤ p → J ≤ p → K ≤ p → I' ≤ p → J' ≤ p → K' ≤ p → V p I J K = V p I' J' K' → I = I' ∧ J = J' ∧ K = K'

theorem swageId_eq {n I J K : ℕ} (hn : n ^ 3 < 2 ^ 64) (hI : I < n) (hJ : J < n) (hK : K < n) :
    swageId n I J K = I + J * n + K * n * n := by
  have h1 : n < 2 ^ 64 := lt_of_le_of_lt (Nat.le_self_pow (by norm_num) n) hn
  have e : ∀ a, a < 2 ^ 64 → (UInt64.ofNat a).toNat = a := fun a ha => by
    rw [UInt64.toNat_ofNat']; exact Nat.mod_eq_of_lt ha
  unfold swageId
  rw [encode_spec _ _ (by simp)]
  simp only [value]
  rw [e n h1, e I (by omega), e J (by omega), e K (by omega)]
  have := lex3_lt (l := n) hI hJ hK
  rw [show n * n * n = n ^ 3 by ring] at this
  rw [show I + n * (J + n * (K + n * 0)) = I + J * n + K * n * n by ring]
  exact Nat.mod_eq_of_lt (this.trans hn)

/-- Filling by a numbering of the lattice. -/
theorem fill_spec {n N : ℕ} (t v : ℕ → ℕ → ℕ → ℕ) (ht : ∀ I J K, I < n → J < n → K < n → t I J K < N)
    (hi : ∀ I J K I' J' K', I < n → J < n → K < n → I' < n → J' < n → K' < n → t I J K = t I' J' K' → I = I' ∧ J = J' ∧ K = K')
    (a : ℕ → ℕ) :
    ∃ b : Arr ℕ, loopM n (fun I => loopM n fun J => loopM n fun K (m : Arr ℕ) => m.set (t I J K) (v I J K)) ⟨N, a⟩ = some b ∧
      b.size = N ∧ ∀ I J K, I < n → J < n → K < n → b.val (t I J K) = v I J K := by
  obtain ⟨b, e, s, h⟩ := loopM3_spec (nk := n) (nj := n) (ni := n) (body := fun I J K (m : Arr ℕ) => m.set (t I J K) (v I J K))
    (s := ⟨N, a⟩) (fun c m => m.size = N ∧ ∀ I J K, I < n → J < n → K < n → K + J * n + I * n * n < c → m.val (t I J K) = v I J K)
    ⟨rfl, fun _ _ _ _ _ _ h => by omega⟩ (by
      rintro I J K ⟨z, m⟩ hI hJ hK ⟨e1, e2⟩
      simp only [] at e1 e2
      subst e1
      refine ⟨_, Arr.set_lt _ (ht I J K hI hJ hK), rfl, ?_⟩
      intro I' J' K' hI' hJ' hK' hlt
      show store _ _ _ _ = _
      by_cases h : t I' J' K' = t I J K
      · obtain ⟨rfl, rfl, rfl⟩ := hi _ _ _ _ _ _ hI' hJ' hK' hI hJ hK h
        rw [store_same]
      · rw [store_ne _ _ h]
        refine e2 I' J' K' hI' hJ' hK' ?_
        rcases Nat.lt_succ_iff_lt_or_eq.1 hlt with h2 | h2
        · exact h2
        · obtain ⟨rfl, rfl, rfl⟩ := lex3_inj hK' hJ' hK hJ h2
          exact absurd rfl h)
  exact ⟨b, e, s, fun I J K hI hJ hK => h I J K hI hJ hK (lex3_lt hK hJ hI)⟩

/-- A numbering of the lattice without repetition reaches every number. -/
theorem Numbering.surj {V : PointIndex} {p : ℕ} (h : Numbering V p) {i : ℕ} (hi : i < (p + 1) ^ 3) :
    ∃ I J K, I < p + 1 ∧ J < p + 1 ∧ K < p + 1 ∧ V p I J K = i := by
  have hN : (p + 1) ^ 3 = (p + 1) * (p + 1) * (p + 1) := by ring
  let n := p + 1
  have b : ∀ x : Fin ((p + 1) ^ 3), x.1 % n < n ∧ x.1 / n % n < n ∧ x.1 / n / n < n ∧
      x.1 % n + (x.1 / n % n) * n + (x.1 / n / n) * n * n = x.1 := fun x => lex3_surj (by rw [← hN]; exact x.2)
  let f : Fin ((p + 1) ^ 3) → Fin ((p + 1) ^ 3) := fun x =>
    ⟨V p (x.1 % n) (x.1 / n % n) (x.1 / n / n), h.lt _ _ _ (Nat.lt_succ_iff.1 (b x).1) (Nat.lt_succ_iff.1 (b x).2.1)
      (Nat.lt_succ_iff.1 (b x).2.2.1)⟩
  have fi : Function.Injective f := by
    intro x y hxy
    obtain ⟨a1, a2, a3⟩ := h.inj _ _ _ _ _ _ (Nat.lt_succ_iff.1 (b x).1) (Nat.lt_succ_iff.1 (b x).2.1) (Nat.lt_succ_iff.1 (b x).2.2.1)
      (Nat.lt_succ_iff.1 (b y).1) (Nat.lt_succ_iff.1 (b y).2.1) (Nat.lt_succ_iff.1 (b y).2.2.1) (Fin.mk.inj hxy)
    have e1 := (b x).2.2.2
    rw [a1, a2, a3, (b y).2.2.2] at e1
    exact Fin.ext e1.symm
  obtain ⟨x, hx⟩ := (Finite.injective_iff_surjective.1 fi) ⟨i, hi⟩
  exact ⟨_, _, _, (b x).1, (b x).2.1, (b x).2.2.1, congrArg Fin.val hx⟩

/-- **C51 (the maps).**  For every order with fewer than `2^31` vertices (the range of `int`), given a numbering by VTK, both calls stay in bounds on arrays of
`(p + 1)^3` entries and give mutually inverse permutations: vertex `(I, J, K)` is number `I + (p + 1) J + (p + 1)^2 K` on one side and
VTK's number on the other. -/
theorem C51_maps (V : PointIndex) (p : ℕ) (hp : (p + 1) ^ 3 < 2 ^ 31) (hV : Numbering V p) (a b : ℕ → ℕ) :
    ∃ f r : Arr ℕ, makeMap V p false ⟨(p + 1) ^ 3, a⟩ = some f ∧ makeMap V p true ⟨(p + 1) ^ 3, b⟩ = some r ∧
      f.size = (p + 1) ^ 3 ∧ r.size = (p + 1) ^ 3 ∧
      (∀ I J K, I ≤ p → J ≤ p → K ≤ p → f.val (I + J * (p + 1) + K * (p + 1) * (p + 1)) = V p I J K ∧
        r.val (V p I J K) = I + J * (p + 1) + K * (p + 1) * (p + 1)) ∧
      (∀ v < (p + 1) ^ 3, f.val v < (p + 1) ^ 3 ∧ r.val (f.val v) = v) ∧
      ∀ i < (p + 1) ^ 3, r.val i < (p + 1) ^ 3 ∧ f.val (r.val i) = i := by
  have hN : (p + 1) ^ 3 = (p + 1) * (p + 1) * (p + 1) := by ring
  have sid := fun I J K hI hJ hK => @swageId_eq (p + 1) I J K (hp.trans (by norm_num)) hI hJ hK
  obtain ⟨f, e1, s1, h1⟩ := fill_spec (n := p + 1) (N := (p + 1) ^ 3) (swageId (p + 1)) (V p)
    (fun I J K hI hJ hK => by rw [sid I J K hI hJ hK, hN]; exact lex3_lt hI hJ hK)
    (fun I J K I' J' K' hI hJ hK hI' hJ' hK' h => by
      rw [sid I J K hI hJ hK, sid I' J' K' hI' hJ' hK'] at h; exact lex3_inj hI hJ hI' hJ' h) a
  obtain ⟨r, e2, s2, h2⟩ := fill_spec (n := p + 1) (N := (p + 1) ^ 3) (V p) (swageId (p + 1))
    (fun I J K hI hJ hK => hV.lt I J K (by omega) (by omega) (by omega))
    (fun I J K I' J' K' hI hJ hK hI' hJ' hK' h => hV.inj I J K I' J' K' (by omega) (by omega) (by omega) (by omega) (by omega) (by omega) h) b
  have key : ∀ I J K, I ≤ p → J ≤ p → K ≤ p → f.val (I + J * (p + 1) + K * (p + 1) * (p + 1)) = V p I J K ∧
      r.val (V p I J K) = I + J * (p + 1) + K * (p + 1) * (p + 1) := fun I J K hI hJ hK => by
    have := sid I J K (by omega) (by omega) (by omega)
    exact ⟨by rw [← this]; exact h1 I J K (by omega) (by omega) (by omega),
      by rw [← this]; exact h2 I J K (by omega) (by omega) (by omega)⟩
  refine ⟨f, r, e1, e2, s1, s2, key, ?_, ?_⟩
  · intro v hv
    obtain ⟨a1, a2, a3, a4⟩ := lex3_surj (n := p + 1) (m := p + 1) (l := p + 1) (by rw [← hN]; exact hv)
    obtain ⟨k1, k2⟩ := key _ _ _ (Nat.lt_succ_iff.1 a1) (Nat.lt_succ_iff.1 a2) (Nat.lt_succ_iff.1 a3)
    rw [a4] at k1 k2
    rw [k1]
    exact ⟨hV.lt _ _ _ (Nat.lt_succ_iff.1 a1) (Nat.lt_succ_iff.1 a2) (Nat.lt_succ_iff.1 a3), k2⟩
  · intro i hi
    obtain ⟨I, J, K, hI, hJ, hK, rfl⟩ := hV.surj hi
    obtain ⟨k1, k2⟩ := key I J K (by omega) (by omega) (by omega)
    rw [k2, hN]
    exact ⟨lex3_lt hI hJ hK, k1⟩

/-- A numbering exists for every order: the lexicographic one. -/
theorem lexNumbering (p : ℕ) : Numbering (fun p I J K => I + J * (p + 1) + K * (p + 1) * (p + 1)) p := by
  constructor
  · intro I J K hI hJ hK
    rw [show (p + 1) ^ 3 = (p + 1) * (p + 1) * (p + 1) by ring]
    exact lex3_lt (by omega) (by omega) (by omega)
  · intro I J K I' J' K' hI hJ hK hI' hJ' hK' h
    exact lex3_inj (by omega) (by omega) (by omega) (by omega) h

/-- Non-vacuity: VTK's own numbering of the vertices of a linear hexahedron (around the bottom face, then around the top one). -/
def hex8 : PointIndex := fun _ I J K => (if I = 0 then (if J = 0 then 0 else 3) else if J = 0 then 1 else 2) + if K = 0 then 0 else 4

theorem hex8_numbering : Numbering hex8 1 := by
  constructor
  · intro I J K hI hJ hK
    interval_cases I <;> interval_cases J <;> interval_cases K <;> decide
  · intro I J K I' J' K' hI hJ hK hI' hJ' hK'
    interval_cases I <;> interval_cases J <;> interval_cases K <;> interval_cases I' <;> interval_cases J' <;> interval_cases K' <;> decide

example : ∃ f r : Arr ℕ, makeMap hex8 1 false ⟨8, fun _ => 9⟩ = some f ∧ makeMap hex8 1 true ⟨8, fun _ => 9⟩ = some r ∧
    (∀ v < 8, r.val (f.val v) = v) ∧ f.val 2 = 3 ∧ r.val 2 = 3 := by
  obtain ⟨f, r, e1, e2, -, -, k, h, -⟩ := C51_maps hex8 1 (by norm_num) hex8_numbering (fun _ => 9) fun _ => 9
  exact ⟨f, r, e1, e2, fun v hv => (h v hv).2, (k 0 1 0 (by norm_num) (by norm_num) (by norm_num)).1,
    (k 1 1 0 (by norm_num) (by norm_num) (by norm_num)).2⟩

end Verif.Vtk
