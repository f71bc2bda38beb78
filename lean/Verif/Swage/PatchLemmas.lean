import Verif.Swage.Patch
import Verif.Swage.Ragged
import Mathlib.Data.Nat.Count
import Mathlib.Data.Nat.Nth
import Mathlib.Tactic.Linarith

/-! Lemmas on the hash walks. -/

namespace Verif.Swage

/-- `e` is the first position with its key. -/
def IsNew (keys : ℕ → ℕ) (e : ℕ) : Prop := ∀ d < e, keys d ≠ keys e
instance (keys : ℕ → ℕ) : DecidablePred (IsNew keys) := fun _ => inferInstanceAs (Decidable (∀ _ < _, _))
/-- Number of different keys among the first `m`. -/
def rank (keys : ℕ → ℕ) (m : ℕ) : ℕ := Nat.count (IsNew keys) m
theorem exists_key (keys : ℕ → ℕ) (e : ℕ) : ∃ d, keys d = keys e := ⟨e, rfl⟩
/-- First position with the key of `e`. -/
def firstOf (keys : ℕ → ℕ) (e : ℕ) : ℕ := Nat.find (exists_key keys e)
/-- The id of the key of `e`. -/
def idOf (keys : ℕ → ℕ) (e : ℕ) : ℕ := rank keys (firstOf keys e)

variable {keys : ℕ → ℕ}

theorem first_key (e : ℕ) : keys (firstOf keys e) = keys e := Nat.find_spec (exists_key keys e)
theorem first_le (e : ℕ) : firstOf keys e ≤ e := Nat.find_min' _ rfl
theorem first_le_of {d e : ℕ} (h : keys d = keys e) : firstOf keys e ≤ d := Nat.find_min' _ h
theorem first_new (e : ℕ) : IsNew keys (firstOf keys e) := by
  intro d hd h
  have := first_le_of (h.trans (first_key e))
  omega
theorem first_congr {d e : ℕ} (h : keys d = keys e) : firstOf keys d = firstOf keys e := by
  apply le_antisymm
  · exact first_le_of ((first_key e).trans h.symm)
  · exact first_le_of ((first_key d).trans h)
theorem first_of_new {e : ℕ} (h : IsNew keys e) : firstOf keys e = e := by
  by_contra hne
  exact h _ (lt_of_le_of_ne (first_le e) hne) (first_key e)
theorem new_iff {e : ℕ} : IsNew keys e ↔ firstOf keys e = e :=
  ⟨first_of_new, fun h => h ▸ first_new e⟩

theorem rank_succ (m : ℕ) : rank keys (m + 1) = rank keys m + if IsNew keys m then 1 else 0 :=
  Nat.count_succ _ _
theorem rank_mono {a b : ℕ} (h : a ≤ b) : rank keys a ≤ rank keys b := Nat.count_monotone _ h
theorem rank_lt {a b : ℕ} (ha : IsNew keys a) (h : a < b) : rank keys a < rank keys b := by
  have := rank_mono (keys := keys) (show a + 1 ≤ b from h)
  rw [rank_succ, if_pos ha] at this
  omega
theorem rank_inj {a b : ℕ} (ha : IsNew keys a) (hb : IsNew keys b) (h : rank keys a = rank keys b) : a = b := by
  rcases lt_trichotomy a b with h1 | h1 | h1
  · have := rank_lt ha h1; omega
  · exact h1
  · have := rank_lt hb h1; omega
theorem idOf_lt {e m : ℕ} (h : e < m) : idOf keys e < rank keys m :=
  rank_lt (first_new e) (lt_of_le_of_lt (first_le e) h)
theorem idOf_eq_iff {d e : ℕ} : idOf keys d = idOf keys e ↔ keys d = keys e := by
  constructor
  · intro h
    have := rank_inj (first_new d) (first_new e) h
    exact (first_key d).symm.trans ((congrArg keys this).trans (first_key e))
  · intro h; unfold idOf; rw [first_congr h]
theorem idOf_surj {g m : ℕ} (h : g < rank keys m) : ∃ f < m, IsNew keys f ∧ rank keys f = g := by
  induction m with
  | zero => simp [rank] at h
  | succ m ih =>
    rw [rank_succ] at h
    by_cases hn : IsNew keys m
    · rw [if_pos hn] at h
      rcases Nat.lt_succ_iff_lt_or_eq.1 h with h | h
      · obtain ⟨f, h1, h2⟩ := ih h; exact ⟨f, by omega, h2⟩
      · exact ⟨m, by omega, hn, h.symm⟩
    · rw [if_neg hn] at h
      obtain ⟨f, h1, h2⟩ := ih h; exact ⟨f, by omega, h2⟩

theorem le_maxKey (K : ℕ) (keys : ℕ → ℕ) : ∀ e < K, keys e ≤ maxKey K keys := by
  unfold maxKey
  induction K with
  | zero => intro e he; omega
  | succ K ih =>
    intro e he
    rw [loop_succ]
    rcases Nat.lt_succ_iff_lt_or_eq.1 he with h | h
    · exact (ih e h).trans (le_max_left _ _)
    · subst h; exact le_max_right _ _

theorem initTable_spec (K S : ℕ) (keys : ℕ → ℕ) (hS : ∀ e < K, keys e < S) (jt : ℕ → ℤ) :
    ∃ t, initTable K ⟨K, keys⟩ ⟨S, jt⟩ = some t ∧ t.size = S ∧ ∀ e < K, t.val (keys e) = -1 := by
  unfold initTable
  obtain ⟨t, h1, h2, h3⟩ := loopM_spec (n := K) (body := fun e (t : Arr ℤ) => (do
    let k ← (⟨K, keys⟩ : Arr ℕ).get e
    t.set k (-1))) (s := ⟨S, jt⟩) (fun m t => t.size = S ∧ ∀ e < m, t.val (keys e) = -1)
    ⟨rfl, fun e he => absurd he (Nat.not_lt_zero _)⟩
    (by
      rintro i ⟨z, v⟩ hi ⟨e1, e2⟩
      simp only [] at e1 e2
      subst e1
      refine ⟨⟨z, store v (keys i) (-1)⟩, ?_, rfl, ?_⟩
      · simp only [Option.bind_eq_bind]
        rw [Arr.get_lt (by exact hi)]
        simp only [Option.bind_some]
        rw [Arr.set_lt _ (by exact hS i hi)]
      · intro e he
        by_cases hk : keys e = keys i
        · simp only [hk, store_same]
        · simp only []
          rw [store_ne _ _ hk]
          exact e2 e (by
            rcases Nat.lt_succ_iff_lt_or_eq.1 he with h | h
            · exact h
            · subst h; exact absurd rfl hk))
  exact ⟨t, h1, h2, h3⟩

theorem numberLoop_spec (C S : ℕ) (keys : ℕ → ℕ) (hS : ∀ e < 6 * C, keys e < S) (t : Arr ℤ) (hz : t.size = S)
    (ht : ∀ e < 6 * C, t.val (keys e) = -1) :
    ∃ t', numberLoop C ⟨C * 6, keys⟩ t = some (t', rank keys (6 * C), 6 * C) ∧ t'.size = S ∧
      ∀ e < 6 * C, t'.val (keys e) = (idOf keys e : ℤ) := by
  unfold numberLoop
  obtain ⟨⟨t', g, h⟩, h1, h2, h3, h4, h5⟩ := loopM2_spec (n := C) (w := 6)
    (body := fun _ _ (s : Arr ℤ × ℕ × ℕ) => (do
      let k ← (⟨C * 6, keys⟩ : Arr ℕ).get s.2.2
      let v ← s.1.get k
      if v = -1 then do
        let t ← s.1.set k (s.2.1 : ℤ)
        pure (t, s.2.1 + 1, s.2.2 + 1)
      else pure (s.1, s.2.1, s.2.2 + 1))) (s := (t, 0, 0))
    (fun m s => s.2.2 = m ∧ s.2.1 = rank keys m ∧ s.1.size = S ∧
      ∀ e < 6 * C, s.1.val (keys e) = if firstOf keys e < m then (idOf keys e : ℤ) else -1)
    (by refine ⟨rfl, by simp [rank], hz, ?_⟩; intro e he; simpa using ht e he)
    (by
      rintro c p ⟨⟨z, v⟩, g, h⟩ hc hp ⟨e1, e2, e3, e4⟩
      simp only [] at e1 e2 e3 e4
      subst e1 e2 e3
      have hm := flat_lt2 hc hp
      have hv := e4 _ hm
      simp only [Option.bind_eq_bind]
      rw [Arr.get_lt (by show 6 * c + p < C * 6; omega)]
      simp only [Option.bind_some]
      rw [Arr.get_lt (by exact hS _ hm)]
      simp only [Option.bind_some]
      by_cases hn : IsNew keys (6 * c + p)
      · have hf := first_of_new hn
        rw [if_neg (by omega)] at hv
        rw [if_pos hv, Arr.set_lt _ (by exact hS _ hm)]
        refine ⟨(⟨z, store v (keys (6 * c + p)) _⟩, rank keys (6 * c + p) + 1, 6 * c + p + 1), rfl,
          rfl, by rw [rank_succ, if_pos hn], rfl, ?_⟩
        intro e he
        simp only []
        by_cases hk : keys e = keys (6 * c + p)
        · have : firstOf keys e = 6 * c + p := by rw [first_congr hk, hf]
          rw [hk, store_same, if_pos (by omega)]
          unfold idOf; rw [this]
        · rw [store_ne _ _ hk, e4 e he]
          have : firstOf keys e ≠ 6 * c + p := by
            intro h; exact hk ((first_key e).symm.trans (congrArg keys h))
          by_cases h2 : firstOf keys e < 6 * c + p
          · rw [if_pos h2, if_pos (by omega)]
          · rw [if_neg h2, if_neg (by omega)]
      · have hf : firstOf keys (6 * c + p) < 6 * c + p :=
          lt_of_le_of_ne (first_le _) (fun h => hn (new_iff.2 h))
        rw [if_pos hf] at hv
        rw [if_neg (by rw [hv]; omega)]
        refine ⟨(⟨z, v⟩, rank keys (6 * c + p), 6 * c + p + 1), rfl, rfl,
          by rw [rank_succ, if_neg hn]; rfl, rfl, ?_⟩
        intro e he
        simp only []
        rw [e4 e he]
        have : firstOf keys e ≠ 6 * c + p := by
          intro h; apply hn; rw [← h]; exact first_new e
        by_cases h2 : firstOf keys e < 6 * c + p
        · rw [if_pos h2, if_pos (by omega)]
        · rw [if_neg h2, if_neg (by omega)])
  simp only [] at h2 h3 h4 h5
  subst h2 h3
  refine ⟨t', h1, h4, fun e he => ?_⟩
  rw [h5 e he, if_pos (lt_of_le_of_lt (first_le e) he)]

theorem fillNeg_spec (n : ℕ) (j : ℕ → ℤ) (S : ℕ) (h : n ≤ S) :
    ∃ a, fillNeg n ⟨S, j⟩ = some a ∧ a.size = S ∧ ∀ i < n, a.val i = -1 := by
  unfold fillNeg
  obtain ⟨a, h1, h2, h3⟩ := loopM_spec (n := n) (body := fun i (a : Arr ℤ) => a.set i (-1)) (s := ⟨S, j⟩)
    (fun m a => a.size = S ∧ ∀ i < m, a.val i = -1) ⟨rfl, fun e he => absurd he (Nat.not_lt_zero _)⟩
    (by
      rintro i ⟨z, v⟩ hi ⟨e1, e2⟩
      simp only [] at e1 e2
      subst e1
      refine ⟨⟨z, store v i (-1)⟩, Arr.set_lt _ (by exact lt_of_lt_of_le hi h), rfl, ?_⟩
      intro e he
      simp only []
      by_cases hk : e = i
      · rw [hk, store_same]
      · rw [store_ne _ _ hk]; exact e2 e (by omega))
  exact ⟨a, h1, h2, h3⟩

/-- Positions below `m` with the key of `f`, other than `f`. -/
def laterSides (keys : ℕ → ℕ) (f m : ℕ) : List ℕ :=
  (List.range m).filter fun e => decide (keys e = keys f ∧ e ≠ f)

theorem laterSides_succ (f m : ℕ) : laterSides keys f (m + 1) =
    laterSides keys f m ++ if keys m = keys f ∧ m ≠ f then [m] else [] := by
  unfold laterSides
  rw [List.range_succ, List.filter_append]
  congr 1
  by_cases h : keys m = keys f ∧ m ≠ f <;> simp [h]

theorem laterSides_eq {f m : ℕ} (hf : IsNew keys f) (h : f < m) :
    ((List.range m).filter fun e => decide (keys e = keys f)) = f :: laterSides keys f m := by
  induction m with
  | zero => omega
  | succ m ih =>
    rw [laterSides_succ, List.range_succ, List.filter_append]
    rcases Nat.lt_succ_iff_lt_or_eq.1 h with h1 | h1
    · rw [ih h1]
      have : m ≠ f := by omega
      by_cases hk : keys m = keys f <;> simp [hk, this]
    · subst h1
      have h1 : ((List.range f).filter fun e => decide (keys e = keys f)) = [] := by
        rw [List.filter_eq_nil_iff]
        intro a ha
        simpa using hf a (List.mem_range.1 ha)
      have h2 : laterSides keys f f = [] := by
        unfold laterSides
        rw [List.filter_eq_nil_iff]
        intro a ha
        have := hf a (List.mem_range.1 ha)
        simp [this]
      rw [h1, h2]; simp

/-- The stored value for an optional side. -/
def sideVal (o : Option ℕ) (v : ℕ → ℕ) : ℤ := o.elim (-1) fun e => (v e : ℤ)

theorem sideVal_snoc (L : List ℕ) (e : ℕ) (v : ℕ → ℕ) : sideVal (L ++ [e]).getLast? v = (v e : ℤ) := by
  simp [sideVal]

/-- Invariant of the second walk. -/
structure WalkInv (keys : ℕ → ℕ) (nodes : ℕ → ℕ → ℕ) (K m : ℕ) (s : Patches × ℕ) : Prop where
  hc : s.2 = m
  ns : s.1.numSides = m
  num : s.1.num = rank keys K
  z1 : s.1.cells.size = 2 * rank keys K
  z2 : s.1.sides.size = 2 * rank keys K
  z3 : s.1.nodes.size = 4 * rank keys K
  inCell : ∀ c p, p < 6 → 6 * c + p < m → s.1.inCell c p = (idOf keys (6 * c + p) : ℤ)
  sic : ∀ c p, p < 6 → 6 * c + p < m → s.1.sidesInCell c p = 6 * c + p
  c0 : ∀ f < K, IsNew keys f → s.1.cells.val (2 * rank keys f) = if f < m then ((f / 6 : ℕ) : ℤ) else -1
  s0 : ∀ f < K, IsNew keys f → s.1.sides.val (2 * rank keys f) = if f < m then (f : ℤ) else -1
  c1 : ∀ f < K, IsNew keys f →
    s.1.cells.val (2 * rank keys f + 1) = sideVal (laterSides keys f m).getLast? (· / 6)
  s1 : ∀ f < K, IsNew keys f →
    s.1.sides.val (2 * rank keys f + 1) = sideVal (laterSides keys f m).getLast? id
  n0 : ∀ f < K, IsNew keys f → f < m → ∀ q < 4,
    s.1.nodes.val (4 * rank keys f + q) = (nodeInPatchInCell nodes (f / 6) (f % 6) q : ℤ)

theorem nodes4_spec (nodes : ℕ → ℕ → ℕ) (c p b : ℕ) (a : Arr ℤ) (h : b + 4 ≤ a.size) :
    ∃ a', loopM 4 (fun q (a : Arr ℤ) => a.set (b + q) (nodeInPatchInCell nodes c p q : ℤ)) a = some a' ∧
      a'.size = a.size ∧ (∀ q < 4, a'.val (b + q) = (nodeInPatchInCell nodes c p q : ℤ)) ∧
      ∀ i, (i < b ∨ b + 4 ≤ i) → a'.val i = a.val i := by
  obtain ⟨a', h1, h2, h3, h4⟩ := loopM_spec (n := 4)
    (body := fun q (a : Arr ℤ) => a.set (b + q) (nodeInPatchInCell nodes c p q : ℤ)) (s := a)
    (fun m a' => a'.size = a.size ∧ (∀ q < m, a'.val (b + q) = (nodeInPatchInCell nodes c p q : ℤ)) ∧
      ∀ i, (i < b ∨ b + 4 ≤ i) → a'.val i = a.val i)
    ⟨rfl, fun e he => absurd he (Nat.not_lt_zero _), fun _ _ => rfl⟩
    (by
      rintro i ⟨z, v⟩ hi ⟨e1, e2, e3⟩
      simp only [] at e1 e2 e3
      subst e1
      refine ⟨⟨_, store v (b + i) _⟩, Arr.set_lt _ (by show b + i < a.size; omega), rfl, ?_, ?_⟩
      · intro q hq
        simp only []
        by_cases hk : q = i
        · rw [hk, store_same]
        · rw [store_ne _ _ (by omega)]; exact e2 q (by omega)
      · intro j hj
        simp only []
        rw [store_ne _ _ (by omega)]; exact e3 j hj)
  exact ⟨a', h1, h2, h3, h4⟩

theorem store2_flat {α : Type} {a : ℕ → ℕ → α} {c p : ℕ} (hp : p < 6) {v : ℕ → α}
    (h : ∀ c' p', p' < 6 → 6 * c' + p' < 6 * c + p → a c' p' = v (6 * c' + p')) :
    ∀ c' p', p' < 6 → 6 * c' + p' < 6 * c + p + 1 → store2 a c p (v (6 * c + p)) c' p' = v (6 * c' + p') := by
  intro c' p' h1 h2
  by_cases he : c' = c ∧ p' = p
  · rw [he.1, he.2, store2_eq]
  · rw [store2_ne _ _ he]
    apply h c' p' h1
    rcases Nat.lt_succ_iff_lt_or_eq.1 h2 with h3 | h3
    · exact h3
    · exfalso; apply he; constructor <;> omega

theorem patchBody_spec (C S : ℕ) (nodes : ℕ → ℕ → ℕ) (keys : ℕ → ℕ) (hS : ∀ e < 6 * C, keys e < S) (t : Arr ℤ)
    (hz : t.size = S) (ht : ∀ e < 6 * C, t.val (keys e) = (idOf keys e : ℤ)) (c p : ℕ) (hc : c < C) (hp : p < 6)
    (s : Patches × ℕ) (hI : WalkInv keys nodes (6 * C) (6 * c + p) s) :
    ∃ s', patchBody nodes ⟨C * 6, keys⟩ t c p s = some s' ∧ WalkInv keys nodes (6 * C) (6 * c + p + 1) s' := by
  obtain ⟨⟨num, ⟨zc, cells⟩, ⟨zs, sides⟩, ⟨zn, pn⟩, inCell, sic, numSides⟩, h⟩ := s
  obtain ⟨i1, i2, i3, i4, i5, i6, i7, i8, i9, i10, i11, i12, i13⟩ := hI
  simp only [] at i1 i2 i3 i4 i5 i6 i7 i8 i9 i10 i11 i12 i13
  subst i1 i2 i3 i4 i5 i6
  have hm := flat_lt2 hc hp
  have hdiv : (6 * c + p) / 6 = c := flat_div hp
  have hmod : (6 * c + p) % 6 = p := flat_mod hp
  unfold patchBody
  simp only [Option.bind_eq_bind]
  rw [Arr.get_lt (by show 6 * c + p < C * 6; omega)]
  simp only [Option.bind_some]
  rw [Arr.get_lt (by rw [hz]; exact hS _ hm)]
  simp only [Option.bind_some, ht _ hm]
  have hgid := idOf_lt (keys := keys) hm
  have e2 : ((idOf keys (6 * c + p) : ℤ) * 2).toNat = 2 * idOf keys (6 * c + p) := by omega
  have e4 : ((idOf keys (6 * c + p) : ℤ) * 4).toNat = 4 * idOf keys (6 * c + p) := by omega
  rw [e2, e4]
  rw [Arr.get_lt (by show _ < 2 * rank keys (6 * C); omega)]
  simp only [Option.bind_some]
  have hfK : firstOf keys (6 * c + p) < 6 * C := lt_of_le_of_lt (first_le _) hm
  have hcv : cells (2 * idOf keys (6 * c + p)) =
    if firstOf keys (6 * c + p) < 6 * c + p then ((firstOf keys (6 * c + p) / 6 : ℕ) : ℤ) else -1 :=
    i9 _ hfK (first_new _)
  by_cases hn : IsNew keys (6 * c + p)
  · have hf := first_of_new hn
    have hid : idOf keys (6 * c + p) = rank keys (6 * c + p) := by unfold idOf; rw [hf]
    rw [hf, if_neg (by omega)] at hcv
    rw [if_pos hcv]
    rw [Arr.set_lt _ (by show _ < 2 * rank keys (6 * C); omega),
      Arr.set_lt _ (by show _ < 2 * rank keys (6 * C); omega)]
    simp only [Option.bind_some]
    obtain ⟨⟨z', pn'⟩, n1, n2, n3, n4⟩ := nodes4_spec nodes c p (4 * idOf keys (6 * c + p))
      ⟨4 * rank keys (6 * C), pn⟩ (by simp only []; omega)
    simp only [] at n2 n3 n4
    refine ⟨(⟨rank keys (6 * C), ⟨_, store cells _ _⟩, ⟨_, store sides _ _⟩, ⟨z', pn'⟩, _, _, _⟩, _),
      by rw [n1]; rfl, ?_⟩
    refine ⟨rfl, rfl, rfl, rfl, rfl, n2, ?_, ?_, ?_, ?_, ?_, ?_, ?_⟩
    · exact store2_flat hp (v := fun e => (idOf keys e : ℤ)) i7
    · exact store2_flat hp (v := fun e => e) i8
    · intro f hfK hf
      simp only []
      by_cases hk : f = 6 * c + p
      · subst hk
        rw [hid, store_same, if_pos (by omega), hdiv]
      · rw [store_ne _ _ (by rw [hid]; intro h; exact hk (rank_inj hf hn (by omega))), i9 f hfK hf]
        by_cases h2 : f < 6 * c + p
        · rw [if_pos h2, if_pos (by omega)]
        · rw [if_neg h2, if_neg (by omega)]
    · intro f hfK hf
      simp only []
      by_cases hk : f = 6 * c + p
      · subst hk
        rw [hid, store_same, if_pos (by omega)]
      · rw [store_ne _ _ (by rw [hid]; intro h; exact hk (rank_inj hf hn (by omega))), i10 f hfK hf]
        by_cases h2 : f < 6 * c + p
        · rw [if_pos h2, if_pos (by omega)]
        · rw [if_neg h2, if_neg (by omega)]
    · intro f hfK hf'
      simp only []
      rw [store_ne _ _ (by omega), i11 f hfK hf', laterSides_succ, if_neg, List.append_nil]
      rintro ⟨h1, h2⟩
      have := first_congr h1
      rw [hf, first_of_new hf'] at this
      exact h2 this
    · intro f hfK hf'
      simp only []
      rw [store_ne _ _ (by omega), i12 f hfK hf', laterSides_succ, if_neg, List.append_nil]
      rintro ⟨h1, h2⟩
      have := first_congr h1
      rw [hf, first_of_new hf'] at this
      exact h2 this
    · intro f hfK hf' hfm q hq
      simp only []
      by_cases hk : f = 6 * c + p
      · subst hk
        rw [← hid, n3 q hq, hdiv, hmod]
      · have : rank keys f ≠ rank keys (6 * c + p) := fun h => hk (rank_inj hf' hn h)
        rw [n4 _ (by omega)]
        exact i13 f hfK hf' (by omega) q hq
  · have hf : firstOf keys (6 * c + p) < 6 * c + p :=
      lt_of_le_of_ne (first_le _) (fun h => hn (new_iff.2 h))
    rw [if_pos hf] at hcv
    rw [if_neg (by rw [hcv]; omega)]
    rw [Arr.set_lt _ (by show _ < 2 * rank keys (6 * C); omega),
      Arr.set_lt _ (by show _ < 2 * rank keys (6 * C); omega)]
    simp only [Option.bind_some]
    refine ⟨(⟨rank keys (6 * C), ⟨_, store cells _ _⟩, ⟨_, store sides _ _⟩, ⟨_, pn⟩, _, _, _⟩, _), rfl, ?_⟩
    refine ⟨rfl, rfl, rfl, rfl, rfl, rfl, ?_, ?_, ?_, ?_, ?_, ?_, ?_⟩
    · exact store2_flat hp (v := fun e => (idOf keys e : ℤ)) i7
    · exact store2_flat hp (v := fun e => e) i8
    · intro f hfK hf'
      simp only []
      rw [store_ne _ _ (by omega), i9 f hfK hf']
      have : f ≠ 6 * c + p := fun h => hn (h ▸ hf')
      by_cases h2 : f < 6 * c + p
      · rw [if_pos h2, if_pos (by omega)]
      · rw [if_neg h2, if_neg (by omega)]
    · intro f hfK hf'
      simp only []
      rw [store_ne _ _ (by omega), i10 f hfK hf']
      have : f ≠ 6 * c + p := fun h => hn (h ▸ hf')
      by_cases h2 : f < 6 * c + p
      · rw [if_pos h2, if_pos (by omega)]
      · rw [if_neg h2, if_neg (by omega)]
    · intro f hfK hf'
      simp only []
      have hne : 6 * c + p ≠ f := fun h => hn (h ▸ hf')
      rw [laterSides_succ]
      by_cases hk : keys (6 * c + p) = keys f
      · rw [if_pos ⟨hk, hne⟩, sideVal_snoc]
        have : rank keys f = idOf keys (6 * c + p) := by
          unfold idOf; rw [first_congr hk, first_of_new hf']
        rw [this, store_same, hdiv]
      · rw [if_neg (fun h => hk h.1), List.append_nil, store_ne, i11 f hfK hf']
        intro h
        apply hk
        have : rank keys f = rank keys (firstOf keys (6 * c + p)) := by
          show _ = idOf keys (6 * c + p); omega
        exact (first_key _).symm.trans (congrArg keys (rank_inj hf' (first_new _) this)).symm
    · intro f hfK hf'
      simp only []
      have hne : 6 * c + p ≠ f := fun h => hn (h ▸ hf')
      rw [laterSides_succ]
      by_cases hk : keys (6 * c + p) = keys f
      · rw [if_pos ⟨hk, hne⟩, sideVal_snoc]
        have : rank keys f = idOf keys (6 * c + p) := by
          unfold idOf; rw [first_congr hk, first_of_new hf']
        rw [this, store_same]; rfl
      · rw [if_neg (fun h => hk h.1), List.append_nil, store_ne, i12 f hfK hf']
        intro h
        apply hk
        have : rank keys f = rank keys (firstOf keys (6 * c + p)) := by
          show _ = idOf keys (6 * c + p); omega
        exact (first_key _).symm.trans (congrArg keys (rank_inj hf' (first_new _) this)).symm
    · intro f hfK hf' hfm q hq
      have : f ≠ 6 * c + p := fun h => hn (h ▸ hf')
      exact i13 f hfK hf' (by omega) q hq

theorem buildPatches_spec (C : ℕ) (nodes : ℕ → ℕ → ℕ) (keys : ℕ → ℕ) (jt jc js jn : ℕ → ℤ)
    (ji : ℕ → ℕ → ℤ) (jk : ℕ → ℕ → ℕ) :
    ∃ k h, buildPatches C nodes keys jt jc js jn ji jk = some k ∧ WalkInv keys nodes (6 * C) (6 * C) (k, h) := by
  have hS : ∀ e < 6 * C, keys e < maxKey (C * 6) keys + 10 := fun e he => by
    have := le_maxKey (C * 6) keys e (by omega); omega
  obtain ⟨t, t1, t2, t3⟩ := initTable_spec (C * 6) _ keys (fun e he => hS e (by omega)) jt
  obtain ⟨t', u1, u2, u3⟩ := numberLoop_spec C _ keys hS t t2 (fun e he => t3 e (by omega))
  obtain ⟨a1, p1, p2, p3⟩ := fillNeg_spec (2 * rank keys (6 * C)) jc (rank keys (6 * C) * 2) (by omega)
  obtain ⟨a2, q1, q2, q3⟩ := fillNeg_spec (2 * rank keys (6 * C)) js (rank keys (6 * C) * 2) (by omega)
  obtain ⟨a3, r1, r2, r3⟩ := fillNeg_spec (4 * rank keys (6 * C)) jn (rank keys (6 * C) * 4) (by omega)
  obtain ⟨⟨k, h⟩, w1, w2⟩ := loopM2_spec (n := C) (w := 6)
    (body := fun c p s => patchBody nodes ⟨C * 6, keys⟩ t' c p s)
    (s := (⟨rank keys (6 * C), a1, a2, a3, ji, jk, 0⟩, 0)) (fun m s => WalkInv keys nodes (6 * C) m s)
    (by
      refine ⟨rfl, rfl, rfl, by simp only [p2]; omega, by simp only [q2]; omega, by simp only [r2]; omega,
        by intros; omega, by intros; omega, ?_, ?_, ?_, ?_, by intros; omega⟩
      · intro f hf hn
        have := rank_lt hn hf
        simpa using p3 _ (by omega)
      · intro f hf hn
        have := rank_lt hn hf
        simpa using q3 _ (by omega)
      · intro f hf hn
        have := rank_lt hn hf
        simpa [laterSides, sideVal] using p3 _ (by omega)
      · intro f hf hn
        have := rank_lt hn hf
        simpa [laterSides, sideVal] using q3 _ (by omega))
    (fun c p s hc hp hI => patchBody_spec C _ nodes keys hS t' u2 u3 c p hc hp s hI)
  refine ⟨k, h, ?_, w2⟩
  unfold buildPatches
  simp only [Option.bind_eq_bind, t1, Option.bind_some, u1, p1, q1, r1, w1]
  rfl

end Verif.Swage
