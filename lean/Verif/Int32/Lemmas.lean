import Verif.Int32.Model
import Verif.Swage.RefineLattice
import Verif.Swage.HighOrderTheorems

/-! Lemmas on the checked keys. -/

namespace Verif.Int32
open Verif.Swage

theorem int32_some {n m : ℕ} (h : int32 n = some m) : m = n ∧ n < 2 ^ 31 := by
  unfold int32 at h
  split at h
  · next hn => exact ⟨(Option.some.inj h).symm, hn⟩
  · cases h

theorem int32_lt {n : ℕ} (h : n < 2 ^ 31) : int32 n = some n := if_pos h

theorem toInt_some {r : ℝ} {m : ℕ} (h : toInt r = some m) : m = ⌊r⌋₊ ∧ r < 2 ^ 31 := by
  unfold toInt at h
  split at h
  · next hn => exact ⟨(Option.some.inj h).symm, hn⟩
  · cases h

theorem toInt_lt {r : ℝ} (h : r < 2 ^ 31) : toInt r = some ⌊r⌋₊ := if_pos h

/-- A truncation fits iff the real number is below `2^31`. -/
theorem toInt_floor {r : ℝ} (h0 : 0 ≤ r) (h : ⌊r⌋₊ < 2 ^ 31) : toInt r = some ⌊r⌋₊ := by
  refine toInt_lt ?_
  have := (Nat.floor_lt h0).1 h
  exact_mod_cast this

theorem combine32_some {i j k bx by_ v : ℕ} (h : combine32 i j k bx by_ = some v) :
    v = i + j * bx + k * bx * by_ ∧ v < 2 ^ 31 := by
  unfold combine32 at h
  obtain ⟨a, ha, h⟩ := Option.bind_eq_some_iff.1 h
  obtain ⟨s, hs, h⟩ := Option.bind_eq_some_iff.1 h
  obtain ⟨c, hc, h⟩ := Option.bind_eq_some_iff.1 h
  obtain ⟨e, he, h⟩ := Option.bind_eq_some_iff.1 h
  obtain ⟨ha, -⟩ := int32_some ha
  obtain ⟨hs, -⟩ := int32_some hs
  obtain ⟨hc, -⟩ := int32_some hc
  obtain ⟨he, -⟩ := int32_some he
  obtain ⟨h, h'⟩ := int32_some h
  subst ha hs hc he h
  exact ⟨rfl, h'⟩

theorem combine32_lt {i j k bx by_ : ℕ} (hy : 0 < by_) (h : i + j * bx + k * bx * by_ < 2 ^ 31) :
    combine32 i j k bx by_ = some (i + j * bx + k * bx * by_) := by
  have h1 : k * bx ≤ k * bx * by_ := Nat.le_mul_of_pos_right _ hy
  have g1 : j * bx < 2 ^ 31 := by omega
  have g2 : i + j * bx < 2 ^ 31 := by omega
  have g3 : k * bx < 2 ^ 31 := by omega
  have g4 : k * bx * by_ < 2 ^ 31 := by omega
  unfold combine32
  show (int32 (j * bx)).bind _ = _
  rw [int32_lt g1, Option.bind_some]
  show (int32 (i + j * bx)).bind _ = _
  rw [int32_lt g2, Option.bind_some]
  show (int32 (k * bx)).bind _ = _
  rw [int32_lt g3, Option.bind_some]
  show (int32 (k * bx * by_)).bind _ = _
  rw [int32_lt g4, Option.bind_some, int32_lt h]

theorem maxKey_congr {K : ℕ} {f g : ℕ → ℕ} (h : ∀ i < K, f i = g i) : maxKey K f = maxKey K g := by
  unfold maxKey
  induction K with
  | zero => rfl
  | succ K ih => rw [loop_succ, loop_succ, ih fun i hi => h i (by omega), h K (by omega)]

theorem get_congr {K : ℕ} {f g : ℕ → ℕ} (h : ∀ i < K, f i = g i) : (⟨K, f⟩ : Arr ℕ).get = (⟨K, g⟩ : Arr ℕ).get := by
  funext i
  unfold Arr.get
  simp only []
  split
  · next hi => rw [h i hi]
  · rfl

/-- What a completed filling has computed. -/
theorem fillKeys_some {K : ℕ} {f : ℕ → Option ℕ} {j : ℕ → ℕ} {r : Arr ℕ × ℕ} (h : fillKeys K f ⟨K, j⟩ = some r) :
    ∃ k : ℕ → ℕ, (∀ i < K, f i = some (k i)) ∧ r.2 = maxKey K k ∧ r.1.get = (⟨K, k⟩ : Arr ℕ).get := by
  unfold fillKeys at h
  have := loopM_inv h (fun m s => s.1.size = K ∧ (∀ i < m, f i = some (s.1.val i)) ∧ s.2 = maxKey m s.1.val)
    ⟨rfl, fun i hi => absurd hi (Nat.not_lt_zero _), rfl⟩ (by
      rintro i ⟨⟨z, v⟩, m⟩ s' hi ⟨e1, e2, e3⟩ hb
      simp only [] at e1 e2 e3
      subst e1
      obtain ⟨k, hk, hb⟩ := Option.bind_eq_some_iff.1 hb
      rw [Arr.set_lt _ (show i < z from hi)] at hb
      simp only [Option.bind_eq_bind, Option.bind_some] at hb
      cases hb
      refine ⟨rfl, ?_, ?_⟩
      · intro t ht
        simp only []
        by_cases ht' : t = i
        · subst ht'; rw [store_same]; exact hk
        · rw [store_ne _ _ ht']; exact e2 t (by omega)
      · show max m k = _
        unfold maxKey
        rw [loop_succ]
        show max m k = max (maxKey i (store v i k)) (store v i k i)
        rw [store_same, maxKey_congr (g := v) (fun t ht => store_ne _ _ (by omega)), ← e3])
  obtain ⟨h1, h2, h3⟩ := this
  obtain ⟨⟨z, v⟩, m⟩ := r
  simp only [] at h1 h2 h3
  subst h1
  exact ⟨v, h2, h3, rfl⟩

/-- If every key is defined the filling completes. -/
theorem fillKeys_run {K : ℕ} {f : ℕ → Option ℕ} (j : ℕ → ℕ) {k : ℕ → ℕ} (hf : ∀ i < K, f i = some (k i)) :
    ∃ a, fillKeys K f ⟨K, j⟩ = some (a, maxKey K k) ∧ a.get = (⟨K, k⟩ : Arr ℕ).get := by
  obtain ⟨r, hr, -⟩ : ∃ r, fillKeys K f ⟨K, j⟩ = some r ∧ r.1.size = K := by
    unfold fillKeys
    refine loopM_spec (fun _ (s : Arr ℕ × ℕ) => s.1.size = K) rfl ?_
    rintro i ⟨⟨z, v⟩, m⟩ hi e1
    simp only [] at e1
    subst e1
    refine ⟨(⟨z, store v i (k i)⟩, max m (k i)), ?_, rfl⟩
    show (f i).bind _ = _
    rw [hf i hi, Option.bind_some, Arr.set_lt _ (show i < z from hi)]
    rfl
  obtain ⟨k', h1, h2, h3⟩ := fillKeys_some hr
  have e : ∀ i < K, k' i = k i := fun i hi => by
    have := h1 i hi; rw [hf i hi] at this; exact (Option.some.inj this).symm
  obtain ⟨a, m⟩ := r
  simp only [] at h2 h3
  subst h2
  exact ⟨a, by rw [hr, maxKey_congr e], by rw [h3, get_congr e]⟩

theorem zeroTable_congr {K : ℕ} {a b : Arr ℕ} (h : a.get = b.get) (t : Arr ℤ) :
    Refine.zeroTable K a t = Refine.zeroTable K b t := by unfold Refine.zeroTable; rw [h]

theorem walk_congr {K : ℕ} {a b : Arr ℕ} (h : a.get = b.get) (s : Refine.Walk) :
    Refine.walk K a s = Refine.walk K b s := by unfold Refine.walk Refine.walkStep; rw [h]

theorem max_pos (a : ℝ) : 0 < max (1 / 10 ^ 16 : ℝ) a := lt_of_lt_of_le (by norm_num) (le_max_left _ _)

/-- Unchecked `int_bins[d]`. -/
noncomputable def binsZ (mn mx : ℕ → ℝ) (h : ℝ) (d : ℕ) : ℕ :=
  ⌊max (1 / 10 ^ 16) ((mx d - mn d + 1 + 1 / 10 ^ 14) / h)⌋₊
/-- Unchecked `int_idx[d]`. -/
noncomputable def indexZ (mn : ℕ → ℝ) (h : ℝ) (y : ℕ → ℝ) (d : ℕ) : ℕ :=
  ⌊max (1 / 10 ^ 16) ((y d - mn d + 1 / 10 ^ 14) / h)⌋₊
/-- Unchecked `key`. -/
noncomputable def keyZ (mn mx : ℕ → ℝ) (h : ℝ) (y : ℕ → ℝ) : ℕ :=
  indexZ mn h y 0 + indexZ mn h y 1 * binsZ mn mx h 0 + indexZ mn h y 2 * binsZ mn mx h 0 * binsZ mn mx h 1

theorem key32_some {mn mx : ℕ → ℝ} {h : ℝ} {y : ℕ → ℝ} {v : ℕ}
    (e : key32 mn h (binsZ mn mx h 0) (binsZ mn mx h 1) y = some v) : v = keyZ mn mx h y ∧ v < 2 ^ 31 := by
  unfold key32 at e
  obtain ⟨i, hi, e⟩ := Option.bind_eq_some_iff.1 e
  obtain ⟨j, hj, e⟩ := Option.bind_eq_some_iff.1 e
  obtain ⟨k, hk, e⟩ := Option.bind_eq_some_iff.1 e
  obtain ⟨hi, -⟩ := toInt_some hi
  obtain ⟨hj, -⟩ := toInt_some hj
  obtain ⟨hk, -⟩ := toInt_some hk
  obtain ⟨e1, e2⟩ := combine32_some e
  refine ⟨?_, e2⟩
  rw [e1, hi, hj, hk]
  rfl

theorem keys32_some {mn mx : ℕ → ℝ} {h : ℝ} {K : ℕ} {g : Arr (ℕ → ℝ)} {j : ℕ → ℕ} {r : Arr ℕ × ℕ} (hg : g.size = K)
    (e : keys32 mn mx h K g ⟨K, j⟩ = some r) :
    r.2 = maxKey K (fun i => keyZ mn mx h (g.val i)) ∧ r.1.get = (⟨K, fun i => keyZ mn mx h (g.val i)⟩ : Arr ℕ).get ∧
      (∀ d < 3, binsZ mn mx h d < 2 ^ 31) ∧ ∀ i < K, keyZ mn mx h (g.val i) < 2 ^ 31 := by
  unfold keys32 at e
  obtain ⟨bx, hx, e⟩ := Option.bind_eq_some_iff.1 e
  obtain ⟨by_, hy, e⟩ := Option.bind_eq_some_iff.1 e
  obtain ⟨bz, hz, e⟩ := Option.bind_eq_some_iff.1 e
  obtain ⟨hx, hx'⟩ := toInt_some hx
  obtain ⟨hy, hy'⟩ := toInt_some hy
  obtain ⟨hz, hz'⟩ := toInt_some hz
  have hx1 : bx = binsZ mn mx h 0 := hx
  have hy1 : by_ = binsZ mn mx h 1 := hy
  obtain ⟨k, hk, h1, h2⟩ := fillKeys_some e
  have hk2 : ∀ i < K, k i = keyZ mn mx h (g.val i) ∧ k i < 2 ^ 31 := by
    intro i hi
    have := hk i hi
    rw [Arr.get_lt (show i < g.size by omega)] at this
    simp only [Option.bind_eq_bind, Option.bind_some] at this
    rw [hx1, hy1] at this
    exact key32_some this
  have bl : ∀ r : ℝ, r < 2 ^ 31 → ⌊max (1 / 10 ^ 16) r⌋₊ < 2 ^ 31 := fun r hr => by
    rw [Refine.floor_max]
    rcases le_or_gt 0 r with h0 | h0
    · rw [Nat.floor_lt h0]; exact_mod_cast hr
    · rw [Nat.floor_of_nonpos h0.le]; norm_num
  refine ⟨?_, ?_, ?_, fun i hi => by rw [← (hk2 i hi).1]; exact (hk2 i hi).2⟩
  · rw [h1, maxKey_congr fun i hi => (hk2 i hi).1]
  · rw [h2, get_congr fun i hi => (hk2 i hi).1]
  · intro d hd
    interval_cases d
    · exact bl _ (lt_of_le_of_lt (le_max_right _ _) hx')
    · exact bl _ (lt_of_le_of_lt (le_max_right _ _) hy')
    · exact bl _ (lt_of_le_of_lt (le_max_right _ _) hz')

theorem keys32_run {mn mx : ℕ → ℝ} {h : ℝ} {K : ℕ} {g : Arr (ℕ → ℝ)} (j : ℕ → ℕ) (hg : g.size = K)
    (hb : ∀ d < 3, binsZ mn mx h d < 2 ^ 31) (hy : 0 < binsZ mn mx h 1)
    (hi : ∀ i < K, ∀ d < 2, indexZ mn h (g.val i) d < 2 ^ 31) (hz : ∀ i < K, indexZ mn h (g.val i) 2 < 2 ^ 31)
    (hk : ∀ i < K, keyZ mn mx h (g.val i) < 2 ^ 31) :
    ∃ r, keys32 mn mx h K g ⟨K, j⟩ = some r := by
  unfold keys32
  have hx := toInt_floor (max_pos _).le (hb 0 (by omega))
  have hy' := toInt_floor (max_pos _).le (hb 1 (by omega))
  have hz' := toInt_floor (max_pos _).le (hb 2 (by omega))
  show ∃ r, (bins32 mn mx h 0).bind _ = some r
  rw [show bins32 mn mx h 0 = some (binsZ mn mx h 0) from hx, Option.bind_some]
  show ∃ r, (bins32 mn mx h 1).bind _ = some r
  rw [show bins32 mn mx h 1 = some (binsZ mn mx h 1) from hy', Option.bind_some]
  show ∃ r, (bins32 mn mx h 2).bind _ = some r
  rw [show bins32 mn mx h 2 = some (binsZ mn mx h 2) from hz', Option.bind_some]
  obtain ⟨a, ha, -⟩ := fillKeys_run (K := K) (f := fun i => (do
    let y ← g.get i
    key32 mn h (binsZ mn mx h 0) (binsZ mn mx h 1) y)) j (k := fun i => keyZ mn mx h (g.val i)) (by
      intro i hiK
      show (g.get i).bind _ = _
      rw [Arr.get_lt (show i < g.size by omega), Option.bind_some]
      unfold key32
      show (index32 mn h (g.val i) 0).bind _ = _
      rw [show index32 mn h (g.val i) 0 = some (indexZ mn h (g.val i) 0) from toInt_floor (max_pos _).le (hi i hiK 0 (by omega)),
        Option.bind_some]
      show (index32 mn h (g.val i) 1).bind _ = _
      rw [show index32 mn h (g.val i) 1 = some (indexZ mn h (g.val i) 1) from toInt_floor (max_pos _).le (hi i hiK 1 (by omega)),
        Option.bind_some]
      show (index32 mn h (g.val i) 2).bind _ = _
      rw [show index32 mn h (g.val i) 2 = some (indexZ mn h (g.val i) 2) from toInt_floor (max_pos _).le (hz i hiK),
        Option.bind_some]
      exact combine32_lt hy (hk i hiK))
  exact ⟨_, ha⟩

end Verif.Int32
