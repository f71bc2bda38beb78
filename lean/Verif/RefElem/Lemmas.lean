import Verif.RefElem.Model
import Verif.Fill

/-!
# Loop lemmas for `ref_element::init`
-/

namespace Verif.RefElem

theorem rid_lt {w i j k : ℕ} (hi : i < w) (hj : j < w) (hk : k < w) : rid w i j k < w * w * w := lex3_lt hi hj hk

theorem rid_inj {w i j k i' j' k' : ℕ} (hi : i < w) (hj : j < w) (hi' : i' < w) (hj' : j' < w)
    (h : rid w i j k = rid w i' j' k') : i = i' ∧ j = j' ∧ k = k' := by
  have a := lex3_mod (k := k) hi hj
  have b := lex3_mod (k := k') hi' hj'
  unfold rid at h
  rw [h] at a
  exact ⟨a.1.symm.trans b.1, a.2.1.symm.trans b.2.1, a.2.2.symm.trans b.2.2⟩

theorem rid_surj {w m : ℕ} (h : m < w * w * w) : ∃ i j k, i < w ∧ j < w ∧ k < w ∧ m = rid w i j k := by
  obtain ⟨a, b, c, d⟩ := lex3_surj h
  exact ⟨_, _, _, a, b, c, d.symm⟩

/-- Three nested loops with an invariant indexed by the number of finished iterations. -/
theorem loop3_spec {σ : Type} {w : ℕ} {body : ℕ → ℕ → ℕ → σ → Option σ} {s : σ} (I : ℕ → σ → Prop) (h0 : I 0 s)
    (hs : ∀ k j i s, k < w → j < w → i < w → I (rid w i j k) s →
      ∃ s', body k j i s = some s' ∧ I (rid w i j k + 1) s') :
    ∃ s', loop3 w body s = some s' ∧ I (w * w * w) s' := by
  have := loopM4_spec (n := 1) (w := w) (body := fun _ => body) (s := s) I h0 (by
    intro e k j i s he hk hj hi hI
    obtain rfl : e = 0 := by omega
    simp only [Nat.mul_zero, Nat.add_zero] at hI ⊢
    exact hs k j i s hk hj hi hI)
  simpa [loop3, loopM_succ] using this

/-- One store at position `rid` extends the filled prefix. -/
theorem filled_step {α : Type*} {w : ℕ} {v : ℕ → α} {F : ℕ → ℕ → ℕ → α} {i j k : ℕ} (hi : i < w) (hj : j < w)
    (h : ∀ i' j' k', i' < w → j' < w → k' < w → rid w i' j' k' < rid w i j k → v (rid w i' j' k') = F i' j' k')
    {x : α} (hx : x = F i j k) (i' j' k' : ℕ) (hi' : i' < w) (hj' : j' < w) (hk' : k' < w)
    (hlt : rid w i' j' k' < rid w i j k + 1) : store v (rid w i j k) x (rid w i' j' k') = F i' j' k' := by
  by_cases e : rid w i' j' k' = rid w i j k
  · obtain ⟨rfl, rfl, rfl⟩ := rid_inj hi' hj' hi hj e
    rw [store_same, hx]
  · rw [store_ne _ _ e]; exact h i' j' k' hi' hj' hk' (by omega)

theorem nodeLoop_spec {n : ℕ} {lob lobw : Arr ℝ} (h1 : n ≤ lob.size) (h2 : n ≤ lobw.size) (p0 : ℕ → ℕ → ℝ) (w0 : ℕ → ℝ) :
    ∃ r, nodeLoop n lob lobw (⟨n * n * n, p0⟩, ⟨n * n * n, w0⟩) = some r ∧ r.1.size = n * n * n ∧ r.2.size = n * n * n ∧
      ∀ i j k, i < n → j < n → k < n →
        r.1.val (rid n i j k) = row3 (lob.val i) (lob.val j) (lob.val k) ∧
        r.2.val (rid n i j k) = lobw.val i * lobw.val j * lobw.val k := by
  obtain ⟨r, e, a, b, c, d⟩ := loop3_spec (w := n) (body := fun k j i (s : Arr (ℕ → ℝ) × Arr ℝ) => do
      let x ← lob.get i
      let y ← lob.get j
      let z ← lob.get k
      let pos ← s.1.set (rid n i j k) (row3 x y z)
      let a ← lobw.get i
      let b ← lobw.get j
      let c ← lobw.get k
      let w ← s.2.set (rid n i j k) (a * b * c)
      pure (pos, w)) (s := (⟨n * n * n, p0⟩, ⟨n * n * n, w0⟩))
    (fun m r => r.1.size = n * n * n ∧ r.2.size = n * n * n ∧
      (∀ i j k, i < n → j < n → k < n → rid n i j k < m →
        r.1.val (rid n i j k) = row3 (lob.val i) (lob.val j) (lob.val k)) ∧
      (∀ i j k, i < n → j < n → k < n → rid n i j k < m →
        r.2.val (rid n i j k) = lobw.val i * lobw.val j * lobw.val k))
    ⟨rfl, rfl, fun _ _ _ _ _ _ h => by omega, fun _ _ _ _ _ _ h => by omega⟩
    (by
      rintro k j i ⟨⟨sz, v⟩, ⟨sz', v'⟩⟩ hk hj hi ⟨e1, e2, e3, e4⟩
      simp only [] at e1 e2 e3 e4
      subst e1 e2
      have hb := rid_lt hi hj hk
      refine ⟨(⟨_, store v (rid n i j k) (row3 (lob.val i) (lob.val j) (lob.val k))⟩,
        ⟨_, store v' (rid n i j k) (lobw.val i * lobw.val j * lobw.val k)⟩), ?_, rfl, rfl, ?_, ?_⟩
      · simp only [Option.bind_eq_bind]
        rw [Arr.get_lt (show i < lob.size by omega), Option.bind_some, Arr.get_lt (show j < lob.size by omega),
          Option.bind_some, Arr.get_lt (show k < lob.size by omega), Option.bind_some, Arr.set_lt _ hb, Option.bind_some,
          Arr.get_lt (show i < lobw.size by omega), Option.bind_some, Arr.get_lt (show j < lobw.size by omega),
          Option.bind_some, Arr.get_lt (show k < lobw.size by omega), Option.bind_some, Arr.set_lt _ hb, Option.bind_some]
        rfl
      · exact filled_step (F := fun i j k => row3 (lob.val i) (lob.val j) (lob.val k)) hi hj e3 rfl
      · exact filled_step (F := fun i j k => lobw.val i * lobw.val j * lobw.val k) hi hj e4 rfl)
  exact ⟨r, e, a, b, fun i j k hi hj hk => ⟨c i j k hi hj hk (rid_lt hi hj hk), d i j k hi hj hk (rid_lt hi hj hk)⟩⟩

theorem cornerWeightLoop_spec {R : ℕ} {c1 : Arr ℝ} (h1 : R ≤ c1.size) (p0 : ℕ → ℕ → ℝ) (w0 : ℕ → ℝ) :
    ∃ r, cornerWeightLoop R c1 (⟨R * R * R, p0⟩, ⟨R * R * R, w0⟩) = some r ∧ r.1.size = R * R * R ∧ r.2.size = R * R * R ∧
      ∀ i j k, i < R → j < R → k < R →
        r.1.val (rid R i j k) = row3 (c1.val i) (c1.val j) (c1.val k) ∧
        r.2.val (rid R i j k) = c1.val i * c1.val j * c1.val k := by
  obtain ⟨r, e, a, b, c, d⟩ := loop3_spec (w := R) (body := fun k j i (s : Arr (ℕ → ℝ) × Arr ℝ) => do
      let a ← c1.get i
      let b ← c1.get j
      let c ← c1.get k
      let part ← s.1.set (rid R i j k) (row3 a b c)
      let w ← s.2.set (rid R i j k) (a * b * c)
      pure (part, w)) (s := (⟨R * R * R, p0⟩, ⟨R * R * R, w0⟩))
    (fun m r => r.1.size = R * R * R ∧ r.2.size = R * R * R ∧
      (∀ i j k, i < R → j < R → k < R → rid R i j k < m →
        r.1.val (rid R i j k) = row3 (c1.val i) (c1.val j) (c1.val k)) ∧
      (∀ i j k, i < R → j < R → k < R → rid R i j k < m →
        r.2.val (rid R i j k) = c1.val i * c1.val j * c1.val k))
    ⟨rfl, rfl, fun _ _ _ _ _ _ h => by omega, fun _ _ _ _ _ _ h => by omega⟩
    (by
      rintro k j i ⟨⟨sz, v⟩, ⟨sz', v'⟩⟩ hk hj hi ⟨e1, e2, e3, e4⟩
      simp only [] at e1 e2 e3 e4
      subst e1 e2
      have hb := rid_lt hi hj hk
      refine ⟨(⟨_, store v (rid R i j k) (row3 (c1.val i) (c1.val j) (c1.val k))⟩,
        ⟨_, store v' (rid R i j k) (c1.val i * c1.val j * c1.val k)⟩), ?_, rfl, rfl, ?_, ?_⟩
      · simp only [Option.bind_eq_bind]
        rw [Arr.get_lt (show i < c1.size by omega), Option.bind_some, Arr.get_lt (show j < c1.size by omega),
          Option.bind_some, Arr.get_lt (show k < c1.size by omega), Option.bind_some, Arr.set_lt _ hb, Option.bind_some,
          Arr.set_lt _ hb, Option.bind_some]
        rfl
      · exact filled_step (F := fun i j k => row3 (c1.val i) (c1.val j) (c1.val k)) hi hj e3 rfl
      · exact filled_step (F := fun i j k => c1.val i * c1.val j * c1.val k) hi hj e4 rfl)
  exact ⟨r, e, a, b, fun i j k hi hj hk => ⟨c i j k hi hj hk (rid_lt hi hj hk), d i j k hi hj hk (rid_lt hi hj hk)⟩⟩

/-- The 1-D corner weights: the end nodes have one corner each, every other node two. -/
noncomputable def cw1 (n : ℕ) (w : ℕ → ℝ) (c : ℕ) : ℝ :=
  if c = 0 then w 0 else if c = 2 * (n - 1) - 1 then w (n - 1) else 1 / 2 * w ((c + 1) / 2)

theorem cornerWeights1D_spec {n R : ℕ} (hn : 2 ≤ n) (hR : R = 2 * (n - 1)) {lobw c : Arr ℝ} (h1 : n ≤ lobw.size)
    (h2 : c.size = R) : ∃ r, cornerWeights1D n R lobw c = some r ∧ r.size = R ∧
      ∀ i < R, r.val i = cw1 n lobw.val i := by
  obtain ⟨sz, v⟩ := c
  simp only [] at h2
  subst h2
  obtain ⟨⟨s1, v1⟩, e1, e2, e3⟩ := loopM_spec (n := n - 1 - 1) (body := fun i' (c : Arr ℝ) => do
    let i := i' + 1
    let w ← lobw.get i
    let c ← c.set (2 * i - 1) (1 / 2 * w)
    c.set (2 * i) (1 / 2 * w)) (s := ⟨sz, store v 0 (lobw.val 0)⟩)
    (fun m c => c.size = sz ∧ ∀ i, i < 2 * m + 1 → c.val i = if i = 0 then lobw.val 0 else 1 / 2 * lobw.val ((i + 1) / 2))
    ⟨rfl, by
      intro i hi
      obtain rfl : i = 0 := by omega
      simp⟩
    (by
      rintro i ⟨s', v'⟩ hi ⟨f1, f2⟩
      simp only [] at f1 f2
      subst f1
      refine ⟨⟨s', store (store v' (2 * (i + 1) - 1) (1 / 2 * lobw.val (i + 1))) (2 * (i + 1)) (1 / 2 * lobw.val (i + 1))⟩,
        ?_, rfl, ?_⟩
      · simp only [Option.bind_eq_bind]
        rw [Arr.get_lt (show i + 1 < lobw.size by omega), Option.bind_some,
          Arr.set_lt _ (show 2 * (i + 1) - 1 < s' by omega), Option.bind_some,
          Arr.set_lt _ (show 2 * (i + 1) < s' by omega)]
      · intro t ht
        simp only []
        by_cases a : t = 2 * (i + 1)
        · subst a
          rw [store_same, if_neg (by omega), show (2 * (i + 1) + 1) / 2 = i + 1 by omega]
        · rw [store_ne _ _ a]
          by_cases b : t = 2 * (i + 1) - 1
          · subst b
            rw [store_same, if_neg (by omega), show (2 * (i + 1) - 1 + 1) / 2 = i + 1 by omega]
          · rw [store_ne _ _ b]
            exact f2 t (by omega))
  simp only [] at e2 e3
  subst e2
  refine ⟨⟨s1, store v1 (s1 - 1) (lobw.val (n - 1))⟩, ?_, rfl, ?_⟩
  · unfold cornerWeights1D
    simp only [Option.bind_eq_bind] at e1 ⊢
    rw [Arr.get_lt (show 0 < lobw.size by omega), Option.bind_some, Arr.set_lt _ (show 0 < s1 by omega), Option.bind_some]
    simp only [e1, Option.bind_some]
    rw [Arr.get_lt (show n - 1 < lobw.size by omega), Option.bind_some, Arr.set_lt _ (show s1 - 1 < s1 by omega)]
  · intro i hi
    simp only [cw1]
    by_cases a : i = s1 - 1
    · subst a
      rw [store_same, if_neg (by omega), if_pos (by omega)]
    · rw [store_ne _ _ a, e3 i (by omega), if_neg (show ¬ i = 2 * (n - 1) - 1 by omega)]

/-! ### Rows of eight -/

/-- Eight consecutive stores. -/
theorem set8 {α β : Type} (a : Arr α) (m : ℕ) (f : ℕ → α) (K : Arr α → Option β) (h : m * 8 + 8 ≤ a.size) :
    ((a.set (m * 8 + 0) (f 0)).bind fun a => (a.set (m * 8 + 1) (f 1)).bind fun a => (a.set (m * 8 + 2) (f 2)).bind fun a =>
      (a.set (m * 8 + 3) (f 3)).bind fun a => (a.set (m * 8 + 4) (f 4)).bind fun a => (a.set (m * 8 + 5) (f 5)).bind fun a =>
      (a.set (m * 8 + 6) (f 6)).bind fun a => (a.set (m * 8 + 7) (f 7)).bind K) =
    K ⟨a.size, fun q => if m * 8 ≤ q ∧ q < m * 8 + 8 then f (q - m * 8) else a.val q⟩ := by
  obtain ⟨sz, v⟩ := a
  simp only [] at h
  rw [Arr.set_lt _ (show m * 8 + 0 < sz by omega), Option.bind_some, Arr.set_lt _ (show m * 8 + 1 < sz by omega),
    Option.bind_some, Arr.set_lt _ (show m * 8 + 2 < sz by omega), Option.bind_some,
    Arr.set_lt _ (show m * 8 + 3 < sz by omega), Option.bind_some, Arr.set_lt _ (show m * 8 + 4 < sz by omega),
    Option.bind_some, Arr.set_lt _ (show m * 8 + 5 < sz by omega), Option.bind_some,
    Arr.set_lt _ (show m * 8 + 6 < sz by omega), Option.bind_some, Arr.set_lt _ (show m * 8 + 7 < sz by omega),
    Option.bind_some]
  congr 2
  funext q
  by_cases hq : m * 8 ≤ q ∧ q < m * 8 + 8
  · rw [if_pos hq]
    obtain ⟨l, hl, rfl⟩ : ∃ l, l < 8 ∧ q = m * 8 + l := ⟨q - m * 8, by omega, by omega⟩
    rw [show m * 8 + l - m * 8 = l by omega]
    have : l = 0 ∨ l = 1 ∨ l = 2 ∨ l = 3 ∨ l = 4 ∨ l = 5 ∨ l = 6 ∨ l = 7 := by omega
    rcases this with rfl | rfl | rfl | rfl | rfl | rfl | rfl | rfl <;> simp [store]
  · rw [if_neg hq]
    simp only [store]
    simp only [if_neg (show ¬ q = m * 8 + 0 by omega), if_neg (show ¬ q = m * 8 + 1 by omega),
      if_neg (show ¬ q = m * 8 + 2 by omega), if_neg (show ¬ q = m * 8 + 3 by omega), if_neg (show ¬ q = m * 8 + 4 by omega),
      if_neg (show ¬ q = m * 8 + 5 by omega), if_neg (show ¬ q = m * 8 + 6 by omega), if_neg (show ¬ q = m * 8 + 7 by omega)]

/-- A triple loop that appends rows of eight. -/
theorem rows8_spec {w N : ℕ} (F : ℕ → ℕ → ℕ → ℕ → ℕ) (body : ℕ → ℕ → ℕ → ℕ × Arr ℕ → Option (ℕ × Arr ℕ))
    (hb : ∀ k j i (s : ℕ × Arr ℕ), s.1 * 8 + 8 ≤ s.2.size → body k j i s =
      some (s.1 + 1, ⟨s.2.size, fun q => if s.1 * 8 ≤ q ∧ q < s.1 * 8 + 8 then F i j k (q - s.1 * 8) else s.2.val q⟩))
    (hN : N = w * w * w * 8) (v : ℕ → ℕ) :
    ∃ r, loop3 w body (0, ⟨N, v⟩) = some r ∧ r.2.size = N ∧
      ∀ i j k, i < w → j < w → k < w → ∀ l < 8, r.2.val (rid w i j k * 8 + l) = F i j k l := by
  subst hN
  obtain ⟨r, e, -, e2, e3⟩ := loop3_spec (w := w) (body := body) (s := (0, ⟨w * w * w * 8, v⟩))
    (fun m r => r.1 = m ∧ r.2.size = w * w * w * 8 ∧ ∀ i j k, i < w → j < w → k < w → rid w i j k < m → ∀ l < 8,
      r.2.val (rid w i j k * 8 + l) = F i j k l)
    ⟨rfl, rfl, fun _ _ _ _ _ _ h => by omega⟩
    (by
      rintro k j i ⟨c, ⟨sz, v⟩⟩ hk hj hi ⟨e1, e2, e3⟩
      simp only [] at e1 e2 e3
      subst e1 e2
      have := rid_lt hi hj hk
      refine ⟨_, hb k j i _ (by simp only []; omega), rfl, rfl, ?_⟩
      intro i' j' k' hi' hj' hk' hlt l hl
      simp only []
      by_cases e : rid w i' j' k' = rid w i j k
      · rw [if_pos (by omega), show rid w i' j' k' * 8 + l - rid w i j k * 8 = l by omega]
        obtain ⟨rfl, rfl, rfl⟩ := rid_inj hi' hj' hi hj e
        rfl
      · rw [if_neg (by omega)]
        exact e3 i' j' k' hi' hj' hk' (by omega) l hl)
  exact ⟨r, e, e2, fun i j k hi hj hk => e3 i j k hi hj hk (rid_lt hi hj hk)⟩

theorem cellNodeLoop_spec {n : ℕ} (v : ℕ → ℕ) :
    ∃ r, cellNodeLoop n ⟨(n - 1) * (n - 1) * (n - 1) * 8, v⟩ = some r ∧ r.size = (n - 1) * (n - 1) * (n - 1) * 8 ∧
      ∀ i j k, i < n - 1 → j < n - 1 → k < n - 1 → ∀ l < 8,
        r.val (rid (n - 1) i j k * 8 + l) = rid n (i + l % 2) (j + l / 2 % 2) (k + l / 4) := by
  unfold cellNodeLoop
  obtain ⟨r, e, e1, e2⟩ := rows8_spec (w := n - 1) (fun i j k l => rid n (i + l % 2) (j + l / 2 % 2) (k + l / 4)) _
    (fun k j i s h => set8 s.2 s.1 (fun l => rid n (i + l % 2) (j + l / 2 % 2) (k + l / 4)) (fun a => some (s.1 + 1, a)) h) rfl v
  refine ⟨r.2, ?_, e1, e2⟩
  simp only [Option.bind_eq_bind]
  exact congrArg (fun o : Option (ℕ × Arr ℕ) => o.bind fun r => some r.2) e

theorem zoneLoop_spec {p : ℕ} (hp : p ≠ 0) (v : ℕ → ℕ) :
    ∃ r, zoneLoop p ⟨zones1D p * zones1D p * zones1D p * zoneRow p, v⟩ = some r ∧
      r.size = zones1D p * zones1D p * zones1D p * 8 ∧
      ∀ i j k, i < zones1D p → j < zones1D p → k < zones1D p → ∀ l < 8,
        r.val (rid (zones1D p) i j k * 8 + l) = rid (cells1D p) (2 * i + l % 2) (2 * j + l / 2 % 2) (2 * k + l / 4) := by
  have hz : zoneRow p = 8 := if_neg hp
  unfold zoneLoop
  rw [if_neg hp, hz]
  obtain ⟨r, e, e1, e2⟩ := rows8_spec (w := zones1D p)
    (fun i j k l => rid (cells1D p) (2 * i + l % 2) (2 * j + l / 2 % 2) (2 * k + l / 4)) _
    (fun k j i s h => set8 s.2 s.1 (fun l => rid (cells1D p) (2 * i + l % 2) (2 * j + l / 2 % 2) (2 * k + l / 4))
      (fun a => some (s.1 + 1, a)) h) rfl v
  refine ⟨r.2, ?_, e1, e2⟩
  simp only [Option.bind_eq_bind]
  exact congrArg (fun o : Option (ℕ × Arr ℕ) => o.bind fun r => some r.2) e

end Verif.RefElem
