import Verif.RefElem.Lemmas
import Verif.HexN.Theorems

/-!
# The basis tables of `ref_element::init`
-/

namespace Verif.RefElem

theorem basisLoop_spec {M V : ℕ} {z : ℕ → ℝ} {pos : Arr (ℕ → ℝ)} (h : M ≤ pos.size) (q : BasisJunk) (a : ℕ → ℕ → ℝ) :
    ∃ r, basisLoop M V z pos q ⟨M, a⟩ = some r ∧ r.size = M ∧ ∀ m < M, ∀ i j k, i < V → j < V → k < V →
      r.val m (rid V i j k) = HexN.L V z i (pos.val m 0) * HexN.L V z j (pos.val m 1) * HexN.L V z k (pos.val m 2) := by
  unfold basisLoop
  refine loopM_spec (fun m (r : Arr (ℕ → ℝ)) => r.size = M ∧ ∀ m' < m, ∀ i j k, i < V → j < V → k < V →
      r.val m' (rid V i j k) = HexN.L V z i (pos.val m' 0) * HexN.L V z j (pos.val m' 1) * HexN.L V z k (pos.val m' 2))
    ⟨rfl, fun _ h => by omega⟩ ?_
  rintro m ⟨sz, v⟩ hm ⟨e1, e2⟩
  simp only [] at e1 e2
  subst e1
  refine ⟨⟨sz, store v m (loop (V * V * V) (fun b' r => store r b'
    (HexN.basis V z (pos.val m) (q.v m) (q.t m) (q.b m) b')) (v m))⟩, ?_, rfl, ?_⟩
  · simp only [Option.bind_eq_bind]
    rw [Arr.get_lt (show m < pos.size by omega), Option.bind_some, Arr.get_lt (show m < sz from hm), Option.bind_some,
      Arr.set_lt _ hm]
  · intro m' hm' i j k hi hj hk
    simp only []
    by_cases e : m' = m
    · subst e
      rw [store_same, loop_store]
      simp only [if_pos (rid_lt hi hj hk)]
      exact (HexN.C29_hexn V z (pos.val m') (q.v m') (q.v m') (q.t m') (q.t m') (q.b m') i j k hi hj hk).1
    · rw [store_ne _ _ e]; exact e2 m' (by omega) i j k hi hj hk

theorem copy_loop (N : ℕ) (r : ℕ → ℕ → ℝ) (xi eta mu : ℕ → ℝ) :
    ∀ b < N, (copyGrad N r xi eta mu).1 b 0 = xi b ∧ (copyGrad N r xi eta mu).1 b 1 = eta b ∧
      (copyGrad N r xi eta mu).1 b 2 = mu b := by
  have := loop_inv (n := N) (body := fun b (s : (ℕ → ℕ → ℝ) × (ℕ → ℝ) × (ℕ → ℝ) × (ℕ → ℝ)) =>
      (store2 (store2 (store2 s.1 b 0 (s.2.1 b)) b 1 (s.2.2.1 b)) b 2 (s.2.2.2 b),
        store s.2.1 b 0, store s.2.2.1 b 0, store s.2.2.2 b 0)) (s := (r, xi, eta, mu))
    (fun m s => (∀ b < m, s.1 b 0 = xi b ∧ s.1 b 1 = eta b ∧ s.1 b 2 = mu b) ∧
      ∀ b, m ≤ b → s.2.1 b = xi b ∧ s.2.2.1 b = eta b ∧ s.2.2.2 b = mu b)
    ⟨fun _ h => by omega, fun _ _ => ⟨rfl, rfl, rfl⟩⟩
    (by
      rintro m ⟨t, x, e, u⟩ hm ⟨h1, h2⟩
      simp only [] at h1 h2
      refine ⟨?_, ?_⟩
      · intro b hb
        by_cases e : b = m
        · subst e
          have := h2 b le_rfl
          simp [store2, this.1, this.2.1, this.2.2]
        · have := h1 b (by omega)
          simp [store2, e, this.1, this.2.1, this.2.2]
      · intro b hb
        have hne : b ≠ m := by omega
        simp only [store_ne _ _ hne]
        exact h2 b (by omega))
  intro b hb
  exact this.1 b hb

theorem gradLoop_spec {M V : ℕ} {z : ℕ → ℝ} {pos : Arr (ℕ → ℝ)} (h : M ≤ pos.size) (q : BasisJunk)
    (a : ℕ → ℕ → ℕ → ℝ) (xi eta mu : ℕ → ℝ) :
    ∃ r, gradLoop M V z pos q ⟨⟨M, a⟩, xi, eta, mu⟩ = some r ∧ r.table.size = M ∧
      ∀ m < M, ∀ i j k, i < V → j < V → k < V →
      r.table.val m (rid V i j k) 0 =
        HexN.dL V z i (pos.val m 0) * HexN.L V z j (pos.val m 1) * HexN.L V z k (pos.val m 2) ∧
      r.table.val m (rid V i j k) 1 =
        HexN.L V z i (pos.val m 0) * HexN.dL V z j (pos.val m 1) * HexN.L V z k (pos.val m 2) ∧
      r.table.val m (rid V i j k) 2 =
        HexN.L V z i (pos.val m 0) * HexN.L V z j (pos.val m 1) * HexN.dL V z k (pos.val m 2) := by
  unfold gradLoop
  refine loopM_spec (fun m (r : Grad) => r.table.size = M ∧ ∀ m' < m, ∀ i j k, i < V → j < V → k < V →
      r.table.val m' (rid V i j k) 0 =
        HexN.dL V z i (pos.val m' 0) * HexN.L V z j (pos.val m' 1) * HexN.L V z k (pos.val m' 2) ∧
      r.table.val m' (rid V i j k) 1 =
        HexN.L V z i (pos.val m' 0) * HexN.dL V z j (pos.val m' 1) * HexN.L V z k (pos.val m' 2) ∧
      r.table.val m' (rid V i j k) 2 =
        HexN.L V z i (pos.val m' 0) * HexN.L V z j (pos.val m' 1) * HexN.dL V z k (pos.val m' 2))
    ⟨rfl, fun _ h => by omega⟩ ?_
  rintro m ⟨⟨sz, v⟩, x, e, u⟩ hm ⟨e1, e2⟩
  simp only [] at e1 e2
  subst e1
  have hx : ∃ l, l = copyGrad (V * V * V) (v m)
    (HexN.partialXi V z (pos.val m) (q.v m) (q.dv m) (q.t m) (q.dt m) x)
    (HexN.partialEta V z (pos.val m) (q.v m) (q.dv m) (q.t m) (q.dt m) e)
    (HexN.partialMu V z (pos.val m) (q.v m) (q.dv m) (q.t m) (q.dt m) u) := ⟨_, rfl⟩
  obtain ⟨l, hl⟩ := hx
  refine ⟨⟨⟨sz, store v m l.1⟩, l.2.1, l.2.2.1, l.2.2.2⟩, ?_, rfl, ?_⟩
  · simp only [Option.bind_eq_bind]
    rw [Arr.get_lt (show m < pos.size by omega), Option.bind_some, Arr.get_lt (show m < sz from hm), Option.bind_some,
      ← hl, Arr.set_lt _ hm, Option.bind_some]
    rfl
  · subst hl
    intro m' hm' i j k hi hj hk
    simp only []
    by_cases e' : m' = m
    · subst e'
      simp only [store_same]
      obtain ⟨c0, c1, c2⟩ := copy_loop (V * V * V) (v m')
        (HexN.partialXi V z (pos.val m') (q.v m') (q.dv m') (q.t m') (q.dt m') x)
        (HexN.partialEta V z (pos.val m') (q.v m') (q.dv m') (q.t m') (q.dt m') e)
        (HexN.partialMu V z (pos.val m') (q.v m') (q.dv m') (q.t m') (q.dt m') u) _ (rid_lt hi hj hk)
      refine ⟨c0.trans ?_, c1.trans ?_, c2.trans ?_⟩
      · exact (HexN.C29_hexn V z (pos.val m') (q.v m') (q.dv m') (q.t m') (q.dt m') x i j k hi hj hk).2.1
      · exact (HexN.C29_hexn V z (pos.val m') (q.v m') (q.dv m') (q.t m') (q.dt m') e i j k hi hj hk).2.2.1
      · exact (HexN.C29_hexn V z (pos.val m') (q.v m') (q.dv m') (q.t m') (q.dt m') u i j k hi hj hk).2.2.2
    · simp only [store_ne _ _ e']; exact e2 m' (by omega) i j k hi hj hk

end Verif.RefElem
