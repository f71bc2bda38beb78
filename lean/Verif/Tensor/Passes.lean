import Verif.Tensor.Lemmas

/-!
# The passes of the tensor-product routines
-/

namespace Verif.Tensor
open Finset Verif.Quad Polynomial

/-- One pass of `gauss_2d`. -/
theorem gauss2d_digits {q cp cw : ℕ} (h1 : 1 ≤ q) (h8 : q ≤ 8) (hcp : 2 ≤ cp) (hcw : 2 ≤ cw) (s : Out)
    (hp : q * q * cp ≤ s.pts.size) (hw : q * q * cw ≤ s.wts.size) (ht : q * q ≤ s.tot.size) :
    ∃ s', gauss2d q cp cw s = some s' ∧ s'.pts.size = s.pts.size ∧ s'.wts.size = s.wts.size ∧ s'.tot.size = s.tot.size ∧
      (∀ m < q * q, ∀ d < 2, s'.pts.val (m * cp + d) = gx q ([m % q, m / q].getD d 0) ∧
        s'.wts.val (m * cw + d) = gw q ([m % q, m / q].getD d 0)) ∧
      ∀ m < q * q, True → s'.tot.val m = gw q (m % q) * gw q (m / q) := by
  refine fill_loop (n := q * q) (D := 2) hcp hcw (fun m d => gx q ([m % q, m / q].getD d 0))
    (fun m d => gw q ([m % q, m / q].getD d 0)) (fun m => gw q (m % q) * gw q (m / q)) True ?_
  rintro m ⟨⟨np, vp⟩, ⟨nw, vw⟩, ⟨nt, vt⟩⟩ hm e1 e2 e3 -
  simp only [] at e1 e2 e3
  subst e1 e2 e3
  have ip : m * cp + cp ≤ s.pts.size := le_trans (by rw [← Nat.succ_mul]; exact Nat.mul_le_mul_right _ hm) hp
  have iw : m * cw + cw ≤ s.wts.size := le_trans (by rw [← Nat.succ_mul]; exact Nat.mul_le_mul_right _ hm) hw
  have hq : 0 < q := h1
  have l0 := lineGauss_eq (i := m % q) h1 h8 (Nat.mod_lt _ hq)
  have l1 := lineGauss_eq (i := m / q) h1 h8 (lt_of_div hm)
  obtain ⟨x1, x0⟩ := index2 q m
  rw [← x0] at l0
  rw [← x1] at l1
  simp only [Option.bind_eq_bind]
  rw [setW_eq 1 (show m * cw + 0 < s.wts.size by omega), Option.bind_some,
    setW_eq 1 (show m * cw + 1 < s.wts.size by omega), Option.bind_some,
    setT_eq 1 (show m < s.tot.size by omega), Option.bind_some,
    dir_eq l0 (show m * cp + 0 < s.pts.size by omega) (show m * cw + 0 < s.wts.size by omega), Option.bind_some,
    dir_eq l1 (show m * cp + 1 < s.pts.size by omega) (show m * cw + 1 < s.wts.size by omega), Option.bind_some,
    get_eq (show m * cw + 0 < s.wts.size by omega), Option.bind_some,
    get_eq (show m * cw + 1 < s.wts.size by omega), Option.bind_some,
    setT_eq _ (show m < s.tot.size by omega)]
  refine ⟨_, rfl, rfl, rfl, rfl, ?_, ?_, ?_, ?_, ?_⟩
  · intro d hd
    interval_cases d <;> simp [store]
  · intro _; simp [store]
  · intro x hx
    simp only []
    rw [store_ne _ _ (by omega), store_ne _ _ (by omega)]
  · intro x hx
    rw [Nat.succ_mul] at hx
    simp only []
    rw [store_ne _ _ (by omega), store_ne _ _ (by omega), store_ne _ _ (by omega), store_ne _ _ (by omega)]
  · intro x hx
    simp only []
    rw [store_ne _ _ (by omega), store_ne _ _ (by omega)]

/-- All passes of `gauss_3d`. -/
theorem gauss3d_digits {q cp cw : ℕ} (h1 : 1 ≤ q) (h8 : q ≤ 8) (hcp : 3 ≤ cp) (hcw : 3 ≤ cw) (s : Out)
    (hp : q * q * q * cp ≤ s.pts.size) (hw : q * q * q * cw ≤ s.wts.size) (ht : q * q * q ≤ s.tot.size) :
    ∃ s', gauss3d q cp cw s = some s' ∧ s'.pts.size = s.pts.size ∧ s'.wts.size = s.wts.size ∧ s'.tot.size = s.tot.size ∧
      (∀ m < q * q * q, ∀ d < 3, s'.pts.val (m * cp + d) = gx q ([m % q, m / q % q, m / q / q].getD d 0) ∧
        s'.wts.val (m * cw + d) = gw q ([m % q, m / q % q, m / q / q].getD d 0)) ∧
      ∀ m < q * q * q, True → s'.tot.val m = gw q (m % q) * gw q (m / q % q) * gw q (m / q / q) := by
  refine fill_loop (n := q * q * q) (D := 3) hcp hcw (fun m d => gx q ([m % q, m / q % q, m / q / q].getD d 0))
    (fun m d => gw q ([m % q, m / q % q, m / q / q].getD d 0)) (fun m => gw q (m % q) * gw q (m / q % q) * gw q (m / q / q)) True ?_
  rintro m ⟨⟨np, vp⟩, ⟨nw, vw⟩, ⟨nt, vt⟩⟩ hm e1 e2 e3 -
  simp only [] at e1 e2 e3
  subst e1 e2 e3
  have ip : m * cp + cp ≤ s.pts.size := le_trans (by rw [← Nat.succ_mul]; exact Nat.mul_le_mul_right _ hm) hp
  have iw : m * cw + cw ≤ s.wts.size := le_trans (by rw [← Nat.succ_mul]; exact Nat.mul_le_mul_right _ hm) hw
  have hq : 0 < q := h1
  have l0 := lineGauss_eq (i := m % q) h1 h8 (Nat.mod_lt _ hq)
  have l1 := lineGauss_eq (i := m / q % q) h1 h8 (Nat.mod_lt _ hq)
  have l2 := lineGauss_eq (i := m / q / q) h1 h8 (lt_of_div (lt_of_div hm))
  obtain ⟨x2, x1, x0⟩ := index3 q m
  rw [← x0] at l0
  rw [← x1] at l1
  rw [← x2] at l2
  simp only [Option.bind_eq_bind]
  rw [setW_eq 1 (show m * cw + 0 < s.wts.size by omega), Option.bind_some,
    setW_eq 1 (show m * cw + 1 < s.wts.size by omega), Option.bind_some,
    setW_eq 1 (show m * cw + 2 < s.wts.size by omega), Option.bind_some,
    setT_eq 1 (show m < s.tot.size by omega), Option.bind_some,
    dir_eq l0 (show m * cp + 0 < s.pts.size by omega) (show m * cw + 0 < s.wts.size by omega), Option.bind_some,
    dir_eq l1 (show m * cp + 1 < s.pts.size by omega) (show m * cw + 1 < s.wts.size by omega), Option.bind_some,
    dir_eq l2 (show m * cp + 2 < s.pts.size by omega) (show m * cw + 2 < s.wts.size by omega), Option.bind_some,
    get_eq (show m * cw + 0 < s.wts.size by omega), Option.bind_some,
    get_eq (show m * cw + 1 < s.wts.size by omega), Option.bind_some,
    get_eq (show m * cw + 2 < s.wts.size by omega), Option.bind_some,
    setT_eq _ (show m < s.tot.size by omega)]
  refine ⟨_, rfl, rfl, rfl, rfl, ?_, ?_, ?_, ?_, ?_⟩
  · intro d hd
    interval_cases d <;> simp [store]
  · intro _; simp [store]
  · intro x hx
    simp only []
    rw [store_ne _ _ (by omega), store_ne _ _ (by omega), store_ne _ _ (by omega)]
  · intro x hx
    rw [Nat.succ_mul] at hx
    simp only []
    rw [store_ne _ _ (by omega), store_ne _ _ (by omega), store_ne _ _ (by omega), store_ne _ _ (by omega),
      store_ne _ _ (by omega), store_ne _ _ (by omega)]
  · intro x hx
    simp only []
    rw [store_ne _ _ (by omega), store_ne _ _ (by omega)]

/-- All passes of `lobatto_2d`. -/
theorem lobatto2d_digits {q cp cw : ℕ} (h1 : 1 ≤ q) (h8 : q ≤ 8) (hcp : 2 ≤ cp) (hcw : 2 ≤ cw) (s : Out)
    (hp : q * q * cp ≤ s.pts.size) (hw : q * q * cw ≤ s.wts.size) :
    ∃ s', lobatto2d q cp cw s = some s' ∧ s'.pts.size = s.pts.size ∧ s'.wts.size = s.wts.size ∧ s'.tot.size = s.tot.size ∧
      (∀ m < q * q, ∀ d < 2, s'.pts.val (m * cp + d) = lx q ([m % q, m / q].getD d 0) ∧
        s'.wts.val (m * cw + d) = lw q ([m % q, m / q].getD d 0)) ∧
      ∀ m < q * q, False → s'.tot.val m = 0 := by
  refine fill_loop (n := q * q) (D := 2) hcp hcw (fun m d => lx q ([m % q, m / q].getD d 0))
    (fun m d => lw q ([m % q, m / q].getD d 0)) (fun m => 0) False ?_
  rintro m ⟨⟨np, vp⟩, ⟨nw, vw⟩, ⟨nt, vt⟩⟩ hm e1 e2 e3 -
  simp only [] at e1 e2 e3
  subst e1 e2 e3
  have ip : m * cp + cp ≤ s.pts.size := le_trans (by rw [← Nat.succ_mul]; exact Nat.mul_le_mul_right _ hm) hp
  have iw : m * cw + cw ≤ s.wts.size := le_trans (by rw [← Nat.succ_mul]; exact Nat.mul_le_mul_right _ hm) hw
  have hq : 0 < q := h1
  have l0 := lineLobatto_eq (i := m % q) h1 h8 (Nat.mod_lt _ hq)
  have l1 := lineLobatto_eq (i := m / q) h1 h8 (lt_of_div hm)
  obtain ⟨x1, x0⟩ := index2 q m
  rw [← x0] at l0
  rw [← x1] at l1
  simp only [Option.bind_eq_bind]
  rw [setW_eq 1 (show m * cw + 0 < s.wts.size by omega), Option.bind_some,
    setW_eq 1 (show m * cw + 1 < s.wts.size by omega), Option.bind_some,
    dir_eq l0 (show m * cp + 0 < s.pts.size by omega) (show m * cw + 0 < s.wts.size by omega), Option.bind_some,
    dir_eq l1 (show m * cp + 1 < s.pts.size by omega) (show m * cw + 1 < s.wts.size by omega)]
  refine ⟨_, rfl, rfl, rfl, rfl, ?_, False.elim, ?_, ?_, ?_⟩
  · intro d hd
    interval_cases d <;> simp [store]
  · intro x hx
    simp only []
    rw [store_ne _ _ (by omega), store_ne _ _ (by omega)]
  · intro x hx
    rw [Nat.succ_mul] at hx
    simp only []
    rw [store_ne _ _ (by omega), store_ne _ _ (by omega), store_ne _ _ (by omega), store_ne _ _ (by omega)]
  · intro x hx; rfl

/-- All passes of `lobatto_3d`. -/
theorem lobatto3d_digits {q cp cw : ℕ} (h1 : 1 ≤ q) (h8 : q ≤ 8) (hcp : 3 ≤ cp) (hcw : 3 ≤ cw) (s : Out)
    (hp : q * q * q * cp ≤ s.pts.size) (hw : q * q * q * cw ≤ s.wts.size) :
    ∃ s', lobatto3d q cp cw s = some s' ∧ s'.pts.size = s.pts.size ∧ s'.wts.size = s.wts.size ∧ s'.tot.size = s.tot.size ∧
      (∀ m < q * q * q, ∀ d < 3, s'.pts.val (m * cp + d) = lx q ([m % q, m / q % q, m / q / q].getD d 0) ∧
        s'.wts.val (m * cw + d) = lw q ([m % q, m / q % q, m / q / q].getD d 0)) ∧
      ∀ m < q * q * q, False → s'.tot.val m = 0 := by
  refine fill_loop (n := q * q * q) (D := 3) hcp hcw (fun m d => lx q ([m % q, m / q % q, m / q / q].getD d 0))
    (fun m d => lw q ([m % q, m / q % q, m / q / q].getD d 0)) (fun m => 0) False ?_
  rintro m ⟨⟨np, vp⟩, ⟨nw, vw⟩, ⟨nt, vt⟩⟩ hm e1 e2 e3 -
  simp only [] at e1 e2 e3
  subst e1 e2 e3
  have ip : m * cp + cp ≤ s.pts.size := le_trans (by rw [← Nat.succ_mul]; exact Nat.mul_le_mul_right _ hm) hp
  have iw : m * cw + cw ≤ s.wts.size := le_trans (by rw [← Nat.succ_mul]; exact Nat.mul_le_mul_right _ hm) hw
  have hq : 0 < q := h1
  have l0 := lineLobatto_eq (i := m % q) h1 h8 (Nat.mod_lt _ hq)
  have l1 := lineLobatto_eq (i := m / q % q) h1 h8 (Nat.mod_lt _ hq)
  have l2 := lineLobatto_eq (i := m / q / q) h1 h8 (lt_of_div (lt_of_div hm))
  obtain ⟨x2, x1, x0⟩ := index3 q m
  rw [← x0] at l0
  rw [← x1] at l1
  rw [← x2] at l2
  simp only [Option.bind_eq_bind]
  rw [setW_eq 1 (show m * cw + 0 < s.wts.size by omega), Option.bind_some,
    setW_eq 1 (show m * cw + 1 < s.wts.size by omega), Option.bind_some,
    setW_eq 1 (show m * cw + 2 < s.wts.size by omega), Option.bind_some,
    dir_eq l0 (show m * cp + 0 < s.pts.size by omega) (show m * cw + 0 < s.wts.size by omega), Option.bind_some,
    dir_eq l1 (show m * cp + 1 < s.pts.size by omega) (show m * cw + 1 < s.wts.size by omega), Option.bind_some,
    dir_eq l2 (show m * cp + 2 < s.pts.size by omega) (show m * cw + 2 < s.wts.size by omega)]
  refine ⟨_, rfl, rfl, rfl, rfl, ?_, False.elim, ?_, ?_, ?_⟩
  · intro d hd
    interval_cases d <;> simp [store]
  · intro x hx
    simp only []
    rw [store_ne _ _ (by omega), store_ne _ _ (by omega), store_ne _ _ (by omega)]
  · intro x hx
    rw [Nat.succ_mul] at hx
    simp only []
    rw [store_ne _ _ (by omega), store_ne _ _ (by omega), store_ne _ _ (by omega), store_ne _ _ (by omega),
      store_ne _ _ (by omega), store_ne _ _ (by omega)]
  · intro x hx; rfl

theorem lt_div3 {q m : ℕ} (hm : m < q * q * q * q) : m / q / q / q < q := lt_of_div (lt_of_div (lt_of_div hm))

/-- All passes of `lobatto_4d`. -/
theorem lobatto4d_digits {q cp cw : ℕ} (h1 : 1 ≤ q) (h8 : q ≤ 8) (hcp : 4 ≤ cp) (hcw : 4 ≤ cw) (s : Out)
    (hp : q * q * q * q * cp ≤ s.pts.size) (hw : q * q * q * q * cw ≤ s.wts.size) :
    ∃ s', lobatto4d q 4 cp cw s = some s' ∧ s'.pts.size = s.pts.size ∧ s'.wts.size = s.wts.size ∧ s'.tot.size = s.tot.size ∧
      (∀ m < q * q * q * q, ∀ d < 4, s'.pts.val (m * cp + d) = lx q ([m % q, m / q % q, m / q / q % q, m / q / q / q].getD d 0) ∧
        s'.wts.val (m * cw + d) = lw q ([m % q, m / q % q, m / q / q % q, m / q / q / q].getD d 0)) ∧
      ∀ m < q * q * q * q, False → s'.tot.val m = 0 := by
  refine fill_loop (n := q * q * q * q) (D := 4) hcp hcw (fun m d => lx q ([m % q, m / q % q, m / q / q % q, m / q / q / q].getD d 0))
    (fun m d => lw q ([m % q, m / q % q, m / q / q % q, m / q / q / q].getD d 0)) (fun m => 0) False ?_
  rintro m ⟨⟨np, vp⟩, ⟨nw, vw⟩, ⟨nt, vt⟩⟩ hm e1 e2 e3 -
  simp only [] at e1 e2 e3
  subst e1 e2 e3
  have ip : m * cp + cp ≤ s.pts.size := le_trans (by rw [← Nat.succ_mul]; exact Nat.mul_le_mul_right _ hm) hp
  have iw : m * cw + cw ≤ s.wts.size := le_trans (by rw [← Nat.succ_mul]; exact Nat.mul_le_mul_right _ hm) hw
  have hq : 0 < q := h1
  have l0 := lineLobatto_eq (i := m % q) h1 h8 (Nat.mod_lt _ hq)
  have l1 := lineLobatto_eq (i := m / q % q) h1 h8 (Nat.mod_lt _ hq)
  have l2 := lineLobatto_eq (i := m / q / q % q) h1 h8 (Nat.mod_lt _ hq)
  have l3 := lineLobatto_eq (i := m / q / q / q) h1 h8 (lt_div3 hm)
  rw [index4_eq]
  simp only [Option.bind_eq_bind]
  rw [setW_eq 1 (show m * cw + 0 < s.wts.size by omega), Option.bind_some,
    setW_eq 1 (show m * cw + 1 < s.wts.size by omega), Option.bind_some,
    setW_eq 1 (show m * cw + 2 < s.wts.size by omega), Option.bind_some,
    setW_eq 1 (show m * cw + 3 < s.wts.size by omega), Option.bind_some,
    dir_eq l0 (show m * cp + 0 < s.pts.size by omega) (show m * cw + 0 < s.wts.size by omega), Option.bind_some,
    dir_eq l1 (show m * cp + 1 < s.pts.size by omega) (show m * cw + 1 < s.wts.size by omega), Option.bind_some,
    dir_eq l2 (show m * cp + 2 < s.pts.size by omega) (show m * cw + 2 < s.wts.size by omega), Option.bind_some,
    dir_eq l3 (show m * cp + 3 < s.pts.size by omega) (show m * cw + 3 < s.wts.size by omega)]
  refine ⟨_, rfl, rfl, rfl, rfl, ?_, False.elim, ?_, ?_, ?_⟩
  · intro d hd
    interval_cases d <;> simp [store]
  · intro x hx
    simp only []
    rw [store_ne _ _ (by omega), store_ne _ _ (by omega), store_ne _ _ (by omega), store_ne _ _ (by omega)]
  · intro x hx
    rw [Nat.succ_mul] at hx
    simp only []
    rw [store_ne _ _ (by omega), store_ne _ _ (by omega), store_ne _ _ (by omega), store_ne _ _ (by omega),
      store_ne _ _ (by omega), store_ne _ _ (by omega), store_ne _ _ (by omega), store_ne _ _ (by omega)]
  · intro x hx; rfl

/-- All passes of `gauss_4d` on a weight array with more than four columns. -/
theorem gauss4d_digits {q cp cw : ℕ} (h1 : 1 ≤ q) (h8 : q ≤ 8) (hcp : 4 ≤ cp) (hcw : 5 ≤ cw) (s : Out)
    (hp : q * q * q * q * cp ≤ s.pts.size) (hw : q * q * q * q * cw ≤ s.wts.size) :
    ∃ s', gauss4d q 4 cp cw s = some s' ∧ s'.pts.size = s.pts.size ∧ s'.wts.size = s.wts.size ∧ s'.tot.size = s.tot.size ∧
      (∀ m < q * q * q * q, ∀ d < 4, s'.pts.val (m * cp + d) = gx q ([m % q, m / q % q, m / q / q % q, m / q / q / q].getD d 0) ∧
        s'.wts.val (m * cw + d) = (if d = 3 then s.wts.val (m * cw + 3) else 1) *
          gw q ([m % q, m / q % q, m / q / q % q, m / q / q / q].getD d 0)) ∧
      ∀ m < q * q * q * q, False → s'.tot.val m = 0 := by
  refine fill_loop (n := q * q * q * q) (D := 4) hcp (by omega) (fun m d => gx q ([m % q, m / q % q, m / q / q % q, m / q / q / q].getD d 0))
    (fun m d => (if d = 3 then s.wts.val (m * cw + 3) else 1) * gw q ([m % q, m / q % q, m / q / q % q, m / q / q / q].getD d 0))
    (fun m => 0) False ?_
  rintro m ⟨⟨np, vp⟩, ⟨nw, vw⟩, ⟨nt, vt⟩⟩ hm e1 e2 e3 old
  simp only [] at e1 e2 e3
  subst e1 e2 e3
  have ip : m * cp + cp ≤ s.pts.size := le_trans (by rw [← Nat.succ_mul]; exact Nat.mul_le_mul_right _ hm) hp
  have iw : m * cw + cw ≤ s.wts.size := le_trans (by rw [← Nat.succ_mul]; exact Nat.mul_le_mul_right _ hm) hw
  have hq : 0 < q := h1
  have l0 := lineGauss_eq (i := m % q) h1 h8 (Nat.mod_lt _ hq)
  have l1 := lineGauss_eq (i := m / q % q) h1 h8 (Nat.mod_lt _ hq)
  have l2 := lineGauss_eq (i := m / q / q % q) h1 h8 (Nat.mod_lt _ hq)
  have l3 := lineGauss_eq (i := m / q / q / q) h1 h8 (lt_div3 hm)
  have o3 := old (m * cw + 3) (by omega)
  simp only [] at o3
  rw [index4_eq]
  simp only [Option.bind_eq_bind]
  rw [setW_eq 1 (show m * cw + 0 < s.wts.size by omega), Option.bind_some,
    setW_eq 1 (show m * cw + 1 < s.wts.size by omega), Option.bind_some,
    setW_eq 1 (show m * cw + 2 < s.wts.size by omega), Option.bind_some,
    setW_eq 1 (show m * cw + 4 < s.wts.size by omega), Option.bind_some,
    dir_eq l0 (show m * cp + 0 < s.pts.size by omega) (show m * cw + 0 < s.wts.size by omega), Option.bind_some,
    dir_eq l1 (show m * cp + 1 < s.pts.size by omega) (show m * cw + 1 < s.wts.size by omega), Option.bind_some,
    dir_eq l2 (show m * cp + 2 < s.pts.size by omega) (show m * cw + 2 < s.wts.size by omega), Option.bind_some,
    dir_eq l3 (show m * cp + 3 < s.pts.size by omega) (show m * cw + 3 < s.wts.size by omega)]
  refine ⟨_, rfl, rfl, rfl, rfl, ?_, False.elim, ?_, ?_, ?_⟩
  · intro d hd
    interval_cases d <;> simp [store, o3]
  · intro x hx
    simp only []
    rw [store_ne _ _ (by omega), store_ne _ _ (by omega), store_ne _ _ (by omega), store_ne _ _ (by omega)]
  · intro x hx
    rw [Nat.succ_mul] at hx
    simp only []
    rw [store_ne _ _ (by omega), store_ne _ _ (by omega), store_ne _ _ (by omega), store_ne _ _ (by omega),
      store_ne _ _ (by omega), store_ne _ _ (by omega), store_ne _ _ (by omega), store_ne _ _ (by omega)]
  · intro x hx; rfl

end Verif.Tensor
