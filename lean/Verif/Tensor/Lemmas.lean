import Verif.Tensor.Rules
import Verif.Loop3

/-!
# Lemmas on the loops over the quadrature points
-/

namespace Verif.Tensor
open Finset

theorem setW_eq {p t : Arr ℝ} {nw : ℕ} {vw : ℕ → ℝ} {cw m d : ℕ} (v : ℝ) (h : m * cw + d < nw) :
    Out.setW ⟨p, ⟨nw, vw⟩, t⟩ cw m d v = some ⟨p, ⟨nw, store vw (m * cw + d) v⟩, t⟩ := by
  unfold Out.setW
  simp only [Option.bind_eq_bind]
  rw [Arr.set_lt _ h, Option.bind_some]
  rfl

theorem setT_eq {p w : Arr ℝ} {nt : ℕ} {vt : ℕ → ℝ} {m : ℕ} (v : ℝ) (h : m < nt) :
    Out.setT ⟨p, w, ⟨nt, vt⟩⟩ m v = some ⟨p, w, ⟨nt, store vt m v⟩⟩ := by
  unfold Out.setT
  simp only [Option.bind_eq_bind]
  rw [Arr.set_lt _ h, Option.bind_some]
  rfl

theorem dir_eq {line : ℤ → ℕ → Option (ℝ × ℝ)} {q cp cw m d : ℕ} {idx : ℤ} {np nw : ℕ} {vp vw : ℕ → ℝ} {t : Arr ℝ} {x w : ℝ}
    (hl : line idx q = some (x, w)) (hp : m * cp + d < np) (hw : m * cw + d < nw) :
    dir line q cp cw m d idx ⟨⟨np, vp⟩, ⟨nw, vw⟩, t⟩ = some ⟨⟨np, store vp (m * cp + d) x⟩,
      ⟨nw, store vw (m * cw + d) (vw (m * cw + d) * w)⟩, t⟩ := by
  unfold dir
  simp only [Option.bind_eq_bind]
  rw [hl, Option.bind_some, Arr.set_lt _ hp, Option.bind_some, Arr.get_lt (show m * cw + d < (⟨nw, vw⟩ : Arr ℝ).size from hw),
    Option.bind_some, Arr.set_lt _ (show m * cw + d < (⟨nw, vw⟩ : Arr ℝ).size from hw), Option.bind_some]
  rfl

theorem get_eq {nw : ℕ} {vw : ℕ → ℝ} {i : ℕ} (h : i < nw) : Arr.get ⟨nw, vw⟩ i = some (vw i) := Arr.get_lt h

theorem setW_sizes {s s' : Out} {cw m d : ℕ} {v : ℝ} (h : s.setW cw m d v = some s') :
    s'.pts.size = s.pts.size ∧ s'.wts.size = s.wts.size := by
  unfold Out.setW Arr.set at h
  simp only [Option.bind_eq_bind] at h
  split_ifs at h
  · cases h; exact ⟨rfl, rfl⟩
  · cases h

theorem dir_sizes {line : ℤ → ℕ → Option (ℝ × ℝ)} {q cp cw m d : ℕ} {idx : ℤ} {s s' : Out}
    (h : dir line q cp cw m d idx s = some s') : s'.pts.size = s.pts.size ∧ s'.wts.size = s.wts.size := by
  unfold dir Arr.set Arr.get at h
  simp only [Option.bind_eq_bind] at h
  obtain ⟨r, -, h⟩ := Option.bind_eq_some_iff.1 h
  split_ifs at h
  all_goals simp at h
  subst h
  exact ⟨rfl, rfl⟩

/-- The loop over the points, given what one pass does. -/
theorem fill_loop {n D cp cw : ℕ} (hcp : D ≤ cp) (hcw : D ≤ cw) {body : ℕ → Out → Option Out} {s0 : Out}
    (X W : ℕ → ℕ → ℝ) (T : ℕ → ℝ) (b : Prop)
    (hb : ∀ m s, m < n → s.pts.size = s0.pts.size → s.wts.size = s0.wts.size → s.tot.size = s0.tot.size →
      (∀ x, m * cw ≤ x → s.wts.val x = s0.wts.val x) →
      ∃ s', body m s = some s' ∧ s'.pts.size = s0.pts.size ∧ s'.wts.size = s0.wts.size ∧ s'.tot.size = s0.tot.size ∧
        (∀ d < D, s'.pts.val (m * cp + d) = X m d ∧ s'.wts.val (m * cw + d) = W m d) ∧ (b → s'.tot.val m = T m) ∧
        (∀ x < m * cp, s'.pts.val x = s.pts.val x) ∧
        (∀ x, x < m * cw ∨ (m + 1) * cw ≤ x → s'.wts.val x = s.wts.val x) ∧ (∀ x < m, s'.tot.val x = s.tot.val x)) :
    ∃ s', loopM n body s0 = some s' ∧ s'.pts.size = s0.pts.size ∧ s'.wts.size = s0.wts.size ∧ s'.tot.size = s0.tot.size ∧
      (∀ m < n, ∀ d < D, s'.pts.val (m * cp + d) = X m d ∧ s'.wts.val (m * cw + d) = W m d) ∧ ∀ m < n, b → s'.tot.val m = T m := by
  obtain ⟨s', e, h1, h2, h3, h4, h5, -⟩ := loopM_spec (n := n) (body := body) (s := s0)
    (fun k (s' : Out) => s'.pts.size = s0.pts.size ∧ s'.wts.size = s0.wts.size ∧ s'.tot.size = s0.tot.size ∧
      (∀ m < k, ∀ d < D, s'.pts.val (m * cp + d) = X m d ∧ s'.wts.val (m * cw + d) = W m d) ∧
      (∀ m < k, b → s'.tot.val m = T m) ∧ (∀ x, k * cw ≤ x → s'.wts.val x = s0.wts.val x))
    ⟨rfl, rfl, rfl, fun m hm => absurd hm (by omega), fun m hm => absurd hm (by omega), fun x _ => rfl⟩
    (by
      intro k s hk ⟨a1, a2, a3, a4, a5, a6⟩
      obtain ⟨s', e, b1, b2, b3, b4, b5, b6, b7, b8⟩ := hb k s hk a1 a2 a3 a6
      refine ⟨s', e, b1, b2, b3, ?_, ?_, ?_⟩
      · intro m hm d hd
        by_cases h : m = k
        · subst h; exact b4 d hd
        · have c1 : m * cp + d < k * cp := calc
            m * cp + d < m * cp + cp := by omega
            _ = (m + 1) * cp := by ring
            _ ≤ k * cp := Nat.mul_le_mul_right _ (by omega)
          have c2 : m * cw + d < k * cw := calc
            m * cw + d < m * cw + cw := by omega
            _ = (m + 1) * cw := by ring
            _ ≤ k * cw := Nat.mul_le_mul_right _ (by omega)
          rw [b6 _ c1, b7 _ (Or.inl c2)]
          exact a4 m (by omega) d hd
      · intro m hm hbb
        by_cases h : m = k
        · subst h; exact b5 hbb
        · rw [b8 m (by omega)]; exact a5 m (by omega) hbb
      · intro x hx
        rw [b7 x (Or.inr hx)]
        refine a6 x (le_trans (Nat.mul_le_mul_right _ (by omega)) hx))
  exact ⟨s', e, h1, h2, h3, h4, h5⟩

/-! ## The index arithmetic -/

theorem index2 (q m : ℕ) : ((m : ℤ) / q + 1 = ((m / q : ℕ) : ℤ) + 1) ∧
    ((m : ℤ) + 1 - q * ((m : ℤ) / q + 1 - 1) = ((m % q : ℕ) : ℤ) + 1) := by
  refine ⟨by push_cast; rfl, ?_⟩
  have := Nat.div_add_mod m q
  have h : ((q * (m / q) + m % q : ℕ) : ℤ) = m := by rw [this]
  push_cast at h
  push_cast
  linarith

theorem index3 (q m : ℕ) :
    let k : ℤ := (m : ℤ) / ((q : ℤ) * q) + 1
    let jj : ℤ := ((m : ℤ) + 1) - ((q : ℤ) * q) * (k - 1)
    let j : ℤ := (jj - 1) / q + 1
    k = ((m / q / q : ℕ) : ℤ) + 1 ∧ j = ((m / q % q : ℕ) : ℤ) + 1 ∧ jj - q * (j - 1) = ((m % q : ℕ) : ℤ) + 1 := by
  intro k jj j
  have e : (m : ℤ) / ((q : ℤ) * q) = ((m / (q * q) : ℕ) : ℤ) := by push_cast; rfl
  have hk : k = ((m / (q * q) : ℕ) : ℤ) + 1 := by rw [← e]
  have hjj : jj = ((m % (q * q) : ℕ) : ℤ) + 1 := by
    have := (index2 (q * q) m).2
    have e2 : jj = (m : ℤ) + 1 - ((q * q : ℕ) : ℤ) * ((m : ℤ) / ((q * q : ℕ) : ℤ) + 1 - 1) := by
      show _ - _ * ((m : ℤ) / ((q : ℤ) * q) + 1 - 1) = _
      push_cast; rfl
    rw [e2, this]
  have hj : j = ((m % (q * q) / q : ℕ) : ℤ) + 1 := by
    show (jj - 1) / q + 1 = _
    rw [hjj, add_sub_cancel_right]; push_cast; rfl
  refine ⟨by rw [hk, Nat.div_div_eq_div_mul], by rw [hj, Nat.mod_mul_right_div_self], ?_⟩
  have h := (index2 q (m % (q * q))).2
  have e2 : jj - q * (j - 1) = ((m % (q * q) : ℕ) : ℤ) + 1 - q * (((m % (q * q) : ℕ) : ℤ) / q + 1 - 1) := by
    rw [hj, hjj]; push_cast; ring
  rw [e2, h, Nat.mod_mul_right_mod]

theorem trunc_int (z : ℤ) : trunc (z : ℝ) = z := by
  unfold trunc; split_ifs <;> simp

theorem trunc_aux1 {A L R m : ℕ} (h : m = A * L + R) : trunc ((m : ℝ) + 1 - (A : ℝ) * ((((L : ℕ) : ℤ) + 1 : ℤ) - 1)) = (R : ℤ) + 1 := by
  have : (m : ℝ) + 1 - (A : ℝ) * ((((L : ℕ) : ℤ) + 1 : ℤ) - 1) = (((R : ℤ) + 1 : ℤ) : ℝ) := by rw [h]; push_cast; ring
  rw [this, trunc_int]

theorem trunc_aux2 {A L R B K S m : ℕ} (h : m = A * L + R) (h2 : R = B * K + S) :
    trunc ((m : ℝ) + 1 - (B : ℝ) * ((((K : ℕ) : ℤ) + 1 : ℤ) - 1) - (A : ℝ) * ((((L : ℕ) : ℤ) + 1 : ℤ) - 1)) = (S : ℤ) + 1 := by
  have : (m : ℝ) + 1 - (B : ℝ) * ((((K : ℕ) : ℤ) + 1 : ℤ) - 1) - (A : ℝ) * ((((L : ℕ) : ℤ) + 1 : ℤ) - 1) = (((S : ℤ) + 1 : ℤ) : ℝ) := by
    rw [h, h2]; push_cast; ring
  rw [this, trunc_int]

theorem index4_eq (q m : ℕ) :
    index4 q 4 m = (((m % q : ℕ) : ℤ) + 1, ((m / q % q : ℕ) : ℤ) + 1, ((m / q / q % q : ℕ) : ℤ) + 1, ((m / q / q / q : ℕ) : ℤ) + 1) := by
  have ea : (q : ℝ) ^ ((4 : ℤ) - 1) = ((q * q * q : ℕ) : ℝ) := by
    rw [show (4 : ℤ) - 1 = ((3 : ℕ) : ℤ) by norm_num, zpow_natCast]; push_cast; ring
  have eb : (q : ℝ) ^ ((4 : ℤ) - 2) = ((q * q : ℕ) : ℝ) := by
    rw [show (4 : ℤ) - 2 = ((2 : ℕ) : ℤ) by norm_num, zpow_natCast]; push_cast; ring
  unfold index4
  rw [ea, eb]
  have fl : ∀ a b : ℕ, ⌊(a : ℝ) / (b : ℝ)⌋ = ((a / b : ℕ) : ℤ) := by
    intro a b
    rw [Int.floor_div_natCast, Int.floor_natCast]; push_cast; rfl
  have hl : trunc (((⌊(m : ℝ) / ((q * q * q : ℕ) : ℝ)⌋ : ℤ) : ℝ) + 1) = ((m / (q * q * q) : ℕ) : ℤ) + 1 := by
    rw [fl]
    exact_mod_cast trunc_int (((m / (q * q * q) : ℕ) : ℤ) + 1)
  simp only [hl]
  have hkk : trunc ((m : ℝ) + 1 - ((q * q * q : ℕ) : ℝ) * ((((m / (q * q * q) : ℕ) : ℤ) + 1 : ℤ) - 1)) = ((m % (q * q * q) : ℕ) : ℤ) + 1 := by
    exact trunc_aux1 (Nat.div_add_mod _ _).symm
  simp only [hkk]
  have hk : trunc (((⌊((((m % (q * q * q) : ℕ) : ℤ) + 1 : ℤ) - 1 : ℝ) / ((q * q : ℕ) : ℝ)⌋ : ℤ) : ℝ) + 1) = ((m % (q * q * q) / (q * q) : ℕ) : ℤ) + 1 := by
    have : ((((m % (q * q * q) : ℕ) : ℤ) + 1 : ℤ) - 1 : ℝ) = ((m % (q * q * q) : ℕ) : ℝ) := by
      generalize m % (q * q * q) = R; push_cast; ring
    rw [this, fl]
    exact_mod_cast trunc_int (((m % (q * q * q) / (q * q) : ℕ) : ℤ) + 1)
  simp only [hk]
  have hjj : trunc ((m : ℝ) + 1 - ((q * q : ℕ) : ℝ) * ((((m % (q * q * q) / (q * q) : ℕ) : ℤ) + 1 : ℤ) - 1) -
      ((q * q * q : ℕ) : ℝ) * ((((m / (q * q * q) : ℕ) : ℤ) + 1 : ℤ) - 1)) = ((m % (q * q * q) % (q * q) : ℕ) : ℤ) + 1 := by
    exact trunc_aux2 (Nat.div_add_mod _ _).symm (Nat.div_add_mod _ _).symm
  simp only [hjj]
  have e1 : m % (q * q * q) % (q * q) = m % (q * q) := Nat.mod_mul_right_mod _ _ _
  have e2 : m % (q * q * q) / (q * q) = m / q / q % q := by rw [Nat.mod_mul_right_div_self, Nat.div_div_eq_div_mul]
  have e3 : m / (q * q * q) = m / q / q / q := by rw [Nat.div_div_eq_div_mul, Nat.div_div_eq_div_mul, mul_assoc]
  have e4 : ((((m % (q * q) : ℕ) : ℤ) + 1) - 1).tdiv q + 1 = ((m / q % q : ℕ) : ℤ) + 1 := by
    rw [add_sub_cancel_right, ← Nat.mod_mul_right_div_self]; rfl
  rw [e1, e2, e3, e4]
  simp only [Prod.mk.injEq, and_true]
  have h := (index2 q (m % (q * q))).2
  rw [Nat.mod_mul_right_mod] at h
  rw [← h, ← Nat.mod_mul_right_div_self]
  push_cast
  ring

theorem lt_of_div {q m : ℕ} {n : ℕ} (h : m < n * q) : m / q < n := Nat.div_lt_of_lt_mul (by rw [mul_comm]; exact h)

theorem sum_lex4 (q : ℕ) (f : ℕ → ℕ → ℕ → ℕ → ℝ) :
    ∑ t ∈ range (q * q * q * q), f (t % q) (t / q % q) (t / q / q % q) (t / q / q / q) =
      ∑ l ∈ range q, ∑ k ∈ range q, ∑ j ∈ range q, ∑ i ∈ range q, f i j k l := by
  rw [show q * q * q * q = q * (q * q * q) by ring,
    sum_lex2 q (q * q * q) (fun i t => f i (t % q) (t / q % q) (t / q / q)), sum_lex3 q q q (fun j k l => ∑ i ∈ range q, f i j k l)]

end Verif.Tensor
