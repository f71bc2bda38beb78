import Verif.Fp.Average
import Verif.Average.Steady

/-!
# C88 on the meshes of the Average example
-/

namespace Verif.Average
open Finset Verif.Swage Verif.Swage.Refine Verif.Fp

section
variable {m : Mesh} {X : ℕ → ℤ → ℝ} {pos : ℕ → ℕ → ℤ}

/-- The local nodes by which the cells of a grid node see it are different. -/
theorem grid_lids (hG : Key.Grid m.cells m.nodes m.node m.coords.val X pos) (n : ℕ) :
    ((incidences m.cells 8 m.node n).map Prod.snd).Nodup := by
  refine (List.nodup_map_iff_inj_on (incidences_nodup _ _ _)).2 ?_
  rintro ⟨c, l⟩ hp ⟨c', l'⟩ hq h
  obtain ⟨h1, h2, h3⟩ := mem_incidences.1 hp
  obtain ⟨k1, k2, k3⟩ := mem_incidences.1 hq
  simp only [] at h h1 h2 h3 k1 k2 k3
  subst h
  have := (grid_node_eq hG h1 h2 k1 k2).1 (h3.trans k3.symm)
  have : c = c' := hG.inj c h1 c' k1 fun d hd => by have := this d hd; omega
  rw [this]

theorem cellsOf_length (m : Mesh) (n : ℕ) : (m.cellsOf n).length = ((incidences m.cells 8 m.node n).map Prod.snd).length := by
  rw [List.length_map]
  exact List.length_map _

/-- A node of a grid has at most eight cells. -/
theorem grid_cells_le (hG : Key.Grid m.cells m.nodes m.node m.coords.val X pos) (n : ℕ) : (m.cellsOf n).length ≤ 8 := by
  rw [cellsOf_length, ← List.toFinset_card_of_nodup (grid_lids hG n)]
  refine (card_le_card (t := range 8) ?_).trans (by simp)
  intro l hl
  obtain ⟨p, hp, rfl⟩ := List.mem_map.1 (List.mem_toFinset.1 hl)
  exact mem_range.2 (mem_incidences.1 hp).2.1

/-- The cells fill a box of the grid. -/
structure Cuboid (C : ℕ) (pos : ℕ → ℕ → ℤ) (lo hi : ℕ → ℤ) : Prop where
  inside : ∀ c < C, ∀ d < 3, lo d ≤ pos c d ∧ pos c d < hi d
  full : ∀ z : ℕ → ℤ, (∀ d < 3, lo d ≤ z d ∧ z d < hi d) → ∃ c < C, ∀ d < 3, pos c d = z d

theorem card_bits : ∀ a0 a1 b0 b1 c0 c1 : Bool, (a0 || a1) = true → (b0 || b1) = true → (c0 || c1) = true →
    ∃ i ≤ 3, ((range 8).filter fun l => (bif Key.bit l 0 == 0 then a0 else a1) && (bif Key.bit l 1 == 0 then b0 else b1) &&
      (bif Key.bit l 2 == 0 then c0 else c1)).card = 2 ^ i := by decide

/-- A node of a box has 1, 2, 4 or 8 cells. -/
theorem cuboid_cells (hm : m.Ready) (hG : Key.Grid m.cells m.nodes m.node m.coords.val X pos) {lo hi : ℕ → ℤ} (hC : Cuboid m.cells pos lo hi)
    {n : ℕ} (hn : n < m.nodes) : ∃ i ≤ 3, (m.cellsOf n).length = 2 ^ i := by
  obtain ⟨c0, hc0, l0, hl0, e0⟩ := grid_in_cell hm hn
  have hin := hC.inside c0 hc0
  let P : ℕ → ℤ := fun d => pos c0 d + Key.bit l0 d
  let ok : ℕ → ℤ → Bool := fun d b => decide (lo d ≤ P d - b ∧ P d - b < hi d)
  have hex : ∀ d < 3, (ok d 0 || ok d 1) = true := by
    intro d hd
    have h1 := hin d hd
    have h2 := Key.bit_le l0 hl0 d hd
    have : Key.bit l0 d = 0 ∨ Key.bit l0 d = 1 := by omega
    rw [Bool.or_eq_true]
    rcases this with h | h
    · left
      simp only [ok, P, h, decide_eq_true_eq]; push_cast; omega
    · right
      simp only [ok, P, h, decide_eq_true_eq]; push_cast; omega
  obtain ⟨i, hi3, hcard⟩ := card_bits (ok 0 0) (ok 0 1) (ok 1 0) (ok 1 1) (ok 2 0) (ok 2 1) (hex 0 (by omega)) (hex 1 (by omega)) (hex 2 (by omega))
  refine ⟨i, hi3, ?_⟩
  rw [cellsOf_length, ← List.toFinset_card_of_nodup (grid_lids hG n), ← hcard]
  congr 1
  have hsel : ∀ l < 8, ∀ d < 3, (bif Key.bit l d == 0 then ok d 0 else ok d 1) = true ↔ lo d ≤ P d - Key.bit l d ∧ P d - Key.bit l d < hi d := by
    intro l hl d hd
    have h2 := Key.bit_le l hl d hd
    have : Key.bit l d = 0 ∨ Key.bit l d = 1 := by omega
    rcases this with h | h <;> simp [h, ok]
  ext l
  rw [List.mem_toFinset, List.mem_map, mem_filter, mem_range]
  constructor
  · rintro ⟨⟨c, l'⟩, hp, rfl⟩
    obtain ⟨h1, h2, h3⟩ := mem_incidences.1 hp
    simp only [] at h1 h2 h3 ⊢
    have hpos := (grid_node_eq hG h1 h2 hc0 hl0).1 (h3.trans e0.symm)
    have hall : ∀ d < 3, (bif Key.bit l' d == 0 then ok d 0 else ok d 1) = true := by
      intro d hd
      rw [hsel l' h2 d hd]
      have := hpos d hd
      have h4 := hC.inside c h1 d hd
      simp only [P]; omega
    refine ⟨h2, ?_⟩
    rw [hall 0 (by omega), hall 1 (by omega), hall 2 (by omega)]; rfl
  · rintro ⟨hl, hb⟩
    rw [Bool.and_eq_true, Bool.and_eq_true] at hb
    have hall : ∀ d < 3, lo d ≤ P d - Key.bit l d ∧ P d - Key.bit l d < hi d :=
      forall_dim ((hsel l hl 0 (by omega)).1 hb.1.1) ((hsel l hl 1 (by omega)).1 hb.1.2) ((hsel l hl 2 (by omega)).1 hb.2)
    obtain ⟨c, hc, hp⟩ := hC.full (fun d => P d - Key.bit l d) hall
    refine ⟨(c, l), mem_incidences.2 ⟨hc, hl, ?_⟩, rfl⟩
    rw [← e0]
    refine (grid_node_eq hG hc hl hc0 hl0).2 fun d hd => ?_
    have := hp d hd
    simp only [P] at this ⊢
    omega

end

theorem cuboid_fine {S E : ℕ} (hS : 0 < S) {pos : ℕ → ℕ → ℤ} {lo hi : ℕ → ℤ} (h : Cuboid E pos lo hi) :
    Cuboid (E * S ^ 3) (finePos S pos) (fun d => lo d * S) (fun d => hi d * S) := by
  have hS' : (0 : ℤ) < S := by exact_mod_cast hS
  constructor
  · intro c hc
    obtain ⟨e, k, j, i, he, hk, hj, hi', rfl⟩ := fine_cases hc
    obtain ⟨-, p0, p1, p2⟩ := fine_cell (pos := pos) he hk hj hi'
    have key : ∀ d < 3, ∀ r : ℕ, r < S → lo d * S ≤ pos e d * S + r ∧ pos e d * S + r < hi d * S := by
      intro d hd r hr
      obtain ⟨q1, q2⟩ := h.inside e he d hd
      have w1 := mul_le_mul_of_nonneg_right q1 hS'.le
      have w2 := mul_le_mul_of_nonneg_right (show pos e d + 1 ≤ hi d from q2) hS'.le
      rw [add_mul, one_mul] at w2
      constructor <;> omega
    refine forall_dim ?_ ?_ ?_
    · rw [p0]; exact key 0 (by omega) i hi'
    · rw [p1]; exact key 1 (by omega) j hj
    · rw [p2]; exact key 2 (by omega) k hk
  · intro z hz
    have hq : ∀ d < 3, lo d ≤ z d / S ∧ z d / S < hi d := by
      intro d hd
      obtain ⟨q1, q2⟩ := hz d hd
      exact ⟨(Int.le_ediv_iff_mul_le hS').2 q1, (Int.ediv_lt_iff_lt_mul hS').2 q2⟩
    obtain ⟨e, he, hp⟩ := h.full (fun d => z d / S) hq
    have hr : ∀ d, (z d % S).toNat < S ∧ ((z d % S).toNat : ℤ) = z d % S := by
      intro d
      have h1 := Int.emod_nonneg (z d) hS'.ne'
      have h2 := Int.emod_lt_of_pos (z d) hS'
      omega
    obtain ⟨r, r0, r1, r2⟩ := fine_cell (pos := pos) he (hr 2).1 (hr 1).1 (hr 0).1
    refine ⟨_, r, forall_dim ?_ ?_ ?_⟩
    · rw [r0, hp 0 (by omega), (hr 0).2]; exact Int.ediv_mul_add_emod _ _
    · rw [r1, hp 1 (by omega), (hr 1).2]; exact Int.ediv_mul_add_emod _ _
    · rw [r2, hp 2 (by omega), (hr 2).2]; exact Int.ediv_mul_add_emod _ _

/-- The bounds 0 and 10 are representable with seven bits. -/
theorem exact_ten (R : Rounding) (hR : 7 ≤ R.bits) {i : ℕ} (hi : i ≤ 3) : Exact R 0 10 (2 ^ i) := by
  have h7 : (2 : ℤ) ^ 7 ≤ 2 ^ R.bits := pow_le_pow_right₀ (by norm_num) hR
  have hi' : (2 : ℤ) ^ i ≤ 2 ^ 3 := pow_le_pow_right₀ (by norm_num) hi
  have := exact_pow R 0 10 0 i (by simp) (by
    rw [show |(10 : ℤ)| = 10 by norm_num]
    norm_num at hi' h7 ⊢
    linarith)
  simpa using this

section
variable {E N : ℕ} {nodes : ℕ → ℕ → ℕ} {x : ℕ → ℕ → ℝ} {X : ℕ → ℤ → ℝ} {pos : ℕ → ℕ → ℤ}

/-- **C88 (the example program).**  On the meshes of C78: the field `r.state` the program computes in exact arithmetic starts from
a state `s`, and the 500 cycles in rounded arithmetic from `s` give a field that differs from it by at most
`10 ((1+u)^9000 - 1)` everywhere; if the cells fill a box, it lies in `[0, 10]`.  (Partial: grids only, as in C78; the mesh itself is
the one set up in exact arithmetic.) -/
theorem C88_program_partial (R : Rounding) (hR : 7 ≤ R.bits) (hL : Key.Grid E N nodes x X pos)
    (hsmall : ∃ d < 3, X d (pos (E - 1) d + 1) - X d (pos (E - 1) d) ≤ 7)
    (hfirst : ∀ c < E, ∀ l < 8, nodes c l = nodes 0 0 → c = 0 ∧ l = 0)
    (hshare : ∃ c < E, ∃ c' < E, c' ≠ c ∧ Share 8 nodes c c')
    (hs : 1 / 10 ^ 6 ≤ X 0 (pos (E - 1) 0 + 1) - X 0 (pos (E - 1) 0))
    (q : SetupJunk) (u : ℕ → Fill) (j1 j2 : ℕ → ℕ → ℝ) (jt : ℕ → ℝ) :
    ∃ m r s, program E N nodes x q u j1 j2 jt = some (m, r) ∧ cycles m 500 s = some r.state ∧
      (∀ n, (m.OnSet 0 n → s.node.val n = 10) ∧ (¬ m.OnSet 0 n → s.node.val n = 0)) ∧
      ∃ t, cyclesR R m 500 s = some t ∧ t.node.size = m.nodes ∧ t.cell.size = m.cells ∧
        Close (10 * ((1 + R.u) ^ 9000 - 1)) t.node r.state.node ∧ Close (10 * ((1 + R.u) ^ 9000 - 1)) t.cell r.state.cell ∧
        ∀ lo hi, Cuboid E pos lo hi → Within 0 10 t.node ∧ Within 0 10 t.cell := by
  obtain ⟨m, r, p1, hm, s0, s3, p3, p4, -, -, -, -, tt, -, -, -, hG⟩ := program_grid hL hsmall hfirst hshare hs q u j1 j2 jt
  obtain ⟨s, s1, s2, sv, sc, run⟩ := program_run p1 hm s0 s3 p4
  have w1 : Within 0 10 s.node := by
    intro n _
    by_cases o : m.OnSet 0 n
    · rw [(sv n).1 o]; norm_num
    · rw [(sv n).2 o]; norm_num
  have w2 : Within 0 10 s.cell := by
    intro c hc
    rw [sc c (by omega)]; norm_num
  obtain ⟨t, t', e1, e2, t1, t2, t3, t4⟩ := C88_accuracy R m hm.ok hm.elemOk hm.noIsolated s0 s3 8 (fun n _ => grid_cells_le hG n) 10 (le_refl _) s s1 s2
    (fun n hn => ⟨by linarith [(w1 n hn).1], (w1 n hn).2⟩) (fun c hc => ⟨by linarith [(w2 c hc).1], (w2 c hc).2⟩) 500
  rw [run] at e2
  obtain rfl := Option.some.inj e2
  refine ⟨m, r, s, p1, run, sv, t, e1, t1, t2, t3, t4, fun lo hi hC => ?_⟩
  have hC' := cuboid_fine (S := 6) (by omega) hC
  rw [← p3] at hC'
  obtain ⟨t', e', -, -, b1, b2, -⟩ := C88_bounds R m hm.ok hm.elemOk hm.noIsolated s0 s3 0 10 (le_refl _) (le_refl _)
    (exact_ten R hR (le_refl 3)) (fun n hn => by
      obtain ⟨i, hi, e⟩ := cuboid_cells hm hG hC' hn
      rw [e]; exact exact_ten R hR hi) s s1 s2 w1 w2 500
  rw [e1] at e'
  obtain rfl := Option.some.inj e'
  exact ⟨b1, b2⟩
end

theorem pow_growth {u : ℝ} (h0 : 0 ≤ u) (h1 : u ≤ 1) (n : ℕ) : (1 + u) ^ n * (1 - n * u) ≤ 1 := by
  have e1 : 1 + (n : ℝ) * (-u) ≤ (1 + -u) ^ n := one_add_mul_le_pow (by linarith) n
  have e2 : (1 + u) ^ n * (1 + -u) ^ n ≤ 1 := by
    rw [← mul_pow]
    exact pow_le_one₀ (by nlinarith) (by nlinarith)
  have e3 : 0 ≤ (1 + u) ^ n := by positivity
  refine le_trans (mul_le_mul_of_nonneg_left ?_ e3) e2
  linarith

/-- The error after `n ≤ 9000` operations in double precision. -/
theorem binary64_growth (n : ℕ) (hn : n ≤ 9000) : 10 * ((1 + Rounding.binary64.u) ^ n - 1) ≤ 1 / 10 ^ 11 := by
  have h := pow_growth (u := 1 / 2 ^ 53) (by positivity) (by norm_num) n
  rw [Rounding.binary64_u]
  have h3 : 0 ≤ (1 + (1 : ℝ) / 2 ^ 53) ^ n := by positivity
  generalize (1 + (1 : ℝ) / 2 ^ 53) ^ n = y at h h3
  have hn' : (n : ℝ) ≤ 9000 := by exact_mod_cast hn
  have : y * (1 - 9000 * (1 / 2 ^ 53)) ≤ 1 := le_trans (mul_le_mul_of_nonneg_left (by
    have : (n : ℝ) * (1 / 2 ^ 53) ≤ 9000 * (1 / 2 ^ 53) := mul_le_mul_of_nonneg_right hn' (by positivity)
    linarith) h3) h
  norm_num at this ⊢
  linarith

theorem boxPos_cuboid (b : MeshBox.Box) : Cuboid b.cells (boxPos b) (fun _ => 0) (fun d => (cnt b d : ℤ)) := by
  have e0 : ∀ c, boxPos b c 0 = ((c % b.ci : ℕ) : ℤ) := fun c => by simp [boxPos]
  have e1 : ∀ c, boxPos b c 1 = ((c / b.ci % b.cj : ℕ) : ℤ) := fun c => by simp [boxPos]
  have e2 : ∀ c, boxPos b c 2 = ((c / b.ci / b.cj : ℕ) : ℤ) := fun c => by simp [boxPos]
  constructor
  · intro c hc
    obtain ⟨h1, h2, h3, -⟩ := lex3_surj (show c < b.ci * b.cj * b.ck from hc)
    refine forall_dim ?_ ?_ ?_
    · rw [e0]; exact ⟨by positivity, by exact_mod_cast h1⟩
    · rw [e1]; exact ⟨by positivity, by exact_mod_cast h2⟩
    · rw [e2]; exact ⟨by positivity, by exact_mod_cast h3⟩
  · intro z hz
    obtain ⟨a0, b0⟩ := hz 0 (by omega)
    obtain ⟨a1, b1⟩ := hz 1 (by omega)
    obtain ⟨a2, b2⟩ := hz 2 (by omega)
    obtain ⟨i, hi⟩ := Int.eq_ofNat_of_zero_le a0
    obtain ⟨j, hj⟩ := Int.eq_ofNat_of_zero_le a1
    obtain ⟨k, hk⟩ := Int.eq_ofNat_of_zero_le a2
    have c0 : i < b.ci := by have : (i : ℤ) < b.ci := by rw [← hi]; exact b0
                             exact_mod_cast this
    have c1 : j < b.cj := by have : (j : ℤ) < b.cj := by rw [← hj]; exact b1
                             exact_mod_cast this
    have c2 : k < b.ck := by have : (k : ℤ) < b.ck := by rw [← hk]; exact b2
                             exact_mod_cast this
    have hci : 0 < b.ci := by omega
    have hcj : 0 < b.cj := by omega
    have d1 : (i + b.ci * (j + b.cj * k)) % b.ci = i := by rw [Nat.add_mul_mod_self_left, Nat.mod_eq_of_lt c0]
    have d2 : (i + b.ci * (j + b.cj * k)) / b.ci = j + b.cj * k := by rw [Nat.add_mul_div_left _ _ hci, Nat.div_eq_of_lt c0, zero_add]
    have d3 : (j + b.cj * k) % b.cj = j := by rw [Nat.add_mul_mod_self_left, Nat.mod_eq_of_lt c1]
    have d4 : (j + b.cj * k) / b.cj = k := by rw [Nat.add_mul_div_left _ _ hcj, Nat.div_eq_of_lt c1, zero_add]
    refine ⟨i + b.ci * (j + b.cj * k), ?_, forall_dim ?_ ?_ ?_⟩
    · show _ < b.ci * b.cj * b.ck
      calc i + b.ci * (j + b.cj * k) < b.ci + b.ci * (j + b.cj * k) := by omega
        _ = b.ci * (j + b.cj * k + 1) := by ring
        _ ≤ b.ci * (b.cj + b.cj * k) := Nat.mul_le_mul_left _ (by omega)
        _ = b.ci * (b.cj * (k + 1)) := by ring
        _ ≤ b.ci * (b.cj * b.ck) := Nat.mul_le_mul_left _ (Nat.mul_le_mul_left _ (by omega))
        _ = b.ci * b.cj * b.ck := by ring
    · rw [e0, d1, hi]
    · rw [e1, d2, d3, hj]
    · rw [e2, d2, d4, hk]

/-- **C88 (from the generator to the results, in double precision).**  For every box as in C79: the mesh file the generator writes is
read, and the 500 cycles in IEEE double precision on the mesh the program then works on, from the initial state of the program, give
fields in `[0, 10]` that differ by at most `10⁻¹¹` from the exact ones. -/
theorem C88_box (b : MeshBox.Box) (hb : b.Ok) (hn : b.points < 10 ^ 9) (h2 : 2 ≤ b.cells) (hf : Fine b)
    (hsmall : ∃ d < 3, b.step d ≤ 6.9) (hs : 1 / 10 ^ 5 ≤ b.step 0) {rnd : ℝ → ℕ} (h : MeshFile.Nearest rnd) (qb : MeshBox.Junk)
    (q' : MeshFile.Junk) (q : SetupJunk) (u : ℕ → Fill) (j1 j2 : ℕ → ℕ → ℝ) (jt : ℕ → ℝ) :
    ∃ r t, MeshBox.build b qb = some r ∧ MeshFile.writeBox rnd r.coords r.cellPoints b.points b.cells = some t ∧
    ∃ m run s t', programFile q' q u j1 j2 jt t = some (m, run) ∧ cycles m 500 s = some run.state ∧
      (∀ n, (m.OnSet 0 n → s.node.val n = 10) ∧ (¬ m.OnSet 0 n → s.node.val n = 0)) ∧
      cyclesR Rounding.binary64 m 500 s = some t' ∧ t'.node.size = m.nodes ∧ t'.cell.size = m.cells ∧ Within 0 10 t'.node ∧ Within 0 10 t'.cell ∧
      Close (1 / 10 ^ 11) t'.node run.state.node ∧ Close (1 / 10 ^ 11) t'.cell run.state.cell := by
  obtain ⟨r, t, mi, e1, e2, e3, m1, m2, m3, m4⟩ := MeshFile.box_spec b hb hn qb h q'
  have R : Read rnd b mi := ⟨m1, m2, m3, m4⟩
  have hG := R.grid h hb hf
  have hsm : ∃ d < 3, boxX rnd b d (boxPos b (b.cells - 1) d + 1) - boxX rnd b d (boxPos b (b.cells - 1) d) ≤ 7 := by
    obtain ⟨d, hd, hle⟩ := hsmall
    have := (width h hb hf hd (boxPos b (b.cells - 1) d)).2
    refine ⟨d, hd, this.trans ?_⟩
    norm_num at hle ⊢
    linarith
  have hs' : 1 / 10 ^ 6 ≤ boxX rnd b 0 (boxPos b (b.cells - 1) 0 + 1) - boxX rnd b 0 (boxPos b (b.cells - 1) 0) := by
    have := (width h hb hf (show 0 < 3 by omega) (boxPos b (b.cells - 1) 0)).1
    refine le_trans ?_ this
    norm_num at hs ⊢
    linarith
  obtain ⟨m, run, s, p1, p2, p3, t', p4, p5, p6, p7, p8, p9⟩ := C88_program_partial Rounding.binary64 (by rw [Rounding.binary64_bits]; omega) hG hsm
    (R.first hb) (R.share hb h2) hs' q u j1 j2 jt
  obtain ⟨w1, w2⟩ := p9 _ _ (boxPos_cuboid b)
  refine ⟨r, t, e1, e2, m, run, s, t', ?_, p2, p3, p4, p5, p6, w1, w2, fun i hi => (p7 i hi).trans (binary64_growth _ (le_refl _)),
    fun i hi => (p8 i hi).trans (binary64_growth _ (le_refl _))⟩
  unfold programFile
  rw [e3]
  show program (mi.cells.size / 8) mi.coords.size (readNode mi) mi.coords.val q u j1 j2 jt = _
  rw [m1, m2, Nat.mul_div_cancel _ (by omega)]
  exact p1

/-- Hypotheses met: `1000 × 2 × 2` cells of the cube `[0, 2]³`. -/
example : ∃ b : MeshBox.Box, b.ci = 1000 ∧ b.Ok ∧ b.points < 10 ^ 9 ∧ 2 ≤ b.cells ∧ Fine b ∧ (∃ d < 3, b.step d ≤ 6.9) ∧ 1 / 10 ^ 5 ≤ b.step 0 ∧
    ∃ rnd, MeshFile.Nearest rnd := by
  refine ⟨⟨1000, 2, 2, fun _ => 2, fun _ => 0⟩, rfl, ⟨by decide, by decide, by decide⟩, by decide, by decide, ?_,
    ⟨0, by omega, by norm_num [MeshBox.Box.step, MeshBox.Box.pi]⟩, by norm_num [MeshBox.Box.step, MeshBox.Box.pi], MeshFile.nearest_exists⟩
  intro d hd
  interval_cases d <;> norm_num [MeshBox.Box.step, MeshBox.Box.pi, MeshBox.Box.pj, MeshBox.Box.pk]

/-- Hypotheses of `C88_bounds` and `C88_accuracy` met in double precision. -/
example : ∃ (m : Mesh) (s : State), m.cells = 2 ∧ m.Ok ∧ m.ElemOk ∧ (∀ n < m.nodes, m.cellsOf n ≠ []) ∧ m.SetOk 0 ∧ m.SetOk 3 ∧
    Exact Rounding.binary64 0 10 8 ∧ s.node.size = m.nodes ∧ s.cell.size = m.cells ∧ Within 0 10 s.node ∧ Within 0 10 s.cell := by
  obtain ⟨m, h1, h2, h3, h4, -, h6, h7, h8, -⟩ := example_mesh
  exact ⟨m, ⟨⟨m.nodes, fun _ => 1⟩, ⟨m.cells, fun _ => 1⟩⟩, h1, h3, h4, h6, h7, h8,
    exact_ten _ (by rw [Rounding.binary64_bits]; omega) (le_refl 3), rfl, rfl, fun _ _ => by norm_num, fun _ _ => by norm_num⟩

end Verif.Average
