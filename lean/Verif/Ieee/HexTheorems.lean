import Verif.Ieee.HexModel
import Verif.Fp.HexTheorems

/-!
# C109: the volumes of `get_vol_hex` in double precision with overflow and underflow
-/

namespace Verif.Fp.GeomI
open Verif.Geometry Expr Finset
open Verif.Fp.Geom (hexExpr hexExpr_cost hexExpr_all hexExpr_deg)

variable {A : Ieee}

/-! ### Loops -/

theorem cellCoords_some {m : Mesh} {c : ℕ} (h : CellOK m c) {cc : Arr (ℕ → FNum A)} (hc : c < cc.size) (d : ℕ) :
    ∃ r, cellCoords A m cc c d = some r ∧ r.1.size = cc.size := by
  obtain ⟨r, r1, -⟩ := loopM_spec (n := 8) (s := store (cc.val c) d (FNum.fin (A := A) 0)) (body := fun l row => do
      let node ← m.nodesInCell.get (c * 8 + l)
      let x ← m.coords.get node
      pure (store row d (row d + FNum.fin (x d)))) (fun _ _ => True) trivial (by
    intro l row hl _
    simp only [Option.bind_eq_bind]
    rw [Arr.get_lt (h.size l hl), Option.bind_some, Arr.get_lt (h.nodes l hl), Option.bind_some]
    exact ⟨_, rfl, trivial⟩)
  unfold cellCoords
  simp only [Option.bind_eq_bind] at r1 ⊢
  rw [Arr.get_lt hc, Option.bind_some, r1, Option.bind_some, Arr.set_lt _ hc, Option.bind_some]
  exact ⟨_, rfl, rfl⟩

theorem assign_some {m : Mesh} {c : ℕ} (h : CellOK m c) {cc : Arr (ℕ → FNum A)} (hc : c < cc.size) (d : ℕ) (v : FNum A) :
    ∃ cc', assignCellCoords A m cc c d v = some cc' ∧ cc'.size = cc.size := by
  obtain ⟨r, r1, r2⟩ := cellCoords_some h hc d
  unfold assignCellCoords
  simp only [Option.bind_eq_bind]
  rw [r1, Option.bind_some, Arr.get_lt (by rw [r2]; exact hc), Option.bind_some, Arr.set_lt _ (by rw [r2]; exact hc)]
  exact ⟨_, rfl, r2⟩

theorem hexVerts_spec {m : Mesh} {c : ℕ} (h : CellOK m c) (s : ℕ → ℕ → FNum A) :
    ∃ t, hexVerts A m c (s, fun _ => FNum.fin 0) = some t ∧ (∀ l < 8, ∀ d < 3, t.1 (cCon l) d = FNum.fin (nodePt m c l d)) := by
  have g : ∀ l < 8, ∀ {β : Type} (k : (ℕ → ℝ) → Option β), ((m.nodesInCell.get (c * 8 + l)).bind fun node =>
      (m.coords.get node).bind k) = k (m.coords.val (m.nodesInCell.val (c * 8 + l))) := by
    intro l hl β k
    rw [Arr.get_lt (h.size l hl), Option.bind_some, Arr.get_lt (h.nodes l hl), Option.bind_some]
  have inj : ∀ l < 8, ∀ l' < 8, cCon l = cCon l' → l = l' := by decide
  have row : ∀ (p : ℕ → ℝ), ∀ d < 3, row3 (FNum.fin (A := A) (p 0)) (FNum.fin (p 1)) (FNum.fin (p 2)) d = FNum.fin (p d) := by
    intro p d hd; interval_cases d <;> simp [row3]
  obtain ⟨t, t1, t2⟩ := loopM_spec (n := 8) (s := (s, fun _ => FNum.fin (A := A) 0))
    (body := fun l (s : (ℕ → ℕ → FNum A) × (ℕ → FNum A)) => do
      let node ← m.nodesInCell.get (c * 8 + l)
      let p ← m.coords.get node
      let verts := store s.1 (cCon l) (row3 (FNum.fin (p 0)) (FNum.fin (p 1)) (FNum.fin (p 2)))
      pure (verts, row3 (s.2 0 + verts l 0) (s.2 1 + verts l 1) (s.2 2 + verts l 2)))
    (fun n t => ∀ l < n, ∀ d < 3, t.1 (cCon l) d = FNum.fin (nodePt m c l d))
    (fun l hl => absurd hl (Nat.not_lt_zero l))
    (by
      intro l t hl ih
      simp only [Option.bind_eq_bind]
      rw [g l hl]
      refine ⟨_, rfl, ?_⟩
      intro l' hl' d hd
      by_cases e : l' = l
      · subst e; simp only [store_same]; exact row _ d hd
      · have : cCon l' ≠ cCon l := fun q => e (inj l' (by omega) l hl q)
        simp only [store_ne _ _ this]
        exact ih l' (by omega) d hd)
  exact ⟨t, t1, t2⟩

/-- What `get_vol_hex` stores as volumes: `t l d` are the coordinates in the order of the local arrays. -/
theorem volHex_spec {m : Mesh} (h : CellsOK m) (s : Hex A) (h1 : s.cell.size = m.cells) (h2 : s.coords.size = m.cells) :
    ∃ s', volHex A m s = some s' ∧ s'.cell.size = m.cells ∧ ∀ c < m.cells, ∃ t : ℕ → ℕ → ℝ,
      (∀ l < 8, ∀ d < 3, t (cCon l) d = nodePt m c l d) ∧ s'.cell.val c = hexExpr.evalI A (fun a l => t l a) * twelfth A := by
  obtain ⟨t, t1, t3, t4, t5⟩ := loopM_spec (n := m.cells) (body := hexCell A m) (s := s)
    (fun n t => t.cell.size = m.cells ∧ t.coords.size = m.cells ∧
      (∀ c < n, ∃ u : ℕ → ℕ → ℝ, (∀ l < 8, ∀ d < 3, u (cCon l) d = nodePt m c l d) ∧
        t.cell.val c = hexExpr.evalI A (fun a l => u l a) * twelfth A))
    ⟨h1, h2, by intro c hc; omega⟩
    (by
      rintro c t hc ⟨i2, i3, i4⟩
      obtain ⟨u, u1, u2⟩ := hexVerts_spec (A := A) (h.cell hc) t.verts
      obtain ⟨a, a1, a2⟩ := assign_some (h.cell hc) (cc := t.coords) (by omega) 0 (u.2 0 * FNum.fin (1 / 8))
      obtain ⟨b, b1, b2⟩ := assign_some (h.cell hc) (cc := a) (by omega) 1 (u.2 1 * FNum.fin (1 / 8))
      obtain ⟨d, d1, d2⟩ := assign_some (h.cell hc) (cc := b) (by omega) 2 (u.2 2 * FNum.fin (1 / 8))
      unfold hexCell
      simp only [Option.bind_eq_bind]
      rw [u1, Option.bind_some, a1, Option.bind_some, b1, Option.bind_some, d1, Option.bind_some,
        Arr.set_lt _ (by omega), Option.bind_some]
      refine ⟨_, rfl, i2, by show d.size = _; omega, ?_⟩
      intro c' hc'
      by_cases he : c' = c
      · subst he
        have cc : ∀ l < 8, cCon l < 8 ∧ cCon (cCon l) = l := by decide
        refine ⟨fun l d => nodePt m c' (cCon l) d, fun l hl d _ => by simp only []; rw [(cc l hl).2], ?_⟩
        simp only [store_same]
        have hu : ∀ l < 8, ∀ d < 3, u.1 l d = FNum.fin (nodePt m c' (cCon l) d) := by
          intro l hl d hd
          have := u2 (cCon l) (cc l hl).1 d hd
          rwa [(cc l hl).2] at this
        show Geom.hexSum _ _ _ * _ = _
        unfold Geom.hexSum
        simp only [hu 0 (by omega) 0 (by omega), hu 0 (by omega) 1 (by omega), hu 0 (by omega) 2 (by omega),
          hu 1 (by omega) 0 (by omega), hu 1 (by omega) 1 (by omega), hu 1 (by omega) 2 (by omega),
          hu 2 (by omega) 0 (by omega), hu 2 (by omega) 1 (by omega), hu 2 (by omega) 2 (by omega),
          hu 3 (by omega) 0 (by omega), hu 3 (by omega) 1 (by omega), hu 3 (by omega) 2 (by omega),
          hu 4 (by omega) 0 (by omega), hu 4 (by omega) 1 (by omega), hu 4 (by omega) 2 (by omega),
          hu 5 (by omega) 0 (by omega), hu 5 (by omega) 1 (by omega), hu 5 (by omega) 2 (by omega),
          hu 6 (by omega) 0 (by omega), hu 6 (by omega) 1 (by omega), hu 6 (by omega) 2 (by omega),
          hu 7 (by omega) 0 (by omega), hu 7 (by omega) 1 (by omega), hu 7 (by omega) 2 (by omega)]
        rfl
      · simp only [store_ne _ _ he]
        exact i4 c' (by omega))
  exact ⟨t, t1, t3, t5⟩

/-! ### Error of one volume -/

theorem magI_neg' {δ : ℝ} {v : ℕ → ℕ → ℝ} {e : Expr} : (-e).magI δ v = e.magI δ v := rfl
theorem magI_add' {δ : ℝ} {v : ℕ → ℕ → ℝ} {e f : Expr} : (e + f).magI δ v = e.magI δ v + f.magI δ v + δ := rfl
theorem magI_sub' {δ : ℝ} {v : ℕ → ℕ → ℝ} {e f : Expr} : (e - f).magI δ v = e.magI δ v + f.magI δ v + δ := rfl
theorem magI_mul' {δ : ℝ} {v : ℕ → ℕ → ℝ} {e f : Expr} : (e * f).magI δ v = e.magI δ v * f.magI δ v + δ := rfl

theorem hexExpr_magI (δ L : ℝ) : hexExpr.magI δ (fun _ _ => L) = 144 * |L| ^ 3 + 96 * |L| ^ 2 * δ + 88 * |L| * δ + 15 * δ := by
  simp only [hexExpr, Geom.hexSum, magI_add', magI_sub', Expr.magI]
  ring

/-- The stored volume: no overflow and the error. -/
theorem hexVol_err (hu : A.u < 1) (v : ℕ → ℕ → ℝ) {L W : ℝ} (hL : ∀ a < 3, ∀ i < 8, |v a i| ≤ L) (hLW : L ≤ W) (hW : 1 ≤ W)
    (ht : grow A 19 * ((144 * W ^ 3 + 96 * W ^ 2 * A.δ + 88 * W * A.δ + 15 * A.δ) * (1 + A.δ) + A.δ) < A.top) :
    ∃ V, hexExpr.evalI A v * twelfth A = FNum.fin V ∧ |V - hexExpr.eval v * (1 / 12)| ≤
      (grow A 19 - 1) * ((144 * L ^ 3 + 96 * L ^ 2 * A.δ + 88 * L * A.δ + 15 * A.δ) * (1 / 12 + A.δ) + A.δ) := by
  have hδ := A.δ_nonneg
  have L0 : 0 ≤ L := (abs_nonneg _).trans (hL 0 (by omega) 0 (by omega))
  have W0 : 0 ≤ W := by linarith
  have hmagW := hexExpr_magI A.δ W
  have hmagL := hexExpr_magI A.δ L
  rw [abs_of_nonneg W0] at hmagW
  rw [abs_of_nonneg L0] at hmagL
  have mW1 : hexExpr.magI A.δ v ≤ hexExpr.magI A.δ (fun _ _ => L) := magI_mono hδ (hexExpr_all fun a ha i hi => by
    rw [abs_of_nonneg L0]; exact hL a ha i hi)
  have mW2 : hexExpr.magI A.δ (fun _ _ => L) ≤ hexExpr.magI A.δ (fun _ _ => W) := magI_mono hδ (hexExpr_all fun a ha i hi => by
    rw [abs_of_nonneg L0, abs_of_nonneg W0]; exact hLW)
  rw [hmagL] at mW1 mW2
  rw [hmagW] at mW2
  set ML := 144 * L ^ 3 + 96 * L ^ 2 * A.δ + 88 * L * A.δ + 15 * A.δ with hML
  set MW := 144 * W ^ 3 + 96 * W ^ 2 * A.δ + 88 * W * A.δ + 15 * A.δ with hMW
  have ML0 : 0 ≤ ML := by positivity
  have MW0 : 0 ≤ MW := by positivity
  have gp : ∀ k ≤ 19, grow A k ≤ grow A 19 := fun k hk => grow_mono hu hk
  have g19 := one_le_grow hu 19
  have hbig : MW ≤ MW * (1 + A.δ) + A.δ := by nlinarith
  obtain ⟨fit, -⟩ := fits_of hu (A := A) (v := v) (w := fun _ _ => W) (fun _ _ => hW) (e := hexExpr)
    (hexExpr_all fun a ha i hi => (hL a ha i hi).trans hLW) (by
      rw [hmagW, hexExpr_cost]
      refine lt_of_le_of_lt (mul_le_mul (gp 17 (by omega)) hbig MW0 (by linarith)) ht)
  obtain ⟨r, r1, r2⟩ := evalI_err hu v hexExpr fit
  rw [hexExpr_cost] at r2
  have r3 : |r - hexExpr.eval v| ≤ (grow A 17 - 1) * ML :=
    r2.trans (mul_le_mul_of_nonneg_left mW1 (by linarith [one_le_grow hu 17]))
  have r4 : |hexExpr.eval v| ≤ ML := (abs_eval_magI hδ v hexExpr).trans mW1
  -- the constant
  have W3 : 1 ≤ W ^ 3 := one_le_pow₀ hW
  have MW1 : 1 ≤ MW := by
    rw [hMW]
    have : 0 ≤ 96 * W ^ 2 * A.δ + 88 * W * A.δ + 15 * A.δ := by positivity
    linarith
  obtain ⟨c, c1, c2⟩ := rnd_fin (A := A) hu (x := 1 / 12) (y := 1 / 12) (M := 1 / 12) (k := 0)
    (by simp [grow]) (by rw [abs_of_nonneg (by norm_num)]) (by
      refine lt_of_le_of_lt (mul_le_mul (gp 1 (by omega)) (?_ : 1 / 12 + A.δ ≤ MW * (1 + A.δ) + A.δ) (by positivity) (by linarith)) ht
      nlinarith)
  rw [r1, show twelfth A = FNum.fin c from c1]
  have hc0 : |(1 / 12 : ℝ)| ≤ 1 / 12 + A.δ := by rw [abs_of_nonneg (by norm_num)]; linarith
  have G1 := one_le_grow hu 17
  have G2 := one_le_grow hu 1
  have hprod : |r * c - hexExpr.eval v * (1 / 12)| ≤ (grow A 18 - 1) * (ML * (1 / 12 + A.δ)) := by
    rw [show (18 : ℕ) = 17 + 1 from rfl, grow_add]
    have b2 : |c| ≤ grow A 1 * (1 / 12 + A.δ) := by
      have := abs_add_le (c - 1 / 12) (1 / 12)
      rw [sub_add_cancel] at this
      linarith
    rw [show r * c - hexExpr.eval v * (1 / 12) = (r - hexExpr.eval v) * c + hexExpr.eval v * (c - 1 / 12) by ring]
    refine (abs_add_le _ _).trans ?_
    rw [abs_mul, abs_mul]
    have k1 : |r - hexExpr.eval v| * |c| ≤ (grow A 17 - 1) * ML * (grow A 1 * (1 / 12 + A.δ)) :=
      mul_le_mul r3 b2 (abs_nonneg _) (mul_nonneg (by linarith) ML0)
    have k2 : |hexExpr.eval v| * |c - 1 / 12| ≤ ML * ((grow A 1 - 1) * (1 / 12 + A.δ)) :=
      mul_le_mul r4 c2 (abs_nonneg _) ML0
    calc _ ≤ (grow A 17 - 1) * ML * (grow A 1 * (1 / 12 + A.δ)) + ML * ((grow A 1 - 1) * (1 / 12 + A.δ)) := add_le_add k1 k2
      _ = _ := by ring
  obtain ⟨V, v1, v2⟩ := rnd_fin (A := A) hu (k := 18) hprod (by
      rw [abs_mul]
      exact mul_le_mul r4 hc0 (abs_nonneg _) ML0) (by
      refine lt_of_le_of_lt (mul_le_mul_of_nonneg_left (?_ : ML * (1 / 12 + A.δ) + A.δ ≤ MW * (1 + A.δ) + A.δ) (by linarith)) ht
      have := mul_le_mul mW2 (show 1 / 12 + A.δ ≤ 1 + A.δ by linarith) (by positivity) MW0
      linarith)
  exact ⟨V, v1, v2⟩

/-- Facts about double precision used below. -/
theorem delta_le : Ieee.ieee64.δ ≤ 1 / 10 ^ 6 := by
  rw [Ieee.ieee64_δ]
  have : (2 : ℝ) ^ (-1022 : ℤ) ≤ 2 ^ (-30 : ℤ) := zpow_le_zpow_right₀ (by norm_num) (by norm_num)
  have h30 : (2 : ℝ) ^ (-30 : ℤ) ≤ 1 / 10 ^ 6 := by norm_num
  exact this.trans h30

theorem u_lt : Ieee.ieee64.u < 1 := by rw [Ieee.ieee64_u]; norm_num

theorem grow19 : grow Ieee.ieee64 19 - 1 ≤ (19 + 1 / 100) / 2 ^ 53 := by
  have := grow_le u_lt (k := 19) (by rw [Ieee.ieee64_u]; norm_num)
  rw [Ieee.ieee64_u] at this
  refine this.trans ?_
  norm_num

/-- **C109.**  `get_vol_hex` in IEEE double precision, with overflow and underflow, on any mesh and whatever the uninitialised local
arrays contain: if the coordinates of the nodes of a cell are at most `L ≤ 2^338` in modulus, its stored volume is finite and differs
from the volume of the trilinear hexahedron through its nodes by at most `L^3 / 2^45 + (1 + L)^2 / 2^1067`; so a cell of larger volume
gets a positive one. -/
theorem C109_volume (m : Mesh) (h : CellsOK m) (s : Hex Ieee.ieee64) (h1 : s.cell.size = m.cells) (h2 : s.coords.size = m.cells) :
    ∃ s', volHex Ieee.ieee64 m s = some s' ∧ ∀ c < m.cells, ∀ L : ℝ, L ≤ 2 ^ 338 →
      (∀ l < 8, ∀ d < 3, |m.coords.val (m.nodesInCell.val (c * 8 + l)) d| ≤ L) →
      ∃ V : ℝ, s'.cell.get c = some (FNum.fin V) ∧
      |V - volume fun l d => m.coords.val (m.nodesInCell.val (c * 8 + l)) d| ≤ L ^ 3 / 2 ^ 45 + (1 + L) ^ 2 * 2 ^ (-1067 : ℤ) ∧
      (L ^ 3 / 2 ^ 45 + (1 + L) ^ 2 * 2 ^ (-1067 : ℤ) < volume (fun l d => m.coords.val (m.nodesInCell.val (c * 8 + l)) d) → 0 < V) := by
  obtain ⟨s', e, z, e2⟩ := volHex_spec h s h1 h2
  refine ⟨s', e, fun c hc L hL hb => ?_⟩
  obtain ⟨t, t1, t2⟩ := e2 c hc
  have L0 : 0 ≤ L := (abs_nonneg _).trans (hb 0 (by omega) 0 (by omega))
  have inv : ∀ l < 8, ∃ l' < 8, cCon l' = l := by decide
  have bd : ∀ a < 3, ∀ l < 8, |t l a| ≤ L := by
    intro a ha l hl
    obtain ⟨l', hl', rfl⟩ := inv l hl
    rw [t1 l' hl' a ha]
    exact hb l' hl' a ha
  have hδ := Ieee.ieee64.δ_nonneg
  have hδ6 := delta_le
  have hg := grow19
  have hg1 := one_le_grow u_lt 19
  obtain ⟨V, v1, v2⟩ := hexVol_err u_lt (fun a l => t l a) (L := L) (W := 2 ^ 338) bd hL (one_le_pow₀ (by norm_num)) (by
    rw [Ieee.ieee64_top, show ((2 : ℝ) ^ (1024 : ℤ)) = 1024 * (2 ^ 338) ^ 3 by
      rw [show (1024 : ℤ) = ((10 + 338 * 3 : ℕ) : ℤ) by norm_num, zpow_natCast, pow_add, pow_mul, show (2 : ℝ) ^ 10 = 1024 by norm_num]]
    have hW : (1 : ℝ) ≤ 2 ^ 338 := one_le_pow₀ (by norm_num)
    generalize (2 : ℝ) ^ 338 = W at hW
    have W2 : W ^ 2 ≤ W ^ 3 := pow_le_pow_right₀ hW (by omega)
    have W1 : W ≤ W ^ 3 := by
      calc W = W ^ 1 := (pow_one W).symm
        _ ≤ W ^ 3 := pow_le_pow_right₀ hW (by omega)
    have W3 : 1 ≤ W ^ 3 := one_le_pow₀ hW
    generalize W ^ 3 = w3 at W2 W1 W3
    generalize W ^ 2 = w2 at W2
    generalize Ieee.ieee64.δ = δ at hδ hδ6
    generalize grow Ieee.ieee64 19 = G at hg hg1
    have a1 : w2 * δ ≤ w3 * (1 / 10 ^ 6) := mul_le_mul W2 hδ6 hδ (by linarith)
    have a2 : W * δ ≤ w3 * (1 / 10 ^ 6) := mul_le_mul W1 hδ6 hδ (by linarith)
    have a3 : 144 * w3 + 96 * w2 * δ + 88 * W * δ + 15 * δ ≤ 145 * w3 := by
      rw [show 96 * w2 * δ = 96 * (w2 * δ) by ring, show 88 * W * δ = 88 * (W * δ) by ring]
      norm_num at a1 a2 hδ6
      linarith
    have a4 : (144 * w3 + 96 * w2 * δ + 88 * W * δ + 15 * δ) * (1 + δ) + δ ≤ 300 * w3 := by
      have : (144 * w3 + 96 * w2 * δ + 88 * W * δ + 15 * δ) * (1 + δ) ≤ 145 * w3 * 2 :=
        mul_le_mul a3 (by norm_num at hδ6 ⊢; linarith) (by linarith) (by linarith)
      norm_num at hδ6
      linarith
    have a5 : G ≤ 2 := by norm_num at hg; linarith
    have := mul_le_mul_of_nonneg_left a4 (show 0 ≤ G by linarith)
    have a6 : G * (300 * w3) ≤ 2 * (300 * w3) := mul_le_mul_of_nonneg_right a5 (by linarith)
    linarith)
  have hV := hexVol_eq _ _ t1
  rw [Geom.exact_eq_expr] at hV
  have hV' : volume (fun l d => m.coords.val (m.nodesInCell.val (c * 8 + l)) d) = hexExpr.eval (fun a l => t l a) * (1 / 12) := hV.symm
  have key : |V - volume fun l d => m.coords.val (m.nodesInCell.val (c * 8 + l)) d| ≤ L ^ 3 / 2 ^ 45 + (1 + L) ^ 2 * 2 ^ (-1067 : ℤ) := by
    rw [hV']
    refine v2.trans ?_
    have hd : (2 : ℝ) ^ (-1067 : ℤ) = Ieee.ieee64.δ / 2 ^ 45 := by
      rw [Ieee.ieee64_δ, show (-1067 : ℤ) = -1022 + -45 by norm_num, zpow_add₀ (by norm_num : (2 : ℝ) ≠ 0),
        show (2 : ℝ) ^ (-45 : ℤ) = (2 ^ 45)⁻¹ by norm_num, div_eq_mul_inv]
    rw [hd]
    clear v2 v1 e2 hd
    generalize Ieee.ieee64.δ = δ at hδ hδ6 ⊢
    generalize grow Ieee.ieee64 19 = G at hg hg1 ⊢
    have L3 : 0 ≤ L ^ 3 := by positivity
    have L2 : 0 ≤ L ^ 2 := by positivity
    have b1 : (144 * L ^ 3 + 96 * L ^ 2 * δ + 88 * L * δ + 15 * δ) * (1 / 12 + δ) + δ ≤
        (13 * L ^ 3 + 9 * (1 + L) ^ 2 * δ) := by
      have p1 : 0 ≤ L ^ 2 * δ := by positivity
      have p2 : 0 ≤ L * δ := by positivity
      have c1 : (144 * L ^ 3 + 96 * L ^ 2 * δ + 88 * L * δ + 15 * δ) * (1 / 12 + δ) ≤
          (144 * L ^ 3 + 96 * L ^ 2 * δ + 88 * L * δ + 15 * δ) * (1 / 12 + 1 / 10 ^ 6) :=
        mul_le_mul_of_nonneg_left (by linarith) (by positivity)
      norm_num at c1
      nlinarith
    have b0 : 0 ≤ 13 * L ^ 3 + 9 * (1 + L) ^ 2 * δ := by positivity
    refine (mul_le_mul_of_nonneg_left b1 (by linarith)).trans ((mul_le_mul_of_nonneg_right hg b0).trans ?_)
    have q : 0 ≤ (1 + L) ^ 2 * δ := by positivity
    rw [show 9 * (1 + L) ^ 2 * δ = 9 * ((1 + L) ^ 2 * δ) by ring, show (1 + L) ^ 2 * (δ / 2 ^ 45) = ((1 + L) ^ 2 * δ) / 2 ^ 45 by ring]
    generalize (1 + L) ^ 2 * δ = q' at q
    generalize L ^ 3 = l3 at L3
    norm_num
    linarith
  refine ⟨V, ?_, key, fun hlt => ?_⟩
  · rw [Arr.get_lt (by omega), t2, v1]
  · have := (abs_le.1 key).1
    linarith

/-- The hypotheses are met: two unit cubes. -/
example : ∃ s', volHex Ieee.ieee64 Geometry.twoCubes ⟨⟨2, fun _ => none⟩, ⟨2, fun _ _ => none⟩, fun _ _ => none⟩ = some s' ∧
    ∃ V : ℝ, s'.cell.get 1 = some (FNum.fin V) ∧ 0 < V := by
  obtain ⟨s', e, k⟩ := C109_volume Geometry.twoCubes Geometry.twoCubes_ok ⟨⟨2, fun _ => none⟩, ⟨2, fun _ _ => none⟩, fun _ _ => none⟩ rfl rfl
  obtain ⟨V, v1, -, v3⟩ := k 1 (by decide) 2 (by
      calc (2 : ℝ) = 2 ^ 1 := (pow_one _).symm
        _ ≤ 2 ^ 338 := pow_le_pow_right₀ (by norm_num) (by omega)) (by
    intro l hl d hd
    interval_cases l <;> interval_cases d <;> simp [twoCubes] <;> norm_num)
  refine ⟨s', e, V, v1, v3 ?_⟩
  rw [volume_affine 1 (fun d => if d = 0 then 1 else 0), Matrix.det_one]
  · have : (2 : ℝ) ^ (-1067 : ℤ) ≤ 2 ^ (-30 : ℤ) := zpow_le_zpow_right₀ (by norm_num) (by norm_num)
    generalize (2 : ℝ) ^ (-1067 : ℤ) = e at this
    norm_num at this ⊢
    linarith
  · intro l hl d
    interval_cases l <;> fin_cases d <;> simp [twoCubes, Matrix.one_apply]

/-! ### Overflow and underflow -/

/-- One cell, a box with sides `a`, `b` and `c` at the origin. -/
def box (a b c : ℝ) : Mesh :=
  ⟨0, 1, 0, 0, 0, ⟨0, fun _ => 0⟩, ⟨0, fun _ => 0⟩, ⟨8, fun a => a⟩, ⟨0, fun _ => 0⟩,
    ⟨8, fun n d => if d = 0 then (n % 2 : ℕ) * a else if d = 1 then (n / 2 % 2 : ℕ) * b else (n / 4 % 2 : ℕ) * c⟩⟩

theorem box_ok (a b c : ℝ) : CellsOK (box a b c) := ⟨rfl, fun _ h => h⟩

theorem box_volume (a b c : ℝ) : volume (fun l d => (box a b c).coords.val ((box a b c).nodesInCell.val (0 * 8 + l)) d) = a * b * c := by
  rw [volume_affine (Matrix.diagonal fun d : Fin 3 => if d = 0 then a else if d = 1 then b else c) (fun _ => 0)]
  · rw [Matrix.det_diagonal]; simp [Fin.prod_univ_three]
  · intro l hl d
    interval_cases l <;> fin_cases d <;> simp [box, Matrix.diagonal]

/-- The corners of the box in the order of the local arrays. -/
def boxBits (d l : ℕ) : ℤ := if d = 0 then (cCon l % 2 : ℕ) else if d = 1 then (cCon l / 2 % 2 : ℕ) else (cCon l / 4 % 2 : ℕ)

theorem box_eval (w : ℕ → ℝ) {t : ℕ → ℕ → ℝ} (t1 : ∀ l < 8, ∀ d < 3, t (cCon l) d = nodePt (box (w 0) (w 1) (w 2)) 0 l d) :
    hexExpr.evalI A (fun a l => t l a) = hexExpr.evalI A (fun a l => boxBits a l * w a) := by
  have cc : ∀ l < 8, cCon l < 8 ∧ cCon (cCon l) = l := by decide
  refine evalI_congr (hexExpr_all ?_)
  intro a ha l hl
  have := t1 (cCon l) (cc l hl).1 a ha
  rw [(cc l hl).2] at this
  rw [this]
  have c : a = 0 ∨ a = 1 ∨ a = 2 := by omega
  rcases c with rfl | rfl | rfl <;> (simp [nodePt, box, boxBits]; left; norm_cast)

/-- **C109 (overflow).**  The intermediate results of `get_vol_hex` are twelve times the volume: a cube with sides `2^341`, whose volume
`2^1023` is a finite double, gets an infinity or a NaN. -/
theorem C109_overflow_negation : ∃ m : Mesh, CellsOK m ∧ m.cells = 1 ∧
    volume (fun l d => m.coords.val (m.nodesInCell.val (0 * 8 + l)) d) = 2 ^ (1023 : ℤ) ∧
    Ieee.ieee64.rnd (2 ^ (1023 : ℤ)) = some (2 ^ (1023 : ℤ)) ∧
    ∀ s : Hex Ieee.ieee64, s.cell.size = 1 → s.coords.size = 1 →
      ∃ s', volHex Ieee.ieee64 m s = some s' ∧ s'.cell.get 0 = some (none : Option ℝ) := by
  have h3 : (2 : ℝ) ^ (1023 : ℤ) = 2 ^ (341 : ℤ) * 2 ^ (341 : ℤ) * 2 ^ (341 : ℤ) := by
    rw [← zpow_add₀ (by norm_num : (2 : ℝ) ≠ 0), ← zpow_add₀ (by norm_num : (2 : ℝ) ≠ 0)]
    congr 1
  refine ⟨box (2 ^ (341 : ℤ)) (2 ^ (341 : ℤ)) (2 ^ (341 : ℤ)), box_ok _ _ _, rfl, by rw [box_volume, h3], ?_, ?_⟩
  · have h := Ieee.ieee64.exact 1 1023 (by rw [Ieee.ieee64_bits]; norm_num) (by rw [Ieee.ieee64_emin]; norm_num)
    rw [Int.cast_one, one_mul] at h
    have := Ieee.rnd_some (A := Ieee.ieee64) (x := 2 ^ (1023 : ℤ)) (by
      rw [h, Ieee.ieee64_top, abs_of_pos (by positivity)]
      exact zpow_lt_zpow_right₀ (by norm_num) (by norm_num))
    rwa [h] at this
  · intro s h1 h2
    obtain ⟨s', e, z, e2⟩ := volHex_spec (box_ok (2 ^ (341 : ℤ)) (2 ^ (341 : ℤ)) (2 ^ (341 : ℤ))) s h1 h2
    obtain ⟨t, t1, t2⟩ := e2 0 Nat.one_pos
    refine ⟨s', e, ?_⟩
    rw [Arr.get_lt (by rw [z]; exact Nat.one_pos), t2, box_eval (fun _ => 2 ^ (341 : ℤ)) t1]
    have key : hexExpr.evalI Ieee.ieee64 (fun a l => boxBits a l * 2 ^ (341 : ℤ)) = none := by
      rcases hE : hexExpr.evalI Ieee.ieee64 (fun a l => boxBits a l * 2 ^ (341 : ℤ)) with _ | r
      · rfl
      exfalso
      obtain ⟨-, ex⟩ := evalI_exact (A := Ieee.ieee64) (s := fun _ => 341) (m := boxBits) (v := fun a l => boxBits a l * 2 ^ (341 : ℤ))
        (by rw [Ieee.ieee64_emin]; norm_num) (fun _ => by norm_num) (fun _ _ => rfl) (hexExpr_deg.homog _)
      have er := ex (by rw [Ieee.ieee64_bits]; decide +kernel) r hE
      rw [eval_eq (s := fun _ => 341) (m := boxBits) (fun _ _ => rfl) (hexExpr_deg.homog _),
        show hexExpr.evalZ boxBits = 12 by decide +kernel] at er
      obtain ⟨x, y, -, -, -, hr⟩ := FNum.add_some (A := Ieee.ieee64) (r := r) hE
      rw [Ieee.ieee64_top, er, show (List.map (fun _ : ℕ => (341 : ℤ)) [0, 1, 2]).sum = 1023 by decide,
        show (1024 : ℤ) = 1 + 1023 by norm_num, zpow_add₀ (by norm_num : (2 : ℝ) ≠ 0), zpow_one] at hr
      have hp : (0 : ℝ) < 2 ^ (1023 : ℤ) := by positivity
      generalize (2 : ℝ) ^ (1023 : ℤ) = q at hp hr
      push_cast at hr
      rw [abs_of_pos (by linarith)] at hr
      linarith
    rw [key]
    rfl

/-- A finite number of modulus at most `8^k 2^-600`. -/
def Tiny (k : ℕ) (a : FNum Ieee.ieee64) : Prop := ∃ r : ℝ, a = FNum.fin r ∧ |r| ≤ 8 ^ k * 2 ^ (-600 : ℤ)

theorem tiny_rnd {k : ℕ} (hk : k ≤ 3) {x : ℝ} (h : |x| ≤ 2 * 8 ^ k * 2 ^ (-600 : ℤ)) : Tiny (k + 1) (Ieee.ieee64.rnd x) := by
  have he := Ieee.ieee64.err x
  rw [Ieee.ieee64_u, Ieee.ieee64_δ] at he
  have h1 : (2 : ℝ) ^ (-1022 : ℤ) ≤ 2 ^ (-600 : ℤ) := zpow_le_zpow_right₀ (by norm_num) (by norm_num)
  have h2 : (2 : ℝ) ^ (-600 : ℤ) ≤ 2 ^ (-30 : ℤ) := zpow_le_zpow_right₀ (by norm_num) (by norm_num)
  have h3 : (2 : ℝ) ^ (30 : ℤ) ≤ 2 ^ (1024 : ℤ) := zpow_le_zpow_right₀ (by norm_num) (by norm_num)
  have h4 : (0 : ℝ) < 2 ^ (-600 : ℤ) := by positivity
  have h5 : (8 : ℝ) ^ k ≤ 8 ^ 3 := pow_le_pow_right₀ (by norm_num) hk
  have h6 : (1 : ℝ) ≤ 8 ^ k := one_le_pow₀ (by norm_num)
  have ha := abs_add_le (Ieee.ieee64.fl x - x) x
  rw [sub_add_cancel] at ha
  have top := Ieee.ieee64_top
  have hb : |Ieee.ieee64.fl x| ≤ 8 ^ (k + 1) * 2 ^ (-600 : ℤ) ∧ |Ieee.ieee64.fl x| < Ieee.ieee64.top := by
    rw [top, pow_succ]
    generalize (2 : ℝ) ^ (-1022 : ℤ) = δ at *
    generalize (2 : ℝ) ^ (-600 : ℤ) = ε at *
    generalize (2 : ℝ) ^ (1024 : ℤ) = T at *
    generalize (8 : ℝ) ^ k = K at *
    norm_num at h2 h3 h5 he
    have hKε : ε ≤ K * ε := by nlinarith
    have hKε' : K * ε ≤ 512 * ε := by nlinarith
    have hx := abs_nonneg x
    constructor <;> linarith
  exact ⟨_, Ieee.rnd_some hb.2, hb.1⟩

theorem Tiny.leaf {k : ℕ} {x : ℝ} (h : |x| ≤ 2 ^ (-600 : ℤ)) : Tiny k (FNum.fin x) :=
  ⟨x, rfl, h.trans (le_mul_of_one_le_left (by positivity) (one_le_pow₀ (by norm_num)))⟩

theorem Tiny.neg {k : ℕ} {a : FNum Ieee.ieee64} (h : Tiny k a) : Tiny k (-a) := by
  obtain ⟨r, rfl, hr⟩ := h
  exact ⟨-r, rfl, by rwa [abs_neg]⟩

theorem Tiny.add {k : ℕ} (hk : k ≤ 3) {a b : FNum Ieee.ieee64} (ha : Tiny k a) (hb : Tiny k b) : Tiny (k + 1) (a + b) := by
  obtain ⟨r, rfl, hr⟩ := ha
  obtain ⟨s, rfl, hs⟩ := hb
  exact tiny_rnd hk ((abs_add_le _ _).trans (by linarith))

theorem Tiny.sub {k : ℕ} (hk : k ≤ 3) {a b : FNum Ieee.ieee64} (ha : Tiny k a) (hb : Tiny k b) : Tiny (k + 1) (a - b) := by
  obtain ⟨r, rfl, hr⟩ := ha
  obtain ⟨s, rfl, hs⟩ := hb
  exact tiny_rnd hk ((abs_sub _ _).trans (by linarith))

theorem tiny_mul {x : ℝ} (h : |x| ≤ 2 ^ (-600 : ℤ)) {a : FNum Ieee.ieee64} (ha : Tiny 3 a) : FNum.fin x * a = FNum.fin 0 := by
  obtain ⟨r, rfl, hr⟩ := ha
  refine Ieee.ieee64_underflow ?_
  rw [abs_mul]
  refine (mul_le_mul h hr (abs_nonneg _) (by positivity)).trans ?_
  rw [show (8 : ℝ) ^ 3 = 2 ^ (9 : ℤ) by norm_num, ← zpow_add₀ (by norm_num : (2 : ℝ) ≠ 0), ← zpow_add₀ (by norm_num : (2 : ℝ) ≠ 0)]
  exact zpow_le_zpow_right₀ (by norm_num) (by norm_num)

theorem zero_rnd : Ieee.ieee64.rnd 0 = some 0 := Ieee.ieee64_underflow (by rw [abs_zero]; positivity)

theorem zero_add {a b : FNum Ieee.ieee64} (ha : a = FNum.fin 0) (hb : b = FNum.fin 0) : a + b = FNum.fin 0 := by
  rw [ha, hb, FNum.add_fin, _root_.zero_add]; exact zero_rnd

theorem zero_mul (x : ℝ) {a : FNum Ieee.ieee64} (ha : a = FNum.fin 0) : FNum.fin x * a = FNum.fin 0 := by
  rw [ha, FNum.mul_fin, mul_zero]; exact zero_rnd

/-- If all `y` and `z` are at most `2^-600` in modulus, the sum is zero. -/
theorem hexExpr_underflow (x y z : ℕ → ℝ) (hy : ∀ l, |y l| ≤ 2 ^ (-600 : ℤ)) (hz : ∀ l, |z l| ≤ 2 ^ (-600 : ℤ)) :
    Geom.hexSum (fun l => (FNum.fin (x l) : FNum Ieee.ieee64)) (fun l => FNum.fin (y l)) (fun l => FNum.fin (z l)) = FNum.fin 0 := by
  have L : ∀ k l, Tiny k (FNum.fin (z l)) := fun k l => Tiny.leaf (hz l)
  have a2 : ∀ {a b}, Tiny 2 a → Tiny 2 b → Tiny 3 (a + b) := Tiny.add (by norm_num)
  have a1 : ∀ {a b}, Tiny 1 a → Tiny 1 b → Tiny 2 (a + b) := Tiny.add (by norm_num)
  have a0 : ∀ {a b}, Tiny 0 a → Tiny 0 b → Tiny 1 (a + b) := Tiny.add (by norm_num)
  have s2 : ∀ {a b}, Tiny 2 a → Tiny 2 b → Tiny 3 (a - b) := Tiny.sub (by norm_num)
  have s1 : ∀ {a b}, Tiny 1 a → Tiny 1 b → Tiny 2 (a - b) := Tiny.sub (by norm_num)
  have s0 : ∀ {a b}, Tiny 0 a → Tiny 0 b → Tiny 1 (a - b) := Tiny.sub (by norm_num)
  have M : ∀ l {a}, Tiny 3 a → FNum.fin (y l) * a = FNum.fin 0 := fun l {a} => tiny_mul (hy l)
  have Z : ∀ l {a}, a = FNum.fin 0 → FNum.fin (x l) * a = FNum.fin 0 := fun l {a} => zero_mul (x l)
  unfold Geom.hexSum
  repeat' first | exact L _ _ | exact Tiny.neg (L _ _) | apply a2 | apply s2 | apply a1 | apply s1 | apply a0 | apply s0 | apply M | apply Z | apply zero_add

/-- **C109 (underflow).**  A box with sides `2^300`, `2^-600` and `2^-600`, whose volume `2^-900` is a normal double, gets the volume zero. -/
theorem C109_underflow_negation : ∃ m : Mesh, CellsOK m ∧ m.cells = 1 ∧
    volume (fun l d => m.coords.val (m.nodesInCell.val (0 * 8 + l)) d) = 2 ^ (-900 : ℤ) ∧
    Ieee.ieee64.rnd (2 ^ (-900 : ℤ)) = some (2 ^ (-900 : ℤ)) ∧
    ∀ s : Hex Ieee.ieee64, s.cell.size = 1 → s.coords.size = 1 →
      ∃ s', volHex Ieee.ieee64 m s = some s' ∧ s'.cell.get 0 = some (FNum.fin 0) := by
  have h3 : (2 : ℝ) ^ (-900 : ℤ) = 2 ^ (300 : ℤ) * 2 ^ (-600 : ℤ) * 2 ^ (-600 : ℤ) := by
    rw [← zpow_add₀ (by norm_num : (2 : ℝ) ≠ 0), ← zpow_add₀ (by norm_num : (2 : ℝ) ≠ 0)]
    congr 1
  refine ⟨box (2 ^ (300 : ℤ)) (2 ^ (-600 : ℤ)) (2 ^ (-600 : ℤ)), box_ok _ _ _, rfl, by rw [box_volume, h3], ?_, ?_⟩
  · have h := Ieee.ieee64.exact 1 (-900) (by rw [Ieee.ieee64_bits]; norm_num) (by rw [Ieee.ieee64_emin]; norm_num)
    rw [Int.cast_one, one_mul] at h
    have := Ieee.rnd_some (A := Ieee.ieee64) (x := 2 ^ (-900 : ℤ)) (by
      rw [h, Ieee.ieee64_top, abs_of_pos (by positivity)]
      exact zpow_lt_zpow_right₀ (by norm_num) (by norm_num))
    rwa [h] at this
  · intro s h1 h2
    obtain ⟨s', e, z, e2⟩ := volHex_spec (box_ok (2 ^ (300 : ℤ)) (2 ^ (-600 : ℤ)) (2 ^ (-600 : ℤ))) s h1 h2
    obtain ⟨t, t1, t2⟩ := e2 0 Nat.one_pos
    refine ⟨s', e, ?_⟩
    rw [Arr.get_lt (by rw [z]; exact Nat.one_pos), t2,
      box_eval (fun d => if d = 0 then 2 ^ (300 : ℤ) else 2 ^ (-600 : ℤ)) (t := t) t1]
    have bits : ∀ a l, boxBits a l = 0 ∨ boxBits a l = 1 := by
      intro a l
      unfold boxBits
      split_ifs <;> omega
    have sm : ∀ a l, |(boxBits a l : ℝ) * 2 ^ (-600 : ℤ)| ≤ 2 ^ (-600 : ℤ) := by
      intro a l
      have hp : (0 : ℝ) < 2 ^ (-600 : ℤ) := by positivity
      rcases bits a l with h | h <;> rw [h] <;> generalize (2 : ℝ) ^ (-600 : ℤ) = q at * <;> simp [abs_of_pos hp, hp.le]
    have key := hexExpr_underflow (fun l => boxBits 0 l * 2 ^ (300 : ℤ)) (fun l => boxBits 1 l * 2 ^ (-600 : ℤ))
      (fun l => boxBits 2 l * 2 ^ (-600 : ℤ)) (sm 1) (sm 2)
    have hE : hexExpr.evalI Ieee.ieee64 (fun a l => boxBits a l * (if a = 0 then 2 ^ (300 : ℤ) else 2 ^ (-600 : ℤ))) = FNum.fin 0 := key
    rw [hE]
    obtain ⟨c, hc, -⟩ := rnd_fin (A := Ieee.ieee64) u_lt (x := 1 / 12) (y := 1 / 12) (M := 1 / 12) (k := 0)
      (by simp [grow]) (by rw [abs_of_nonneg (by norm_num)]) (by
        have hg := grow19
        have hm := grow_mono u_lt (show 1 ≤ 19 by omega)
        have hδ6 := delta_le
        have hδ := Ieee.ieee64.δ_nonneg
        have h3 : (2 : ℝ) ^ (30 : ℤ) ≤ 2 ^ (1024 : ℤ) := zpow_le_zpow_right₀ (by norm_num) (by norm_num)
        rw [Ieee.ieee64_top]
        generalize (2 : ℝ) ^ (1024 : ℤ) = T at *
        generalize Ieee.ieee64.δ = δ at *
        change grow Ieee.ieee64 1 * _ < _
        generalize grow Ieee.ieee64 19 = G at *
        generalize grow Ieee.ieee64 1 = G1 at *
        norm_num at hg hδ6 h3
        have : G1 * (1 / 12 + δ) ≤ 2 * (1 / 12 + δ) := mul_le_mul_of_nonneg_right (by linarith) (by linarith)
        linarith)
    rw [show twelfth Ieee.ieee64 = FNum.fin c from hc, FNum.mul_fin, MulZeroClass.zero_mul]
    exact congrArg some zero_rnd

end Verif.Fp.GeomI
