import Verif.Fp.HexLemmas

/-!
# C96: the volumes of `get_vol_hex` in rounded arithmetic
-/

namespace Verif.Fp.Geom
open Verif.Geometry Verif.RefElem Expr Finset

variable {R : Rounding}

theorem hexVol_eq_expr (t : ℕ → ℕ → ℝ) : hexVol R (fun l => t l 0) (fun l => t l 1) (fun l => t l 2) =
    R.fl (hexExpr.evalFl R (fun a l => t l a) * R.fl (1 / 12)) := rfl

theorem exact_eq_expr (t : ℕ → ℕ → ℝ) : Geometry.hexVol (fun l => t l 0) (fun l => t l 1) (fun l => t l 2) =
    hexExpr.eval (fun a l => t l a) * (1 / 12) := rfl

theorem hexVol_err (hu : R.u < 1) (t : ℕ → ℕ → ℝ) {A B C : ℝ} (hA : ∀ l < 8, |t l 0| ≤ A) (hB : ∀ l < 8, |t l 1| ≤ B)
    (hC : ∀ l < 8, |t l 2| ≤ C) :
    |hexVol R (fun l => t l 0) (fun l => t l 1) (fun l => t l 2) -
      Geometry.hexVol (fun l => t l 0) (fun l => t l 1) (fun l => t l 2)| ≤
      (((1 - R.u) ^ 19)⁻¹ - 1) * (12 * A * B * C) := by
  have A0 : 0 ≤ A := (abs_nonneg _).trans (hA 0 (by omega))
  have B0 : 0 ≤ B := (abs_nonneg _).trans (hB 0 (by omega))
  have C0 : 0 ≤ C := (abs_nonneg _).trans (hC 0 (by omega))
  rw [hexVol_eq_expr, exact_eq_expr]
  set v : ℕ → ℕ → ℝ := fun a l => t l a with hv
  set w : ℕ → ℝ := fun a => if a = 0 then A else if a = 1 then B else C with hw
  have hmag : hexExpr.mag v ≤ 144 * A * B * C := by
    have h1 : hexExpr.mag v ≤ hexExpr.mag (fun a _ => w a) := mag_mono (hexExpr_all (by
      intro a ha i hi
      have w0 : 0 ≤ w a := by rw [hw]; dsimp only; split_ifs <;> assumption
      rw [abs_of_nonneg w0]
      have c : a = 0 ∨ a = 1 ∨ a = 2 := by omega
      rcases c with rfl | rfl | rfl
      · exact hA i hi
      · exact hB i hi
      · exact hC i hi))
    rw [hexExpr_mag_const] at h1
    have e0 : w 0 = A := rfl
    have e1 : w 1 = B := rfl
    have e2 : w 2 = C := rfl
    rw [e0, e1, e2, abs_of_nonneg A0, abs_of_nonneg B0, abs_of_nonneg C0] at h1
    exact h1
  have hm0 := mag_nonneg v hexExpr
  have hE := evalFl_err hu v hexExpr
  rw [hexExpr_cost] at hE
  -- the rounded constant
  have h12 : |R.fl (1 / 12) - 1 / 12| ≤ (((1 - R.u) ^ 1)⁻¹ - 1) * (1 / 12) := by
    have := fl_step hu (k := 0) (x := 1 / 12) (y := 1 / 12) (M := 1 / 12) (by simp)
      (by rw [abs_of_nonneg (by norm_num : (0 : ℝ) ≤ 1 / 12)])
    simpa using this
  have hprod : |hexExpr.evalFl R v * R.fl (1 / 12) - hexExpr.eval v * (1 / 12)| ≤
      (((1 - R.u) ^ 18)⁻¹ - 1) * (hexExpr.mag v * (1 / 12)) := by
    have g1 := err_nonneg hu 17
    have g2 := err_nonneg hu 1
    have a1 := abs_eval_le v hexExpr
    set G1 := ((1 - R.u) ^ 17)⁻¹ - 1 with hG1
    set G2 := ((1 - R.u) ^ 1)⁻¹ - 1 with hG2
    have hG : ((1 - R.u) ^ 18)⁻¹ - 1 = (1 + G1) * (1 + G2) - 1 := by
      rw [show (18 : ℕ) = 17 + 1 from rfl, pow_add, mul_inv, hG1, hG2]; ring
    have b2 : |R.fl (1 / 12)| ≤ (1 + G2) * (1 / 12) := by
      have := abs_add_le (R.fl (1 / 12) - 1 / 12) (1 / 12)
      rw [sub_add_cancel, abs_of_nonneg (by norm_num : (0 : ℝ) ≤ 1 / 12)] at this
      linarith
    rw [hG, show hexExpr.evalFl R v * R.fl (1 / 12) - hexExpr.eval v * (1 / 12) =
      (hexExpr.evalFl R v - hexExpr.eval v) * R.fl (1 / 12) + hexExpr.eval v * (R.fl (1 / 12) - 1 / 12) by ring]
    refine (abs_add_le _ _).trans ?_
    rw [abs_mul, abs_mul]
    have c1 : |hexExpr.evalFl R v - hexExpr.eval v| * |R.fl (1 / 12)| ≤ G1 * hexExpr.mag v * ((1 + G2) * (1 / 12)) :=
      mul_le_mul hE b2 (abs_nonneg _) (mul_nonneg g1 hm0)
    have c2 : |hexExpr.eval v| * |R.fl (1 / 12) - 1 / 12| ≤ hexExpr.mag v * (G2 * (1 / 12)) :=
      mul_le_mul a1 h12 (abs_nonneg _) hm0
    calc _ ≤ G1 * hexExpr.mag v * ((1 + G2) * (1 / 12)) + hexExpr.mag v * (G2 * (1 / 12)) := add_le_add c1 c2
      _ = _ := by ring
  have hfin := fl_step hu (k := 18) (M := hexExpr.mag v * (1 / 12)) hprod (by
    rw [abs_mul, abs_of_nonneg (by norm_num : (0 : ℝ) ≤ 1 / 12)]
    exact mul_le_mul_of_nonneg_right (abs_eval_le v hexExpr) (by norm_num))
  refine hfin.trans (mul_le_mul_of_nonneg_left ?_ (err_nonneg hu 19))
  linarith

/-- **C96.**  `get_vol_hex` in rounded arithmetic, on any mesh: the stored volume of every cell differs from the volume of the
trilinear hexahedron through its nodes by at most `19 u / (1 - 19 u)` times `12 A B C`, where `A`, `B` and `C` bound the moduli of the
coordinates of its nodes. -/
theorem C96_volume (hu : 19 * R.u < 1) (m : Mesh) (h : CellsOK m) (verts0 : ℕ → ℕ → ℝ) (s : Vol)
    (h1 : s.cell.size = m.cells) (h2 : s.coords.size = m.cells) :
    ∃ s', volHex R m verts0 s = some s' ∧ ∀ c < m.cells, ∃ V, s'.cell.get c = some V ∧ ∀ A B C : ℝ,
      (∀ l < 8, |m.coords.val (m.nodesInCell.val (c * 8 + l)) 0| ≤ A ∧ |m.coords.val (m.nodesInCell.val (c * 8 + l)) 1| ≤ B ∧
        |m.coords.val (m.nodesInCell.val (c * 8 + l)) 2| ≤ C) →
      |V - volume fun l d => m.coords.val (m.nodesInCell.val (c * 8 + l)) d| ≤ 19 * R.u / (1 - 19 * R.u) * (12 * A * B * C) := by
  have hu1 : R.u < 1 := by have := R.u_nonneg; linarith
  obtain ⟨s', e, -, z, -, e2⟩ := volHex_spec (R := R) h verts0 s h1 h2
  refine ⟨s', e, fun c hc => ?_⟩
  obtain ⟨t, t1, t2⟩ := e2 c hc
  refine ⟨_, Arr.get_lt (by omega), ?_⟩
  intro A B C hb
  have inv : ∀ l < 8, ∃ l' < 8, cCon l' = l := by decide
  have bd : ∀ l < 8, |t l 0| ≤ A ∧ |t l 1| ≤ B ∧ |t l 2| ≤ C := by
    intro l hl
    obtain ⟨l', hl', rfl⟩ := inv l hl
    rw [t1 l' hl' 0 (by omega), t1 l' hl' 1 (by omega), t1 l' hl' 2 (by omega)]
    exact hb l' hl'
  have key := hexVol_err hu1 t (fun l hl => (bd l hl).1) (fun l hl => (bd l hl).2.1) (fun l hl => (bd l hl).2.2)
  rw [hexVol_eq _ _ t1] at key
  rw [t2]
  refine key.trans (mul_le_mul_of_nonneg_right ?_ ?_)
  · have := factor_le hu1 (k := 19) (by exact_mod_cast hu)
    exact_mod_cast this
  · have A0 : 0 ≤ A := (abs_nonneg _).trans (hb 0 (by omega)).1
    have B0 : 0 ≤ B := (abs_nonneg _).trans (hb 0 (by omega)).2.1
    have C0 : 0 ≤ C := (abs_nonneg _).trans (hb 0 (by omega)).2.2
    positivity

/-- **C96 (double precision).**  With coordinates of modulus at most `L` the error is at most `L^3 / 2^45`; so a cell of larger volume
gets a positive one. -/
theorem C96_double (m : Mesh) (h : CellsOK m) (verts0 : ℕ → ℕ → ℝ) (s : Vol)
    (h1 : s.cell.size = m.cells) (h2 : s.coords.size = m.cells) :
    ∃ s', volHex Rounding.binary64 m verts0 s = some s' ∧ ∀ c < m.cells, ∃ V, s'.cell.get c = some V ∧ ∀ L : ℝ,
      (∀ l < 8, ∀ d < 3, |m.coords.val (m.nodesInCell.val (c * 8 + l)) d| ≤ L) →
      |V - volume fun l d => m.coords.val (m.nodesInCell.val (c * 8 + l)) d| ≤ L ^ 3 / 2 ^ 45 ∧
      (L ^ 3 / 2 ^ 45 < volume (fun l d => m.coords.val (m.nodesInCell.val (c * 8 + l)) d) → 0 < V) := by
  obtain ⟨s', e, k⟩ := C96_volume (R := Rounding.binary64) (by rw [Rounding.binary64_u]; norm_num) m h verts0 s h1 h2
  refine ⟨s', e, fun c hc => ?_⟩
  obtain ⟨V, v1, v2⟩ := k c hc
  refine ⟨V, v1, fun L hL => ?_⟩
  have L0 : 0 ≤ L := (abs_nonneg _).trans (hL 0 (by omega) 0 (by omega))
  have key := v2 L L L fun l hl => ⟨hL l hl 0 (by omega), hL l hl 1 (by omega), hL l hl 2 (by omega)⟩
  have L3 : 0 ≤ L ^ 3 := by positivity
  have b : |V - volume fun l d => m.coords.val (m.nodesInCell.val (c * 8 + l)) d| ≤ L ^ 3 / 2 ^ 45 := by
    refine key.trans ?_
    rw [Rounding.binary64_u]
    have : (19 : ℝ) * (1 / 2 ^ 53) / (1 - 19 * (1 / 2 ^ 53)) * 12 ≤ 1 / 2 ^ 45 := by norm_num
    nlinarith
  refine ⟨b, fun hV => ?_⟩
  have := (abs_le.1 b).1
  linarith

/-- **C96 (grids).**  If the coordinates of the nodes are integer multiples of powers of two, `i 2^p`, `j 2^q`, `k 2^r`, with
`144 I J K` at most `2^53` (`2^bits`) for bounds `I`, `J`, `K` of the integers, the stored volume has two roundings only: relative
error at most `2 u + u^2`. -/
theorem C96_grid (m : Mesh) (h : CellsOK m) (verts0 : ℕ → ℕ → ℝ) (s : Vol)
    (h1 : s.cell.size = m.cells) (h2 : s.coords.size = m.cells) :
    ∃ s', volHex R m verts0 s = some s' ∧ ∀ c < m.cells, ∃ V, s'.cell.get c = some V ∧
      ∀ (i : ℕ → ℕ → ℤ) (p : ℕ → ℤ) (N : ℕ → ℤ),
      (∀ l < 8, ∀ d < 3, m.coords.val (m.nodesInCell.val (c * 8 + l)) d = i l d * 2 ^ p d ∧ |i l d| ≤ N d) →
      144 * N 0 * N 1 * N 2 ≤ 2 ^ R.bits →
      |V - volume fun l d => m.coords.val (m.nodesInCell.val (c * 8 + l)) d| ≤
        (2 * R.u + R.u ^ 2) * |volume fun l d => m.coords.val (m.nodesInCell.val (c * 8 + l)) d| := by
  obtain ⟨s', e, -, z, -, e2⟩ := volHex_spec (R := R) h verts0 s h1 h2
  refine ⟨s', e, fun c hc => ?_⟩
  obtain ⟨t, t1, t2⟩ := e2 c hc
  refine ⟨_, Arr.get_lt (by omega), ?_⟩
  intro i p N hi hN
  have inv : ∀ l < 8, ∃ l' < 8, cCon l' = l := by decide
  -- integers in the order of the local arrays, zero outside
  choose! g g1 g2 using inv
  set M : ℕ → ℕ → ℤ := fun a l => if a < 3 ∧ l < 8 then i (g l) a else 0 with hM
  set v : ℕ → ℕ → ℝ := fun a l => (M a l : ℝ) * 2 ^ p a with hv
  have hvt : ∀ a < 3, ∀ l < 8, t l a = v a l := by
    intro a ha l hl
    have := t1 (g l) (g1 l hl) a ha
    rw [g2 l hl] at this
    rw [this, hv, hM]
    dsimp only
    rw [if_pos ⟨ha, hl⟩]
    exact (hi (g l) (g1 l hl) a ha).1
  have N0 : ∀ d < 3, 0 ≤ N d := fun d hd => (abs_nonneg _).trans (hi 0 (by omega) d hd).2
  have hmz : hexExpr.magZ M ≤ 2 ^ R.bits := by
    refine le_trans ?_ hN
    have : ((hexExpr.magZ M : ℤ) : ℝ) ≤ ((144 * N 0 * N 1 * N 2 : ℤ) : ℝ) := by
      rw [magZ_cast]
      have q : hexExpr.mag (fun a l => (M a l : ℝ)) ≤ hexExpr.mag (fun a _ => (N a : ℝ)) := mag_mono (hexExpr_all (by
        intro a ha l hl
        rw [hM]
        dsimp only
        rw [if_pos ⟨ha, hl⟩, abs_of_nonneg (by exact_mod_cast N0 a ha : (0 : ℝ) ≤ (N a : ℝ))]
        exact_mod_cast (hi (g l) (g1 l hl) a ha).2))
      rw [hexExpr_mag_const (fun a => (N a : ℝ)), abs_of_nonneg (by exact_mod_cast N0 0 (by omega) : (0 : ℝ) ≤ (N 0 : ℝ)),
        abs_of_nonneg (by exact_mod_cast N0 1 (by omega) : (0 : ℝ) ≤ (N 1 : ℝ)),
        abs_of_nonneg (by exact_mod_cast N0 2 (by omega) : (0 : ℝ) ≤ (N 2 : ℝ))] at q
      push_cast
      exact q
    exact_mod_cast this
  have E := evalFl_exact (R := R) (s := p) (m := M) (v := v) (fun _ _ => rfl) (hexExpr_deg.homog p) hmz
  have hV := hexVol_eq _ _ t1
  have c1 : hexExpr.evalFl R (fun a l => t l a) = hexExpr.eval (fun a l => t l a) := by
    rw [evalFl_congr (w := v) (hexExpr_all hvt), E, eval_congr (w := v) (hexExpr_all hvt)]
  rw [t2, hexVol_eq_expr, c1]
  rw [exact_eq_expr] at hV
  have hV' : volume (fun l d => m.coords.val (m.nodesInCell.val (c * 8 + l)) d) =
      hexExpr.eval (fun a l => t l a) * (1 / 12) := hV.symm
  rw [hV']
  set S := hexExpr.eval (fun a l => t l a)
  have u0 := R.u_nonneg
  have f1 := R.err (1 / 12)
  have f2 := R.err (S * R.fl (1 / 12))
  rw [abs_of_nonneg (by norm_num : (0 : ℝ) ≤ 1 / 12)] at f1
  have f3 : |R.fl (1 / 12)| ≤ (1 + R.u) * (1 / 12) := by
    have := R.fl_abs_le (1 / 12)
    rwa [abs_of_nonneg (by norm_num : (0 : ℝ) ≤ 1 / 12)] at this
  have S0 := abs_nonneg S
  rw [abs_mul] at f2
  rw [abs_mul, abs_of_nonneg (by norm_num : (0 : ℝ) ≤ 1 / 12)]
  have t1' : |S * R.fl (1 / 12) - S * (1 / 12)| ≤ |S| * (R.u * (1 / 12)) := by
    rw [← mul_sub, abs_mul]; exact mul_le_mul_of_nonneg_left f1 S0
  have t2' : R.u * (|S| * |R.fl (1 / 12)|) ≤ R.u * (|S| * ((1 + R.u) * (1 / 12))) :=
    mul_le_mul_of_nonneg_left (mul_le_mul_of_nonneg_left f3 S0) u0
  have := abs_add_le (R.fl (S * R.fl (1 / 12)) - S * R.fl (1 / 12)) (S * R.fl (1 / 12) - S * (1 / 12))
  rw [sub_add_sub_cancel] at this
  nlinarith

/-- **C96 (centres).**  The accessor `cell_coords(c, d)` returns the mean of the eight nodes of the cell up to `9 u / (1 - 9 u)` times the mean
of their moduli. -/
theorem C96_center (hu : 9 * R.u < 1) (m : Mesh) (h : CellsOK m) (verts0 : ℕ → ℕ → ℝ) (s : Vol)
    (h1 : s.cell.size = m.cells) (h2 : s.coords.size = m.cells) :
    ∃ s', volHex R m verts0 s = some s' ∧ ∀ c < m.cells, ∀ d, ∃ x, (cellCoords R m s'.coords c d).map Prod.snd = some x ∧
      |x - (∑ l ∈ range 8, m.coords.val (m.nodesInCell.val (c * 8 + l)) d) / 8| ≤
        9 * R.u / (1 - 9 * R.u) * ((∑ l ∈ range 8, |m.coords.val (m.nodesInCell.val (c * 8 + l)) d|) / 8) := by
  have hu1 : R.u < 1 := by have := R.u_nonneg; linarith
  obtain ⟨s', e, -, -, z, -⟩ := volHex_spec (R := R) h verts0 s h1 h2
  refine ⟨s', e, fun c hc d => ⟨_, by rw [cellCoords_spec (h.cell hc) (by omega)]; rfl, ?_⟩⟩
  obtain ⟨t, ht, es⟩ := Rel.loop_sum hu1 (k := 0) 8 (fun l => nodePt m c l d) (fun l => nodePt m c l d)
    (fun j _ => Rel.refl hu1 0 _)
  obtain ⟨r, hr, er⟩ := Pert.fl hu1 (loop 8 (fun l p => R.fl (p + nodePt m c l d)) 0 / 8)
  rw [er, es]
  have e3 : (∑ j ∈ range 8, nodePt m c j d * t j) / 8 * r - (∑ l ∈ range 8, nodePt m c l d) / 8 =
      ∑ j ∈ range 8, nodePt m c j d * (t j * r - 1) / 8 := by
    rw [div_mul_eq_mul_div, sum_mul, ← sub_div, ← sum_sub_distrib, sum_div]
    exact sum_congr rfl fun j _ => by ring
  show |(∑ j ∈ range 8, nodePt m c j d * t j) / 8 * r - (∑ l ∈ range 8, nodePt m c l d) / 8| ≤
    _ * ((∑ l ∈ range 8, |nodePt m c l d|) / 8)
  rw [e3, sum_div, mul_sum]
  refine (abs_sum_le_sum_abs _ _).trans (sum_le_sum fun j hj => ?_)
  have hp : Pert R 9 (t j * r) := (ht j (mem_range.1 hj)).mul hu1 hr
  have b := Pert.err hu1 hp (by exact_mod_cast hu)
  push_cast at b
  rw [abs_div, abs_mul, abs_of_nonneg (by norm_num : (0 : ℝ) ≤ 8)]
  calc |nodePt m c j d| * |t j * r - 1| / 8 ≤ |nodePt m c j d| * (9 * R.u / (1 - 9 * R.u)) / 8 := by gcongr
    _ = _ := by ring

/-- One cell with sides 1, 1 and 123456789, at the integer position `(a, a, 0)`. -/
def farBox (a : ℤ) : Mesh :=
  ⟨0, 1, 0, 0, 0, ⟨0, fun _ => 0⟩, ⟨0, fun _ => 0⟩, ⟨8, fun a => a⟩, ⟨0, fun _ => 0⟩,
    ⟨8, fun n d => if d = 0 then ((a + (n % 2 : ℕ) : ℤ) : ℝ) else if d = 1 then ((a + (n / 2 % 2 : ℕ) : ℤ) : ℝ) else
      ((123456789 * (n / 4 % 2 : ℕ) : ℤ) : ℝ)⟩⟩

theorem farBox_ok (a : ℤ) : CellsOK (farBox a) := ⟨rfl, fun _ h => h⟩

/-- Its nodes in the order of the local arrays of `get_vol_hex`. -/
def farNodes (a : ℤ) (d l : ℕ) : ℤ :=
  if d = 0 then a + (cCon l % 2 : ℕ) else if d = 1 then a + (cCon l / 2 % 2 : ℕ) else 123456789 * (cCon l / 4 % 2 : ℕ)

theorem far_rnd : hexExpr.evalRnd (farNodes 536870911) ≤ -19000000000 := by decide +kernel

theorem farBox_volume (a : ℤ) : volume (fun l d => (farBox a).coords.val ((farBox a).nodesInCell.val (0 * 8 + l)) d) = 123456789 := by
  rw [volume_affine (Matrix.diagonal fun d : Fin 3 => if d = 2 then 123456789 else 1)
    (fun d => if d = 2 then 0 else (a : ℝ))]
  · rw [Matrix.det_diagonal]; simp [Fin.prod_univ_three]
  · intro l hl d
    interval_cases l <;> fin_cases d <;> simp [farBox, Matrix.diagonal] <;> norm_num <;> ring

theorem farBox_bad (verts0 : ℕ → ℕ → ℝ) (s : Vol) (h1 : s.cell.size = 1) (h2 : s.coords.size = 1) :
    ∃ s', volHex Rounding.binary64 (farBox 536870911) verts0 s = some s' ∧ ∃ V, s'.cell.get 0 = some V ∧
      V ≤ -1500000000 := by
  obtain ⟨s', e, -, z, -, e2⟩ := volHex_spec (R := Rounding.binary64) (farBox_ok 536870911) verts0 s h1 h2
  obtain ⟨t, t1, t2⟩ := e2 0 (show 0 < 1 by omega)
  refine ⟨s', e, _, Arr.get_lt (by rw [z]; exact Nat.one_pos), ?_⟩
  rw [t2, hexVol_eq_expr]
  have cc : ∀ l < 8, cCon l < 8 ∧ cCon (cCon l) = l := by decide
  have hE : hexExpr.evalFl Rounding.binary64 (fun a l => t l a) =
      hexExpr.evalFl Rounding.binary64 (fun a l => (farNodes 536870911 a l : ℝ)) := evalFl_congr (hexExpr_all (by
    intro a ha l hl
    have := t1 (cCon l) (cc l hl).1 a ha
    rw [(cc l hl).2] at this
    rw [this]
    have c : a = 0 ∨ a = 1 ∨ a = 2 := by omega
    rcases c with rfl | rfl | rfl <;> simp [nodePt, farBox, farNodes]))
  rw [hE, evalRnd_eq]
  have hr : ((hexExpr.evalRnd (farNodes 536870911) : ℤ) : ℝ) ≤ -19000000000 := by exact_mod_cast far_rnd
  have h12 : (1 / 12 : ℝ) * (1 - 1 / 2 ^ 53) ≤ Rounding.binary64.fl (1 / 12) := by
    have := Rounding.binary64.err (1 / 12)
    rw [Rounding.binary64_u, abs_of_nonneg (by norm_num : (0 : ℝ) ≤ 1 / 12)] at this
    have := (abs_le.1 this).1
    linarith
  have hfl : Rounding.binary64.fl (-1500000000) = -1500000000 := by
    have := Rounding.binary64.fl_int (-1500000000) (by rw [Rounding.binary64_bits]; norm_num)
    exact_mod_cast this
  rw [← hfl]
  apply Rounding.binary64.mono
  nlinarith

/-- **C96 (failure).**  In double precision neither the size nor the sign of the volume is preserved far from the origin, although all
coordinates are integers below `2^30` and hence exact: a box with sides 1, 1 and 123456789 gets a negative volume, twelve times
as large as its own, while the same box at the origin gets its volume (up to `2^-51`). -/
theorem C96_negation : ∃ m m' : Mesh, CellsOK m ∧ CellsOK m' ∧ m.cells = 1 ∧
    m'.coords = ⟨m.coords.size, fun n d => m.coords.val n d + (if d < 2 then 536870911 else 0)⟩ ∧
    ∀ (verts0 : ℕ → ℕ → ℝ) (s : Vol), s.cell.size = 1 → s.coords.size = 1 →
      ∃ s' s'', volHex Rounding.binary64 m verts0 s = some s' ∧ volHex Rounding.binary64 m' verts0 s = some s'' ∧
        ∃ V V', s'.cell.get 0 = some V ∧ s''.cell.get 0 = some V' ∧
          volume (fun l d => m.coords.val (m.nodesInCell.val (0 * 8 + l)) d) = 123456789 ∧
          volume (fun l d => m'.coords.val (m'.nodesInCell.val (0 * 8 + l)) d) = 123456789 ∧
          |V - 123456789| ≤ 123456789 / 2 ^ 51 ∧ V' ≤ -12 * 123456789 := by
  refine ⟨farBox 0, farBox 536870911, farBox_ok _, farBox_ok _, rfl, ?_, ?_⟩
  · refine congrArg (Arr.mk 8) ?_
    funext n d
    simp only [farBox]
    split_ifs with a b c d e
    all_goals first | omega | (push_cast; ring)
  · intro verts0 s h1 h2
    obtain ⟨s', e, k⟩ := C96_grid (R := Rounding.binary64) (farBox 0) (farBox_ok 0) verts0 s h1 h2
    obtain ⟨s'', f, V', v1, v2⟩ := farBox_bad verts0 s h1 h2
    obtain ⟨V, w1, w2⟩ := k 0 (show 0 < 1 by omega)
    refine ⟨s', s'', e, f, V, V', w1, v1, farBox_volume _, farBox_volume _, ?_, by linarith⟩
    have := w2 (fun l d => if d = 0 then (l % 2 : ℕ) else if d = 1 then (l / 2 % 2 : ℕ) else 123456789 * (l / 4 % 2 : ℕ))
      (fun _ => 0) (fun d => if d < 2 then 1 else 123456789) (by
        intro l hl d hd
        interval_cases l <;> interval_cases d <;> simp [farBox]) (by rw [Rounding.binary64_bits]; norm_num)
    rw [farBox_volume, Rounding.binary64_u] at this
    refine this.trans ?_
    rw [abs_of_pos (by norm_num)]
    norm_num

/-- The hypotheses are met: two unit cubes, in double precision. -/
example : ∃ s', volHex Rounding.binary64 twoCubes (fun _ _ => 7) ⟨⟨2, fun _ => 5⟩, ⟨2, fun _ _ => 5⟩, ⟨0, fun _ => 0⟩⟩ = some s' ∧
    ∃ V, s'.cell.get 1 = some V ∧ 0 < V := by
  obtain ⟨s', e, k⟩ := C96_double twoCubes twoCubes_ok (fun _ _ => 7) ⟨⟨2, fun _ => 5⟩, ⟨2, fun _ _ => 5⟩, ⟨0, fun _ => 0⟩⟩ rfl rfl
  obtain ⟨V, v1, v2⟩ := k 1 (by decide)
  refine ⟨s', e, V, v1, (v2 2 ?_).2 ?_⟩
  · intro l hl d hd
    interval_cases l <;> interval_cases d <;> simp [twoCubes] <;> norm_num
  · rw [volume_affine 1 (fun d => if d = 0 then 1 else 0), Matrix.det_one]
    · norm_num
    · intro l hl d
      interval_cases l <;> fin_cases d <;> simp [twoCubes, Matrix.one_apply] <;> norm_num

end Verif.Fp.Geom
