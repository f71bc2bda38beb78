import Verif.Fp.GeomModel
import Verif.Fp.EvalInt
import Verif.Geometry.HexTheorems

/-!
# The volume expression of `get_vol_hex` and its loops in rounded arithmetic
-/

namespace Verif.Fp

namespace Expr

instance : Neg Expr := ⟨Expr.neg⟩
instance : Add Expr := ⟨Expr.add⟩
instance : Sub Expr := ⟨Expr.sub⟩
instance : Mul Expr := ⟨Expr.mul⟩

section
variable (v : ℕ → ℕ → ℝ) (e f : Expr)
theorem mag_neg' : (-e).mag v = e.mag v := rfl
theorem mag_add' : (e + f).mag v = e.mag v + f.mag v := rfl
theorem mag_sub' : (e - f).mag v = e.mag v + f.mag v := rfl
theorem mag_mul' : (e * f).mag v = e.mag v * f.mag v := rfl
end

/-- Every variable of the expression satisfies `p`. -/
def All (p : ℕ → ℕ → Prop) : Expr → Prop
  | var a i => p a i
  | neg e => e.All p
  | add e f => e.All p ∧ f.All p
  | sub e f => e.All p ∧ f.All p
  | mul e f => e.All p ∧ f.All p

section
variable (p : ℕ → ℕ → Prop) (e f : Expr)
theorem all_neg' : (-e).All p = e.All p := rfl
theorem all_add' : (e + f).All p = (e.All p ∧ f.All p) := rfl
theorem all_sub' : (e - f).All p = (e.All p ∧ f.All p) := rfl
theorem all_mul' : (e * f).All p = (e.All p ∧ f.All p) := rfl
end

theorem mag_mono {v w : ℕ → ℕ → ℝ} : ∀ {e : Expr}, e.All (fun a i => |v a i| ≤ |w a i|) → e.mag v ≤ e.mag w
  | var _ _, h => h
  | neg e, h => mag_mono (e := e) h
  | add _ _, h => add_le_add (mag_mono h.1) (mag_mono h.2)
  | sub _ _, h => add_le_add (mag_mono h.1) (mag_mono h.2)
  | mul e _, h => mul_le_mul (mag_mono h.1) (mag_mono h.2) (mag_nonneg _ _) (mag_nonneg w e)

theorem evalFl_congr {R : Rounding} {v w : ℕ → ℕ → ℝ} : ∀ {e : Expr}, e.All (fun a i => v a i = w a i) →
    e.evalFl R v = e.evalFl R w
  | var _ _, h => h
  | neg e, h => congrArg Neg.neg (evalFl_congr (e := e) h)
  | add _ _, h => congrArg R.fl (congrArg₂ (· + ·) (evalFl_congr h.1) (evalFl_congr h.2))
  | sub _ _, h => congrArg R.fl (congrArg₂ (· - ·) (evalFl_congr h.1) (evalFl_congr h.2))
  | mul _ _, h => congrArg R.fl (congrArg₂ (· * ·) (evalFl_congr h.1) (evalFl_congr h.2))

theorem eval_congr {v w : ℕ → ℕ → ℝ} : ∀ {e : Expr}, e.All (fun a i => v a i = w a i) → e.eval v = e.eval w
  | var _ _, h => h
  | neg e, h => congrArg Neg.neg (eval_congr (e := e) h)
  | add _ _, h => congrArg₂ (· + ·) (eval_congr h.1) (eval_congr h.2)
  | sub _ _, h => congrArg₂ (· - ·) (eval_congr h.1) (eval_congr h.2)
  | mul _ _, h => congrArg₂ (· * ·) (eval_congr h.1) (eval_congr h.2)

theorem All.imp {p q : ℕ → ℕ → Prop} (hpq : ∀ a i, p a i → q a i) : ∀ {e : Expr}, e.All p → e.All q
  | var a i, h => hpq a i h
  | neg e, h => All.imp hpq (e := e) h
  | add _ _, h => ⟨h.1.imp hpq, h.2.imp hpq⟩
  | sub _ _, h => ⟨h.1.imp hpq, h.2.imp hpq⟩
  | mul _ _, h => ⟨h.1.imp hpq, h.2.imp hpq⟩

theorem magZ_cast (m : ℕ → ℕ → ℤ) : ∀ e : Expr, ((e.magZ m : ℤ) : ℝ) = e.mag fun a i => (m a i : ℝ)
  | var _ _ => by simp [magZ, mag]
  | neg e => magZ_cast m e
  | add e f => by simp only [magZ, mag]; push_cast; rw [magZ_cast m e, magZ_cast m f]
  | sub e f => by simp only [magZ, mag]; push_cast; rw [magZ_cast m e, magZ_cast m f]
  | mul e f => by simp only [magZ, mag]; push_cast; rw [magZ_cast m e, magZ_cast m f]

/-- Degrees of an expression that is homogeneous whatever the scales are. -/
inductive Deg : Expr → List ℕ → Prop
  | var (a i) : Deg (var a i) [a]
  | neg {e l} : Deg e l → Deg (neg e) l
  | add {e f l} : Deg e l → Deg f l → Deg (add e f) l
  | sub {e f l} : Deg e l → Deg f l → Deg (sub e f) l
  | mul {e f l l'} : Deg e l → Deg f l' → Deg (mul e f) (l ++ l')

theorem Deg.homog (s : ℕ → ℤ) {e : Expr} {l : List ℕ} (h : Deg e l) : Homog s e (l.map s).sum := by
  induction h with
  | var a i => simpa using Homog.var (s := s) a i
  | neg _ ih => exact ih.neg
  | add _ _ ih ih' => exact ih.add ih'
  | sub _ _ ih ih' => exact ih.sub ih'
  | mul _ _ ih ih' => rw [List.map_append, List.sum_append]; exact ih.mul ih'

end Expr

namespace Geom
open Verif.Geometry Verif.RefElem Expr Finset

variable {R : Rounding}

/-- The volume expression in the variables `x l`, `y l`, `z l` (arrays 0, 1 and 2). -/
def hexExpr : Expr := hexSum (Expr.var 0) (Expr.var 1) (Expr.var 2)

theorem hexExpr_evalFl (v : ℕ → ℕ → ℝ) : hexExpr.evalFl R v =
    (hexSum (fun l => (⟨v 0 l⟩ : Num R)) (fun l => ⟨v 1 l⟩) (fun l => ⟨v 2 l⟩)).val := rfl

theorem hexExpr_eval (v : ℕ → ℕ → ℝ) : hexExpr.eval v * (1 / 12) = Geometry.hexVol (v 0) (v 1) (v 2) := rfl

theorem hexExpr_cost : hexExpr.cost = 17 := by decide

theorem hexExpr_all {p : ℕ → ℕ → Prop} (h : ∀ a < 3, ∀ i < 8, p a i) : hexExpr.All p := by
  have q : hexExpr.All (fun a i => a < 3 ∧ i < 8) := by
    simp only [hexExpr, hexSum, all_neg', all_add', all_sub', all_mul', Expr.All]
    norm_num
  exact q.imp fun a i h' => h a h'.1 i h'.2

theorem hexExpr_mag_const (w : ℕ → ℝ) : hexExpr.mag (fun a _ => w a) = 144 * |w 0| * |w 1| * |w 2| := by
  simp only [hexExpr, hexSum, mag_neg', mag_add', mag_sub', mag_mul', Expr.mag]
  ring

theorem hexExpr_deg : Deg hexExpr [0, 1, 2] := by
  have N : ∀ {e l}, Deg e l → Deg (-e) l := Deg.neg
  have A : ∀ {e f l}, Deg e l → Deg f l → Deg (e + f) l := Deg.add
  have S : ∀ {e f l}, Deg e l → Deg f l → Deg (e - f) l := Deg.sub
  have M : ∀ {e f a l}, Deg e [a] → Deg f l → Deg (e * f) (a :: l) := fun h h' => Deg.mul h h'
  unfold hexExpr hexSum
  repeat' first | apply A | apply S | apply N | apply M | exact Deg.var _ _

/-! ### Loops -/

theorem cellCoords_spec {m : Mesh} {c : ℕ} (h : CellOK m c) {cc : Arr (ℕ → ℝ)} (hc : c < cc.size) (d : ℕ) :
    cellCoords R m cc c d = some (⟨cc.size, store cc.val c (store (cc.val c) d
        (R.fl (loop 8 (fun l p => R.fl (p + nodePt m c l d)) 0 / 8)))⟩,
      R.fl (loop 8 (fun l p => R.fl (p + nodePt m c l d)) 0 / 8)) := by
  have L : ∀ n ≤ 8, loopM n (fun l row => do
      let node ← m.nodesInCell.get (c * 8 + l)
      let x ← m.coords.get node
      pure (store row d (R.fl (row d + x d)))) (store (cc.val c) d 0) =
      some (store (cc.val c) d (loop n (fun l p => R.fl (p + nodePt m c l d)) 0)) := by
    intro n hn
    induction n with
    | zero => simp
    | succ n ih =>
      rw [loopM_succ, ih (by omega)]
      simp only [Option.bind_eq_bind, Option.bind_some]
      rw [Arr.get_lt (h.size n (by omega)), Option.bind_some, Arr.get_lt (h.nodes n (by omega)), Option.bind_some]
      rw [loop_succ, store_same]
      refine congrArg some ?_
      funext d'
      by_cases hd : d' = d
      · subst hd; simp only [store_same]; rfl
      · simp only [store_ne _ _ hd]
  unfold cellCoords
  simp only [Option.bind_eq_bind] at L ⊢
  rw [Arr.get_lt hc, Option.bind_some, L 8 (le_refl 8), Option.bind_some, Arr.set_lt _ hc, Option.bind_some]
  simp only [store_same]
  refine congrArg some (congrArg₂ Prod.mk (congrArg (Arr.mk cc.size) ?_) rfl)
  funext c'
  by_cases h1 : c' = c
  · subst h1; simp only [store_same]
    funext d'
    by_cases hd : d' = d
    · subst hd; simp only [store_same]
    · simp only [store_ne _ _ hd]
  · simp only [store_ne _ _ h1]

theorem assign_some {m : Mesh} {c : ℕ} (h : CellOK m c) {cc : Arr (ℕ → ℝ)} (hc : c < cc.size) (d : ℕ) (v : ℝ) :
    ∃ cc', assignCellCoords R m cc c d v = some cc' ∧ cc'.size = cc.size := by
  unfold assignCellCoords
  simp only [Option.bind_eq_bind]
  rw [cellCoords_spec h hc, Option.bind_some, Arr.get_lt (by exact hc), Option.bind_some, Arr.set_lt _ (by exact hc)]
  exact ⟨_, rfl, rfl⟩

theorem hexVerts_spec {m : Mesh} {c : ℕ} (h : CellOK m c) (s : ℕ → ℕ → ℝ) :
    ∃ t, hexVerts R m c (s, fun _ => 0) = some t ∧ (∀ l < 8, ∀ d < 3, t.1 (cCon l) d = nodePt m c l d) := by
  have g : ∀ l < 8, ∀ {β : Type} (k : (ℕ → ℝ) → Option β), ((m.nodesInCell.get (c * 8 + l)).bind fun node =>
      (m.coords.get node).bind k) = k (m.coords.val (m.nodesInCell.val (c * 8 + l))) := by
    intro l hl β k
    rw [Arr.get_lt (h.size l hl), Option.bind_some, Arr.get_lt (h.nodes l hl), Option.bind_some]
  have inj : ∀ l < 8, ∀ l' < 8, cCon l = cCon l' → l = l' := by decide
  have row : ∀ (p : ℕ → ℝ), ∀ d < 3, row3 (p 0) (p 1) (p 2) d = p d := by
    intro p d hd; interval_cases d <;> simp [row3]
  obtain ⟨t, t1, t2⟩ := loopM_spec (n := 8) (s := (s, fun _ => (0 : ℝ)))
    (body := fun l (s : (ℕ → ℕ → ℝ) × (ℕ → ℝ)) => do
      let node ← m.nodesInCell.get (c * 8 + l)
      let p ← m.coords.get node
      let verts := store s.1 (cCon l) (row3 (p 0) (p 1) (p 2))
      pure (verts, row3 (R.fl (s.2 0 + verts l 0)) (R.fl (s.2 1 + verts l 1)) (R.fl (s.2 2 + verts l 2))))
    (fun n t => ∀ l < n, ∀ d < 3, t.1 (cCon l) d = nodePt m c l d)
    (fun l hl => absurd hl (Nat.not_lt_zero l))
    (by
      intro l t hl ih
      simp only [Option.bind_eq_bind]
      rw [g l hl]
      refine ⟨_, rfl, ?_⟩
      intro l' hl' d hd
      by_cases e : l' = l
      · subst e; simp only [store_same]; exact row _ d hd
      · have : cCon l' ≠ cCon l := fun q => e (inj l' (by omega) l hl q)
        simp only [store_ne _ _ this]
        exact ih l' (by omega) d hd)
  exact ⟨t, t1, t2⟩

/-- What `get_vol_hex` stores as volumes. -/
theorem volHex_spec {m : Mesh} (h : CellsOK m) (verts0 : ℕ → ℕ → ℝ) (s : Vol) (h1 : s.cell.size = m.cells)
    (h2 : s.coords.size = m.cells) :
    ∃ s', volHex R m verts0 s = some s' ∧ s'.elem = s.elem ∧ s'.cell.size = m.cells ∧ s'.coords.size = m.cells ∧
      ∀ c < m.cells, ∃ t : ℕ → ℕ → ℝ, (∀ l < 8, ∀ d < 3, t (cCon l) d = nodePt m c l d) ∧
        s'.cell.val c = hexVol R (fun l => t l 0) (fun l => t l 1) (fun l => t l 2) := by
  obtain ⟨t, t1, t2, t3, t4, t5⟩ := loopM_spec (n := m.cells) (body := hexCell R m) (s := ⟨s, verts0, fun _ => 0⟩)
    (fun n t => t.vol.elem = s.elem ∧ t.vol.cell.size = m.cells ∧ t.vol.coords.size = m.cells ∧
      (∀ c < n, ∃ u : ℕ → ℕ → ℝ, (∀ l < 8, ∀ d < 3, u (cCon l) d = nodePt m c l d) ∧
        t.vol.cell.val c = hexVol R (fun l => u l 0) (fun l => u l 1) (fun l => u l 2)))
    ⟨rfl, h1, h2, by intro c hc; omega⟩
    (by
      rintro c t hc ⟨i1, i2, i3, i4⟩
      obtain ⟨u, u1, u2⟩ := hexVerts_spec (R := R) (h.cell hc) t.verts
      obtain ⟨a, a1, a2⟩ := assign_some (R := R) (h.cell hc) (cc := t.vol.coords) (by omega) 0 (R.fl (u.2 0 * (1 / 8)))
      obtain ⟨b, b1, b2⟩ := assign_some (R := R) (h.cell hc) (cc := a) (by omega) 1 (R.fl (u.2 1 * (1 / 8)))
      obtain ⟨d, d1, d2⟩ := assign_some (R := R) (h.cell hc) (cc := b) (by omega) 2 (R.fl (u.2 2 * (1 / 8)))
      unfold hexCell
      simp only [Option.bind_eq_bind]
      rw [u1, Option.bind_some, a1, Option.bind_some, b1, Option.bind_some, d1, Option.bind_some,
        Arr.set_lt _ (by omega), Option.bind_some]
      refine ⟨_, rfl, i1, i2, by show d.size = _; omega, ?_⟩
      intro c' hc'
      by_cases he : c' = c
      · subst he
        exact ⟨u.1, u2, by simp only [store_same]⟩
      · simp only [store_ne _ _ he]
        exact i4 c' (by omega))
  refine ⟨t.vol, ?_, t2, t3, t4, t5⟩
  unfold volHex
  simp only [Option.bind_eq_bind]
  rw [t1]; rfl

end Geom
end Verif.Fp
