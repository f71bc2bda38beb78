import Verif.Geometry.Model
import Verif.Jacobian.Theorems
import Verif.RefElem.TableTheorems

/-!
# Loops of the Jacobian routines
-/

namespace Verif.Geometry
open Finset

/-- The accumulation over the vertices. -/
theorem vertLoop_spec (m : Mesh) (N : ℕ) (vm : ℕ → ℕ) (grad : Arr (ℕ → ℕ → ℝ)) (e lid i j : ℕ)
    (h1 : ∀ v < N, e * m.gaussInElem + vm v < m.nodesInElem.size)
    (h2 : ∀ v < N, m.nodesInElem.val (e * m.gaussInElem + vm v) < m.coords.size) (h3 : lid < grad.size)
    (J : ℕ → ℕ → ℝ) :
    loopM N (fun v J => do
      let node ← m.nodesInElem.get (e * m.gaussInElem + vm v)
      let g ← grad.get lid
      let x ← m.coords.get node
      pure (store2 J i j (J i j + g v j * x i))) (store2 J i j 0) =
    some (store2 J i j (∑ v ∈ range N, grad.val lid v j *
      m.coords.val (m.nodesInElem.val (e * m.gaussInElem + vm v)) i)) := by
  induction N with
  | zero => simp
  | succ N ih =>
    rw [loopM_succ, ih (fun v hv => h1 v (by omega)) (fun v hv => h2 v (by omega))]
    simp only [Option.bind_eq_bind, Option.bind_some]
    rw [Arr.get_lt (h1 N (by omega)), Option.bind_some, Arr.get_lt h3, Option.bind_some,
      Arr.get_lt (h2 N (by omega)), Option.bind_some]
    refine congrArg some ?_
    funext i' j'
    rw [sum_range_succ]
    by_cases h : i' = i ∧ j' = j <;> simp [store2, h]

theorem fillJ_spec (m : Mesh) (N : ℕ) (vm : ℕ → ℕ) (grad : Arr (ℕ → ℕ → ℝ)) (e lid : ℕ)
    (h1 : ∀ v < N, e * m.gaussInElem + vm v < m.nodesInElem.size)
    (h2 : ∀ v < N, m.nodesInElem.val (e * m.gaussInElem + vm v) < m.coords.size) (h3 : lid < grad.size)
    (J : ℕ → ℕ → ℝ) :
    ∃ J', fillJ m N vm grad e lid J = some J' ∧ ∀ i < 3, ∀ j < 3, J' i j =
      ∑ v ∈ range N, grad.val lid v j * m.coords.val (m.nodesInElem.val (e * m.gaussInElem + vm v)) i := by
  obtain ⟨s, e1, e2⟩ := loopM2_spec (n := 3) (w := 3) (body := fun i j J =>
    loopM N (fun v J => do
      let node ← m.nodesInElem.get (e * m.gaussInElem + vm v)
      let g ← grad.get lid
      let x ← m.coords.get node
      pure (store2 J i j (J i j + g v j * x i))) (store2 J i j 0)) (s := J)
    (fun t s => ∀ i < 3, ∀ j < 3, 3 * i + j < t → s i j =
      ∑ v ∈ range N, grad.val lid v j * m.coords.val (m.nodesInElem.val (e * m.gaussInElem + vm v)) i)
    (by intro i _ j _ h; omega)
    (by
      intro i j s hi hj hI
      refine ⟨_, vertLoop_spec m N vm grad e lid i j h1 h2 h3 s, ?_⟩
      intro i' hi' j' hj' ht
      by_cases h : i' = i ∧ j' = j
      · obtain ⟨rfl, rfl⟩ := h; simp [store2]
      · simp only [store2, if_neg h]
        exact hI i' hi' j' hj' (by omega))
  exact ⟨s, e1, fun i hi j hj => e2 i hi j hj (by omega)⟩

/-- What one point of the Jacobian arrays must contain: `S i j` is the matrix. -/
structure PointOK (S : ℕ → ℕ → ℝ) (s : Jac) (gid : ℕ) : Prop where
  entries : ∀ i < 3, ∀ j < 3, s.jac.val gid i j = S i j
  det : s.det.val gid = det (s.jac.val gid)
  inv : ∃ I, s.inv.val gid = Jacobian.matInverse I (s.jac.val gid)

theorem PointOK.frame {S : ℕ → ℕ → ℝ} {s s' : Jac} {g g' : ℕ} (h : PointOK S s g) (hne : g ≠ g')
    (h1 : ∃ a, s'.jac.val = store s.jac.val g' a) (h2 : ∃ a, s'.inv.val = store s.inv.val g' a)
    (h3 : ∃ a, s'.det.val = store s.det.val g' a) : PointOK S s' g := by
  obtain ⟨a, h1⟩ := h1
  obtain ⟨b, h2⟩ := h2
  obtain ⟨c, h3⟩ := h3
  constructor
  · intro i hi j hj; rw [h1, store_ne _ _ hne]; exact h.entries i hi j hj
  · rw [h3, h1, store_ne _ _ hne, store_ne _ _ hne]; exact h.det
  · rw [h2, h1, store_ne _ _ hne, store_ne _ _ hne]; exact h.inv

/-- Sizes of the three arrays. -/
def Jac.Sized (s : Jac) (n : ℕ) : Prop := s.jac.size = n ∧ s.inv.size = n ∧ s.det.size = n

/-- The matrix the loops compute. -/
noncomputable def jsum (m : Mesh) (N : ℕ) (vm : ℕ → ℕ) (grad : Arr (ℕ → ℕ → ℝ)) (e lid i j : ℕ) : ℝ :=
  ∑ v ∈ range N, grad.val lid v j * m.coords.val (m.nodesInElem.val (e * m.gaussInElem + vm v)) i

theorem pointJ_spec (m : Mesh) (N : ℕ) (vm : ℕ → ℕ) (grad : Arr (ℕ → ℕ → ℝ)) (e lid gid size : ℕ)
    (h1 : ∀ v < N, e * m.gaussInElem + vm v < m.nodesInElem.size)
    (h2 : ∀ v < N, m.nodesInElem.val (e * m.gaussInElem + vm v) < m.coords.size) (h3 : lid < grad.size)
    (s : Jac) (hs : s.Sized size) (hg : gid < size) :
    ∃ s', pointJ m N vm grad e lid gid s = some s' ∧ s'.Sized size ∧ PointOK (jsum m N vm grad e lid) s' gid ∧
      (∃ a, s'.jac.val = store s.jac.val gid a) ∧ (∃ a, s'.inv.val = store s.inv.val gid a) ∧
      (∃ a, s'.det.val = store s.det.val gid a) := by
  obtain ⟨s1, s2, s3⟩ := hs
  obtain ⟨J', e1, e2⟩ := fillJ_spec m N vm grad e lid h1 h2 h3 (s.jac.val gid)
  refine ⟨⟨⟨s.jac.size, store s.jac.val gid J'⟩, ⟨s.inv.size, store s.inv.val gid (Jacobian.matInverse (s.inv.val gid) J')⟩,
    ⟨s.det.size, store s.det.val gid (det J')⟩⟩, ?_, ⟨s1, s2, s3⟩, ?_, ⟨_, rfl⟩, ⟨_, rfl⟩, ⟨_, rfl⟩⟩
  · unfold pointJ
    simp only [Option.bind_eq_bind]
    rw [Arr.get_lt (by omega), Option.bind_some, e1, Option.bind_some, Arr.set_lt _ (by omega), Option.bind_some,
      Arr.set_lt _ (by omega), Option.bind_some, Arr.get_lt (by omega), Option.bind_some, Arr.set_lt _ (by omega),
      Option.bind_some]
    rfl
  · constructor
    · intro i hi j hj; simp only [store_same]; exact e2 i hi j hj
    · simp only [store_same]
    · exact ⟨s.inv.val gid, by simp only [store_same]⟩

theorem jacLoop_spec (m : Mesh) (N : ℕ) (vm : ℕ → ℕ) (grad : Arr (ℕ → ℕ → ℝ)) (M size : ℕ) (gid : ℕ → ℕ → ℕ)
    (hgid : ∀ e l, e < m.elems → l < M → gid e l < size)
    (hinj : ∀ e l e' l', e < m.elems → l < M → e' < m.elems → l' < M → gid e l = gid e' l' → e = e' ∧ l = l')
    (h1 : ∀ e < m.elems, ∀ v < N, e * m.gaussInElem + vm v < m.nodesInElem.size)
    (h2 : ∀ e < m.elems, ∀ v < N, m.nodesInElem.val (e * m.gaussInElem + vm v) < m.coords.size)
    (h3 : M ≤ grad.size) (s : Jac) (hs : s.Sized size) :
    ∃ s', loopM m.elems (fun e => loopM M fun l => pointJ m N vm grad e l (gid e l)) s = some s' ∧ s'.Sized size ∧
      ∀ e < m.elems, ∀ l < M, PointOK (jsum m N vm grad e l) s' (gid e l) := by
  have lt2 : ∀ {e l e' l' : ℕ}, l < M → l' < M → M * e + l < M * e' + l' + 1 → ¬ (e = e' ∧ l = l') → M * e + l < M * e' + l' := by
    intro e l e' l' hl hl' h hne
    rcases Nat.lt_or_ge (M * e + l) (M * e' + l') with a | a
    · exact a
    · exfalso
      apply hne
      have h' : M * e + l = M * e' + l' := by omega
      have hM : 0 < M := by omega
      have a1 : (M * e + l) / M = e := by rw [Nat.mul_add_div hM, Nat.div_eq_of_lt hl, add_zero]
      have a2 : (M * e' + l') / M = e' := by rw [Nat.mul_add_div hM, Nat.div_eq_of_lt hl', add_zero]
      have : e = e' := by rw [← a1, ← a2, h']
      subst this
      exact ⟨rfl, by omega⟩
  obtain ⟨s', e1, e2⟩ := loopM2_spec (n := m.elems) (w := M) (body := fun e l => pointJ m N vm grad e l (gid e l)) (s := s)
    (fun t s => s.Sized size ∧ ∀ e < m.elems, ∀ l < M, M * e + l < t → PointOK (jsum m N vm grad e l) s (gid e l))
    ⟨hs, by intro e _ l _ h; omega⟩
    (by
      rintro e l s he hl ⟨hS, hI⟩
      obtain ⟨s', p1, p2, p3, p4, p5, p6⟩ := pointJ_spec m N vm grad e l (gid e l) size (h1 e he) (h2 e he) (by omega) s hS
        (hgid e l he hl)
      refine ⟨s', p1, p2, ?_⟩
      intro e' he' l' hl' ht
      by_cases h : e' = e ∧ l' = l
      · obtain ⟨rfl, rfl⟩ := h; exact p3
      · refine (hI e' he' l' hl' (lt2 hl' hl ht h)).frame ?_ p4 p5 p6
        intro hg
        exact h (hinj e' l' e l he' hl' he hl hg))
  refine ⟨s', e1, e2.1, fun e he l hl => e2.2 e he l hl ?_⟩
  calc M * e + l < M * e + M := by omega
    _ = M * (e + 1) := by ring
    _ ≤ M * m.elems := Nat.mul_le_mul_left _ he

end Verif.Geometry
