import Verif.MeshBox.FaceLemmas

/-!
# Invariant of the face loop
-/

namespace Verif.MeshBox
open Finset

/-- Unit step in direction `d`. -/
def dl (d a : ℕ) : ℕ := if a = d then 1 else 0

/-- Offset of point `l` of a face with normal `d`: the corners are taken in the order that turns around the normal. -/
def fOff (d l a : ℕ) : ℕ :=
  if a = (d + 1) % 3 ∧ (l = 1 ∨ l = 2) ∨ a = (d + 2) % 3 ∧ (l = 2 ∨ l = 3) then 1 else 0

/-- Entries of a finished face. -/
structure FaceDone (b : Box) (F : Faces) (d i j k : ℕ) : Prop where
  points : ∀ l < 4, F.points.val (fid b d i j k * 4 + l) = nid (i + fOff d l 0) (j + fOff d l 1) (k + fOff d l 2) b.pi b.pj
  next : F.cell.val (fid b d i j k * 2 + 1) = getId i j k b.ci b.cj
  prev : F.cell.val (fid b d i j k * 2) = getId ((i : ℤ) - dl d 0) ((j : ℤ) - dl d 1) ((k : ℤ) - dl d 2) b.ci b.cj

/-- The invariant at position `s`. -/
structure Inv (b : Box) (s : ℕ) (F : Faces) : Prop where
  psize : F.points.size = b.faces * 4
  csize : F.cell.size = b.faces * 2
  osize : F.ofCell.size = b.cells * 6
  id : F.id = Nat.count (P b) s
  done : ∀ d i j k, IsFace b d i j k → pos b d i j k < s → FaceDone b F d i j k
  low : ∀ d < 3, ∀ i < b.ci, ∀ j < b.cj, ∀ k < b.ck, pos b d i j k < s →
    F.ofCell.val (nid i j k b.ci b.cj * 6 + d) = fid b d i j k
  up : ∀ d < 3, ∀ i < b.ci, ∀ j < b.cj, ∀ k < b.ck, pos b d (i + dl d 0) (j + dl d 1) (k + dl d 2) < s →
    F.ofCell.val (nid i j k b.ci b.cj * 6 + (d + 3)) = fid b d (i + dl d 0) (j + dl d 1) (k + dl d 2)

theorem isFace_low {b : Box} {d i j k : ℕ} (hd : d < 3) (hi : i < b.ci) (hj : j < b.cj) (hk : k < b.ck) : IsFace b d i j k := by
  unfold IsFace Box.pi Box.pj Box.pk; omega

theorem isFace_up {b : Box} {d i j k : ℕ} (hd : d < 3) (hi : i < b.ci) (hj : j < b.cj) (hk : k < b.ck) :
    IsFace b d (i + dl d 0) (j + dl d 1) (k + dl d 2) := by
  have e0 : d ≠ 0 → dl d 0 = 0 := fun h => if_neg (Ne.symm h)
  have e1 : d ≠ 1 → dl d 1 = 0 := fun h => if_neg (Ne.symm h)
  have e2 : d ≠ 2 → dl d 2 = 0 := fun h => if_neg (Ne.symm h)
  have l0 : dl d 0 ≤ 1 := by unfold dl; split <;> omega
  have l1 : dl d 1 ≤ 1 := by unfold dl; split <;> omega
  have l2 : dl d 2 ≤ 1 := by unfold dl; split <;> omega
  unfold IsFace Box.pi Box.pj Box.pk
  refine ⟨hd, by omega, by omega, by omega, fun h => ?_, fun h => ?_, fun h => ?_⟩
  · rw [e0 h]; omega
  · rw [e1 h]; omega
  · rw [e2 h]; omega

/-- Skipping a position that is not a face. -/
theorem Inv.skip {b : Box} {s : ℕ} {F : Faces} (h : Inv b s F) (hs : ¬ P b s) : Inv b (s + 1) F := by
  have key : ∀ {d i j k}, IsFace b d i j k → pos b d i j k < s + 1 → pos b d i j k < s := by
    intro d i j k hf hlt
    have : pos b d i j k ≠ s := fun e => hs (e ▸ P_face hf)
    omega
  refine ⟨h.psize, h.csize, h.osize, ?_, ?_, ?_, ?_⟩
  · rw [h.id, Nat.count_succ, if_neg hs, add_zero]
  · exact fun d i j k hf hlt => h.done d i j k hf (key hf hlt)
  · exact fun d hd i hi j hj k hk hlt => h.low d hd i hi j hj k hk (key (isFace_low hd hi hj hk) hlt)
  · exact fun d hd i hi j hj k hk hlt => h.up d hd i hi j hj k hk (key (isFace_up hd hi hj hk) hlt)

/-- One block. -/
theorem Inv.block {b : Box} {F : Faces} {d i j k : ℕ} (h : Inv b (pos b d i j k) F) (hf : IsFace b d i j k)
    {p : ℕ → ℤ} (hp : ∀ l < 4, p l = nid (i + fOff d l 0) (j + fOff d l 1) (k + fOff d l 2) b.pi b.pj) {x n : ℕ}
    (hx : x = if d = 0 then i else if d = 1 then j else k) (hn : n = if d = 0 then b.ci else if d = 1 then b.cj else b.ck)
    {c2 : ℤ} (hc2 : c2 = getId ((i : ℤ) - dl d 0) ((j : ℤ) - dl d 1) ((k : ℤ) - dl d 2) b.ci b.cj) :
    ∃ F', faceBlock (p 0) (p 1) (p 2) (p 3) x n (getId i j k b.ci b.cj) c2 d F = some F' ∧ Inv b (pos b d i j k + 1) F' := by
  have hd := hf.1
  have hid : F.id = fid b d i j k := h.id
  have ff : faceFace d = d + 3 := by interval_cases d <;> rfl
  have hin : x < n → i < b.ci ∧ j < b.cj ∧ k < b.ck := by
    obtain ⟨-, -, -, -, f0, f1, f2⟩ := hf
    rw [hx, hn]
    interval_cases d <;> simp at * <;> omega
  -- the cell before
  have hbk : 1 ≤ x → x ≤ n → ∃ i' j' k', i' < b.ci ∧ j' < b.cj ∧ k' < b.ck ∧ i = i' + dl d 0 ∧ j = j' + dl d 1 ∧ k = k' + dl d 2 ∧
      c2 = nid i' j' k' b.ci b.cj := by
    obtain ⟨-, -, -, -, f0, f1, f2⟩ := hf
    intro h1 h2
    rw [hx] at h1; rw [hn, hx] at h2
    have e : ∀ {a b c a' b' c' : ℤ}, a = a' → b = b' → c = c' → getId a b c = getId a' b' c' := by rintro _ _ _ _ _ _ rfl rfl rfl; rfl
    interval_cases d
    · simp at h1 h2 f0 f1 f2
      refine ⟨i - 1, j, k, by omega, f1, f2, by simp [dl]; omega, by simp [dl], by simp [dl], ?_⟩
      rw [hc2, ← getId_nat]
      exact congrFun (congrFun (e (by simp [dl]; omega) (by simp [dl]) (by simp [dl])) _) _
    · simp at h1 h2 f0 f1 f2
      refine ⟨i, j - 1, k, by omega, by omega, f2, by simp [dl], by simp [dl]; omega, by simp [dl], ?_⟩
      rw [hc2, ← getId_nat]
      exact congrFun (congrFun (e (by simp [dl]) (by simp [dl]; omega) (by simp [dl])) _) _
    · simp at h1 h2 f0 f1 f2
      refine ⟨i, j, k - 1, by omega, by omega, by omega, by simp [dl], by simp [dl], by simp [dl]; omega, ?_⟩
      rw [hc2, ← getId_nat]
      exact congrFun (congrFun (e (by simp [dl]) (by simp [dl]) (by simp [dl]; omega)) _) _
  obtain ⟨F', r1, r2, r3, r4, r5, r6, r7, r8, r9, r10, r11⟩ := faceBlock_spec (p := p) (x := x) (n := n)
    (c := getId i j k b.ci b.cj) (c2 := c2) (f := d) (s := F) (N := b.faces) (by rw [hid]; exact fid_lt hf) h.psize h.csize
    (fun hlt => by
      obtain ⟨a1, a2, a3⟩ := hin hlt
      have : nid i j k b.ci b.cj < b.cells := nid_lt a1 a2 a3
      rw [getId_nat, h.osize]
      exact ⟨by omega, by push_cast; omega⟩)
    (fun h1 h2 => by
      obtain ⟨i', j', k', a1, a2, a3, -, -, -, e⟩ := hbk h1 h2
      have : nid i' j' k' b.ci b.cj < b.cells := nid_lt a1 a2 a3
      rw [e, h.osize, ff]
      exact ⟨by omega, by push_cast; omega⟩)
  have hcnt : Nat.count (P b) (pos b d i j k + 1) = fid b d i j k + 1 := by
    rw [Nat.count_succ, if_pos (P_face hf)]; rfl
  refine ⟨F', r1, r2, r3, by rw [r4, h.osize], by rw [r5, hid, hcnt], ?_, ?_, ?_⟩
  · intro d' i' j' k' hf' hlt
    by_cases he : pos b d' i' j' k' = pos b d i j k
    · obtain ⟨rfl, rfl, rfl, rfl⟩ := pos_inj hf'.1 hf.1 hf'.2.1 hf'.2.2.1 hf.2.1 hf.2.2.1 he
      rw [hid] at r6 r8 r9
      exact ⟨fun l hl => by rw [r6 l hl, hp l hl], r8, by rw [r9, hc2]⟩
    · have D := h.done d' i' j' k' hf' (by omega)
      have hne : fid b d' i' j' k' ≠ F.id := by
        rw [hid]; intro e
        obtain ⟨rfl, rfl, rfl, rfl⟩ := fid_inj hf' hf e
        exact he rfl
      refine ⟨fun l hl => ?_, ?_, ?_⟩
      · rw [r7 _ (by omega)]; exact D.points l hl
      · rw [r10 _ (by omega)]; exact D.next
      · rw [r10 _ (by omega)]; exact D.prev
  · intro d' hd' i' hi' j' hj' k' hk' hlt
    rw [r11]
    rw [if_neg]
    · by_cases he : pos b d' i' j' k' = pos b d i j k
      · have hf' := isFace_low hd' hi' hj' hk'
        obtain ⟨rfl, rfl, rfl, rfl⟩ := pos_inj hf'.1 hf.1 hf'.2.1 hf'.2.2.1 hf.2.1 hf.2.2.1 he
        rw [if_pos, hid]
        refine ⟨?_, by rw [getId_nat]; push_cast; ring⟩
        rw [hx, hn]; split
        · exact hi'
        · split
          · exact hj'
          · exact hk'
      · rw [if_neg]
        · exact h.low d' hd' i' hi' j' hj' k' hk' (by omega)
        · rintro ⟨h1, h2⟩
          obtain ⟨a1, a2, a3⟩ := hin h1
          rw [getId_nat] at h2
          obtain ⟨rfl, rfl, rfl⟩ := nid_inj hi' hj' a1 a2 (show nid i' j' k' b.ci b.cj = nid i j k b.ci b.cj by omega)
          exact he (by congr 1; omega)
    · rintro ⟨⟨h1, h2⟩, h3⟩
      obtain ⟨i', j', k', a1, a2, a3, -, -, -, e⟩ := hbk h1 h2
      rw [e, ff] at h3
      omega
  · intro d' hd' i' hi' j' hj' k' hk' hlt
    have hf' := isFace_up hd' hi' hj' hk'
    rw [r11]
    by_cases he : pos b d' (i' + dl d' 0) (j' + dl d' 1) (k' + dl d' 2) = pos b d i j k
    · obtain ⟨e1, e2, e3, e4⟩ := pos_inj hf'.1 hf.1 hf'.2.1 hf'.2.2.1 hf.2.1 hf.2.2.1 he
      subst e1
      have hx1 : 1 ≤ x ∧ x ≤ n := by
        rw [hx, hn]
        interval_cases d' <;> simp [dl] at * <;> omega
      rw [if_pos, hid, e2, e3, e4]
      refine ⟨hx1, ?_⟩
      obtain ⟨i'', j'', k'', -, -, -, b1, b2, b3, e⟩ := hbk hx1.1 hx1.2
      rw [e, ff]
      have q1 : i' = i'' := by omega
      have q2 : j' = j'' := by omega
      have q3 : k' = k'' := by omega
      subst q1; subst q2; subst q3
      push_cast; ring
    · rw [if_neg, if_neg]
      · exact h.up d' hd' i' hi' j' hj' k' hk' (by omega)
      · rintro ⟨h1, h2⟩
        rw [getId_nat] at h2
        omega
      · rintro ⟨⟨h1, h2⟩, h3⟩
        obtain ⟨i'', j'', k'', a1, a2, a3, b1, b2, b3, e⟩ := hbk h1 h2
        rw [e, ff] at h3
        obtain ⟨rfl, rfl, rfl⟩ := nid_inj hi' hj' a1 a2 (show nid i' j' k' b.ci b.cj = nid i'' j'' k'' b.ci b.cj by omega)
        have : d' = d := by omega
        subst this
        exact he (by rw [b1, b2, b3])

/-- The three blocks of a node. -/
theorem node_spec {b : Box} {F : Faces} {i j k : ℕ} (hi : i < b.pi) (hj : j < b.pj) (hk : k < b.pk)
    (h : Inv b (3 * nid i j k b.pi b.pj) F) :
    ∃ F', ((faceI b i j k F).bind fun s => (faceJ b i j k s).bind fun s => faceK b i j k s) = some F' ∧
      Inv b (3 * (nid i j k b.pi b.pj + 1)) F' := by
  have A : ∀ F, Inv b (pos b 0 i j k) F → ∃ F', faceI b i j k F = some F' ∧ Inv b (pos b 0 i j k + 1) F' := by
    intro F h0
    unfold faceI
    split
    · rename_i hc
      have hf : IsFace b 0 i j k := by unfold Box.pi Box.pj Box.pk at *; unfold IsFace Box.pi Box.pj Box.pk; omega
      obtain ⟨F', e1, e2⟩ := h0.block hf (p := fun l => nid (i + fOff 0 l 0) (j + fOff 0 l 1) (k + fOff 0 l 2) b.pi b.pj)
        (fun _ _ => rfl) rfl rfl (c2 := getId ((i : ℤ) - 1) j k b.ci b.cj) (by simp [dl])
      refine ⟨F', ?_, e2⟩
      rw [← e1]
      simp only [← getId_nat]
      simp [fOff]
    · rename_i hc
      refine ⟨F, rfl, h0.skip ?_⟩
      rw [P_pos (by omega) hi hj]
      unfold IsFace; unfold Box.pi Box.pj Box.pk at *; omega
  have B : ∀ F, Inv b (pos b 1 i j k) F → ∃ F', faceJ b i j k F = some F' ∧ Inv b (pos b 1 i j k + 1) F' := by
    intro F h0
    unfold faceJ
    split
    · rename_i hc
      have hf : IsFace b 1 i j k := by unfold Box.pi Box.pj Box.pk at *; unfold IsFace Box.pi Box.pj Box.pk; omega
      obtain ⟨F', e1, e2⟩ := h0.block hf (p := fun l => nid (i + fOff 1 l 0) (j + fOff 1 l 1) (k + fOff 1 l 2) b.pi b.pj)
        (fun _ _ => rfl) rfl rfl (c2 := getId i ((j : ℤ) - 1) k b.ci b.cj) (by simp [dl])
      refine ⟨F', ?_, e2⟩
      rw [← e1]
      simp only [← getId_nat]
      simp [fOff]
    · rename_i hc
      refine ⟨F, rfl, h0.skip ?_⟩
      rw [P_pos (by omega) hi hj]
      unfold IsFace; unfold Box.pi Box.pj Box.pk at *; omega
  have C : ∀ F, Inv b (pos b 2 i j k) F → ∃ F', faceK b i j k F = some F' ∧ Inv b (pos b 2 i j k + 1) F' := by
    intro F h0
    unfold faceK
    split
    · rename_i hc
      have hf : IsFace b 2 i j k := by unfold Box.pi Box.pj Box.pk at *; unfold IsFace Box.pi Box.pj Box.pk; omega
      obtain ⟨F', e1, e2⟩ := h0.block hf (p := fun l => nid (i + fOff 2 l 0) (j + fOff 2 l 1) (k + fOff 2 l 2) b.pi b.pj)
        (fun _ _ => rfl) rfl rfl (c2 := getId i j ((k : ℤ) - 1) b.ci b.cj) (by simp [dl])
      refine ⟨F', ?_, e2⟩
      rw [← e1]
      simp only [← getId_nat]
      simp [fOff]
    · rename_i hc
      refine ⟨F, rfl, h0.skip ?_⟩
      rw [P_pos (by omega) hi hj]
      unfold IsFace; unfold Box.pi Box.pj Box.pk at *; omega
  obtain ⟨F1, a1, a2⟩ := A F h
  obtain ⟨F2, b1, b2⟩ := B F1 a2
  obtain ⟨F3, c1, c2⟩ := C F2 b2
  exact ⟨F3, by rw [a1, Option.bind_some, b1, Option.bind_some, c1], c2⟩

theorem faceLoop_spec (b : Box) (F : Faces) (h1 : F.points.size = b.faces * 4) (h2 : F.cell.size = b.faces * 2)
    (h3 : F.ofCell.size = b.cells * 6) (h4 : F.id = 0) :
    ∃ F', faceLoop b F = some F' ∧ Inv b (3 * b.points) F' := by
  unfold faceLoop loop3
  simp only [Option.bind_eq_bind]
  exact loopM3_spec (s := F) (nk := b.pk) (nj := b.pj) (ni := b.pi)
    (body := fun k j i F => ((faceI b i j k F).bind fun s => (faceJ b i j k s).bind fun s => faceK b i j k s))
    (fun t F => Inv b (3 * t) F)
    ⟨h1, h2, h3, by rw [h4]; rfl, by intro d i j k _ h; omega, by intro d _ i _ j _ k _ h; omega,
      by intro d _ i _ j _ k _ h; omega⟩
    (fun k j i F hk hj hi h => node_spec hi hj hk h)

end Verif.MeshBox
